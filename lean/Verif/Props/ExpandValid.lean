import Verif.Spec.Sample
import Verif.Props.Full
import Verif.Props.Validation
import Verif.Spec.Named
import Mathlib.Tactic.IntervalCases

/-!
# C57: expansion and validity
-/

namespace Svd

open Spec

/-! ## Where the parts of an expanded device come from -/

/-- A field differs from the field it comes from in its name, description and position only. -/
theorem fieldExpanded_like {f : Field} {l : List Field} (h : FieldExpanded f l) :
    ∀ g ∈ l, ∃ n s b, b.width = f.info.bitRange.width ∧
      g.info = { f.info with name := n, description := s, bitRange := b } ∧
      (NameFits f.info.name f.dim? → Ident n) := by
  intro g hg
  cases h with
  | @single i =>
    rw [List.mem_singleton] at hg; subst hg
    exact ⟨_, _, _, rfl, rfl, fun h => h⟩
  | @array i d l h =>
    obtain ⟨j, hj, rfl⟩ := List.mem_map.mp hg
    obtain ⟨k, hk, idx, h1, h2, _, _, h3, _, h4⟩ := instances_mem h hj
    exact ⟨_, _, _, h3, h4, fun h => h.2 k idx _ hk h1 h2⟩

theorem fieldsExpanded_like {o o' : Option (List Field)} (h : FieldsExpanded o o') {l : List Field}
    (hl : o' = some l) : ∃ fs, o = some fs ∧ ∀ g ∈ l, ∃ f ∈ fs, ∃ n s b,
      b.width = f.info.bitRange.width ∧
      g.info = { f.info with name := n, description := s, bitRange := b } ∧
      (NameFits f.info.name f.dim? → Ident n) := by
  cases h with
  | none => cases hl
  | @some fs ls h =>
    injection hl with hl; subst hl
    refine ⟨fs, rfl, fun g hg => ?_⟩
    obtain ⟨l, hl, hg⟩ := List.mem_flatten.mp hg
    obtain ⟨f, hf, h⟩ := pairs_right h l hl
    exact ⟨f, hf, fieldExpanded_like h g hg⟩

/-- An expanded register differs from the register it comes from in names, description, position and
fields only. -/
def RegisterLike (r r' : RegisterInfo) : Prop :=
  ∃ n dn s off fs, FieldsExpanded r.fields fs ∧
    r' = { r with name := n, displayName := dn, description := s, addressOffset := off, fields := fs }

theorem registerExpanded_like {r : Register} {l : List RegisterInfo} (h : RegisterExpanded r l) :
    ∀ r' ∈ l, RegisterLike r.info r' ∧ (NameFits r.info.name r.dim? → Ident r'.name) := by
  intro r' hr
  cases h with
  | single h =>
    rw [List.mem_singleton] at hr; subst hr
    exact ⟨⟨_, _, _, _, _, h, rfl⟩, fun h => h⟩
  | @array i d fs l h hi =>
    obtain ⟨k, hk, idx, h1, h2, _, _, _, h4⟩ := instances_mem hi hr
    exact ⟨⟨_, _, _, _, _, h, h4⟩, fun h => h.2 k idx _ hk h1 h2⟩

theorem placed_like {n : Str} {off : Nat} {r r' r0 : RegisterInfo} (h : RegisterLike r0 r)
    (hp : Placed n off r r') : RegisterLike r0 r' := by
  obtain ⟨a, b, c, e, fs, hf, rfl⟩ := h
  exact ⟨_, _, _, _, _, hf, hp.2.2⟩

theorem ident_join {a b : Str} (ha : Ident a) (hb : Ident b) : Ident (a ++ "_".toList ++ b) := by
  obtain ⟨c, r, rfl, h1, h2⟩ := ha
  obtain ⟨c', r', rfl, h3, h4⟩ := hb
  refine ⟨c, r ++ "_".toList ++ (c' :: r'), by simp, h1, fun x hx => ?_⟩
  simp only [List.mem_append, List.mem_cons] at hx
  rcases hx with (hx | hx) | rfl | hx
  · exact h2 x hx
  · have : x = '_' := by simpa using hx
    subst this
    exact .inl (show '_' ∈ _ by decide)
  · exact .inl h3
  · exact h4 x hx

mutual
theorem rcExpanded_like : ∀ (c : RegisterCluster) {l : List RegisterInfo}, RcExpanded c l →
    ∀ r' ∈ l, ∃ r : Register, InTree [c] (.register r) ∧ RegisterLike r.info r' ∧ (RcNamesFit c → Ident r'.name)
  | .register r, l, h => by
    intro r' hr
    cases h with
    | register h =>
      obtain ⟨h1, h2⟩ := registerExpanded_like h r' hr
      refine ⟨r, .here (by simp), h1, fun hn => ?_⟩
      unfold RcNamesFit at hn
      exact h2 hn.1
  | .cluster hd d cs, l, h => by
    intro r' hr
    cases h with
    | cluster h h' =>
      obtain ⟨r1, hr1, hp⟩ := pairs_right h' r' hr
      obtain ⟨r, h1, h2, h3⟩ := rcsExpanded_like cs h r1 hr1
      refine ⟨r, .inside (List.mem_singleton.mpr rfl) h1, placed_like h2 hp, fun hn => ?_⟩
      unfold RcNamesFit at hn
      rw [hp.1]
      exact ident_join hn.1 (h3 hn.2)
    | clusters h h' =>
      obtain ⟨l1, hl1, hr⟩ := List.mem_flatten.mp hr
      obtain ⟨k, hk, name, off, ⟨⟨idx, hi, hn'⟩, _⟩, hps⟩ := instances_mem h' hl1
      obtain ⟨r1, hr1, hp⟩ := pairs_right hps r' hr
      obtain ⟨r, h1, h2, h3⟩ := rcsExpanded_like cs h r1 hr1
      refine ⟨r, .inside (List.mem_singleton.mpr rfl) h1, placed_like h2 hp, fun hn => ?_⟩
      unfold RcNamesFit at hn
      rw [hp.1]
      exact ident_join (hn.1.2 k idx _ hk hi hn') (h3 hn.2)
theorem rcsExpanded_like : ∀ (cs : List RegisterCluster) {l : List RegisterInfo}, RcsExpanded cs l →
    ∀ r' ∈ l, ∃ r : Register, InTree cs (.register r) ∧ RegisterLike r.info r' ∧ (RcsNamesFit cs → Ident r'.name)
  | [], l, h => by
    intro r' hr
    cases h
    cases hr
  | c :: cs, l, h => by
    intro r' hr
    cases h with
    | cons h h' =>
      rcases List.mem_append.mp hr with hr | hr
      · obtain ⟨r, h1, h2, h3⟩ := rcExpanded_like c h r' hr
        refine ⟨r, ?_, h2, fun hn => ?_⟩
        · cases h1 with
          | here h1 => exact .here (by simp_all)
          | inside h1 h4 => exact .inside (by rw [List.mem_singleton] at h1; rw [h1]; simp) h4
        · unfold RcsNamesFit at hn; exact h3 hn.1
      · obtain ⟨r, h1, h2, h3⟩ := rcsExpanded_like cs h' r' hr
        refine ⟨r, ?_, h2, fun hn => ?_⟩
        · cases h1 with
          | here h1 => exact .here (by simp [h1])
          | inside h1 h4 => exact .inside (List.mem_cons_of_mem _ h1) h4
        · unfold RcsNamesFit at hn; exact h3 hn.2
end

theorem inTree_flat {l : List RegisterInfo} {n : RegisterCluster}
    (h : InTree (l.map fun r => .register (.single r)) n) : ∃ r ∈ l, n = .register (.single r) := by
  cases h with
  | here h => obtain ⟨r, hr, rfl⟩ := List.mem_map.mp h; exact ⟨r, hr, rfl⟩
  | inside h _ => obtain ⟨r, _, h⟩ := List.mem_map.mp h; cases h

/-- An expanded peripheral differs from the peripheral it comes from in names, description, position and
registers only. -/
def PeripheralLike (p p' : PeripheralInfo) : Prop :=
  ∃ n dn s b rs, RegistersExpanded p.registers rs ∧
    p' = { p with name := n, displayName := dn, description := s, baseAddress := b, registers := rs }

theorem peripheralExpanded_like {p : Peripheral} {l : List Peripheral} (h : PeripheralExpanded p l) :
    ∀ p' ∈ l, PeripheralLike p.info p'.info ∧ (NameFits p.info.name p.dim? → Ident p'.info.name) := by
  intro p' hp
  cases h with
  | single h =>
    rw [List.mem_singleton] at hp; subst hp
    exact ⟨⟨_, _, _, _, _, h, rfl⟩, fun h => h⟩
  | @array i d rs l h hi =>
    obtain ⟨j, hj, rfl⟩ := List.mem_map.mp hp
    obtain ⟨k, hk, idx, h1, h2, _, _, _, h4⟩ := instances_mem hi hj
    exact ⟨⟨_, _, _, _, _, h, h4⟩, fun h => h.2 k idx _ hk h1 h2⟩

/-! ## Nothing gets empty if the arrays are not -/

theorem pairs_flatten_ne {α β : Type} {R : α → List β → Prop} {l : List α} {ls : List (List β)}
    (h : Pairs R l ls) (hl : l ≠ []) (hne : ∀ a b, a ∈ l → R a b → b ≠ []) : ls.flatten ≠ [] := by
  cases h with
  | nil => exact absurd rfl hl
  | cons h1 h2 =>
    intro he
    have := hne _ _ (by simp) h1
    rw [List.flatten_cons, List.append_eq_nil_iff] at he
    exact this he.1

theorem pairs_ne {α β : Type} {R : α → β → Prop} {l : List α} {ls : List β}
    (h : Pairs R l ls) (hl : l ≠ []) : ls ≠ [] := by
  cases h with
  | nil => exact absurd rfl hl
  | cons => simp

theorem instances_ne {α : Type} {P : Nat → α → Prop} {d : DimElement} {l : List α}
    (h : Instances P d l) (hd : 1 ≤ d.dim.toNat) : l ≠ [] := by
  intro he
  rw [he] at h
  have := h.1
  simp at this
  omega

theorem fieldsExpanded_ne {o o' : Option (List Field)} (h : FieldsExpanded o o') (ho : o ≠ some [])
    (hn : ∀ l, o = some l → ∀ f ∈ l, FieldNamesFit f) : o' ≠ some [] := by
  cases h with
  | none => simp
  | @some fs ls h =>
    have : ls.flatten ≠ [] := by
      refine pairs_flatten_ne h (by simpa using ho) fun f l hf h => ?_
      have := hn fs rfl f hf
      cases h with
      | single => simp
      | array h => exact fun he => instances_ne h this.1 (List.map_eq_nil_iff.mp he)
    simpa using this

theorem registerExpanded_ne {r : Register} {l : List RegisterInfo} (h : RegisterExpanded r l)
    (hn : NameFits r.info.name r.dim?) : l ≠ [] := by
  cases h with
  | single => simp
  | array _ h => exact instances_ne h hn.1

mutual
theorem rcExpanded_ne : ∀ (c : RegisterCluster) {l : List RegisterInfo}, RcExpanded c l → RcNamesFit c →
    (∀ h d cs, InTree [c] (.cluster h d cs) → cs ≠ []) → l ≠ []
  | .register r, _, h, hn, _ => by
    unfold RcNamesFit at hn
    cases h with
    | register h => exact registerExpanded_ne h hn.1
  | .cluster hd d cs, _, h, hn, hc => by
    unfold RcNamesFit at hn
    have hcs : cs ≠ [] := hc hd d cs (.here (by simp))
    have hsub : ∀ h d' cs', InTree cs (.cluster h d' cs') → cs' ≠ [] :=
      fun h d' cs' ht => hc h d' cs' (.inside (List.mem_singleton.mpr rfl) ht)
    cases h with
    | cluster h h' => exact pairs_ne h' (rcsExpanded_ne cs h hn.2 hsub hcs)
    | clusters h h' =>
      have hl := rcsExpanded_ne cs h hn.2 hsub hcs
      have := instances_ne h' hn.1.1
      intro he
      obtain ⟨a, ha⟩ := List.exists_mem_of_ne_nil _ this
      obtain ⟨k, _, _, _, _, hp⟩ := instances_mem h' ha
      exact pairs_ne hp hl (List.flatten_eq_nil_iff.mp he a ha)
theorem rcsExpanded_ne : ∀ (cs : List RegisterCluster) {l : List RegisterInfo}, RcsExpanded cs l →
    RcsNamesFit cs → (∀ h d cs', InTree cs (.cluster h d cs') → cs' ≠ []) → cs ≠ [] → l ≠ []
  | [], _, _, _, _, hne => absurd rfl hne
  | c :: cs, _, h, hn, hc, _ => by
    unfold RcsNamesFit at hn
    cases h with
    | cons h h' =>
      have := rcExpanded_ne c h hn.1 fun h d cs' ht => hc h d cs' (by
        cases ht with
        | here ht => exact .here (by rw [List.mem_singleton] at ht; rw [ht]; simp)
        | inside ht h4 => exact .inside (by rw [List.mem_singleton] at ht; rw [ht]; simp) h4)
      intro he
      exact this (List.append_eq_nil_iff.mp he).1
end

/-! ## C57 -/

theorem field_like_valid {lvl : ValidateLevel} {f g : FieldInfo} {n : Str} {s : Option Str}
    {b : BitRange} (hb : b.width = f.bitRange.width)
    (hg : g = { f with name := n, description := s, bitRange := b }) (hv : FieldValid f lvl)
    (hn : 2 ≤ strictness lvl → Ident n) : FieldValid g lvl := by
  subst hg
  obtain ⟨h1, h2⟩ := hv
  refine ⟨fun hl => ?_, fun hl => ⟨.ident (hn hl), (h2 hl).2⟩⟩
  have := h1 hl
  simp only [hb]
  exact this

theorem field_like_parts {f g : FieldInfo} {n : Str} {s : Option Str} {b : BitRange}
    (hg : g = { f with name := n, description := s, bitRange := b }) {q : Part} (hq : FieldHas g q) :
    q = .field g ∨ FieldHas f q := by
  subst hg
  cases hq with
  | self => exact .inl rfl
  | enums h => exact .inr (.enums h)
  | enumValue h h' => exact .inr (.enumValue h h')

theorem strict_le {lvl : ValidateLevel} (h : 2 ≤ strictness lvl) : lvl = .strict := by
  cases lvl with
  | disabled => cases h
  | weak => exact absurd h (by decide)
  | strict => rfl

theorem rcNamed_in : ∀ {cs : List RegisterCluster} {n : RegisterCluster}, RcsNamesFit cs → InTree cs n →
    RcNamesFit n := by
  intro cs n hn ht
  have all : ∀ {cs : List RegisterCluster}, RcsNamesFit cs → ∀ c ∈ cs, RcNamesFit c := by
    intro cs
    induction cs with
    | nil => intro _ c hc; cases hc
    | cons a cs ih =>
      intro h c hc
      unfold RcsNamesFit at h
      rcases List.mem_cons.mp hc with rfl | hc
      · exact h.1
      · exact ih h.2 c hc
  induction ht with
  | here h => exact all hn _ h
  | inside h _ ih =>
    have := all hn _ h
    unfold RcNamesFit at this
    exact ih this.2

theorem noRef_in : ∀ {cs : List RegisterCluster} {n : RegisterCluster}, RcsNoRef cs → InTree cs n →
    RcNoRef n := by
  intro cs n hn ht
  have all : ∀ {cs : List RegisterCluster}, RcsNoRef cs → ∀ c ∈ cs, RcNoRef c := by
    intro cs
    induction cs with
    | nil => intro _ c hc; cases hc
    | cons a cs ih =>
      intro h c hc
      unfold RcsNoRef at h
      rcases List.mem_cons.mp hc with rfl | hc
      · exact h.1
      · exact ih h.2 c hc
  induction ht with
  | here h => exact all hn _ h
  | inside h _ ih =>
    have := all hn _ h
    unfold RcNoRef at this
    exact ih this.2

/-- The parts of an expanded device are valid if those of the device are; at level Strict the names have
to be identifiers and no array may be empty. -/
theorem expanded_valid {lvl : ValidateLevel} {d d' : Device} (hr : DeviceNoRef d)
    (he : DeviceExpanded d d') (hv : ∀ q, DeviceHas d q → q.Valid lvl)
    (hn : 2 ≤ strictness lvl → DeviceNamesFit d) : ∀ q, DeviceHas d' q → q.Valid lvl := by
  obtain ⟨ls, hp, rfl⟩ := he
  intro q hq
  cases hq with
  | props => exact hv _ .props
  | @peripheral p' _ hp' hq =>
    obtain ⟨l, hl, hp'⟩ := List.mem_flatten.mp hp'
    obtain ⟨p, hpm, hpe⟩ := pairs_right hp l hl
    obtain ⟨⟨n, dn, s, b, rs, hrs, hpi⟩, hid⟩ := peripheralExpanded_like hpe p' hp'
    have hnp : 2 ≤ strictness lvl → PeripheralNamesFit p := fun h => hn h p hpm
    have hvp : ∀ q, PeripheralHas p.info q → q.Valid lvl := fun q hq => hv q (.peripheral hpm hq)
    have hrp := hr p hpm
    rw [hpi] at hq hid
    cases hq with
    | self =>
      refine ⟨fun _ => trivial, fun hs => ?_⟩
      have h0 := (hvp _ .self).2 hs
      refine ⟨.ident (hid (hnp hs).1), h0.2.1, fun _ => ?_⟩
      have h1 := h0.2.2 hrp.1
      dsimp only
      generalize hcs0 : p.info.registers = o at hrs h1
      cases hrs with
      | none => simp
      | @some cs l hx =>
        have hne := rcsExpanded_ne cs hx ((hnp hs).2 cs hcs0) (fun h d' cs' ht => by
          have hc := (hvp _ (.node hcs0 ht .cluster)).2 hs
          have hr' := noRef_in (hrp.2 cs hcs0) ht
          unfold RcNoRef at hr'
          exact hc.2.2 hr'.1) (by rintro rfl; exact h1 rfl)
        simpa using hne
    | props => exact hvp _ .props
    | @node cs n q hreg ht hq =>
      dsimp only at hreg
      subst hreg
      generalize hcs0 : p.info.registers = o at hrs
      cases hrs with
      | @some cs l hx =>
        obtain ⟨r', hr', rfl⟩ := inTree_flat ht
        obtain ⟨r, hrt, ⟨n1, dn1, s1, off, fs, hfs, hri⟩, hid1⟩ := rcsExpanded_like cs hx r' hr'
        have hvr : ∀ q, RegisterHas r.info q → q.Valid lvl :=
          fun q hq => hvp q (.node hcs0 hrt (.register hq))
        have hnr : 2 ≤ strictness lvl → RegisterNamesFit r := fun h => by
          have := rcNamed_in ((hnp h).2 cs hcs0) hrt
          unfold RcNamesFit at this; exact this
        have hrr : RegisterNoRef r := by
          have := noRef_in (hrp.2 cs hcs0) hrt
          unfold RcNoRef at this; exact this
        cases hq with
        | register hq =>
          simp only [MaybeArray.info] at hq
          rw [hri] at hq hid1
          cases hq with
          | self =>
            refine ⟨fun _ => trivial, fun hs => ?_⟩
            have h0 := (hvr _ .self).2 hs
            exact ⟨.ident (hid1 ((hnp hs).2 cs hcs0)), h0.2.1, h0.2.2.1, h0.2.2.2.1, fun _ =>
              fieldsExpanded_ne hfs (h0.2.2.2.2 hrr.1) (hnr hs).2⟩
          | props => exact hvr _ .props
          | @field gs g _ hg hgm hq =>
            dsimp only at hg
            obtain ⟨fl, hfl, hall⟩ := fieldsExpanded_like hfs hg
            obtain ⟨f, hf, n2, s2, b2, hw, hgi, hid2⟩ := hall g hgm
            rcases field_like_parts hgi hq with rfl | hq
            · exact field_like_valid hw hgi (hvr _ (.field hfl hf .self))
                fun hs => hid2 ((hnr hs).2 fl hfl f hf)
            · exact hvr _ (.field hfl hf hq)

theorem expanded_peripherals {d d' : Device} (h : DeviceExpanded d d') {p : Peripheral}
    (hp : p ∈ d.peripherals) (hd : ∀ x, p.dim? = some x → 1 ≤ x.dim.toNat) : d'.peripherals ≠ [] := by
  obtain ⟨ls, h, rfl⟩ := h
  obtain ⟨l, hl, hx⟩ := pairs_left h p hp
  intro he
  have := List.flatten_eq_nil_iff.mp he l hl
  cases hx with
  | single => cases this
  | array _ hx => exact instances_ne hx (hd _ rfl) (List.map_eq_nil_iff.mp this)

/-- **C57.** A device without references that is valid at level Weak stays so when it is expanded, unless
all its peripherals are in empty arrays. -/
theorem C57_weak (fuel : Nat) (d d' : Device) (hr : DeviceNoRef d) (he : expand true fuel d = .ok d')
    (hv : d.validateAll .weak = .ok ())
    (hne : ∃ p ∈ d.peripherals, ∀ x, p.dim? = some x → 1 ≤ x.dim.toNat) :
    d'.validateAll .weak = .ok () := by
  have hx := (C36_exact d d' hr).mp ⟨fuel, he⟩
  rw [C16_validate_all] at hv ⊢
  refine ⟨⟨fun _ => ?_, fun h => absurd h (by decide)⟩,
    expanded_valid hr hx hv.2 fun h => absurd h (by decide)⟩
  obtain ⟨p, hp, hd⟩ := hne
  exact expanded_peripherals hx hp hd

/-- **C57.** The same at level Strict for devices whose arrays are not empty and whose element names are
identifiers. -/
theorem C57_strict (fuel : Nat) (d d' : Device) (hr : DeviceNoRef d) (he : expand true fuel d = .ok d')
    (hv : d.validateAll .strict = .ok ()) (hn : DeviceNamesFit d) : d'.validateAll .strict = .ok () := by
  have hx := (C36_exact d d' hr).mp ⟨fuel, he⟩
  rw [C16_validate_all] at hv ⊢
  refine ⟨⟨fun _ => ?_, fun _ => trivial⟩, expanded_valid hr hx hv.2 fun _ => hn⟩
  obtain ⟨p, hp⟩ := List.exists_mem_of_ne_nil _ (hv.1.1 (by decide))
  refine expanded_peripherals hx hp fun x h => ?_
  have := (hn p hp).1
  rw [h] at this
  exact this.1

/-! ### When instance names are identifiers -/

theorem replaced_skip {p : Char} {ps new a s t : Str} (ha : p ∉ a) (h : Replaced (p :: ps) new s t) :
    Replaced (p :: ps) new (a ++ s) (a ++ t) := by
  induction a with
  | nil => exact h
  | cons c a ih =>
    simp only [List.mem_cons, not_or] at ha
    refine .skip (fun hp => ?_) (ih ha.2)
    rw [List.cons_prefix_cons] at hp
    exact ha.1 hp.1

theorem replaced_none {p : Char} {ps new a : Str} (ha : p ∉ a) : Replaced (p :: ps) new a a := by
  simpa using replaced_skip (new := new) ha .nil

theorem substituted_eq {idx s t t' : Str} (h : Substituted idx s t) (h' : Substituted idx s t') : t = t' :=
  ((substIndex_iff s idx t).mpr h).symm.trans ((substIndex_iff s idx t').mpr h')

theorem plain_not {c : Char} (hc : ¬ IdentChar c) {s : Str} (h : PlainName s) : c ∉ s :=
  fun hm => hc (h c hm)

theorem ident_plain {s : Str} (h : Ident s) : PlainName s := by
  obtain ⟨c, r, rfl, h1, h2⟩ := h
  intro x hx
  rcases List.mem_cons.mp hx with rfl | hx
  · exact .inl h1
  · exact h2 x hx

/-- **C57.** A valid name that does not begin with the placeholder gives identifiers when an index made
of letters, digits and underscores is put in. -/
theorem C57_instance_name (name idx new : Str) (hn : DimableName name) (h0 : name.head? ≠ some '%')
    (hi : PlainName idx) (h : Substituted idx name new) : Ident new := by
  have hp : ¬ IdentChar '%' := by unfold IdentChar IdentStart; decide
  have hb : ¬ IdentChar '[' := by unfold IdentChar IdentStart; decide
  cases hn with
  | placeholder => exact absurd rfl h0
  | placeholderIdent => exact absurd rfl h0
  | ident hid =>
    have hpl := ident_plain hid
    rw [substituted_eq h ⟨name, replaced_none (plain_not hb hpl), replaced_none (plain_not hp hpl)⟩]
    exact hid
  | @identBracket i hid =>
    have hpl := ident_plain hid
    have e : Substituted idx (i ++ "[%s]".toList) (i ++ idx) := by
      refine ⟨i ++ idx, replaced_skip (plain_not hb hpl) ?_, replaced_none ?_⟩
      · have := Replaced.hit (pat := ['[', '%', 's', ']']) (new := idx) .nil
        simpa using this
      · simp [plain_not hp hpl, plain_not hp hi]
    rw [substituted_eq h e]
    exact ident_append hid hi
  | @identPlaceholder i t hid ht =>
    have hpl := ident_plain hid
    have e : Substituted idx (i ++ "%s".toList ++ t) (i ++ (idx ++ t)) := by
      refine ⟨i ++ "%s".toList ++ t, replaced_none ?_, ?_⟩
      · simp [plain_not hb hpl, plain_not hb ht]
      · rw [List.append_assoc]
        refine replaced_skip (plain_not hp hpl) ?_
        exact Replaced.hit (pat := ['%', 's']) (new := idx) (replaced_none (plain_not hp ht))
    rw [substituted_eq h e]
    refine ident_append hid fun x hx => ?_
    rcases List.mem_append.mp hx with hx | hx
    · exact hi x hx
    · exact ht x hx

example : Ident "CH7_CR".toList := by
  refine C57_instance_name "CH%s_CR".toList "7".toList _ (.identPlaceholder (i := "CH".toList) (t := "_CR".toList)
    ⟨'C', ['H'], rfl, by unfold IdentStart; decide, by unfold IdentChar IdentStart; decide⟩
    (by unfold PlainName IdentChar IdentStart; decide)) (by decide) (by unfold PlainName IdentChar IdentStart; decide) ?_
  exact (substIndex_iff _ _ _).mp (by decide)

/-- **C57.** So the names of an array are fit for expansion if the name is valid and does not begin with
the placeholder, the array is not empty, its indexes are plain and it has no names of its own. -/
theorem C57_name_fits (name : Str) (d : DimElement) (hn : DimableName name)
    (h0 : name.head? ≠ some '%') (hd : 1 ≤ d.dim.toNat) (hi : ∀ idx ∈ indexList d, PlainName idx)
    (ha : d.dimArrayIndex = none) : NameFits name (some d) := by
  refine ⟨hd, fun k idx n _ hk h => ?_⟩
  rcases h with ⟨e, ⟨dai, _, _, h1, _⟩, _⟩ | ⟨_, h⟩
  · rw [ha] at h1; cases h1
  · exact C57_instance_name name idx n hn h0 (hi idx (List.mem_of_getElem? hk)) h

theorem decimal_plain (n : Nat) : PlainName (decimal n) := by
  intro c hc
  have := decimal_digit hc
  obtain ⟨h1, h2⟩ := this
  have e : c = Char.ofNat c.toNat := (Char.ofNat_toNat c).symm
  generalize c.toNat = k at h1 h2 e
  subst e
  exact .inr (by interval_cases k <;> decide)

/-- **C57.** Arrays without indexes of their own have plain ones. -/
theorem C57_default_indexes (d : DimElement) (h : d.dimIndex = none) : ∀ idx ∈ indexList d, PlainName idx := by
  intro idx hi
  unfold indexList at hi
  rw [h] at hi
  obtain ⟨k, _, rfl⟩ := List.mem_map.mp hi
  exact decimal_plain _

/-! ### Examples, and what the conditions are for -/

/-- Whether the device passes validation before and after it is expanded. -/
def validBeforeAfter (lvl : ValidateLevel) (d : Device) : Bool × Bool :=
  ((d.validateAll lvl).isOk, ((expand true 6 d).bind fun d' => d'.validateAll lvl).isOk)

/-- Arrays of peripherals, clusters and registers, and a field with an enumerated value. -/
def namedArrays : Device := Sample.device [.array (Sample.peripheralInfo "P%s" 0x1000 none (some
  [.cluster (Sample.clusterHead "C" 0x10) none
    [.cluster (Sample.clusterHead "S%s" 0x4) (some (Sample.dim 2 0x8))
      [.register (.array (Sample.registerInfo "R%s" 0x1 none
          (some [.single (Sample.fieldInfo "F" 0 none [Sample.evs (some "E") none
            [⟨"on".toList, none, some 1, none⟩]])])) (Sample.dim 2 2 (some ["A", "B"])))]],
   .register (.single (Sample.registerInfo "T" 0x40))])) (Sample.dim 2 0x100)]
example : validBeforeAfter .strict namedArrays = (true, true) := by decide +kernel
theorem namedArrays_fit : DeviceNoRef namedArrays ∧ DeviceNamesFit namedArrays := by
  refine ⟨by simp [DeviceNoRef, PeripheralNoRef, RcsNoRef, RcNoRef, RegisterNoRef, FieldNoRef, namedArrays,
    Sample.device, Sample.peripheralInfo, Sample.clusterHead, Sample.registerInfo, Sample.fieldInfo,
    Sample.evs, MaybeArray.info], ?_⟩
  have id1 : ∀ c : Char, IdentStart c → Ident [c] := fun c h => ⟨c, [], rfl, h, nofun⟩
  have id2 : ∀ (c : Char), IdentStart c → DimableName [c, '%', 's'] := fun c h =>
    .identPlaceholder (i := [c]) (t := []) (id1 c h) nofun
  intro p hp
  rw [List.mem_singleton.mp hp]
  refine ⟨C57_name_fits _ _ (id2 'P' ?_) (by decide) (by decide) (C57_default_indexes _ rfl) rfl, ?_⟩
  · unfold IdentStart; decide
  · rintro l ⟨⟩
    refine ⟨⟨id1 'C' ?_, ⟨C57_name_fits _ _ (id2 'S' ?_) (by decide) (by decide)
      (C57_default_indexes _ rfl) rfl, ⟨C57_name_fits _ _ (id2 'R' ?_) (by decide) (by decide) ?_ rfl, ?_⟩,
      trivial⟩, trivial⟩, ⟨id1 'T' ?_, nofun⟩, trivial⟩
    · unfold IdentStart; decide
    · unfold IdentStart; decide
    · unfold IdentStart; decide
    · intro idx hi
      have : idx = ['A'] ∨ idx = ['B'] := by simpa [indexList, Sample.dim] using hi
      rcases this with rfl | rfl <;> intro c hc <;> rw [List.mem_singleton.mp hc] <;>
        unfold IdentChar IdentStart <;> decide
    · rintro l ⟨⟩ f hf
      rw [List.mem_singleton.mp hf]
      refine id1 'F' ?_
      unfold IdentStart; decide
    · unfold IdentStart; decide

/-- **C57.** The condition of `C57_weak` is needed: an empty array of peripherals leaves a device without
peripherals. -/
theorem C57_empty_array : ∃ d d', DeviceNoRef d ∧ expand true 6 d = .ok d' ∧
    d.validateAll .weak = .ok () ∧ d'.validateAll .weak ≠ .ok () :=
  ⟨Sample.device [.array (Sample.peripheralInfo "P%s" 0) (Sample.dim 0 4)], Sample.device [],
    by simp [DeviceNoRef, PeripheralNoRef, Sample.device, Sample.peripheralInfo, MaybeArray.info], by decide +kernel, by decide +kernel, by decide +kernel⟩

/-- A register with the field array `%s`. -/
def digitNames : Device := Sample.device [.single (Sample.peripheralInfo "P" 0 none (some
  [.register (.single (Sample.registerInfo "R" 0 none
    (some [.array (Sample.fieldInfo "%s" 0) (Sample.dim 2 1)])))]))]

/-- **C57.** Strict validity alone is not kept: the name `%s` is valid, but its instances `0` and `1` have
invalid names. -/
theorem C57_digit_names : DeviceNoRef digitNames ∧ validBeforeAfter .strict digitNames = (true, false) ∧
    validBeforeAfter .weak digitNames = (true, true) := by
  refine ⟨?_, by decide +kernel⟩
  simp [DeviceNoRef, PeripheralNoRef, RcsNoRef, RcNoRef, RegisterNoRef, FieldNoRef, digitNames,
    Sample.device, Sample.peripheralInfo, Sample.registerInfo, Sample.fieldInfo, MaybeArray.info]

/-- A register `S` with a reset value of nine bits that takes its size from `R`. -/
def mixedSize : Device := Sample.device [.single (Sample.peripheralInfo "P" 0 none (some
  [.register (.single { Sample.registerInfo "R" 0 with properties := { size := some 8 } }),
   .register (.single { Sample.registerInfo "S" 4 (some "R") with
     properties := { resetValue := some 0x1ff } })]))]

/-- **C57.** References can break validity: a register can get its size from another register, and its
own reset value does not fit in it. -/
theorem C57_mixed_size : validBeforeAfter .weak mixedSize = (true, false) ∧
    (expand true 6 mixedSize).isOk = true := by decide +kernel

-- The hypotheses of `C57_weak` can be met.
example : ∃ d', expand true 6 namedArrays = .ok d' ∧ d'.validateAll .weak = .ok () := by
  obtain ⟨d', h⟩ := ok_of_isOk (x := expand true 6 namedArrays) (by decide +kernel)
  refine ⟨d', h, C57_weak 6 _ d' ?_ h (by decide +kernel) ⟨_, List.mem_cons_self, by rintro x ⟨⟩; decide⟩⟩
  simp [DeviceNoRef, PeripheralNoRef, RcsNoRef, RcNoRef, RegisterNoRef, FieldNoRef, namedArrays,
    Sample.device, Sample.peripheralInfo, Sample.clusterHead, Sample.registerInfo, Sample.fieldInfo,
    Sample.evs, MaybeArray.info]

-- The same for `C57_strict`.
example : ∃ d', expand true 6 namedArrays = .ok d' ∧ d'.validateAll .strict = .ok () := by
  obtain ⟨d', h⟩ := ok_of_isOk (x := expand true 6 namedArrays) (by decide +kernel)
  exact ⟨d', h, C57_strict 6 _ d' namedArrays_fit.1 h (by decide +kernel) namedArrays_fit.2⟩

end Svd
