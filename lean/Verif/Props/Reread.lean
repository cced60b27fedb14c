import Verif.Spec.Sample
import Verif.Spec.Regular
import Verif.Props.RoundTripAll
import Verif.Props.RoundTripExamples
import Verif.Props.IterMut

/-!
# C53: what is read from a file can be written and is read again unchanged
-/

namespace Svd

open Spec Xml

/-! ## Nodes -/

theorem inside_trans {x y z : Xml} (h1 : Inside x y) (h2 : Inside y z) : Inside x z := by
  induction h2 with
  | self => exact h1
  | child hc _ ih => exact .child hc ih

theorem regular_inside {x t : Xml} (h : Regular t) (hx : Inside x t) : Regular x :=
  ⟨fun y s hy => h.texts y s (inside_trans hy hx), fun y hy => h.fields y (inside_trans hy hx)⟩

theorem inside_child {c t : Xml} (h : c ∈ t.children) : Inside c t := by
  cases t with
  | elem tag as cs => exact .child h (.self c)
  | text s => cases h
  | other => cases h

theorem regular_child {c t : Xml} (h : Regular t) (hc : c ∈ t.children) : Regular c :=
  regular_inside h (inside_child hc)

theorem regular_getChild {c t : Xml} {k : String} (h : Regular t) (hc : t.getChild k = some c) : Regular c :=
  regular_child h (List.mem_of_find?_eq_some hc)

/-! ## Texts -/

theorem text_trim {s : Str} (h : ∃ c ∈ s, isWhitespace c = false) : Text (trim s) := by
  obtain ⟨a, b, hs, ha, hb, h1, h2⟩ := isTrimmed_trim s
  refine ⟨fun he => ?_, ⟨[], [], by simp, by simp, by simp, h1, h2⟩⟩
  obtain ⟨c, hc, hw⟩ := h
  rw [he] at hs
  rw [hs] at hc
  simp only [List.append_nil, List.mem_append] at hc
  rcases hc with hc | hc
  · rw [ha c hc] at hw; cases hw
  · rw [hb c hc] at hw; cases hw

theorem opt_text {t : Xml} {k : String} {o : Option Str} (h : Regular t) (hk : k ∈ textTags)
    (ho : t.getChildTextOpt k = .ok o) : OptText o := by
  intro s hs
  subst hs
  unfold getChildTextOpt at ho
  cases hc : t.getChild k with
  | none => rw [hc] at ho; cases ho
  | some c =>
    rw [hc] at ho
    simp only [getText] at ho
    cases ht : c.textOf with
    | none => rw [ht] at ho; cases ho
    | some s' =>
      rw [ht] at ho
      injection ho with ho
      injection ho with ho
      subst ho
      refine text_trim (h.texts c s' (inside_child (List.mem_of_find?_eq_some hc)) ?_ ht)
      rw [hasTag_tag (List.find?_some hc)]
      exact hk

theorem req_text {t : Xml} {k : String} {s : Str} (h : Regular t) (hk : k ∈ textTags)
    (ho : t.getChildText k = .ok s) : Text s := by
  unfold getChildText at ho
  obtain ⟨o, h1, h2⟩ := bind_ok.mp ho
  cases o with
  | none => cases h2
  | some s' => injection h2 with h2; subst h2; exact opt_text h hk h1 s' rfl

theorem optText_emptyToNone {o : Option Str} (h : OptText o) : OptText (emptyToNone o) := by
  intro s hs
  cases o with
  | none => cases hs
  | some s' =>
    cases s' with
    | nil => cases hs
    | cons c cs => exact h s hs

theorem need_ok {α : Type} {o : Option α} {what : String} {a : α} (h : need o what = .ok a) : o = some a := by
  cases o with
  | none => cases h
  | some b => injection h with h; rw [h]

/-! ## Index lists -/

theorem trimmed_self {s t : Str} (h : IsTrimmed s t) : IsTrimmed t t := by
  obtain ⟨_, _, _, _, _, h1, h2⟩ := h
  exact ⟨[], [], by simp, by simp, by simp, h1, h2⟩

theorem decimal_chars (n : Nat) : ∀ c ∈ decimal n, c ≠ '-' ∧ c ≠ ',' ∧ isWhitespace c = false := by
  intro c hc
  obtain ⟨k, hk⟩ := positional_mem (positional_toDigits (radix := 10) (by decide) (by decide) n) c hc
  refine ⟨?_, ?_, digitValue_not_ws hk.1⟩ <;> rintro rfl <;> exact absurd hk.1.symm (nofun)

theorem outerClean_all {l : List Str} (h : ∀ p ∈ l, ∀ c ∈ p, isWhitespace c = false) : OuterClean l :=
  ⟨fun p hp c hc => h p (List.mem_of_mem_head? hp) c (List.mem_of_mem_head? hc),
   fun p hp c hc => h p (List.mem_of_mem_getLast? hp) c (List.mem_of_mem_getLast? hc)⟩

theorem head_join {l : List Str} {p : Str} {c : Char} (hp : l.head? = some p) (hc : p.head? = some c) :
    (joinWith [','] l).head? = some c := by
  cases l with
  | nil => cases hp
  | cons q l =>
    injection hp with hp; subst hp
    cases l with
    | nil => exact hc
    | cons r l =>
      rw [joinWith_cons (by simp)]
      cases q with
      | nil => cases hc
      | cons x xs => exact hc

theorem last_join {l : List Str} {p : Str} {c : Char} (hp : l.getLast? = some p) (hc : p.getLast? = some c) :
    (joinWith [','] l).getLast? = some c := by
  induction l with
  | nil => cases hp
  | cons q l ih =>
    cases l with
    | nil => injection hp with hp; subst hp; exact hc
    | cons r l =>
      rw [List.getLast?_cons_cons] at hp
      rw [joinWith_cons (by simp), List.getLast?_append, ih hp]
      rfl

/-- What an index text stands for can be written again. -/
theorem index_fits {lit : Str} {l : List Str} (h : IndexText lit l) (hne : lit ≠ []) (ht : IsTrimmed lit lit) :
    l ≠ [] ∧ l ≠ [[]] ∧ (∀ p ∈ l, '-' ∉ p ∧ ',' ∉ p) ∧ OuterClean l := by
  cases h with
  | @numbers s t m n hs ht' hmn =>
    have hall : ∀ p ∈ decimalRange m (n + 1 - m), ∃ k, p = decimal k := by
      intro p hp
      obtain ⟨k, _, rfl⟩ := List.mem_map.mp hp
      exact ⟨k, rfl⟩
    refine ⟨?_, ?_, ?_, ?_⟩
    · intro he
      have := congrArg List.length he
      simp [decimalRange] at this
      omega
    · intro he
      obtain ⟨k, hk⟩ := hall [] (by rw [he]; simp)
      exact Nat.toDigits_ne_nil hk.symm
    · intro p hp
      obtain ⟨k, rfl⟩ := hall p hp
      exact ⟨fun hc => (decimal_chars k _ hc).1 rfl, fun hc => (decimal_chars k _ hc).2.1 rfl⟩
    · refine outerClean_all fun p hp => ?_
      obtain ⟨k, rfl⟩ := hall p hp
      exact fun c hc => (decimal_chars k c hc).2.2
  | @letters a b hab hle =>
    have hall : ∀ p ∈ (List.range' a.toNat (b.toNat + 1 - a.toNat)).map fun i => [Char.ofNat i],
        ∃ k, (97 ≤ k ∧ k ≤ 122 ∨ 65 ≤ k ∧ k ≤ 90) ∧ p = [Char.ofNat k] := by
      intro p hp
      obtain ⟨k, hk, rfl⟩ := List.mem_map.mp hp
      rw [List.mem_range'_1] at hk
      refine ⟨k, ?_, rfl⟩
      have e1 : 'a'.toNat = 97 := rfl
      have e2 : 'z'.toNat = 122 := rfl
      have e3 : 'A'.toNat = 65 := rfl
      have e4 : 'Z'.toNat = 90 := rfl
      omega
    have hchar : ∀ k : Nat, (97 ≤ k ∧ k ≤ 122 ∨ 65 ≤ k ∧ k ≤ 90) →
        '-' ≠ Char.ofNat k ∧ ',' ≠ Char.ofNat k ∧ isWhitespace (Char.ofNat k) = false := by
      have : ∀ k : Fin 123, (97 ≤ k.val ∧ k.val ≤ 122 ∨ 65 ≤ k.val ∧ k.val ≤ 90) →
        '-' ≠ Char.ofNat k ∧ ',' ≠ Char.ofNat k ∧ isWhitespace (Char.ofNat k) = false := by decide
      intro k hk
      exact this ⟨k, by omega⟩ hk
    refine ⟨?_, ?_, ?_, ?_⟩
    · intro he
      have := congrArg List.length he
      simp at this
      omega
    · intro he
      obtain ⟨k, _, hk⟩ := hall [] (by rw [he]; simp)
      cases hk
    · intro p hp
      obtain ⟨k, hk, rfl⟩ := hall p hp
      simp only [List.mem_singleton]
      exact ⟨(hchar k hk).1, (hchar k hk).2.1⟩
    · refine outerClean_all fun p hp => ?_
      obtain ⟨k, hk, rfl⟩ := hall p hp
      intro c hc
      simp only [List.mem_singleton] at hc
      subst hc
      exact (hchar k hk).2.2
  | list h1 h2 =>
    obtain ⟨_, _, _, _, _, h3, h4⟩ := ht
    refine ⟨h1, ?_, h2, fun p hp c hc => h3 c (head_join hp hc), fun p hp c hc => h4 c (last_join hp hc)⟩
    rintro rfl
    exact hne rfl

/-! ## Elements -/

section
variable {oc : Bool} {cfg : ParseConfig}

theorem enumValue_reread {t : Xml} {e : EnumeratedValue} (hr : Regular t)
    (h : parseEnumeratedValue cfg t = .ok e) : EnumValueFits e ∧ EnumValueValid e cfg.validateLevel := by
  refine ⟨?_, (enumValue_validate e _).mp (parseEnumValue_ok h)⟩
  unfold parseEnumeratedValue at h
  obtain ⟨_, h⟩ := guard_ok h
  obtain ⟨name, h1, h⟩ := bind_ok.mp h
  obtain ⟨desc, h2, h⟩ := bind_ok.mp h
  iterate 2 obtain ⟨_, _, h⟩ := bind_ok.mp h
  unfold EnumeratedValueBuilder.build at h
  obtain ⟨n, hn, h⟩ := bind_ok.mp h
  obtain ⟨_, rfl⟩ := validated h
  injection need_ok hn with hn; subst hn
  exact ⟨req_text hr (by decide) h1, optText_emptyToNone (opt_text hr (by decide) h2)⟩

theorem valueList_reread {skip : List String} {t : Xml} {l : List EnumeratedValue} (hr : Regular t)
    (h : parseValueList cfg skip t = .ok l) :
    ∀ v ∈ l, EnumValueFits v ∧ EnumValueValid v cfg.validateLevel := by
  intro e he
  obtain ⟨c, hc, h⟩ := mapM_ok_mem' h he
  split at h
  · exact enumValue_reread (regular_child hr (List.mem_filter.mp hc).1) h
  · cases h

theorem enums_reread {t : Xml} {e : EnumeratedValues} (hr : Regular t)
    (h : parseEnumeratedValues cfg t = .ok e) : EnumsFits e := by
  unfold parseEnumeratedValues at h
  obtain ⟨_, h⟩ := guard_ok h
  obtain ⟨name, h1, h⟩ := bind_ok.mp h
  obtain ⟨_, _, h⟩ := bind_ok.mp h
  obtain ⟨vs, hvs, h⟩ := bind_ok.mp h
  unfold EnumeratedValuesBuilder.build at h
  obtain ⟨_, rfl⟩ := validated h
  exact ⟨optText_emptyToNone (opt_text hr (by decide) h1), fun v hv => (valueList_reread hr hvs v hv).1⟩

theorem optional_ok {α : Type} {k : String} {t : Xml} {p : Xml → M α} {o : Option α}
    (h : Xml.optional k t p = .ok o) : ∀ a, o = some a → ∃ c, t.getChild k = some c ∧ p c = .ok a := by
  rintro a rfl
  unfold Xml.optional at h
  cases hc : t.getChild k with
  | none => rw [hc] at h; cases h
  | some c =>
    rw [hc] at h
    obtain ⟨r, h1, h2⟩ := bind_ok.mp h
    injection h2 with h2; injection h2 with h2; subst h2
    exact ⟨c, rfl, h1⟩

theorem dimIndex_reread {t : Xml} {l : List Str} (hr : Regular t) (ht : t.tag = "dimIndex")
    (h : parseDimIndex t = .ok l) :
    l ≠ [] ∧ l ≠ [[]] ∧ (∀ p ∈ l, '-' ∉ p ∧ ',' ∉ p) ∧ OuterClean l := by
  obtain ⟨text, lit, h1, h2, h3⟩ := (C05_parse_dim_index_iff t l).mp h
  have := text_trim (hr.texts t text (.self t) (by rw [ht]; decide) h1)
  rw [trim_of_isTrimmed h2] at this
  exact index_fits h3 this.1 this.2

theorem dim_reread {t : Xml} {d : DimElement} (hr : Regular t) (h : parseDimElement cfg t = .ok d)
    (hlen : ∀ l, d.dimIndex = some l → l.length = d.dim.toNat) (hb : NotBothEnds d) :
    DimFits cfg.validateLevel d := by
  unfold parseDimElement at h
  iterate 2 obtain ⟨_, _, h⟩ := bind_ok.mp h
  obtain ⟨ix, h1, h⟩ := bind_ok.mp h
  obtain ⟨nm, h2, h⟩ := bind_ok.mp h
  obtain ⟨ai, h3, h⟩ := bind_ok.mp h
  unfold DimElementBuilder.build at h
  iterate 2 obtain ⟨_, _, h⟩ := bind_ok.mp h
  obtain ⟨_, rfl⟩ := validated h
  refine ⟨fun l hl => ?_, hb, optText_emptyToNone (opt_text hr (by decide) h2), fun a ha => ?_⟩
  · have hl' : ix = some l := by
      have hl : emptyToNone ix = some l := hl
      cases ix with
      | none => cases hl
      | some l' =>
        cases l' with
        | nil => cases hl
        | cons c cs => exact hl
    obtain ⟨c, hc, hp⟩ := optional_ok h1 l hl'
    obtain ⟨k1, k2, k3, k4⟩ := dimIndex_reread (regular_getChild hr hc) (hasTag_tag (List.find?_some hc)) hp
    exact ⟨k1, k2, hlen l hl, k3, k4⟩
  · obtain ⟨c, hc, hp⟩ := optional_ok h3 a ha
    have hr' := regular_getChild hr hc
    unfold parseDimArrayIndex at hp
    obtain ⟨hn, h4, hp⟩ := bind_ok.mp hp
    obtain ⟨vs, h5, hp⟩ := bind_ok.mp hp
    injection hp with hp; subst hp
    exact ⟨opt_text hr' (by decide) h4, valueList_reread hr' h5⟩

theorem array_reread {α : Type} {tag : String} {nm : α → Str} {t : Xml} {m : M α} {x : MaybeArray α}
    (hr : Regular t) (h : parseArray cfg tag nm t m = .ok x) (hb : DimPart NotBothEnds x) :
    m = .ok x.info ∧ ArrayFits cfg.validateLevel (nm x.info) x.dim? := by
  unfold parseArray at h
  obtain ⟨_, h⟩ := guard_ok h
  obtain ⟨i, hi, h⟩ := bind_ok.mp h
  split at h
  · obtain ⟨d, hd, h⟩ := bind_ok.mp h
    obtain ⟨_, hp, h⟩ := bind_ok.mp h
    have hp : ∃ a b, nm i = a ++ "%s".toList ++ b := by
      unfold checkHasPlaceholder at hp
      split at hp
      · exact (containsSub_iff _ _).mp ‹_›
      · cases hp
    split at h
    · rename_i l hl
      obtain ⟨hne, h⟩ := guard_ok h
      cases h
      refine ⟨hi, fun y hy => ?_⟩
      injection hy with hy; subst hy
      refine ⟨hp, dim_reread hr hd (fun l' hl' => ?_) hb⟩
      rw [hl] at hl'; cases hl'
      exact (Decidable.not_not.mp hne).symm
    · rename_i hl
      cases h
      refine ⟨hi, fun y hy => ?_⟩
      injection hy with hy; subst hy
      refine ⟨hp, dim_reread hr hd (fun l' hl' => ?_) hb⟩
      rw [hl] at hl'; cases hl'
  · cases h
    exact ⟨hi, fun y hy => by cases hy⟩

/-- What C53 demands of the numbers: ranges that the encoder can write. -/
abbrev NumbersFit : (FieldInfo → Prop) := fun f => WritableRange f.bitRange

theorem fieldInfo_reread {t : Xml} {f : FieldInfo} (hr : Regular t) (h : parseFieldInfo oc cfg t = .ok f) :
    Text f.name ∧ OptText f.description ∧ ∀ e ∈ f.enumeratedValues, EnumsFits e := by
  unfold parseFieldInfo at h
  obtain ⟨_, h⟩ := guard_ok h
  obtain ⟨br, _, h⟩ := bind_ok.mp h
  obtain ⟨name, h1, h⟩ := bind_ok.mp h
  obtain ⟨desc, h2, h⟩ := bind_ok.mp h
  iterate 4 obtain ⟨_, _, h⟩ := bind_ok.mp h
  obtain ⟨evs, h3, h⟩ := bind_ok.mp h
  unfold FieldInfoBuilder.build at h
  obtain ⟨n, hn, h⟩ := bind_ok.mp h
  obtain ⟨b, _, h⟩ := bind_ok.mp h
  obtain ⟨_, rfl⟩ := validated h
  injection need_ok hn with hn; subst hn
  refine ⟨req_text hr (by decide) h1, optText_emptyToNone (opt_text hr (by decide) h2), fun e he => ?_⟩
  have he : e ∈ evs := he
  split at h3
  · obtain ⟨c, hc, hp⟩ := mapM_ok_mem' h3 he
    exact enums_reread (regular_child hr (List.mem_filter.mp hc).1) hp
  · injection h3 with h3; subst h3; cases he

theorem field_reread {t : Xml} {f : Field} (hr : Regular t) (h : parseField oc cfg t = .ok f)
    (hn : FieldParts NumbersFit NotBothEnds f) : FieldFits cfg.validateLevel f := by
  obtain ⟨hi, ha⟩ := array_reread hr h hn.2
  obtain ⟨h1, h2, h3⟩ := fieldInfo_reread hr hi
  exact ⟨h1, h2, hn.1, h3, ha⟩

theorem register_reread {t : Xml} {r : Register} (hr : Regular t) (h : parseRegister oc cfg t = .ok r)
    (hn : RegisterParts NumbersFit NotBothEnds r) : RegisterFits cfg.validateLevel r := by
  obtain ⟨hi, ha⟩ := array_reread hr h hn.2
  have hf := hn.1
  suffices hs : ∀ i, parseRegisterInfo oc cfg t = .ok i →
      (∀ l, i.fields = some l → ∀ f ∈ l, FieldParts NumbersFit NotBothEnds f) →
      Text i.name ∧ OptText i.displayName ∧ OptText i.description ∧ OptText i.alternateGroup ∧
      OptText i.alternateRegister ∧ i.fields ≠ some [] ∧
      ∀ l, i.fields = some l → ∀ f ∈ l, FieldFits cfg.validateLevel f by
    obtain ⟨k1, k2, k3, k4, k5, k6, k7⟩ := hs _ hi hf
    exact ⟨k1, k2, k3, k4, k5, k6, k7, ha⟩
  clear hi hf ha hn h
  intro i hi hf
  unfold parseRegisterInfo at hi
  obtain ⟨name, h1, hi⟩ := bind_ok.mp hi
  obtain ⟨dn, h2, hi⟩ := bind_ok.mp hi
  obtain ⟨desc, h3, hi⟩ := bind_ok.mp hi
  obtain ⟨ag, h4, hi⟩ := bind_ok.mp hi
  obtain ⟨ar, h5, hi⟩ := bind_ok.mp hi
  iterate 6 obtain ⟨_, _, hi⟩ := bind_ok.mp hi
  obtain ⟨fs, h6, hi⟩ := bind_ok.mp hi
  unfold RegisterInfoBuilder.build at hi
  obtain ⟨n, hn', hi⟩ := bind_ok.mp hi
  iterate 2 obtain ⟨_, _, hi⟩ := bind_ok.mp hi
  obtain ⟨_, rfl⟩ := validated hi
  injection need_ok hn' with hn'; subst hn'
  refine ⟨req_text hr (by decide) h1, opt_text hr (by decide) h2, opt_text hr (by decide) h3,
    opt_text hr (by decide) h4, opt_text hr (by decide) h5, ?_, ?_⟩
  · rintro rfl
    cases hc : t.getChild "fields" with
    | none => simp only [hc] at h6; cases h6
    | some c =>
      simp only [hc] at h6
      obtain ⟨l, h7, h6⟩ := bind_ok.mp h6
      injection h6 with h6; injection h6 with h6; subst h6
      have hlen := mapM_ok_length h7
      obtain ⟨e, he, he'⟩ := hr.fields c (inside_child (List.mem_of_find?_eq_some hc)) (hasTag_tag (List.find?_some hc))
      have : e ∈ c.children.filter isElement := List.mem_filter.mpr ⟨he, he'⟩
      rw [List.length_eq_zero_iff.mp hlen.symm] at this
      cases this
  · rintro l rfl f hfl
    cases hc : t.getChild "fields" with
    | none => simp only [hc] at h6; cases h6
    | some c =>
      simp only [hc] at h6
      obtain ⟨l', h7, h6⟩ := bind_ok.mp h6
      injection h6 with h6; injection h6 with h6; subst h6
      obtain ⟨e, he, hp⟩ := mapM_ok_mem' h7 hfl
      exact field_reread (regular_child (regular_getChild hr hc) (List.mem_filter.mp he).1) hp (hf _ rfl f hfl)

mutual
theorem rc_reread : ∀ (t : Xml) (c : RegisterCluster), Regular t → parseRegisterCluster oc cfg t = .ok c →
    RcParts NumbersFit NotBothEnds c → RcFits cfg.validateLevel c
  | .elem tag attrs kids, c, hr, h, hn => by
    unfold parseRegisterCluster at h
    split at h
    · obtain ⟨r, h1, h⟩ := bind_ok.mp h
      injection h with h; subst h
      rw [RcParts] at hn
      rw [RcFits]
      exact register_reread hr h1 hn
    · split at h
      · obtain ⟨x, hx, h⟩ := bind_ok.mp h
        injection h with h; subst h
        obtain ⟨hd, dm, ch, hk, hk'⟩ := mk_ofCluster x
        rw [hk] at hn ⊢
        rw [RcParts] at hn
        rw [RcFits]
        have hdm : x.dim? = dm := by rw [← hk']; cases dm <;> rfl
        have hinfo : x.info = { hd with children := ch } := by rw [← hk']; cases dm <;> rfl
        have hb : DimPart NotBothEnds x := by
          rw [← hk']
          cases dm with
          | none => trivial
          | some d => exact hn.1 d rfl
        obtain ⟨hi, ha⟩ := array_reread hr hx hb
        rw [hdm, hinfo] at ha
        rw [hinfo] at hi
        unfold parseClusterInfoWith at hi
        obtain ⟨name, h1, hi⟩ := bind_ok.mp hi
        obtain ⟨desc, h2, hi⟩ := bind_ok.mp hi
        obtain ⟨ac, h3, hi⟩ := bind_ok.mp hi
        obtain ⟨hs, h4, hi⟩ := bind_ok.mp hi
        iterate 2 obtain ⟨_, _, hi⟩ := bind_ok.mp hi
        obtain ⟨cs, h5, hi⟩ := bind_ok.mp hi
        unfold ClusterInfoBuilder.build at hi
        obtain ⟨n, hn', hi⟩ := bind_ok.mp hi
        iterate 2 obtain ⟨_, _, hi⟩ := bind_ok.mp hi
        obtain ⟨cs', hcs, hi⟩ := bind_ok.mp hi
        obtain ⟨_, hi⟩ := validated hi
        injection need_ok hn' with hn'; subst hn'
        injection need_ok hcs with hcs; subst hcs
        have e1 : hd.name = name := (congrArg (fun i => i.toClusterHead.name) hi).symm
        have e2 : hd.description = emptyToNone desc := (congrArg (fun i => i.toClusterHead.description) hi).symm
        have e3 : hd.alternateCluster = emptyToNone ac := (congrArg (fun i => i.toClusterHead.alternateCluster) hi).symm
        have e4 : hd.headerStructName = emptyToNone hs := (congrArg (fun i => i.toClusterHead.headerStructName) hi).symm
        have e5 : ch = cs := (congrArg ClusterInfo.children hi).symm
        subst e5
        refine ⟨⟨?_, ?_, ?_, ?_⟩, ha, kids_reread kids ch (fun k hk => regular_child hr hk) h5 hn.2⟩
        · rw [e1]; exact req_text hr (by decide) h1
        · rw [e2]; exact optText_emptyToNone (opt_text hr (by decide) h2)
        · rw [e3]; exact optText_emptyToNone (opt_text hr (by decide) h3)
        · rw [e4]; exact optText_emptyToNone (opt_text hr (by decide) h4)
      · cases h
  | .text _, c, _, h, _ => by unfold parseRegisterCluster at h; cases h
  | .other, c, _, h, _ => by unfold parseRegisterCluster at h; cases h
theorem kids_reread : ∀ (ts : List Xml) (cs : List RegisterCluster), (∀ t ∈ ts, Regular t) →
    parseClusterKids oc cfg ts = .ok cs → RcsParts NumbersFit NotBothEnds cs → RcsFits cfg.validateLevel cs
  | [], cs, _, h, _ => by unfold parseClusterKids at h; cases h; simp [RcsFits]
  | x :: xs, cs, hr, h, hn => by
    unfold parseClusterKids at h
    split at h
    · obtain ⟨a, ha, h⟩ := bind_ok.mp h
      obtain ⟨r, hr', h⟩ := bind_ok.mp h
      injection h with h; subst h
      rw [RcsParts] at hn
      rw [RcsFits]
      exact ⟨rc_reread x a (hr x (by simp)) ha hn.1,
        kids_reread xs r (fun t ht => hr t (by simp [ht])) hr' hn.2⟩
    · exact kids_reread xs cs (fun t ht => hr t (by simp [ht])) h hn
end

theorem rcsFits_iff {lvl : ValidateLevel} {l : List RegisterCluster} :
    RcsFits lvl l ↔ ∀ c ∈ l, RcFits lvl c := by
  induction l with
  | nil => simp [RcsFits]
  | cons c l ih => simp [RcsFits, ih]

theorem interrupt_reread {t : Xml} {i : Interrupt} (hr : Regular t) (h : parseInterrupt cfg t = .ok i) :
    Text i.name ∧ OptText i.description := by
  unfold parseInterrupt at h
  obtain ⟨_, h⟩ := guard_ok h
  obtain ⟨name, h1, h⟩ := bind_ok.mp h
  obtain ⟨desc, h2, h⟩ := bind_ok.mp h
  obtain ⟨_, _, h⟩ := bind_ok.mp h
  unfold InterruptBuilder.build at h
  obtain ⟨n, hn, h⟩ := bind_ok.mp h
  obtain ⟨_, _, h⟩ := bind_ok.mp h
  obtain ⟨_, rfl⟩ := validated h
  injection need_ok hn with hn; subst hn
  exact ⟨req_text hr (by decide) h1, opt_text hr (by decide) h2⟩

theorem peripheral_reread {t : Xml} {p : Peripheral} (hr : Regular t) (h : parsePeripheral oc cfg t = .ok p)
    (hn : PeripheralParts NumbersFit NotBothEnds p) : PeripheralFits cfg.validateLevel p := by
  obtain ⟨hi, ha⟩ := array_reread hr h hn.2
  have hf := hn.1
  suffices hs : ∀ i, parsePeripheralInfo oc cfg t = .ok i →
      (∀ l, i.registers = some l → RcsParts NumbersFit NotBothEnds l) →
      Text i.name ∧ OptText i.displayName ∧ OptText i.version ∧ OptText i.description ∧
      OptText i.alternatePeripheral ∧ OptText i.groupName ∧ OptText i.prependToName ∧ OptText i.appendToName ∧
      OptText i.headerStructName ∧ i.addressBlock ≠ some [] ∧
      (∀ x ∈ i.interrupt, Text x.name ∧ OptText x.description) ∧
      ∀ l, i.registers = some l → RcsFits cfg.validateLevel l by
    obtain ⟨k1, k2, k3, k4, k5, k6, k7, k8, k9, k10, k11, k12⟩ := hs _ hi hf
    exact ⟨k1, k2, k3, k4, k5, k6, k7, k8, k9, k10, k11, k12, ha⟩
  clear hi hf ha hn h
  intro i hi hf
  unfold parsePeripheralInfo at hi
  obtain ⟨_, hi⟩ := guard_ok hi
  obtain ⟨name, h1, hi⟩ := bind_ok.mp hi
  obtain ⟨v2, h2, hi⟩ := bind_ok.mp hi
  obtain ⟨v3, h3, hi⟩ := bind_ok.mp hi
  obtain ⟨v4, h4, hi⟩ := bind_ok.mp hi
  obtain ⟨v5, h5, hi⟩ := bind_ok.mp hi
  obtain ⟨v6, h6, hi⟩ := bind_ok.mp hi
  obtain ⟨v7, h7, hi⟩ := bind_ok.mp hi
  obtain ⟨v8, h8, hi⟩ := bind_ok.mp hi
  obtain ⟨v9, h9, hi⟩ := bind_ok.mp hi
  iterate 2 obtain ⟨_, _, hi⟩ := bind_ok.mp hi
  obtain ⟨ab, h10, hi⟩ := bind_ok.mp hi
  obtain ⟨is, h11, hi⟩ := bind_ok.mp hi
  obtain ⟨rs, h12, hi⟩ := bind_ok.mp hi
  unfold PeripheralInfoBuilder.build at hi
  obtain ⟨n, hn', hi⟩ := bind_ok.mp hi
  iterate 2 obtain ⟨_, _, hi⟩ := bind_ok.mp hi
  obtain ⟨_, rfl⟩ := validated hi
  injection need_ok hn' with hn'; subst hn'
  refine ⟨req_text hr (by decide) h1, optText_emptyToNone (opt_text hr (by decide) h2),
    optText_emptyToNone (opt_text hr (by decide) h3), optText_emptyToNone (opt_text hr (by decide) h4),
    optText_emptyToNone (opt_text hr (by decide) h5), optText_emptyToNone (opt_text hr (by decide) h6),
    optText_emptyToNone (opt_text hr (by decide) h7), optText_emptyToNone (opt_text hr (by decide) h8),
    optText_emptyToNone (opt_text hr (by decide) h9), ?_, ?_, ?_⟩
  · cases ab with
    | nil => exact nofun
    | cons a l => simp
  · intro x hx
    have hx : x ∈ is := hx
    obtain ⟨c, hc, hp⟩ := mapM_ok_mem' h11 hx
    exact interrupt_reread (regular_child hr (List.mem_filter.mp hc).1) hp
  · rintro l rfl
    cases hc : t.getChild "registers" with
    | none => simp only [hc] at h12; cases h12
    | some c =>
      simp only [hc] at h12
      obtain ⟨l', h13, h12⟩ := bind_ok.mp h12
      injection h12 with h12; injection h12 with h12; subst h12
      rw [rcsFits_iff]
      intro x hx
      obtain ⟨e, he, hp⟩ := mapM_ok_mem' h13 hx
      exact rc_reread e x (regular_child (regular_getChild hr hc) (List.mem_filter.mp he).1) hp
        (rcsParts_iff.mp (hf _ rfl) x hx)

theorem orDefault_text {o : Option Str} {lvl : ValidateLevel} {dflt s : Str} {what : String}
    (h : need (orDefault o lvl dflt) what = .ok s) (ho : OptText o) : Text s ∨ (s = dflt ∧ lvl ≠ .strict) := by
  have h := need_ok h
  cases o with
  | some v => exact .inl (ho s h)
  | none =>
    unfold orDefault at h
    cases lvl
    case strict => cases h
    all_goals
      injection h with h
      exact .inr ⟨h.symm, nofun⟩

/-- **C53.**  A device read from a document in which no text is blank and no list of fields is empty
fulfils the conditions of C26 and C27, if the encoder can write its numbers. -/
theorem C53_parsed_expressible (oc : Bool) (cfg : ParseConfig) (t : Xml) (d : Device) (hr : Regular t)
    (h : parseDevice oc cfg t = .ok d)
    (hn : DeviceParts (fun f => WritableRange f.bitRange) NotBothEnds d) :
    Expressible cfg.validateLevel d := by
  have hv := (C16_validate_all d _).mp (parseDevice_ok h)
  unfold parseDevice at h
  obtain ⟨_, h⟩ := guard_ok h
  obtain ⟨v1, h1, h⟩ := bind_ok.mp h
  obtain ⟨v2, h2, h⟩ := bind_ok.mp h
  obtain ⟨v3, h3, h⟩ := bind_ok.mp h
  obtain ⟨v4, h4, h⟩ := bind_ok.mp h
  obtain ⟨v5, h5, h⟩ := bind_ok.mp h
  obtain ⟨cpu, h6, h⟩ := bind_ok.mp h
  obtain ⟨v7, h7, h⟩ := bind_ok.mp h
  obtain ⟨v8, h8, h⟩ := bind_ok.mp h
  obtain ⟨_, _, h⟩ := bind_ok.mp h
  obtain ⟨pt, h9, h⟩ := bind_ok.mp h
  obtain ⟨ps, h10, h⟩ := bind_ok.mp h
  obtain ⟨v11, h11, h⟩ := bind_ok.mp h
  obtain ⟨v12, h12, h⟩ := bind_ok.mp h
  iterate 2 obtain ⟨_, _, h⟩ := bind_ok.mp h
  unfold DeviceBuilder.build at h
  obtain ⟨name, hname, h⟩ := bind_ok.mp h
  obtain ⟨version, hversion, h⟩ := bind_ok.mp h
  obtain ⟨description, hdescription, h⟩ := bind_ok.mp h
  iterate 3 obtain ⟨_, _, h⟩ := bind_ok.mp h
  obtain ⟨ps', hps, h⟩ := bind_ok.mp h
  obtain ⟨_, rfl⟩ := validated h
  injection need_ok hname with hname; subst hname
  injection need_ok hps with hps; subst hps
  have hpt : t.getChild "peripherals" = some pt := by
    unfold getChildElem at h9
    cases e : t.getChild "peripherals" with
    | none => rw [e] at h9; cases h9
    | some c => rw [e] at h9; injection h9 with h9; rw [h9]
  refine ⟨opt_text hr (by decide) h1, opt_text hr (by decide) h2, req_text hr (by decide) h3,
    opt_text hr (by decide) h4, ?_, orDefault_text hdescription (opt_text hr (by decide) h12),
    opt_text hr (by decide) h5, fun c hc => ?_, opt_text hr (by decide) h7, opt_text hr (by decide) h8,
    fun p hp => ?_, hv⟩
  · rcases orDefault_text hversion (opt_text hr (by decide) h11) with h | ⟨h, _⟩
    · exact h
    · show Text version
      rw [h]; decide
  · obtain ⟨e, he, hp⟩ := optional_ok h6 c hc
    have hr' := regular_getChild hr he
    unfold parseCpu at hp
    obtain ⟨_, hp⟩ := guard_ok hp
    obtain ⟨n, k1, hp⟩ := bind_ok.mp hp
    obtain ⟨r, k2, hp⟩ := bind_ok.mp hp
    iterate 15 obtain ⟨_, _, hp⟩ := bind_ok.mp hp
    unfold CpuBuilder.build at hp
    obtain ⟨n', k3, hp⟩ := bind_ok.mp hp
    obtain ⟨r', k4, hp⟩ := bind_ok.mp hp
    iterate 5 obtain ⟨_, _, hp⟩ := bind_ok.mp hp
    obtain ⟨_, rfl⟩ := validated hp
    injection need_ok k3 with k3; subst k3
    injection need_ok k4 with k4; subst k4
    exact ⟨req_text hr' (by decide) k1, req_text hr' (by decide) k2⟩
  · obtain ⟨e, he, hp'⟩ := mapM_ok_mem' h10 hp
    exact peripheral_reread (regular_child (regular_getChild hr hpt) (List.mem_filter.mp he).1) hp' (hn p hp)

end

/-- **C53.**  A device read from such a document at a level that checks anything is written with the default
configuration, and reading the file, however it is laid out, gives exactly the same device. -/
theorem C53_read_write_read (oc : Bool) (cc : IdentifierFormat → Str → Str) (cfg : ParseConfig)
    (hi : cfg.ignoreEnums = false) (hl : cfg.validateLevel ≠ .disabled) (t : Xml) (d : Device) (hr : Regular t)
    (h : parseDevice oc cfg t = .ok d)
    (hn : DeviceParts (fun f => f.bitRange.offset.toNat + f.bitRange.width.toNat < 2 ^ 32) NotBothEnds d) :
    ∃ x, encodeDevice oc cc {} d = .ok x ∧ ∀ y, Reread x y → parseDevice oc cfg y = .ok d := by
  refine C26_lossless oc cc cfg hi d (C53_parsed_expressible oc cfg t d hr h ?_)
  refine deviceParts_mono (fun f hf => ?_) (fun _ h => h.2) (deviceParts_and (parseDevice_parts h) hn)
  exact ⟨hf.1.resolve_left hl, hf.2⟩

/-! ## Examples -/

mutual
/-- Decides whether a document is regular. -/
def checkRegular : Xml → Bool
  | .elem tag as cs =>
    (!textTags.contains tag || ((Xml.elem tag as cs).textOf.all fun s => s.any fun c => !isWhitespace c)) &&
      (tag != "fields" || cs.any Xml.isElement) && checkRegulars cs
  | _ => true
def checkRegulars : List Xml → Bool
  | [] => true
  | c :: cs => checkRegular c && checkRegulars cs
end

theorem checkRegulars_mem : ∀ (cs : List Xml), checkRegulars cs = true → ∀ c ∈ cs, checkRegular c = true
  | [], _, c, hc => by cases hc
  | x :: xs, h, c, hc => by
    simp only [checkRegulars, Bool.and_eq_true] at h
    rcases List.mem_cons.mp hc with rfl | hc
    · exact h.1
    · exact checkRegulars_mem xs h.2 c hc

theorem check_inside {x t : Xml} (h : Inside x t) (hc : checkRegular t = true) : checkRegular x = true := by
  induction h with
  | self => exact hc
  | child hm _ ih =>
    simp only [checkRegular, Bool.and_eq_true] at hc
    exact ih (checkRegulars_mem _ hc.2 _ hm)

theorem no_tag : "" ∉ textTags := by decide

theorem no_fields : "" ≠ "fields" := by decide

theorem regular_of_check {t : Xml} (h : checkRegular t = true) : Regular t := by
  refine ⟨fun x s hx ht hs => ?_, fun x hx ht => ?_⟩
  · have := check_inside hx h
    cases x with
    | elem tag as cs =>
      have ht : tag ∈ textTags := ht
      simp only [checkRegular, Bool.and_eq_true, hs] at this
      have h1 := this.1.1
      simp [ht] at h1
      obtain ⟨c, hc, hw⟩ := h1
      exact ⟨c, hc, hw⟩
    | text s => exact absurd ht no_tag
    | other => exact absurd ht no_tag
  · have := check_inside hx h
    cases x with
    | elem tag as cs =>
      have ht : tag = "fields" := ht
      subst ht
      simp only [checkRegular, Bool.and_eq_true] at this
      have h1 := this.1.2
      simp at h1
      exact h1
    | text s => exact absurd ht no_fields
    | other => exact absurd ht no_fields

namespace Sample

/-- An element with a text. -/
def textElem (tag s : String) : Xml := .elem tag [] [.text s.toList]

/-- A document with the given elements in the device and in its only register. -/
def document (inDevice inRegister : List Xml) : Xml :=
  .elem "device" [] (inDevice ++
    [textElem "version" " 1.2\n", textElem "description" "test device", textElem "addressUnitBits" "8", textElem "width" "32",
     .elem "peripherals" []
      [.text "\n  ".toList,
       .elem "peripheral" []
        [textElem "name" "UART", textElem "baseAddress" "0x40000000",
         .elem "description" [] [],
         .elem "registers" []
          [.elem "cluster" []
            [textElem "dim" "2", textElem "dimIncrement" "0x10", textElem "dimIndex" " A, B ",
             textElem "name" "CH%s", textElem "description" "\n ch\n annel ", textElem "addressOffset" "0x100",
             .elem "register" [] ([textElem "name" " CTRL ", textElem "addressOffset" "4"] ++ inRegister)]]]]])

/-- Fields in two notations, one with enumerated values. -/
def fieldsElement : Xml :=
  .elem "fields" []
    [.elem "field" [] [textElem "name" "EN", textElem "bitRange" "[3:2]",
      .elem "enumeratedValues" []
        [.elem "enumeratedValue" [] [textElem "name" "ON", textElem "value" "#1x"],
         .elem "enumeratedValue" [] [textElem "name" "OFF", textElem "description" "no", textElem "value" "0"]]],
     .elem "field" [] [textElem "name" "HI", textElem "bitOffset" "8", textElem "bitWidth" "4"]]

/-- A document in no particular layout. -/
def messy : Xml := document [textElem "name" "DEV"] [textElem "displayName" "Control", fieldsElement]

end Sample

/-- Read, write, and read again, at level Disabled. -/
def readTwice (t : Xml) : M (Device × Device) := do
  let d ← parseDevice true { validateLevel := .disabled } t
  let d' ← rewritten {} d
  .ok (d, d')

example : Regular Sample.messy := regular_of_check (by decide +kernel)

section
variable (F : FieldInfo → Prop) (D : DimElement → Prop) [DecidablePred F] [DecidablePred D]

instance {α : Type} (x : MaybeArray α) : Decidable (DimPart D x) :=
  match x with
  | .single _ => .isTrue trivial
  | .array _ d => inferInstanceAs (Decidable (D d))

instance (f : Field) : Decidable (FieldParts F D f) := inferInstanceAs (Decidable (_ ∧ _))

instance (r : Register) : Decidable (RegisterParts F D r) :=
  inferInstanceAs (Decidable ((∀ l, r.info.fields = some l → ∀ f ∈ l, FieldParts F D f) ∧ DimPart D r))

mutual
/-- Decides `RcParts`. -/
def decRcParts : (c : RegisterCluster) → Decidable (RcParts F D c)
  | .register r => decidable_of_iff (RegisterParts F D r) (by rw [RcParts])
  | .cluster _ d cs =>
    have := decRcsParts cs
    decidable_of_iff ((∀ x, d = some x → D x) ∧ RcsParts F D cs) (by rw [RcParts])
/-- Decides `RcsParts`. -/
def decRcsParts : (cs : List RegisterCluster) → Decidable (RcsParts F D cs)
  | [] => .isTrue (by rw [RcsParts]; trivial)
  | c :: cs =>
    have := decRcParts c
    have := decRcsParts cs
    decidable_of_iff (RcParts F D c ∧ RcsParts F D cs) (by rw [RcsParts])
end

instance (l : List RegisterCluster) : Decidable (RcsParts F D l) := decRcsParts F D l

instance (d : Device) : Decidable (DeviceParts F D d) :=
  inferInstanceAs (Decidable (∀ p ∈ d.peripherals,
    (∀ l, p.info.registers = some l → RcsParts F D l) ∧ DimPart D p))

end

/-- Whether a computation succeeds with a certain result. -/
def gives {α : Type} (m : M α) (p : α → Prop) [DecidablePred p] : Bool :=
  match m with
  | .ok a => decide (p a)
  | .error _ => false

theorem gives_ok {α : Type} {m : M α} {p : α → Prop} [DecidablePred p] (h : gives m p = true) :
    ∃ a, m = .ok a ∧ p a := by
  cases m with
  | error => cases h
  | ok a => exact ⟨a, rfl, of_decide_eq_true h⟩

/-- The theorem applies to the document. -/
example : ∃ d, parseDevice true {} Sample.messy = .ok d ∧ ∃ x, encodeDevice true (fun _ s => s) {} d = .ok x ∧
    ∀ y, Reread x y → parseDevice true {} y = .ok d := by
  obtain ⟨d, h, hd⟩ := gives_ok (m := parseDevice true {} Sample.messy)
    (p := DeviceParts (fun f => f.bitRange.offset.toNat + f.bitRange.width.toNat < 2 ^ 32) NotBothEnds)
    (by decide +kernel)
  exact ⟨d, h, C53_read_write_read true _ {} rfl nofun _ d (regular_of_check (by decide +kernel)) h hd⟩

/-- The second reading, computed. -/
example : gives (readTwice Sample.messy) (fun x => x.2 = x.1 ∧
    registerNames x.1 = ["CH%s".toList]) = true := by decide +kernel

open Sample in
/-- **C53**, why blank texts and empty lists of fields are excluded: they are kept when read, but an empty
element is written for them, which is not accepted or read as nothing. -/
theorem C53_conditions_needed :
    (∃ d d', readTwice (document [textElem "name" "DEV", textElem "vendor" " "] []) = .ok (d, d') ∧
      d.vendor = some [] ∧ d'.vendor = none) ∧
    (∃ d, parseDevice true {} (document [textElem "name" "DEV", .elem "cpu" []
        [textElem "name" "CM0", textElem "revision" "\n", textElem "endian" "little", textElem "mpuPresent" "0",
         textElem "fpuPresent" "0", textElem "nvicPrioBits" "4", textElem "vendorSystickConfig" "0"]] []) = .ok d ∧
      ∀ d', rewritten {} d ≠ .ok d') ∧
    (∃ d d', readTwice (document [textElem "name" "DEV"] [.elem "fields" [] []]) = .ok (d, d') ∧ d ≠ d') := by
  refine ⟨?_, ?_, ?_⟩
  · obtain ⟨⟨d, d'⟩, h, hp⟩ := gives_ok
      (m := readTwice (document [textElem "name" "DEV", textElem "vendor" " "] []))
      (p := fun x => x.1.vendor = some [] ∧ x.2.vendor = none) (by decide +kernel)
    exact ⟨d, d', h, hp⟩
  · obtain ⟨d, h, hp⟩ := gives_ok
      (m := parseDevice true {} (document [textElem "name" "DEV", .elem "cpu" []
        [textElem "name" "CM0", textElem "revision" "\n", textElem "endian" "little", textElem "mpuPresent" "0",
         textElem "fpuPresent" "0", textElem "nvicPrioBits" "4", textElem "vendorSystickConfig" "0"]] []))
      (p := fun d => (rewritten {} d).toOption = none) (by decide +kernel)
    refine ⟨d, h, fun d' hd => ?_⟩
    rw [hd] at hp
    cases hp
  · obtain ⟨⟨d, d'⟩, h, hp⟩ := gives_ok
      (m := readTwice (document [textElem "name" "DEV"] [.elem "fields" [] []]))
      (p := fun x => x.1 ≠ x.2) (by decide +kernel)
    exact ⟨d, d', h, hp⟩

-- The hypotheses of `C53_parsed_expressible` can be met.
example : ∃ d, parseDevice true {} Sample.messy = .ok d ∧ Expressible .weak d := by
  obtain ⟨d, h, hd⟩ := gives_ok (m := parseDevice true {} Sample.messy)
    (p := DeviceParts (fun f => WritableRange f.bitRange) NotBothEnds) (by decide +kernel)
  exact ⟨d, h, C53_parsed_expressible true {} _ d (regular_of_check (by decide +kernel)) h hd⟩

end Svd
