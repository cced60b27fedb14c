import Verif.Props.RoundTripDevice

/-!
# The written tree has no empty texts

so the XML reader returns it unchanged (except for an empty device description).
-/

namespace Svd

open Spec Xml

variable {lvl : ValidateLevel} {cc : IdentifierFormat → Str → Str} {cfg : EncConfig} {oc : Bool}

mutual
/-- No empty text nodes at any depth. -/
def Full : Xml → Prop
  | .elem _ _ cs => Fulls cs
  | .text s => s ≠ []
  | .other => True
def Fulls : List Xml → Prop
  | [] => True
  | c :: cs => Full c ∧ Fulls cs
end

theorem asReads_cons {c : Xml} {cs : List Xml} (h : c ≠ .text []) :
    asReads (c :: cs) = asRead c :: asReads cs := by
  rw [asReads]
  intro e; exact h e

mutual
theorem asRead_full : ∀ x : Xml, Full x → asRead x = x
  | .elem t as cs, h => by rw [Full] at h; rw [asRead, asReads_full cs h]
  | .text s, _ => by rw [asRead]
  | .other, _ => by rw [asRead]
theorem asReads_full : ∀ cs : List Xml, Fulls cs → asReads cs = cs
  | [], _ => by rw [asReads]
  | c :: cs, h => by
    rw [Fulls] at h
    have : c ≠ .text [] := by
      rintro rfl
      have h := h.1
      rw [Full] at h
      exact h rfl
    rw [asReads_cons this, asRead_full c h.1, asReads_full cs h.2]
end

theorem fulls_iff (cs : List Xml) : Fulls cs ↔ ∀ c ∈ cs, Full c := by
  induction cs with
  | nil => simp [Fulls]
  | cons c cs ih => rw [Fulls, ih]; simp

theorem fulls_append {a b : List Xml} : Fulls (a ++ b) ↔ Fulls a ∧ Fulls b := by
  simp only [fulls_iff, List.mem_append]
  exact ⟨fun h => ⟨fun c hc => h c (.inl hc), fun c hc => h c (.inr hc)⟩,
    fun h c hc => hc.elim (h.1 c) (h.2 c)⟩

theorem full_newNode {t : String} {s : Str} : Full (newNode t s) ↔ s ≠ [] := by
  unfold newNode
  rw [Full, Fulls, Fulls, Full]
  simp

theorem full_elem {t : String} {as : List (String × Str)} {cs : List Xml} :
    Full (.elem t as cs) ↔ Fulls cs := by rw [Full]

theorem fulls_optNode {α : Type} {o : Option α} {f : α → Xml} :
    Fulls (optNode o f) ↔ ∀ v, o = some v → Full (f v) := by
  cases o with
  | none => simp [optNode, Fulls]
  | some v => simp [optNode, Fulls]

theorem fulls_map {α : Type} {l : List α} {f : α → Xml} :
    Fulls (l.map f) ↔ ∀ v ∈ l, Full (f v) := by
  simp [fulls_iff]

theorem fulls_cons {c : Xml} {cs : List Xml} : Fulls (c :: cs) ↔ Full c ∧ Fulls cs := by rw [Fulls]
theorem fulls_nil : Fulls [] ↔ True := by rw [Fulls]

theorem positional_ne {digit : Char → Nat → Prop} {radix : Nat} {s : Str} {n : Nat}
    (h : Positional digit radix s n) : s ≠ [] := by
  cases h with
  | one _ => exact nofun
  | snoc _ _ => simp

theorem formatNumber_ne {w : Nat} (v : BitVec w) (f : NumberFormat) : formatNumber v f ≠ [] := by
  have h := intLiteral_formatNumber v f
  intro e
  rw [e] at h
  cases h with
  | dec h => cases h with
    | plain h => exact positional_ne h rfl

theorem decString_ne {w : Nat} (v : BitVec w) : decString v ≠ [] := formatNumber_ne v .dec

theorem boolStr_ne (b : Bool) : boolStr b ≠ [] := by cases b <;> exact nofun
theorem access_ne (v : Access) : v.asStr ≠ [] := by cases v <;> exact nofun
theorem protection_ne (v : Protection) : v.asStr ≠ [] := by cases v <;> exact nofun
theorem usage_ne (v : Usage) : v.asStr ≠ [] := by cases v <;> exact nofun
theorem endian_ne (v : Endian) : v.asStr ≠ [] := by cases v <;> exact nofun
theorem readAction_ne (v : ReadAction) : v.asStr ≠ [] := by cases v <;> exact nofun
theorem mwv_ne (v : ModifiedWriteValues) : v.asStr ≠ [] := by cases v <;> exact nofun
theorem dataType_ne (v : DataType) : v.asStr ≠ [] := by cases v <;> exact nofun
theorem abUsage_ne (v : AddressBlockUsage) : v.asStr ≠ [] := by cases v <;> exact nofun

/-- Reduces `Full` of written elements to the texts in them. -/
syntax "fulls" (" [" term,* "]")? : tactic
macro_rules
  | `(tactic| fulls) => `(tactic| fulls [])
  | `(tactic| fulls [$ts,*]) => `(tactic| simp only [full_elem, fulls_append, full_newNode, fulls_optNode,
      fulls_map, fulls_cons, fulls_nil, changeCase_none, ne_eq, formatNumber_ne, decString_ne, boolStr_ne,
      access_ne, protection_ne, usage_ne, endian_ne, readAction_ne, mwv_ne, dataType_ne, abUsage_ne,
      not_false_eq_true, and_true, true_and, implies_true, $[$ts:term],*])

theorem optText_ne {o : Option Str} (h : OptText o) : ∀ v, o = some v → ¬ v = [] := fun v hv => (h v hv).1

theorem full_enumeratedValue (hn : KeepsNames cfg) {e : EnumeratedValue} (h : EnumValueFits e) :
    Full (encodeEnumeratedValue cc cfg e) := by
  unfold encodeEnumeratedValue
  rw [hn.enumeratedValue]
  fulls
  exact ⟨h.1.1, optText_ne h.2⟩

theorem full_enumeratedValues (hn : KeepsNames cfg) {e : EnumeratedValues} (h : EnumsFits e) :
    Full (encodeEnumeratedValues cc cfg e) := by
  unfold encodeEnumeratedValues
  rw [hn.enumeratedValues]
  fulls
  exact ⟨optText_ne h.1, fun v hv => full_enumeratedValue hn (h.2 v hv)⟩

theorem full_dim (hn : KeepsNames cfg) {d : DimElement} (h : DimFits lvl d) {x : Xml}
    (hx : encodeDimElement oc cc cfg d = .ok x) : Full x := by
  unfold encodeDimElement at hx
  obtain ⟨di, hdi, hx⟩ := bind_ok.mp hx
  injection hx with hx; subst hx
  have h1 : Fulls di := by
    cases hl : d.dimIndex with
    | none =>
      unfold encodeDimIndex at hdi
      rw [hl] at hdi
      injection hdi with hdi; subst hdi; rw [Fulls]; trivial
    | some l =>
      obtain ⟨h1, h1', h2, h3, h3'⟩ := h.index l hl
      obtain ⟨y, hy, ht, hr, _⟩ := C06_dim_index_round_trip oc d l hl h2 h1 h1' h3 h3' (h.ends l hl)
      rw [hdi] at hy
      injection hy with hy; subst hy
      unfold encodeDimIndex at hdi
      rw [hl] at hdi
      obtain ⟨s, _, hdi⟩ := bind_ok.mp hdi
      injection hdi with hdi
      injection hdi with hdi
      subst hdi
      fulls
      rintro rfl
      cases hr
  fulls [h1]
  refine ⟨optText_ne h.name, fun a ha => ?_⟩
  unfold encodeDimArrayIndex
  rw [hn.headerEnum]
  fulls
  exact ⟨optText_ne (h.array a ha).1, fun v hv => full_enumeratedValue hn ((h.array a ha).2 v hv).1⟩

theorem full_mergeElem {a b : Xml} (ha : Full a) (hb : Full b) : Full (mergeElem a b) := by
  cases a with
  | elem t as cs =>
    cases b with
    | elem t' bs ds =>
      unfold mergeElem
      rw [full_elem] at ha hb ⊢
      exact fulls_append.mpr ⟨ha, hb⟩
    | text s => exact ha
    | other => exact ha
  | text s => exact ha
  | other => exact ha

theorem full_array (hn : KeepsNames cfg) {tag : String} {name : Str} {dim : Option DimElement} {m : M Xml} {x : Xml}
    (h : ArrayFits lvl name dim) (hm : ∀ y, m = .ok y → Full y)
    (hx : encodeArray oc cc cfg tag dim m = .ok x) : Full x := by
  cases dim with
  | none => exact hm x hx
  | some d =>
    obtain ⟨a, ha, hx⟩ := bind_ok.mp hx
    obtain ⟨y, hy, hx⟩ := bind_ok.mp hx
    injection hx with hx; subst hx
    refine full_mergeElem (full_mergeElem (by fulls) ?_) (hm y hy)
    exact full_dim hn (h d rfl).2 ha

theorem full_writeConstraint (w : WriteConstraint) : Full (encodeWriteConstraint w) := by
  cases w <;> unfold encodeWriteConstraint <;> fulls

theorem fulls_bitRange {br : BitRange} {xs : List Xml} (h : encodeBitRange oc cfg br = .ok xs) :
    Fulls xs := by
  unfold encodeBitRange at h
  split at h
  · obtain ⟨s, hs, h⟩ := bind_ok.mp h
    injection h with h; subst h
    fulls
    unfold BitRange.bitRange at hs
    obtain ⟨_, _, hs⟩ := bind_ok.mp hs
    injection hs with hs; subst hs
    exact nofun
  · obtain ⟨s, _, h⟩ := bind_ok.mp h
    injection h with h; subst h
    fulls
  · injection h with h; subst h
    fulls

theorem fulls_properties (p : RegisterProperties) : Fulls (encodeProperties cfg p) := by
  unfold encodeProperties
  fulls

theorem full_field (hn : KeepsNames cfg) {f : Field} (h : FieldFits lvl f) {x : Xml}
    (hx : encodeField oc cc cfg f = .ok x) : Full x := by
  refine full_array hn h.array (fun y hy => ?_) hx
  obtain ⟨xs, hxs, hy⟩ := bind_ok.mp hy
  injection hy with hy; subst hy
  rw [hn.field]
  fulls [fulls_bitRange hxs, full_writeConstraint]
  exact ⟨⟨h.name.1, optText_ne h.description⟩, fun e he => full_enumeratedValues hn (h.enums e he)⟩

theorem full_register (hn : KeepsNames cfg) {r : Register} (h : RegisterFits lvl r) {x : Xml}
    (hx : encodeRegister oc cc cfg r = .ok x) : Full x := by
  refine full_array hn h.array (fun y hy => ?_) hx
  obtain ⟨xs, hxs, hy⟩ := bind_ok.mp hy
  injection hy with hy; subst hy
  have hf : Fulls xs := by
    unfold encodeFields at hxs
    cases hl : r.info.fields with
    | none => rw [hl] at hxs; injection hxs with hxs; subst hxs; rw [Fulls]; trivial
    | some l =>
      rw [hl] at hxs
      simp only at hxs
      obtain ⟨l', hs, hxs⟩ := bind_ok.mp hxs
      obtain ⟨ys, hm, hxs⟩ := bind_ok.mp hxs
      have hs : sortDerivedFields oc cfg.fieldSorting l = .ok l' := by
        by_cases hc : cfg.fieldSorting = .unchanged none
        · rw [if_pos hc] at hs; rw [hc]; exact hs
        · rwa [if_neg hc] at hs
      have hp := (C28_permutation oc).2.1 _ _ _ hs
      have hys : Fulls ys := by
        rw [fulls_iff]
        intro y hy
        obtain ⟨f, hf, hfy⟩ := mapM_ok_mem' hm hy
        exact full_field hn (h.fields l hl f (hp.mem_iff.mp hf)) hfy
      injection hxs with hxs; subst hxs
      split
      · rw [Fulls]; trivial
      · fulls [hys]
  rw [hn.register]
  fulls [fulls_properties, full_writeConstraint, hf]
  exact ⟨⟨⟨⟨h.name.1, optText_ne h.displayName⟩, optText_ne h.description⟩, optText_ne h.alternateGroup⟩,
    optText_ne h.alternateRegister⟩

mutual
theorem full_rc (hn : KeepsNames cfg) : ∀ (c : RegisterCluster) (x : Xml), RcFits lvl c →
    encodeRegisterCluster oc cc cfg c = .ok x → Full x
  | .register r, x, h, hx => by
    rw [encodeRegisterCluster] at hx
    rw [RcFits] at h
    exact full_register hn h hx
  | .cluster hd d cs, x, h, hx => by
    rw [encodeRegisterCluster] at hx
    rw [RcFits] at h
    refine full_array hn h.2.1 (fun y hy => ?_) hx
    obtain ⟨xs, hxs, hy⟩ := bind_ok.mp hy
    have := full_rcs hn cs xs h.2.2 hxs
    injection hy with hy; subst hy
    rw [hn.cluster]
    fulls [fulls_properties, this]
    exact ⟨⟨⟨h.1.name.1, optText_ne h.1.description⟩, optText_ne h.1.alternateCluster⟩,
      optText_ne h.1.headerStructName⟩
theorem full_rcs (hn : KeepsNames cfg) : ∀ (cs : List RegisterCluster) (xs : List Xml), RcsFits lvl cs →
    encodeRegisterClusters oc cc cfg cs = .ok xs → Fulls xs
  | [], xs, _, hx => by
    rw [encodeRegisterClusters] at hx
    injection hx with hx; subst hx; rw [Fulls]; trivial
  | c :: cs, xs, h, hx => by
    rw [encodeRegisterClusters] at hx
    obtain ⟨y, hy, hx⟩ := bind_ok.mp hx
    obtain ⟨ys, hys, hx⟩ := bind_ok.mp hx
    injection hx with hx; subst hx
    rw [RcsFits] at h
    rw [Fulls]
    exact ⟨full_rc hn c y h.1 hy, full_rcs hn cs ys h.2 hys⟩
end

theorem full_peripheral (hn : KeepsNames cfg) {p : Peripheral} (h : PeripheralFits lvl p) {x : Xml}
    (hx : encodePeripheral oc cc cfg p = .ok x) : Full x := by
  refine full_array hn h.array (fun y hy => ?_) hx
  obtain ⟨xs, hxs, hy⟩ := bind_ok.mp hy
  injection hy with hy; subst hy
  have hf : Fulls xs := by
    unfold encodeRegisters at hxs
    cases hl : p.info.registers with
    | none => rw [hl] at hxs; injection hxs with hxs; subst hxs; rw [Fulls]; trivial
    | some l =>
      rw [hl] at hxs
      simp only at hxs
      obtain ⟨l', hs, hxs⟩ := bind_ok.mp hxs
      obtain ⟨ys, hm, hxs⟩ := bind_ok.mp hxs
      have hp := (C28_permutation oc).2.2 _ _ _ hs
      have hys : Fulls ys := by
        rw [fulls_iff]
        intro y hy
        obtain ⟨f, hf, hfy⟩ := mapM_ok_mem' hm hy
        exact full_rc hn f y ((rcsFits_mem l).mp (h.registers l hl) f (hp.mem_iff.mp hf)) hfy
      injection hxs with hxs; subst hxs
      fulls [hys]
  have hab : ∀ a, Full (encodeAddressBlock cfg a) := by
    intro a; unfold encodeAddressBlock; fulls
  have hin : ∀ i ∈ p.info.interrupt, Full (encodeInterrupt cc cfg i) := by
    intro i hi; unfold encodeInterrupt; rw [hn.interrupt]; fulls
    exact ⟨(h.interrupts i hi).1.1, optText_ne (h.interrupts i hi).2⟩
  rw [hn.peripheral]
  fulls [fulls_properties, hf, hab]
  exact ⟨⟨⟨⟨⟨⟨⟨⟨⟨h.name.1, optText_ne h.displayName⟩, optText_ne h.version⟩, optText_ne h.description⟩,
    optText_ne h.alternatePeripheral⟩, optText_ne h.groupName⟩, optText_ne h.prependToName⟩,
    optText_ne h.appendToName⟩, optText_ne h.headerStructName⟩, hin⟩

theorem full_cpu {c : Cpu} (h1 : Text c.name) (h2 : Text c.revision) : Full (encodeCpu c) := by
  unfold encodeCpu
  fulls
  exact ⟨h1.1, h2.1⟩

end Svd
