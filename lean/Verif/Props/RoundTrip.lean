import Verif.Lemmas.Lookup
import Verif.Props.Dim
import Verif.Props.BitRange
import Verif.Props.Validation
import Verif.Lemmas.Subst

/-!
# Reading back what was written: the parts of a device
-/

namespace Svd

open Spec Xml

variable {pcfg : ParseConfig} {cc : IdentifierFormat → Str → Str} {cfg : EncConfig}

theorem changeCase_none (cc : IdentifierFormat → Str → Str) (s : Str) : changeCase cc s none = s := rfl

theorem emptyToNone_of {o : Option Str} (h : OptText o) : emptyToNone o = o := by
  cases o with
  | none => rfl
  | some s =>
    have := (h s rfl).1
    cases s with
    | nil => exact absurd rfl this
    | cons c cs => rfl

theorem optText_some {s : Str} (h : Text s) : OptText (some s) := by
  intro _ e; injection e with e; exact e ▸ h

/-- Rewrites every lookup in a list of written elements. -/
syntax "looks" (" [" term,* "]")? : tactic
macro_rules
  | `(tactic| looks) => `(tactic| looks [])
  | `(tactic| looks [$ts,*]) => `(tactic| (simp only [getChild_elem, look_append, look_newNode, look_elem,
      look_optNode, look_optNode', look_nil, changeCase_none, look_enumeratedValue,
      look_enumeratedValues, look_addressBlock, look_interrupt, look_dimArrayIndex,
      look_writeConstraint, look_cpu, encodeProperties, String.reduceEq, if_true, if_false,
      Option.or_none, Option.none_or, Option.some_or, Option.map_some, Option.map_none,
      List.append_assoc, List.cons_append, List.nil_append, $[$ts:term],*] <;> rfl))

theorem filter_of_look {k : String} {l : List Xml} (h : look k l = none) : l.filter (hasTag k) = [] := by
  rw [List.filter_eq_nil_iff]
  exact List.find?_eq_none.mp h

theorem filter_map_tag {α : Type} {k : String} {l : List α} {f : α → Xml} (h : ∀ a, hasTag k (f a) = true) :
    (l.map f).filter (hasTag k) = l.map f := by
  rw [List.filter_eq_self]
  intro x hx
  obtain ⟨a, _, rfl⟩ := List.mem_map.mp hx
  exact h a

/-! ## Enumerated values -/

theorem read_enumeratedValue (hn : KeepsNames cfg) {e : EnumeratedValue} (h : EnumValueFits e)
    (hv : e.validate pcfg.validateLevel = .ok ()) :
    parseEnumeratedValue pcfg (encodeEnumeratedValue cc cfg e) = .ok e := by
  unfold parseEnumeratedValue encodeEnumeratedValue
  rw [hn.enumeratedValue]
  simp only [hasTag, beq_self_eq_true, Bool.not_true, Bool.false_eq_true, if_false]
  rw [text_of (by looks) h.1, ok_bind, textOpt_of (by looks) h.2, ok_bind,
    optInt_of (f := cfg.enumeratedValueValue) (by looks), ok_bind]
  have hd : okOnly (getChildBool (.elem "enumeratedValue" []
      ([newNode "name" (changeCase cc e.name none)] ++ optNode e.description (newNode "description") ++
        optNode e.value (fun v => newNode "value" (formatNumber v cfg.enumeratedValueValue)) ++
        optNode e.isDefault fun v => newNode "isDefault" (boolStr v))) "isDefault") = .ok e.isDefault := by
    cases hd : e.isDefault with
    | none =>
      unfold getChildBool getChildElem
      rw [show getChild _ "isDefault" = none by looks]
      rfl
    | some b =>
      rw [bool_of (v := b) (by looks)]
      rfl
  rw [hd, ok_bind]
  unfold EnumeratedValueBuilder.build
  simp only [need, okOr, ok_bind, emptyToNone_of h.2]
  rw [hv, ok_bind]

theorem hasTag_enumeratedValue (e : EnumeratedValue) (k : String) :
    hasTag k (encodeEnumeratedValue cc cfg e) = ("enumeratedValue" == k) := rfl

/-- Reading a list of elements that each read back. -/
theorem mapM_map {α β : Type} {l : List α} {f : α → Xml} {p : Xml → M β} {g : α → β}
    (h : ∀ a ∈ l, p (f a) = .ok (g a)) : (l.map f).mapM p = .ok (l.map g) := by
  induction l with
  | nil => rfl
  | cons a l ih =>
    rw [List.map_cons, mapM_cons, h a (by simp), ok_bind, ih fun b hb => h b (by simp [hb]), ok_bind]
    rfl

theorem mapM_map_id {α : Type} {l : List α} {f : α → Xml} {p : Xml → M α}
    (h : ∀ a ∈ l, p (f a) = .ok a) : (l.map f).mapM p = .ok l := by
  have := mapM_map (g := id) h
  rwa [List.map_id] at this

theorem read_valueList (hn : KeepsNames cfg) {skip : List String} {tag : String}
    {as : List (String × Str)} {pre : List Xml} {l : List EnumeratedValue}
    (hpre : ∀ x ∈ pre, skip.contains x.tag = true) (hskip : skip.contains "enumeratedValue" = false)
    (h : ∀ e ∈ l, EnumValueFits e) (hv : ∀ e ∈ l, e.validate pcfg.validateLevel = .ok ()) :
    parseValueList pcfg skip (.elem tag as (pre ++ l.map (encodeEnumeratedValue cc cfg))) = .ok l := by
  unfold parseValueList
  have h1 : (pre ++ l.map (encodeEnumeratedValue cc cfg)).filter
      (fun c => c.isElement && !skip.contains c.tag) = l.map (encodeEnumeratedValue cc cfg) := by
    rw [List.filter_append, List.filter_eq_nil_iff.mpr fun x hx => by rw [hpre x hx]; simp,
      List.nil_append, List.filter_eq_self.mpr]
    intro x hx
    obtain ⟨e, _, rfl⟩ := List.mem_map.mp hx
    show (true && !skip.contains "enumeratedValue") = true
    rw [hskip]; rfl
  rw [children, h1]
  refine mapM_map_id fun e he => ?_
  rw [hasTag_enumeratedValue, if_pos (by decide)]
  exact read_enumeratedValue hn (h e he) (hv e he)

theorem optNode_tag {α : Type} {o : Option α} {f : α → Xml} {P : Xml → Prop} (h : ∀ v, P (f v)) :
    ∀ x ∈ optNode o f, P x := by
  intro x hx
  cases o with
  | none => cases hx
  | some v => simp only [optNode, List.mem_singleton] at hx; exact hx ▸ h v

theorem attr_derived {tag : String} {o : Option Str} {cs : List Xml} :
    (Xml.elem tag (derivedAttr cc o none) cs).attr "derivedFrom" = o := by
  cases o <;> rfl

theorem read_enumeratedValues (hn : KeepsNames cfg) {e : EnumeratedValues} (h : EnumsFits e)
    (hv : e.validate pcfg.validateLevel = .ok ())
    (hvs : ∀ v ∈ e.values, v.validate pcfg.validateLevel = .ok ()) :
    parseEnumeratedValues pcfg (encodeEnumeratedValues cc cfg e) = .ok e := by
  unfold parseEnumeratedValues encodeEnumeratedValues
  rw [hn.enumeratedValues]
  simp only [hasTag, beq_self_eq_true, Bool.not_true, Bool.false_eq_true, if_false]
  rw [textOpt_of (o := e.name) (by looks) h.1, ok_bind,
    keyword_of C04_usage (o := e.usage) (by looks), ok_bind,
    read_valueList hn ?_ (by decide) h.2 hvs, ok_bind, attr_derived]
  · unfold EnumeratedValuesBuilder.build
    simp only [emptyToNone_of h.1, Option.getD_some]
    rw [hv, ok_bind]
  · intro x hx
    rcases List.mem_append.mp hx with hx | hx
    · exact optNode_tag (P := fun x => ["name", "headerEnumName", "usage"].contains x.tag = true) (fun v => rfl) x hx
    · exact optNode_tag (P := fun x => ["name", "headerEnumName", "usage"].contains x.tag = true) (fun v => rfl) x hx

/-! ## Arrays -/

theorem read_dimArrayIndex (hn : KeepsNames cfg) {a : DimArrayIndex} (h1 : OptText a.headerEnumName)
    (h : ∀ v ∈ a.values, EnumValueFits v ∧ EnumValueValid v pcfg.validateLevel) :
    parseDimArrayIndex pcfg (encodeDimArrayIndex cc cfg a) = .ok a := by
  unfold parseDimArrayIndex encodeDimArrayIndex
  rw [hn.headerEnum]
  rw [textOpt_of (o := a.headerEnumName) (by looks) h1, ok_bind,
    read_valueList hn ?_ (by decide) (fun v hv => (h v hv).1)
      (fun v hv => (C16_parts (.enumValue v) _).mp (h v hv).2), ok_bind]
  exact optNode_tag (P := fun x => ["headerEnumName"].contains x.tag = true) (fun v => rfl)

/-- Only elements of an array description. -/
def DimKids (dk : List Xml) : Prop := ∀ x ∈ dk, dimTags.contains x.tag = true

theorem hasTag_tag {k : String} {x : Xml} (h : hasTag k x = true) : x.tag = k := by
  cases x with
  | elem t as cs => simpa [hasTag, Xml.tag] using h
  | text s => cases h
  | other => cases h

theorem look_dim {dk : List Xml} (hdk : DimKids dk) {k : String} (hk : dimTags.contains k = false) :
    look k dk = none := by
  unfold look
  rw [List.find?_eq_none]
  intro x hx ht
  have := hdk x hx
  rw [hasTag_tag ht, hk] at this
  cases this

theorem skip {dk : List Xml} (hdk : DimKids dk) {k : String} (hk : dimTags.contains k = false)
    {tag : String} {as : List (String × Str)} {cs : List Xml} {r : Option Xml} (h : look k cs = r) :
    getChild (.elem tag as (dk ++ cs)) k = r := by
  rw [getChild_elem, look_append, ← h]
  rw [look_dim hdk hk, Option.none_or]

theorem skip_filter {dk : List Xml} (hdk : DimKids dk) {k : String} (hk : dimTags.contains k = false) :
    dk.filter (hasTag k) = [] :=
  filter_of_look (look_dim hdk hk)

/-- The elements written for an array description read back, whatever follows them. -/
theorem read_dimElement {oc : Bool} (hn : KeepsNames cfg) {d : DimElement}
    (h : DimFits pcfg.validateLevel d) :
    ∃ dk, encodeDimElement oc cc cfg d = .ok (.elem "dimElement" [] dk) ∧ DimKids dk ∧
      look "dimIncrement" dk ≠ none ∧
      ∀ tag as cs, (∀ k, dimTags.contains k = true → look k cs = none) →
        parseDimElement pcfg (.elem tag as (dk ++ cs)) = .ok d := by
  obtain ⟨di, hdi, htag, hread⟩ : ∃ di, encodeDimIndex oc d = .ok di ∧
      (∀ x ∈ di, hasTag "dimIndex" x = true) ∧
      ∃ o : Option Xml, look "dimIndex" di = o ∧
        (match o with | none => .ok none | some c => do let r ← parseDimIndex c; .ok (some r) : M (Option (List Str))) =
          .ok d.dimIndex := by
    cases hl : d.dimIndex with
    | none => exact ⟨[], by simp only [encodeDimIndex, hl], by simp, none, rfl, rfl⟩
    | some l =>
      obtain ⟨h1, h1', h2, h3, h3'⟩ := h.index l hl
      obtain ⟨x, hx, ht, _, hp⟩ := C06_dim_index_round_trip oc d l hl h2 h1 h1' h3 h3' (h.ends l hl)
      refine ⟨[x], hx, by simpa using ht, some x, List.find?_cons_of_pos ht, ?_⟩
      simp only [hp, ok_bind]
  have hdi0 : ∀ k, "dimIndex" ≠ k → look k di = none := by
    intro k hk
    unfold look
    rw [List.find?_eq_none]
    intro x hx ht
    exact hk ((hasTag_tag (htag x hx)).symm.trans (hasTag_tag ht))
  refine ⟨_, by unfold encodeDimElement; rw [hdi, ok_bind], ?_, ?_, ?_⟩
  · intro x hx
    simp only [List.mem_append, List.mem_cons, List.not_mem_nil, or_false] at hx
    rcases hx with (((rfl | rfl) | hx) | hx) | hx
    · rfl
    · rfl
    · rw [hasTag_tag (htag x hx)]; rfl
    · exact optNode_tag (P := fun x => dimTags.contains x.tag = true) (fun v => rfl) x hx
    · exact optNode_tag (P := fun x => dimTags.contains x.tag = true) (fun v => rfl) x hx
  · simp only [look_append, look_newNode, look_nil, String.reduceEq, if_true, if_false, Option.some_or]
    exact nofun
  · intro tag as cs hcs
    unfold parseDimElement
    have e1 := hdi0 "dim" (by decide)
    have e2 := hdi0 "dimIncrement" (by decide)
    have e3 := hdi0 "dimName" (by decide)
    have e4 := hdi0 "dimArrayIndex" (by decide)
    have f1 := hcs "dim" (by decide)
    have f2 := hcs "dimIncrement" (by decide)
    have f3 := hcs "dimName" (by decide)
    have f4 := hcs "dimArrayIndex" (by decide)
    have f5 := hcs "dimIndex" (by decide)
    obtain ⟨o, ho, hread⟩ := hread
    rw [int_of (f := cfg.dimDim) (v := d.dim) (by looks), ok_bind,
      int_of (f := cfg.dimIncrement) (v := d.dimIncrement) (by looks), ok_bind]
    rw [show Xml.optional "dimIndex" _ parseDimIndex = .ok d.dimIndex by
      unfold Xml.optional
      rw [← hread, ← ho]
      simp only [getChild_elem, look_append, look_newNode, look_nil, look_optNode', look_dimArrayIndex, f5,
        String.reduceEq, if_false, Option.none_or, Option.or_none]
      rfl, ok_bind]
    rw [textOpt_of (o := d.dimName) (by
        simp only [getChild_elem, look_append, look_newNode, look_nil, look_optNode', look_dimArrayIndex, f3, e3,
          String.reduceEq, if_false, if_true, Option.none_or, Option.or_none]) h.name, ok_bind,
      optional_of (o := d.dimArrayIndex) (f := encodeDimArrayIndex cc cfg) (by
        simp only [getChild_elem, look_append, look_newNode, look_nil, look_optNode', look_dimArrayIndex, f4, e4,
          String.reduceEq, if_false, if_true, Option.none_or, Option.or_none])
        (fun v hv => read_dimArrayIndex hn (h.array v hv).1 (h.array v hv).2), ok_bind]
    unfold DimElementBuilder.build
    have hi : emptyToNone d.dimIndex = d.dimIndex := by
      cases hl : d.dimIndex with
      | none => rfl
      | some l =>
        have := (h.index l hl).1
        cases l with
        | nil => exact absurd rfl this
        | cons a l => rfl
    simp only [need, okOr, ok_bind, emptyToNone_of h.name, hi]
    rfl

/-- Reading back what `encodeArray` writes, given how to read back the description. -/
theorem read_array {oc : Bool} {α : Type} (hn : KeepsNames cfg) {tag : String} {nm : α → Str}
    {dim : Option DimElement} {as : List (String × Str)} {cs : List Xml} {P : Xml → M α} {i : α}
    {x : Xml} (hx : encodeArray oc cc cfg tag dim (.ok (.elem tag as cs)) = .ok x)
    (hP : ∀ dk, DimKids dk → P (.elem tag as (dk ++ cs)) = .ok i)
    (hcs : ∀ k, dimTags.contains k = true → look k cs = none)
    (h : ArrayFits pcfg.validateLevel (nm i) dim) :
    hasTag tag x = true ∧ parseArray pcfg tag nm x (P x) = .ok (MaybeArray.mk' i dim) := by
  cases dim with
  | none =>
    injection hx with hx; subst hx
    refine ⟨by simp [hasTag], ?_⟩
    unfold parseArray
    have := hP [] (by intro x hx; cases hx)
    rw [List.nil_append] at this
    simp only [hasTag, beq_self_eq_true, Bool.not_true, Bool.false_eq_true, if_false, this, ok_bind,
      getChild_elem, hcs "dimIncrement" (by decide), Option.isSome_none]
    rfl
  | some d =>
    obtain ⟨⟨a, b, hab⟩, hd⟩ := h d rfl
    obtain ⟨dk, hdk, hkids, hinc, hread⟩ := read_dimElement (oc := oc) (cc := cc) hn hd
    unfold encodeArray at hx
    simp only [hdk, ok_bind] at hx
    injection hx with hx
    have hx : x = .elem tag as (dk ++ cs) := by
      rw [← hx]
      simp [mergeElem]
    subst hx
    refine ⟨by simp [hasTag], ?_⟩
    unfold parseArray
    have hsome : ((Xml.elem tag as (dk ++ cs)).getChild "dimIncrement").isSome = true := by
      rw [getChild_elem, look_append]
      cases hl : look "dimIncrement" dk with
      | none => exact absurd hl hinc
      | some y => rfl
    have hph : checkHasPlaceholder (nm i) tag = .ok () := by
      unfold checkHasPlaceholder
      rw [if_pos ((containsSub_iff _ _).mpr ⟨a, b, hab⟩)]
    simp only [hasTag, beq_self_eq_true, Bool.not_true, Bool.false_eq_true, if_false, hP dk hkids, ok_bind,
      hsome, if_true, hread tag as cs hcs, hph]
    cases hl : d.dimIndex with
    | none => rfl
    | some l =>
      simp only
      rw [if_neg (by rw [(hd.index l hl).2.2.1]; simp)]
      rfl

/-! ## Fields -/

theorem read_writeConstraint (w : WriteConstraint) :
    parseWriteConstraint (encodeWriteConstraint w) = .ok w := by
  cases w with
  | writeAsRead b =>
    have := bool_of (x := encodeWriteConstraint (.writeAsRead b)) (k := "writeAsRead") (v := b) rfl
    show (do let b ← getChildBool (encodeWriteConstraint (.writeAsRead b)) "writeAsRead"; .ok (.writeAsRead b) : M WriteConstraint) = _
    rw [this, ok_bind]
  | useEnumeratedValues b =>
    have := bool_of (x := encodeWriteConstraint (.useEnumeratedValues b)) (k := "useEnumeratedValues") (v := b) rfl
    show (do let b ← getChildBool (encodeWriteConstraint (.useEnumeratedValues b)) "useEnumeratedValues"; .ok (.useEnumeratedValues b) : M WriteConstraint) = _
    rw [this, ok_bind]
  | range r =>
    show (do let r ← parseWriteConstraintRange (.elem "range" []
        [newNode "minimum" (decString r.min), newNode "maximum" (decString r.max)]); .ok (.range r) : M WriteConstraint) = _
    unfold parseWriteConstraintRange
    rw [dec_of (v := r.min) (by looks), ok_bind, dec_of (v := r.max) (by looks), ok_bind, ok_bind]

/-- The lookups of register properties in a list of written elements. -/
structure HasProps (cfg : EncConfig) (p : RegisterProperties) (x : Xml) : Prop where
  size : getChild x "size" = p.size.map fun v => newNode "size" (formatNumber v cfg.registerSize)
  access : getChild x "access" = p.access.map fun v => newNode "access" v.asStr
  protection : getChild x "protection" = p.protection.map fun v => newNode "protection" v.asStr
  resetValue : getChild x "resetValue" =
    p.resetValue.map fun v => newNode "resetValue" (formatNumber v cfg.registerResetValue)
  resetMask : getChild x "resetMask" =
    p.resetMask.map fun v => newNode "resetMask" (formatNumber v cfg.registerResetMask)

theorem read_properties {p : RegisterProperties} {x : Xml} (h : HasProps cfg p x)
    (hv : p.validate pcfg.validateLevel = .ok ()) : parseRegisterProperties pcfg x = .ok p := by
  unfold parseRegisterProperties
  rw [optInt_of h.size, ok_bind, keyword_of C04_access h.access, ok_bind,
    keyword_of C04_protection h.protection, ok_bind, optInt_of h.resetValue, ok_bind,
    optInt_of h.resetMask, ok_bind]
  unfold RegisterProperties.build
  rw [hv, ok_bind]

theorem notRange_list {l : List Xml}
    (h : ∀ k ∈ ["bitRange", "lsb", "msb", "bitOffset", "bitWidth"], look k l = none) :
    ∀ x ∈ l, NotRangeElem x := by
  intro x hx k hk
  simpa using List.find?_eq_none.mp (h k hk) x hx

theorem bitRange_tags {oc : Bool} {br : BitRange} {xs : List Xml}
    (h : encodeBitRange oc cfg br = .ok xs) :
    ∀ x ∈ xs, x.tag ∈ ["bitRange", "lsb", "msb", "bitOffset", "bitWidth"] := by
  unfold encodeBitRange at h
  split at h
  · obtain ⟨s, _, h⟩ := bind_ok.mp h
    injection h with h; subst h
    intro x hx; simp only [List.mem_singleton] at hx; subst hx; show "bitRange" ∈ _; decide
  · obtain ⟨s, _, h⟩ := bind_ok.mp h
    injection h with h; subst h
    intro x hx
    simp only [List.mem_cons, List.not_mem_nil, or_false] at hx
    rcases hx with rfl | rfl
    · show "lsb" ∈ _; decide
    · show "msb" ∈ _; decide
  · injection h with h; subst h
    intro x hx
    simp only [List.mem_cons, List.not_mem_nil, or_false] at hx
    rcases hx with rfl | rfl
    · show "bitOffset" ∈ _; decide
    · show "bitWidth" ∈ _; decide

theorem look_bitRange {xs : List Xml}
    (h : ∀ x ∈ xs, x.tag ∈ ["bitRange", "lsb", "msb", "bitOffset", "bitWidth"]) (k : String)
    (hk : k ∉ ["bitRange", "lsb", "msb", "bitOffset", "bitWidth"]) : look k xs = none := by
  unfold look
  rw [List.find?_eq_none]
  intro x hx ht
  exact hk (hasTag_tag ht ▸ h x hx)

theorem read_field {oc : Bool} (hi : pcfg.ignoreEnums = false) (hn : KeepsNames cfg) {f : Field}
    (h : FieldFits pcfg.validateLevel f)
    (hv : ∀ q, FieldHas f.info q → q.Valid pcfg.validateLevel) {x : Xml}
    (hx : encodeField oc cc cfg f = .ok x) :
    hasTag "field" x = true ∧
      parseField oc pcfg x = .ok (f.mapInfo (inNotation cfg.fieldBitRange)) := by
  unfold encodeField at hx
  obtain ⟨xs, hbr, _⟩ := C09_bit_range_round_trip oc cfg f.info.bitRange h.range.1 h.range.2 "" [] [] []
    (by simp) (by simp)
  have hrt := fun tag attrs pre post h1 h2 =>
    C09_bit_range_round_trip oc cfg f.info.bitRange h.range.1 h.range.2 tag attrs pre post h1 h2
  simp only [hbr] at hrt
  have htags := bitRange_tags hbr
  unfold encodeFieldInfo at hx
  rw [hbr, ok_bind, hn.field] at hx
  have hl := look_bitRange htags
  have l1 := hl "name" (by decide)
  have l2 := hl "description" (by decide)
  have l3 := hl "access" (by decide)
  have l4 := hl "modifiedWriteValues" (by decide)
  have l5 := hl "writeConstraint" (by decide)
  have l6 := hl "readAction" (by decide)
  have l7 := hl "enumeratedValues" (by decide)
  have hmk : f.mapInfo (inNotation cfg.fieldBitRange) =
      MaybeArray.mk' (inNotation cfg.fieldBitRange f.info) f.dim? := by cases f <;> rfl
  rw [hmk]
  refine read_array hn hx (fun dk hdk => ?_) (fun k hk => ?_) h.array
  · unfold parseFieldInfo
    simp only [hasTag, beq_self_eq_true, Bool.not_true, Bool.false_eq_true, if_false]
    rw [show parseBitRange oc _ = .ok (inNotation cfg.fieldBitRange f.info).bitRange by
      have := hrt "field" (derivedAttr cc f.info.derivedFrom none)
        (dk ++ ([newNode "name" (changeCase cc f.info.name none)] ++
          optNode f.info.description (newNode "description")))
        (optNode f.info.access (fun v => newNode "access" v.asStr) ++
          optNode f.info.modifiedWriteValues (fun v => newNode "modifiedWriteValues" v.asStr) ++
          optNode f.info.writeConstraint encodeWriteConstraint ++
          optNode f.info.readAction (fun v => newNode "readAction" v.asStr) ++
          f.info.enumeratedValues.map (encodeEnumeratedValues cc cfg))
        (notRange_list fun k hk => by
          simp only [List.mem_cons, List.not_mem_nil, or_false] at hk
          rcases hk with rfl | rfl | rfl | rfl | rfl <;>
            exact skip (tag := "") (as := []) hdk (by decide) (by looks))
        (notRange_list fun k hk => by
          simp only [List.mem_cons, List.not_mem_nil, or_false] at hk
          rcases hk with rfl | rfl | rfl | rfl | rfl <;> looks)
      obtain ⟨_, e, this⟩ := this
      injection e with e; subst e
      simpa only [List.append_assoc, inNotation] using this, ok_bind]
    rw [text_of (skip hdk (by decide) (by looks)) h.name, ok_bind,
      textOpt_of (o := f.info.description) (skip hdk (by decide) (by looks [l2])) h.description, ok_bind,
      keyword_of C04_access (o := f.info.access) (skip hdk (by decide) (by looks [l3])), ok_bind,
      keyword_of C04_modifiedWriteValues (o := f.info.modifiedWriteValues)
        (skip hdk (by decide) (by looks [l4])), ok_bind]
    rw [hi]
    simp only [Bool.not_false, if_true]
    rw [optional_of (o := f.info.writeConstraint) (f := encodeWriteConstraint)
        (skip hdk (by decide) (by looks [l5])) (fun v _ => read_writeConstraint v), ok_bind,
      keyword_of C04_readAction (o := f.info.readAction) (skip hdk (by decide) (by looks [l6])), ok_bind]
    rw [children, List.filter_append, skip_filter hdk (by decide), List.nil_append, List.filter_append,
      filter_of_look (by looks [l7]), List.nil_append, filter_map_tag (fun _ => rfl),
      mapM_map_id fun e he => read_enumeratedValues hn (h.enums e he)
        ((C16_parts (.enums e) _).mp (hv _ (.enums he)))
        (fun v hve => (C16_parts (.enumValue v) _).mp (hv _ (.enumValue he hve))), ok_bind, attr_derived]
    unfold FieldInfoBuilder.build FieldInfoBuilder.setBitRange
    simp only [need, okOr, ok_bind, emptyToNone_of h.description, Option.getD_some]
    have : (inNotation cfg.fieldBitRange f.info).validate pcfg.validateLevel = .ok () :=
      (C16_parts (.field f.info) _).mp (hv _ .self)
    erw [this]
    rfl
  · have : k ∈ dimTags := by simpa using hk
    simp only [dimTags, List.mem_cons, List.not_mem_nil, or_false] at this
    rcases this with rfl | rfl | rfl | rfl | rfl
    · looks [hl "dim" (by decide)]
    · looks [hl "dimIncrement" (by decide)]
    · looks [hl "dimIndex" (by decide)]
    · looks [hl "dimName" (by decide)]
    · looks [hl "dimArrayIndex" (by decide)]

end Svd
