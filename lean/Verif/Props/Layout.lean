import Verif.Lemmas.Canon
import Verif.Spec.Sample

/-!
# C30: layout, comments and unknown elements do not matter
-/

namespace Svd

open Spec Xml

section parsers

variable (oc : Bool) (cfg : ParseConfig)

theorem elem_of_hasTag {k : String} {x : Xml} (h : x.hasTag k = true) :
    ∃ as cs, x = .elem k as cs := by
  cases x with
  | elem t as cs => exact ⟨as, cs, by simpa [hasTag] using h⟩
  | text s => simp [hasTag] at h
  | other => simp [hasTag] at h

theorem canon_access {k : String} (h : leaf k = true) {c : Xml} (hc : c.hasTag k = true) :
    parseAccess (canon c) = parseAccess c := canon_parseKeyword h _ _ hc
theorem canon_protection {k : String} (h : leaf k = true) {c : Xml} (hc : c.hasTag k = true) :
    parseProtection (canon c) = parseProtection c := canon_parseKeyword h _ _ hc

theorem canon_properties {tag : String} (h : propertyTags.all (visible tag) = true)
    (as : List (String × Str)) (cs : List Xml) :
    parseRegisterProperties cfg (canon (.elem tag as cs)) =
      parseRegisterProperties cfg (.elem tag as cs) := by
  simp only [propertyTags, List.all_cons, List.all_nil, Bool.and_true, Bool.and_eq_true] at h
  obtain ⟨h1, h2, h3, h4, h5⟩ := h
  unfold parseRegisterProperties
  rw [canon_optional h1 _ _ _ fun c hc => canon_parseInt rfl 32 hc,
    canon_optional h2 _ _ _ fun c hc => canon_access rfl hc,
    canon_optional h3 _ _ _ fun c hc => canon_protection rfl hc,
    canon_optional h4 _ _ _ fun c hc => canon_parseInt rfl 64 hc,
    canon_optional h5 _ _ _ fun c hc => canon_parseInt rfl 64 hc]

theorem canon_enumeratedValue (x : Xml) :
    parseEnumeratedValue cfg (canon x) = parseEnumeratedValue cfg x := by
  unfold parseEnumeratedValue
  rw [canon_hasTag]
  by_cases h : x.hasTag "enumeratedValue" = true
  · obtain ⟨as, cs, rfl⟩ := elem_of_hasTag h
    rw [canon_getChildText rfl rfl, canon_getChildTextOpt rfl rfl, canon_getChildBool rfl rfl,
      canon_optional rfl _ _ _ fun c hc => canon_parseInt rfl 64 hc]
  · simp [h]

theorem canon_valueList {tag : String} (h : listTags.contains tag = true) {skip : List String}
    (hs : skip = headTags tag) (as : List (String × Str)) (cs : List Xml) :
    parseValueList cfg skip (canon (.elem tag as cs)) = parseValueList cfg skip (.elem tag as cs) := by
  subst hs
  unfold parseValueList
  rw [canon_elements h, List.mapM_map]
  apply mapM_congr
  intro c _
  simp only [Function.comp_apply, canon_hasTag, canon_enumeratedValue]

theorem canon_enumeratedValues (x : Xml) :
    parseEnumeratedValues cfg (canon x) = parseEnumeratedValues cfg x := by
  unfold parseEnumeratedValues
  rw [canon_hasTag]
  by_cases h : x.hasTag "enumeratedValues" = true
  · obtain ⟨as, cs, rfl⟩ := elem_of_hasTag h
    rw [canon_getChildTextOpt rfl rfl, canon_valueList (tag := "enumeratedValues") cfg rfl
      (skip := ["name", "headerEnumName", "usage"]) rfl, canon_attr _ _ rfl,
      canon_optional rfl _ _ parseUsage fun c hc => canon_parseKeyword rfl _ _ hc]
  · simp [h]

theorem canon_dimArrayIndex {x : Xml} (h : x.hasTag "dimArrayIndex" = true) :
    parseDimArrayIndex cfg (canon x) = parseDimArrayIndex cfg x := by
  obtain ⟨as, cs, rfl⟩ := elem_of_hasTag h
  unfold parseDimArrayIndex
  rw [canon_getChildTextOpt rfl rfl, canon_valueList (tag := "dimArrayIndex") cfg rfl (skip := ["headerEnumName"]) rfl]

theorem canon_dimElement {tag : String} (h : dimTags.all (visible tag) = true)
    (as : List (String × Str)) (cs : List Xml) :
    parseDimElement cfg (canon (.elem tag as cs)) = parseDimElement cfg (.elem tag as cs) := by
  simp only [dimTags, List.all_cons, List.all_nil, Bool.and_true, Bool.and_eq_true] at h
  obtain ⟨h1, h2, h3, h4, h5⟩ := h
  unfold parseDimElement
  rw [canon_getChildInt h1 rfl, canon_getChildInt h2 rfl, canon_getChildTextOpt h4 rfl,
    canon_optional h5 _ _ _ fun c hc => canon_dimArrayIndex cfg hc,
    canon_optional h3 _ _ _ fun c hc => by unfold parseDimIndex; rw [canon_getText rfl hc]]

theorem canon_array {α : Type} {tag : String} (h : dimTags.all (visible tag) = true)
    (nm : α → Str) (x : Xml) (i j : M α) (hi : x.hasTag tag = true → i = j) :
    parseArray cfg tag nm (canon x) i = parseArray cfg tag nm x j := by
  unfold parseArray
  rw [canon_hasTag]
  by_cases ht : x.hasTag tag = true
  · rw [hi ht]
    obtain ⟨as, cs, rfl⟩ := elem_of_hasTag ht
    rw [canon_dimElement cfg h]
    have hv : visible tag "dimIncrement" = true := by
      simp only [dimTags, List.all_cons, List.all_nil, Bool.and_true, Bool.and_eq_true] at h
      exact h.2.1
    rw [canon_getChild hv]
    simp only [Option.isSome_map]
  · simp [ht]

theorem canon_bitRange (as : List (String × Str)) (cs : List Xml) :
    parseBitRange oc (canon (.elem "field" as cs)) = parseBitRange oc (.elem "field" as cs) := by
  unfold parseBitRange
  rw [canon_getChild rfl, canon_getChild rfl, canon_getChild rfl, canon_getChild rfl,
    canon_getChild rfl]
  cases h1 : (Xml.elem "field" as cs).getChild "bitRange" with
  | some r =>
    simp only [Option.map_some]
    rw [canon_textOf rfl (getChild_hasTag h1)]
  | none =>
    simp only [Option.map_none]
    have hrest : (match ((Xml.elem "field" as cs).getChild "bitOffset").map canon,
          ((Xml.elem "field" as cs).getChild "bitWidth").map canon with
        | some offset, some width => (do
          let o ← mapErr (parseInt 32 offset) (.invalidBitRange .parseError)
          let w ← mapErr (parseInt 32 width) (.invalidBitRange .parseError)
          .ok { offset := o, width := w, rangeType := .offsetWidth } : M BitRange)
        | _, _ => fail (.invalidBitRange .syntax)) =
        (match (Xml.elem "field" as cs).getChild "bitOffset",
          (Xml.elem "field" as cs).getChild "bitWidth" with
        | some offset, some width => (do
          let o ← mapErr (parseInt 32 offset) (.invalidBitRange .parseError)
          let w ← mapErr (parseInt 32 width) (.invalidBitRange .parseError)
          .ok { offset := o, width := w, rangeType := .offsetWidth } : M BitRange)
        | _, _ => fail (.invalidBitRange .syntax)) := by
      cases h4 : (Xml.elem "field" as cs).getChild "bitOffset" with
      | none => rfl
      | some o =>
        cases h5 : (Xml.elem "field" as cs).getChild "bitWidth" with
        | none => rfl
        | some w =>
          simp only [Option.map_some]
          rw [canon_parseInt rfl 32 (getChild_hasTag h4), canon_parseInt rfl 32 (getChild_hasTag h5)]
    cases h2 : (Xml.elem "field" as cs).getChild "lsb" with
    | none => exact hrest
    | some l =>
      cases h3 : (Xml.elem "field" as cs).getChild "msb" with
      | none => exact hrest
      | some m =>
        simp only [Option.map_some]
        rw [canon_parseInt rfl 32 (getChild_hasTag h2), canon_parseInt rfl 32 (getChild_hasTag h3)]

theorem canon_range {x : Xml} (h : x.hasTag "range" = true) :
    parseWriteConstraintRange (canon x) = parseWriteConstraintRange x := by
  obtain ⟨as, cs, rfl⟩ := elem_of_hasTag h
  unfold parseWriteConstraintRange
  rw [canon_getChildInt rfl rfl, canon_getChildInt rfl rfl]

theorem canon_writeConstraint {x : Xml} (h : x.hasTag "writeConstraint" = true) :
    parseWriteConstraint (canon x) = parseWriteConstraint x := by
  obtain ⟨as, cs, rfl⟩ := elem_of_hasTag h
  unfold parseWriteConstraint
  rw [canon_elements' rfl rfl]
  simp only [children]
  cases hf : cs.filter isElement with
  | nil => rfl
  | cons c rest =>
    simp only [List.map_cons, canon_tag, List.isEmpty_map]
    rw [canon_getChildBool rfl rfl, canon_getChildBool rfl rfl]
    have hr : ((canon (.elem "writeConstraint" as cs)).getChildElem "range" >>= fun e => do
        let r ← parseWriteConstraintRange e
        (.ok (.range r) : M WriteConstraint)) =
        ((Xml.elem "writeConstraint" as cs).getChildElem "range" >>= fun e => do
        let r ← parseWriteConstraintRange e
        (.ok (.range r) : M WriteConstraint)) :=
      canon_getChildElem rfl as cs _ fun c hc => by rw [canon_range hc]
    rw [hr]

theorem canon_fieldInfo {x : Xml} (h : x.hasTag "field" = true) :
    parseFieldInfo oc cfg (canon x) = parseFieldInfo oc cfg x := by
  obtain ⟨as, cs, rfl⟩ := elem_of_hasTag h
  unfold parseFieldInfo
  rw [canon_hasTag, canon_bitRange, canon_getChildText rfl rfl, canon_getChildTextOpt rfl rfl,
    canon_optional rfl _ _ _ fun c hc => canon_access rfl hc,
    canon_optional rfl _ _ parseModifiedWriteValues fun c hc => canon_parseKeyword rfl _ _ hc,
    canon_optional rfl _ _ _ fun c hc => canon_writeConstraint hc,
    canon_optional rfl _ _ parseReadAction fun c hc => canon_parseKeyword rfl _ _ hc,
    canon_mapM rfl _ _ _ fun c _ => canon_enumeratedValues cfg c, canon_attr _ _ rfl]

theorem canon_field (x : Xml) : parseField oc cfg (canon x) = parseField oc cfg x :=
  canon_array cfg (by decide) _ x _ _ fun h => canon_fieldInfo oc cfg h

/-- All elements of a list container, parsed in order. -/
theorem canon_items {α : Type} {tag : String} (h : listTags.contains tag = true)
    (hh : headTags tag = []) {x : Xml}
    (hx : x.hasTag tag = true) (p : Xml → M α) (hp : ∀ c, p (canon c) = p c) :
    ((canon x).children.filter isElement).mapM p = (x.children.filter isElement).mapM p := by
  obtain ⟨as, cs, rfl⟩ := elem_of_hasTag hx
  rw [canon_elements' h hh, List.mapM_map]
  exact mapM_congr fun c _ => hp c

theorem canon_registerInfo {x : Xml} (h : x.hasTag "register" = true) :
    parseRegisterInfo oc cfg (canon x) = parseRegisterInfo oc cfg x := by
  obtain ⟨as, cs, rfl⟩ := elem_of_hasTag h
  unfold parseRegisterInfo
  rw [canon_getChildText rfl rfl, canon_getChildTextOpt rfl rfl, canon_getChildTextOpt rfl rfl,
    canon_getChildTextOpt rfl rfl, canon_getChildTextOpt rfl rfl, canon_getChildInt rfl rfl,
    canon_properties cfg (by decide),
    canon_optional rfl _ _ parseDataType fun c hc => canon_parseKeyword rfl _ _ hc,
    canon_optional rfl _ _ parseModifiedWriteValues fun c hc => canon_parseKeyword rfl _ _ hc,
    canon_optional rfl _ _ _ fun c hc => canon_writeConstraint hc,
    canon_optional rfl _ _ parseReadAction fun c hc => canon_parseKeyword rfl _ _ hc,
    canon_attr _ _ rfl, canon_getChild rfl]
  cases hc : (Xml.elem "register" as cs).getChild "fields" with
  | none => rfl
  | some c =>
    simp only [Option.map_some]
    rw [canon_items rfl rfl (getChild_hasTag hc) _ (canon_field oc cfg)]

theorem canon_register (x : Xml) : parseRegister oc cfg (canon x) = parseRegister oc cfg x :=
  canon_array cfg (by decide) _ x _ _ fun h => canon_registerInfo oc cfg h

theorem canon_clusterInfo {x : Xml} (h : x.hasTag "cluster" = true) (k : M (List RegisterCluster)) :
    parseClusterInfoWith cfg (canon x) k = parseClusterInfoWith cfg x k := by
  obtain ⟨as, cs, rfl⟩ := elem_of_hasTag h
  unfold parseClusterInfoWith
  rw [canon_getChildText rfl rfl, canon_getChildTextOpt rfl rfl, canon_getChildTextOpt rfl rfl,
    canon_getChildTextOpt rfl rfl, canon_getChildInt rfl rfl, canon_properties cfg (by decide),
    canon_attr _ _ rfl]

/-- The children of a cluster that matter. -/
theorem clusterKids_filter (cs : List Xml) :
    parseClusterKids oc cfg cs =
      (cs.filter fun c => c.hasTag "register" || c.hasTag "cluster").mapM
        (parseRegisterCluster oc cfg) := by
  induction cs with
  | nil => simp [parseClusterKids]; rfl
  | cons c cs ih =>
    unfold parseClusterKids
    by_cases h : (c.hasTag "register" || c.hasTag "cluster") = true
    · rw [if_pos h, List.filter_cons_of_pos (by exact h), mapM_cons, ih]
    · rw [if_neg h, List.filter_cons_of_neg (by exact h), ih]

mutual
theorem canon_rc : (x : Xml) →
    parseRegisterCluster oc cfg (canon x) = parseRegisterCluster oc cfg x
  | .text s => rfl
  | .other => rfl
  | .elem tag as cs => by
    have hk : tag = "cluster" → parseClusterKids oc cfg (canon (.elem tag as cs)).children =
        parseClusterKids oc cfg cs := by
      intro ht
      subst ht
      rw [clusterKids_filter, clusterKids_filter oc cfg cs, ← canon_rcs cs]
      simp only [canon, children, canons_eq]
      have hf : (keep "cluster" (cs.map canon)).filter
            (fun c => c.hasTag "register" || c.hasTag "cluster") =
          (cs.map canon).filter fun c => c.hasTag "register" || c.hasTag "cluster" := by
        unfold keep
        rw [if_neg (by decide)]
        show List.filter _ (arrange "cluster" _) = _
        rw [arrange_filter (i := "register") (by decide) (fun c hc => by
          rcases Bool.or_eq_true _ _ ▸ hc with hc | hc <;> rw [(hasTag_parts hc).2] <;> decide),
          List.filter_filter]
        apply List.filter_congr
        intro c _
        cases c with
        | text s => rfl
        | other => rfl
        | elem t a k =>
          simp only [hasTag, isElement, Xml.tag, Bool.true_and]
          by_cases h1 : t = "register"
          · subst h1; rfl
          · by_cases h2 : t = "cluster"
            · subst h2; rfl
            · simp [h1, h2]
      rw [hf, List.filter_map]
      have hg : (fun c : Xml => c.hasTag "register" || c.hasTag "cluster") ∘ canon =
          fun c : Xml => c.hasTag "register" || c.hasTag "cluster" := by funext c; simp
      rw [hg]
    have hreg := canon_register oc cfg (.elem tag as cs)
    have hinfo : ∀ k, Xml.hasTag "cluster" (.elem tag as cs) = true →
        parseClusterInfoWith cfg (canon (.elem tag as cs)) k =
          parseClusterInfoWith cfg (.elem tag as cs) k := fun k h => canon_clusterInfo cfg h k
    have harr : tag = "cluster" → ∀ k k', k = k' →
        parseArray cfg "cluster" (fun c : ClusterInfo => c.name) (canon (.elem tag as cs))
          (parseClusterInfoWith cfg (canon (.elem tag as cs)) k) =
        parseArray cfg "cluster" (fun c : ClusterInfo => c.name) (.elem tag as cs)
          (parseClusterInfoWith cfg (.elem tag as cs) k') := by
      intro _ k k' hk
      subst hk
      exact canon_array cfg (by decide) _ _ _ _ (hinfo k)
    generalize hy : canon (.elem tag as cs) = y at *
    have hyt : ∃ as' cs', y = .elem tag as' cs' := ⟨_, _, by rw [← hy]; rfl⟩
    obtain ⟨as', cs', rfl⟩ := hyt
    unfold parseRegisterCluster
    by_cases h1 : tag = "register"
    · rw [if_pos h1, if_pos h1, hreg]
    · rw [if_neg h1, if_neg h1]
      by_cases h2 : tag = "cluster"
      · rw [if_pos h2, if_pos h2]
        simp only [children] at hk
        rw [harr h2 _ _ (hk h2)]
      · rw [if_neg h2, if_neg h2]
theorem canon_rcs : (cs : List Xml) →
    ((cs.filter fun c => c.hasTag "register" || c.hasTag "cluster").map canon).mapM
        (parseRegisterCluster oc cfg) =
      (cs.filter fun c => c.hasTag "register" || c.hasTag "cluster").mapM
        (parseRegisterCluster oc cfg)
  | [] => rfl
  | c :: cs => by
    by_cases h : (c.hasTag "register" || c.hasTag "cluster") = true
    · rw [List.filter_cons_of_pos (by exact h), List.map_cons, mapM_cons, mapM_cons, canon_rc c,
        canon_rcs cs]
    · rw [List.filter_cons_of_neg (by exact h), canon_rcs cs]
end

theorem canon_addressBlock {x : Xml} (h : x.hasTag "addressBlock" = true) :
    parseAddressBlock cfg (canon x) = parseAddressBlock cfg x := by
  obtain ⟨as, cs, rfl⟩ := elem_of_hasTag h
  unfold parseAddressBlock
  rw [canon_getChildInt rfl rfl, canon_getChildInt rfl rfl,
    canon_optional rfl _ _ _ fun c hc => canon_protection rfl hc]
  congr 1; funext o; congr 1; funext s
  exact canon_getChildElem rfl as cs _ fun c hc => by
    have : parseAddressBlockUsage (canon c) = parseAddressBlockUsage c :=
      canon_parseKeyword rfl _ _ hc
    rw [this]

theorem canon_interrupt (x : Xml) : parseInterrupt cfg (canon x) = parseInterrupt cfg x := by
  unfold parseInterrupt
  rw [canon_hasTag]
  by_cases h : x.hasTag "interrupt" = true
  · obtain ⟨as, cs, rfl⟩ := elem_of_hasTag h
    rw [canon_getChildText rfl rfl, canon_getChildTextOpt rfl rfl, canon_getChildInt rfl rfl]
  · simp [h]

theorem canon_peripheralInfo {x : Xml} (h : x.hasTag "peripheral" = true) :
    parsePeripheralInfo oc cfg (canon x) = parsePeripheralInfo oc cfg x := by
  obtain ⟨as, cs, rfl⟩ := elem_of_hasTag h
  unfold parsePeripheralInfo
  rw [canon_hasTag, canon_getChildText rfl rfl, canon_getChildTextOpt rfl rfl,
    canon_getChildTextOpt rfl rfl, canon_getChildTextOpt rfl rfl, canon_getChildTextOpt rfl rfl,
    canon_getChildTextOpt rfl rfl, canon_getChildTextOpt rfl rfl, canon_getChildTextOpt rfl rfl,
    canon_getChildTextOpt rfl rfl, canon_getChildInt rfl rfl, canon_properties cfg (by decide),
    canon_mapM rfl _ _ _ fun c hc => canon_addressBlock cfg hc,
    canon_mapM rfl _ _ _ fun c _ => canon_interrupt cfg c,
    canon_attr _ _ rfl, canon_getChild rfl]
  cases hc : (Xml.elem "peripheral" as cs).getChild "registers" with
  | none => rfl
  | some c =>
    simp only [Option.map_some]
    rw [canon_items rfl rfl (getChild_hasTag hc) _ (canon_rc oc cfg)]

theorem canon_peripheral (x : Xml) : parsePeripheral oc cfg (canon x) = parsePeripheral oc cfg x :=
  canon_array cfg (by decide) _ x _ _ fun h => canon_peripheralInfo oc cfg h

theorem canon_cpu (x : Xml) : parseCpu cfg (canon x) = parseCpu cfg x := by
  unfold parseCpu
  rw [canon_hasTag]
  by_cases h : x.hasTag "cpu" = true
  · obtain ⟨as, cs, rfl⟩ := elem_of_hasTag h
    have hb : ∀ k, visible "cpu" k = true → leaf k = true →
        Xml.optional k (canon (.elem "cpu" as cs)) parseBool =
          Xml.optional k (.elem "cpu" as cs) parseBool :=
      fun k hv hl => canon_optional hv _ _ _ fun c hc => canon_parseBool hl hc
    have hi : ∀ k, visible "cpu" k = true → leaf k = true →
        Xml.optional k (canon (.elem "cpu" as cs)) (parseInt 32) =
          Xml.optional k (.elem "cpu" as cs) (parseInt 32) :=
      fun k hv hl => canon_optional hv _ _ _ fun c hc => canon_parseInt hl 32 hc
    rw [canon_getChildText rfl rfl, canon_getChildText rfl rfl, canon_getChildBool rfl rfl,
      canon_getChildBool rfl rfl, hb _ rfl rfl, hb _ rfl rfl, hb _ rfl rfl, hb _ rfl rfl,
      hb _ rfl rfl, hb _ rfl rfl, hb _ rfl rfl, canon_getChildInt rfl rfl,
      canon_getChildBool rfl rfl, hi _ rfl rfl, hi _ rfl rfl]
    simp only [h, Bool.not_true, Bool.false_eq_true, if_false]
    refine bind_congr fun _ => bind_congr fun _ => ?_
    exact canon_getChildElem rfl as cs _ fun c hc => by
      have : parseEndian (canon c) = parseEndian c := canon_parseKeyword rfl _ _ hc
      rw [this]
  · simp [h]

theorem canon_device (x : Xml) : parseDevice oc cfg (canon x) = parseDevice oc cfg x := by
  unfold parseDevice
  rw [canon_hasTag]
  by_cases h : x.hasTag "device" = true
  · obtain ⟨as, cs, rfl⟩ := elem_of_hasTag h
    have hi : ∀ k, visible "device" k = true → leaf k = true →
        Xml.optional k (canon (.elem "device" as cs)) (parseInt 32) =
          Xml.optional k (.elem "device" as cs) (parseInt 32) :=
      fun k hv hl => canon_optional hv _ _ _ fun c hc => canon_parseInt hl 32 hc
    rw [canon_getChildTextOpt rfl rfl, canon_getChildTextOpt rfl rfl, canon_getChildText rfl rfl,
      canon_getChildTextOpt rfl rfl, canon_getChildTextOpt rfl rfl,
      canon_optional rfl _ _ _ fun c _ => canon_cpu cfg c, canon_getChildTextOpt rfl rfl,
      canon_getChildTextOpt rfl rfl, canon_properties cfg (by decide),
      canon_getChildTextOpt rfl rfl, canon_getChildTextOpt rfl rfl, hi _ rfl rfl, hi _ rfl rfl,
      canon_attr _ _ rfl, canon_attr _ _ rfl, canon_attr _ _ rfl]
    simp only [h, Bool.not_true, Bool.false_eq_true, if_false]
    iterate 9 refine bind_congr fun _ => ?_
    exact canon_getChildElem rfl as cs _ fun c hc => by
      rw [canon_items rfl rfl hc _ (canon_peripheral oc cfg)]
  · simp [h]

end parsers

/-! ## Layout edits do not change the normal form -/

theorem keep_append_harmless {tag : String} {x : Xml} (h : Harmless tag x) (pre post : List Xml) :
    keep tag (pre.map canon ++ canon x :: post.map canon) =
      keep tag (pre.map canon ++ post.map canon) := by
  have drop : ∀ (p : Xml → Bool) (a b : List Xml) (y : Xml), p y = false →
      (a ++ y :: b).filter p = (a ++ b).filter p := by
    intro p a b y hy
    rw [List.filter_append, List.filter_append, List.filter_cons_of_neg (by simp [hy])]
  unfold keep
  cases h with
  | inRecord _ hr hx =>
    by_cases hl : listTags.contains tag = true
    · rw [if_pos hl, if_pos hl]
      rw [drop _ _ _ _ (by simp [hx])]
    · rw [if_neg hl, if_neg hl]
      obtain ⟨known, hk⟩ := Option.isSome_iff_exists.mp hr
      simp only [hk]
      rw [drop _ _ _ _ (by simp [hx])]
  | inList _ hl hx =>
    have hl' : listTags.contains tag = true := by simpa using hl
    rw [if_pos hl', if_pos hl']
    rw [drop _ _ _ _ (by simp [hx])]
  | unknown known k as cs hk hu =>
    have hl : ¬ listTags.contains tag = true := by
      intro hl
      have hm : tag ∈ listTags := by simpa using hl
      have : ∀ t ∈ listTags, recordTags t = none := by decide
      rw [this tag hm] at hk
      cases hk
    rw [if_neg hl, if_neg hl]
    simp only [hk]
    rw [drop _ _ _ _ (by simp only [canon_tag, canon_isElement]; simp [Xml.tag, hu])]

theorem canon_of_layout {x y : Xml} (h : Layout x y) : canon x = canon y := by
  induction h with
  | refl => rfl
  | symm _ ih => exact ih.symm
  | trans _ _ ih1 ih2 => exact ih1.trans ih2
  | insert tag as pre post x hx =>
    simp only [canon, canons_eq, List.map_append, List.map_cons, keep_append_harmless hx]
  | attr tag pre post k v cs hk =>
    simp only [canon]
    congr 1
    unfold keepAttrs
    rw [List.flatMap_def, List.flatMap_def]
    congr 1
    apply List.map_congr_left
    intro n hn
    rw [List.filter_append, List.filter_append,
      List.filter_cons_of_neg (by intro e; exact hk ((beq_iff_eq.mp e : k = n) ▸ hn))]
  | child tag as pre post _ ih =>
    simp only [canon, canons_eq, List.map_append, List.map_cons, ih]

/-- C30, for an element: two device elements that differ in layout only (text, comments and
processing instructions between elements, elements unknown to the format in record containers,
unknown attributes) parse to the same result, whatever it is.  Not covered, because the code does
not do it: unknown elements inside the list containers, see `C30_items` and `C30_violated`. -/
theorem C30_element_partial (oc : Bool) (cfg : ParseConfig) {x y : Xml} (h : Layout x y) :
    parseDevice oc cfg x = parseDevice oc cfg y := by
  rw [← canon_device oc cfg x, canon_of_layout h, canon_device]

-- A comment between the elements of a device, whatever they are.
example (oc : Bool) (cfg : ParseConfig) (as : List (String × Str)) (a b : List Xml) :
    parseDevice oc cfg (.elem "device" as (a ++ b)) = parseDevice oc cfg (.elem "device" as (a ++ .other :: b)) :=
  C30_element_partial oc cfg (.insert "device" as a b .other (.inRecord _ _ rfl rfl))

theorem layout_hasTag {x y : Xml} (h : Layout x y) (k : String) : x.hasTag k = y.hasTag k := by
  rw [← canon_hasTag k x, canon_of_layout h, canon_hasTag]

theorem layoutDoc_same (oc : Bool) (cfg : ParseConfig) {x y : List Xml} (h : LayoutDoc x y) :
    parseDocument oc cfg x = parseDocument oc cfg y := by
  induction h with
  | refl => rfl
  | symm _ ih => exact ih.symm
  | trans _ _ ih1 ih2 => exact ih1.trans ih2
  | insert pre post x hx =>
    unfold parseDocument
    rw [List.find?_append, List.find?_append, List.find?_cons_of_neg (by simp [hx])]
  | child pre post hcd =>
    rename_i c d
    unfold parseDocument
    rw [List.find?_append, List.find?_append]
    cases List.find? (hasTag "device") pre with
    | some p => rfl
    | none =>
      by_cases hc : c.hasTag "device" = true
      · rw [List.find?_cons_of_pos hc, List.find?_cons_of_pos (by rw [← layout_hasTag hcd]; exact hc)]
        exact C30_element_partial oc cfg hcd
      · rw [List.find?_cons_of_neg hc, List.find?_cons_of_neg (by rw [← layout_hasTag hcd]; exact hc)]

/-- C30, for a document: with any options, the result of parsing (and of the expansion that follows
it if requested) does not depend on layout.  Missing: as for `C30_element_partial`. -/
theorem C30_document_partial (oc : Bool) (fuel : Nat) (cfg : ParseConfig) {x y : List Xml}
    (h : LayoutDoc x y) : parseWithConfig oc fuel cfg x = parseWithConfig oc fuel cfg y := by
  unfold parseWithConfig
  rw [layoutDoc_same oc cfg h]

/-! ## Unknown elements in list containers -/

theorem mapM_not_ok {α β : Type} {p : α → M β} {l : List α} {a : α} (ha : a ∈ l)
    (hp : ∀ b, p a ≠ .ok b) (bs : List β) : l.mapM p ≠ .ok bs := by
  intro h
  obtain ⟨b, _, hb⟩ := mapM_ok_mem h ha
  exact hp b hb

theorem array_not_ok {α : Type} {cfg : ParseConfig} {tag : String} {nm : α → Str} {x : Xml}
    {i : M α} (h : x.hasTag tag = false) (r : MaybeArray α) : parseArray cfg tag nm x i ≠ .ok r := by
  unfold parseArray
  simp [h, fail]

/-- In a list container every child element has to be an item: with any other element the parser of
the enclosing element does not succeed. -/
theorem C30_items (oc : Bool) (cfg : ParseConfig) (t l c : Xml) (hc : c ∈ l.children)
    (he : c.isElement = true) :
    (t.getChild "peripherals" = some l → c.tag ≠ "peripheral" → ∀ d, parseDevice oc cfg t ≠ .ok d) ∧
    (t.getChild "registers" = some l → c.tag ≠ "register" → c.tag ≠ "cluster" →
      ∀ d, parsePeripheralInfo oc cfg t ≠ .ok d) ∧
    (t.getChild "fields" = some l → c.tag ≠ "field" → ∀ d, parseRegisterInfo oc cfg t ≠ .ok d) ∧
    (c.tag ∉ ["name", "headerEnumName", "usage", "enumeratedValue"] →
      ∀ d, parseEnumeratedValues cfg l ≠ .ok d) ∧
    (c.tag ∉ ["headerEnumName", "enumeratedValue"] → ∀ d, parseDimArrayIndex cfg l ≠ .ok d) ∧
    (c.tag ∉ ["writeAsRead", "useEnumeratedValues", "range"] →
      ∀ d, parseWriteConstraint l ≠ .ok d) := by
  have hm : c ∈ l.children.filter isElement := List.mem_filter.mpr ⟨hc, he⟩
  have hne : ∀ k : String, c.tag ≠ k → c.hasTag k = false := by
    intro k hk
    cases c <;> simp_all [hasTag, Xml.tag]
  have hvals : ∀ skip : List String, c.tag ∉ skip → c.tag ≠ "enumeratedValue" → ∀ d,
      parseValueList cfg skip l ≠ .ok d := by
    intro skip hs ht d
    unfold parseValueList
    refine mapM_not_ok (a := c) (List.mem_filter.mpr ⟨hc, by simp [he, hs]⟩) ?_ d
    intro b
    simp [hne _ ht, fail]
  refine ⟨?_, ?_, ?_, ?_, ?_, ?_⟩
  · intro hl ht d h
    unfold parseDevice at h
    by_cases hd : t.hasTag "device" = true
    · simp only [hd, Bool.not_true, Bool.false_eq_true, if_false] at h
      iterate 9 obtain ⟨_, _, h⟩ := bind_ok.mp h
      obtain ⟨ps, hps, h⟩ := bind_ok.mp h
      simp only [getChildElem, hl, okOr, Except.ok.injEq] at hps
      obtain ⟨ls, hls, _⟩ := bind_ok.mp h
      subst hps
      exact mapM_not_ok hm (fun b => array_not_ok (hne _ ht) b) ls hls
    · simp [hd, fail] at h
  · intro hl ht ht' d h
    unfold parsePeripheralInfo at h
    by_cases hd : t.hasTag "peripheral" = true
    · simp only [hd, Bool.not_true, Bool.false_eq_true, if_false] at h
      iterate 13 obtain ⟨_, _, h⟩ := bind_ok.mp h
      obtain ⟨rs, hrs, _⟩ := bind_ok.mp h
      simp only [hl] at hrs
      obtain ⟨ls, hls, _⟩ := bind_ok.mp hrs
      refine mapM_not_ok hm (fun b => ?_) ls hls
      cases c with
      | text s => simp [isElement] at he
      | other => simp [isElement] at he
      | elem k as cs =>
        simp only [Xml.tag] at ht ht'
        unfold parseRegisterCluster
        simp [ht, ht', fail]
    · simp [hd, fail] at h
  · intro hl ht d h
    unfold parseRegisterInfo at h
    iterate 11 obtain ⟨_, _, h⟩ := bind_ok.mp h
    obtain ⟨rs, hrs, _⟩ := bind_ok.mp h
    simp only [hl] at hrs
    obtain ⟨ls, hls, _⟩ := bind_ok.mp hrs
    exact mapM_not_ok hm (fun b => array_not_ok (hne _ ht) b) ls hls
  · intro ht d h
    simp only [List.mem_cons, List.not_mem_nil, or_false, not_or] at ht
    unfold parseEnumeratedValues at h
    by_cases hd : l.hasTag "enumeratedValues" = true
    · simp only [hd, Bool.not_true, Bool.false_eq_true, if_false] at h
      iterate 2 obtain ⟨_, _, h⟩ := bind_ok.mp h
      obtain ⟨ls, hls, _⟩ := bind_ok.mp h
      exact hvals _ (by simp [ht]) ht.2.2.2 ls hls
    · simp [hd, fail] at h
  · intro ht d h
    simp only [List.mem_cons, List.not_mem_nil, or_false, not_or] at ht
    unfold parseDimArrayIndex at h
    obtain ⟨_, _, h⟩ := bind_ok.mp h
    obtain ⟨ls, hls, _⟩ := bind_ok.mp h
    exact hvals _ (by simp [ht]) ht.2 ls hls
  · intro ht d h
    simp only [List.mem_cons, List.not_mem_nil, or_false, not_or] at ht
    unfold parseWriteConstraint at h
    cases hf : l.children.filter isElement with
    | nil => simp [hf, panics] at h
    | cons a rest =>
      simp only [hf] at h hm
      by_cases hr : rest.isEmpty = true
      · have : rest = [] := by simpa using hr
        subst this
        have : c = a := by simpa using hm
        subst this
        simp [ht, fail] at h
      · simp [hr, fail] at h

/-- A small document for the examples. -/
def layoutPlain : List Xml :=
  [.elem "device" [] [newText "name" "dev", .elem "peripherals" [] [
    .elem "peripheral" [] [newText "name" "P", newText "baseAddress" "0x10",
      .elem "registers" [] [.elem "register" []
        [newText "name" "R", newText "addressOffset" "4"]]]]]]
where newText (k : String) (s : String) : Xml := .elem k [] [.text s.toList]

/-- The same document with a comment in front, indentation, a processing instruction, an unknown
element and an unknown attribute. -/
def layoutFancy : List Xml :=
  [.other, .elem "device" [("xs:foo", "1".toList)] [newText "name" "dev",
    .elem "peripherals" [] [.text "\n  ".toList, .elem "peripheral" [] [newText "name" "P", .other,
      .elem "vendorExtensions" [] [newText "name" "Q"], newText "baseAddress" "0x10",
      .elem "registers" [] [.text "\n ".toList, .elem "register" []
        [newText "name" "R", newText "addressOffset" "4"]]]]]]
where newText (k : String) (s : String) : Xml := .elem k [] [.text s.toList]

/-- The same document with an unknown element among the peripherals. -/
def layoutItem : List Xml :=
  [.elem "device" [] [newText "name" "dev", .elem "peripherals" [] [
    .elem "peripheral" [] [newText "name" "P", newText "baseAddress" "0x10",
      .elem "registers" [] [.elem "register" []
        [newText "name" "R", newText "addressOffset" "4"]]],
    .elem "vendorExtensions" [] []]]]
where newText (k : String) (s : String) : Xml := .elem k [] [.text s.toList]

/-- The relation holds between the two documents, so `C30_document_partial` applies. -/
theorem layout_example : LayoutDoc layoutPlain layoutFancy := by
  unfold layoutPlain layoutFancy layoutPlain.newText layoutFancy.newText
  refine .trans (.insert [] _ .other rfl) ?_
  refine .child [.other] [] ?_
  refine .trans (.attr "device" [] [] "xs:foo" "1".toList _ (by decide)) ?_
  refine .child "device" _ [_] [] ?_
  refine .trans (.insert "peripherals" [] [] _ (.text "\n  ".toList) (.inList _ _ (by decide) rfl)) ?_
  refine .child "peripherals" _ [_] [] ?_
  refine .trans (.insert "peripheral" [] [_] _ .other (.inRecord _ _ rfl rfl)) ?_
  refine .trans (.insert "peripheral" [] [_, _] _
    (.elem "vendorExtensions" [] [.elem "name" [] [.text "Q".toList]])
    (.unknown _ _ _ _ _ rfl (by decide))) ?_
  refine .child "peripheral" _ [_, _, _, _] [] ?_
  exact .insert "registers" [] [] _ (.text "\n ".toList) (.inList _ _ (by decide) rfl)

/-- And parsing does succeed on it. -/
example : (parseDocument true {} layoutFancy).toOption.isSome = true := by decide +kernel

/-- `C30_items` on an element that does hold items otherwise. -/
example : ∀ d, parseWriteConstraint (.elem "writeConstraint" []
    [.elem "writeAsRead" [] [.text "true".toList], .elem "foo" [] []]) ≠ .ok d :=
  (C30_items true {} .other _ (.elem "foo" [] []) (by simp [children]) rfl).2.2.2.2.2 (by decide)

/-- C30 as stated does not hold: adding an element unknown to the format to the list of peripherals
turns a document that parses into one that does not. -/
theorem C30_violated :
    (∃ d, parseDocument true {} layoutPlain = .ok d) ∧
    parseDocument true {} layoutItem = fail (.notExpectedTag "peripheral") := by
  constructor
  · have h : (parseDocument true {} layoutPlain).toOption.isSome = true := by decide +kernel
    cases hp : parseDocument true {} layoutPlain with
    | ok d => exact ⟨d, rfl⟩
    | error e => rw [hp] at h; cases h
  · decide +kernel

example : parseWithConfig true 3 { expand := true } layoutPlain = parseWithConfig true 3 { expand := true } layoutFancy :=
  C30_document_partial true 3 _ layout_example

end Svd
