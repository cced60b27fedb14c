import Verif.Lemmas.Graceful
import Verif.Spec.Panic
import Verif.Props.BitRange

/-!
# C32: the parser panics on two kinds of input only
-/

namespace Svd

open Spec Xml

section validate

variable {P : Prop} (lvl : ValidateLevel)

theorem props_graceful (p : RegisterProperties) : Graceful P (p.validate lvl) := by
  unfold RegisterProperties.validate checkResetValue; graceful

theorem enumValue_graceful (e : EnumeratedValue) : Graceful P (e.validate lvl) := by
  unfold EnumeratedValue.validate; graceful

theorem enums_graceful (e : EnumeratedValues) : Graceful P (e.validate lvl) := by
  unfold EnumeratedValues.validate; graceful

theorem field_graceful (f : FieldInfo) : Graceful P (f.validate lvl) := by
  unfold FieldInfo.validate EnumeratedValues.checkRange EnumeratedValue.checkRange
    WriteConstraintRange.checkRange
  graceful

theorem register_graceful (r : RegisterInfo) : Graceful P (r.validate lvl) := by
  unfold RegisterInfo.validate; graceful

theorem cluster_graceful (r : ClusterInfo) : Graceful P (r.validate lvl) := by
  unfold ClusterInfo.validate validateClusterParts; graceful

theorem peripheral_graceful (r : PeripheralInfo) : Graceful P (r.validate lvl) := by
  unfold PeripheralInfo.validate; graceful

theorem device_graceful (r : Device) : Graceful P (r.validate lvl) := by
  unfold Device.validate; graceful

theorem buildProps_graceful (b : RegisterProperties) : Graceful P (b.build lvl) :=
  .bind (props_graceful lvl _) fun _ _ => .ok _

theorem buildEnumValue_graceful (b : EnumeratedValueBuilder) : Graceful P (b.build lvl) :=
  .bind (.need _ _) fun _ _ => .bind (enumValue_graceful lvl _) fun _ _ => .ok _

theorem buildEnums_graceful (b : EnumeratedValuesBuilder) : Graceful P (b.build lvl) :=
  .bind (enums_graceful lvl _) fun _ _ => .ok _

theorem buildDim_graceful (b : DimElementBuilder) : Graceful P (b.build lvl) := by
  unfold DimElementBuilder.build DimElement.validate; graceful

theorem buildField_graceful (b : FieldInfoBuilder) : Graceful P (b.build lvl) := by
  unfold FieldInfoBuilder.build; graceful; exact field_graceful lvl _

theorem buildRegister_graceful (b : RegisterInfoBuilder) : Graceful P (b.build lvl) := by
  unfold RegisterInfoBuilder.build; graceful
  · exact buildProps_graceful lvl _
  · exact register_graceful lvl _

theorem buildCluster_graceful (b : ClusterInfoBuilder) : Graceful P (b.build lvl) := by
  unfold ClusterInfoBuilder.build; graceful
  · exact buildProps_graceful lvl _
  · exact cluster_graceful lvl _

theorem buildAddressBlock_graceful (b : AddressBlockBuilder) : Graceful P (b.build lvl) := by
  unfold AddressBlockBuilder.build AddressBlock.validate; graceful

theorem buildInterrupt_graceful (b : InterruptBuilder) : Graceful P (b.build lvl) := by
  unfold InterruptBuilder.build Interrupt.validate; graceful

theorem buildCpu_graceful (b : CpuBuilder) : Graceful P (b.build lvl) := by
  unfold CpuBuilder.build Cpu.validate; graceful

theorem buildPeripheral_graceful (b : PeripheralInfoBuilder) : Graceful P (b.build lvl) := by
  unfold PeripheralInfoBuilder.build; graceful
  · exact buildProps_graceful lvl _
  · exact peripheral_graceful lvl _

theorem buildDevice_graceful (b : DeviceBuilder) : Graceful P (b.build lvl) := by
  unfold DeviceBuilder.build; graceful
  · exact buildProps_graceful lvl _
  · exact device_graceful lvl _

end validate

theorem mem_of_getChild {t c : Xml} {n : String} (h : t.getChild n = some c) :
    c ∈ t.children ∧ c.hasTag n = true :=
  ⟨List.mem_of_find?_eq_some h, List.find?_some h⟩

theorem panicInput_child {oc : Bool} {t c : Xml} (h : c ∈ t.children) (hc : PanicInput oc c) :
    PanicInput oc t := by
  obtain ⟨y, hy, hb⟩ := hc
  cases t with
  | elem tag attrs kids => exact ⟨y, .child h hy, hb⟩
  | text => cases h
  | other => cases h

section parse

variable {P : Prop} (oc : Bool) (cfg : ParseConfig)

theorem parseProps_graceful (t : Xml) : Graceful P (parseRegisterProperties cfg t) := by
  unfold parseRegisterProperties parseAccess parseProtection; graceful
  exact buildProps_graceful _ _

theorem parseEnumValue_graceful (t : Xml) : Graceful P (parseEnumeratedValue cfg t) := by
  unfold parseEnumeratedValue; graceful
  exact buildEnumValue_graceful _ _

theorem parseValueList_graceful (skip : List String) (t : Xml) :
    Graceful P (parseValueList cfg skip t) :=
  .mapM fun _ _ => .ite (fun _ => parseEnumValue_graceful cfg _) fun _ => .fail _

theorem parseEnums_graceful (t : Xml) : Graceful P (parseEnumeratedValues cfg t) := by
  unfold parseEnumeratedValues parseUsage; graceful
  · exact parseValueList_graceful cfg _ _
  · exact buildEnums_graceful _ _

theorem parseDimArrayIndex_graceful (t : Xml) : Graceful P (parseDimArrayIndex cfg t) := by
  unfold parseDimArrayIndex; graceful
  exact parseValueList_graceful cfg _ _

theorem parseDim_graceful (t : Xml) : Graceful P (parseDimElement cfg t) := by
  unfold parseDimElement parseDimIndex; graceful
  · exact parseDimArrayIndex_graceful cfg _
  · exact buildDim_graceful _ _

theorem parseArray_graceful {α : Type} (tag : String) (nm : α → Str) (t : Xml) {info : M α}
    (h : t.hasTag tag = true → Graceful P info) : Graceful P (parseArray cfg tag nm t info) := by
  unfold parseArray checkHasPlaceholder
  refine .ite (fun _ => .fail _) fun ht => .bind (h (by simpa using ht)) fun a _ => ?_
  graceful
  exact parseDim_graceful cfg _

theorem parseWriteConstraint_graceful (t : Xml) (ht : t.hasTag "writeConstraint" = true) :
    Graceful (PanicInput oc t) (parseWriteConstraint t) := by
  unfold parseWriteConstraint parseWriteConstraintRange
  split
  · rename_i h
    refine .bad ⟨t, .self t, .inl ⟨ht, fun c hc => ?_⟩⟩
    rw [List.filter_eq_nil_iff] at h
    simpa using h c hc
  · graceful

theorem optionalWriteConstraint_graceful (t : Xml) :
    Graceful (PanicInput oc t) (optional "writeConstraint" t parseWriteConstraint) :=
  .optional fun _ h => (parseWriteConstraint_graceful oc _ (mem_of_getChild h).2).mono
    (panicInput_child (mem_of_getChild h).1)

theorem finishBitRange_graceful (m l : U32) (ty : BitRangeType) :
    Graceful (oc = true ∧ m.toNat = 2 ^ 32 - 1 ∧ l.toNat = 0) (finishBitRange oc m l ty) := by
  unfold finishBitRange
  refine .ite (fun _ => .fail _) fun h => ?_
  have hm := m.isLt
  rw [subC_le (by omega), ok_bind]
  refine .bind ?_ fun _ _ => .ok _
  unfold addC arith
  split
  · exact .ok _
  · rename_i h1
    split
    · rename_i h2
      refine .bad ⟨h2, ?_⟩
      rw [ofNat_toNat' (by omega)] at h1
      have t4 : (1 : U32).toNat = 1 := rfl
      rw [t4] at h1
      omega
    · exact .ok _

theorem parseBitRangeText_inv {text : Str} {m l : U32} (h : parseBitRangeText text = .ok (m, l)) :
    ∃ p q rest, text = '[' :: (p ++ ':' :: q ++ rest) ++ [']'] ∧ (rest = [] ∨ ∃ r', rest = ':' :: r') ∧
      DecNumber p m.toNat ∧ DecNumber q l.toNat := by
  unfold parseBitRangeText at h
  split at h
  · cases h
  · rename_i h1
    split at h
    · cases h
    · rename_i h2
      simp only [Bool.not_eq_true', Bool.not_eq_false] at h1 h2
      have ht : text = '[' :: (text.drop 1).dropLast ++ [']'] := by
        rw [List.isPrefixOf_iff_prefix] at h1
        rw [List.isSuffixOf_iff_suffix] at h2
        obtain ⟨s, rfl⟩ := h1
        obtain ⟨s', h2⟩ := h2
        have e1 : "]".toList = [']'] := rfl
        rw [e1] at h2
        rcases List.eq_nil_or_concat s with rfl | ⟨i, x, rfl⟩
        · have := congrArg List.getLast? h2
          rw [List.getLast?_concat] at this
          exact absurd this (by decide)
        · have := congrArg List.getLast? h2
          simp only [List.concat_eq_append] at this ⊢
          rw [← List.append_assoc, List.getLast?_concat, List.getLast?_concat] at this
          injection this with this
          simp [← this]
      split at h
      · cases h
      · rename_i p ps hs
        split at h
        · cases h
        · rename_i mv hp
          split at h
          · cases h
          · rename_i q rest
            split at h
            · cases h
            · rename_i lv hq
              injection h with h; injection h with e1 e2; subst e1; subst e2
              obtain ⟨_, hj, _⟩ := splitOn_iff.mp hs
              have num : ∀ {s : Str} {v : U32}, fromStrRadix 32 10 s = .ok v → DecNumber s v.toNat := by
                intro s v h
                obtain ⟨n, hn, rfl⟩ := fromStr_dec.mp h
                rw [ofNat_toNat' hn.2]; exact hn
              rw [joinWith_cons (by simp)] at hj
              cases rest with
              | nil =>
                refine ⟨p, q, [], ?_, .inl rfl, ?_, ?_⟩
                · rw [ht, ← hj]; simp [joinWith]
                · exact num hp
                · exact num hq
              | cons r rs =>
                refine ⟨p, q, ':' :: joinWith [':'] (r :: rs), ?_, .inr ⟨_, rfl⟩, ?_, ?_⟩
                · rw [ht, ← hj, joinWith_cons (by simp)]; simp
                · exact num hp
                · exact num hq

theorem parseBitRange_graceful (t : Xml) :
    Graceful (oc = true ∧ FullRange t) (parseBitRange oc t) := by
  unfold parseBitRange
  split
  · rename_i r hr
    split
    · exact .fail _
    · rename_i txt htxt
      refine .bind ?_ fun p hp => ?_
      · unfold parseBitRangeText; graceful
      · obtain ⟨a, b, rest, h1, h2, h3, h4⟩ := parseBitRangeText_inv (m := p.1) (l := p.2) hp
        refine (finishBitRange_graceful oc _ _ _).mono fun ⟨ho, hm, hl⟩ => ⟨ho, ?_⟩
        rw [hm] at h3; rw [hl] at h4
        exact .text hr (htxt.trans (congrArg some h1)) h2 h3 h4
  · rename_i hr
    split
    · rename_i l m hl hm
      refine .bind (.mapErr (.parseInt _ _) _) fun mv hmv => .bind (.mapErr (.parseInt _ _) _)
        fun lv hlv => ?_
      refine (finishBitRange_graceful oc _ _ _).mono fun ⟨ho, em, el⟩ => ⟨ho, ?_⟩
      have num : ∀ {x : Xml} {v : U32} {e}, mapErr (parseInt 32 x) e = .ok v →
          ElementNumber x v.toNat := by
        intro x v e h
        have h : parseInt 32 x = .ok v := by
          unfold mapErr at h
          split at h
          · rename_i hx; injection h with h; rw [hx, h]
          · cases h
          · cases h
        obtain ⟨text, lit, n, h1, h2, h3, h4, h5⟩ := (C02_parse_int_iff 32 x v).mp h
        subst h5
        exact ⟨text, lit, h1, h2, h3, h4⟩
      refine .bits (.msbLsb hr hl hm ?_ ?_)
      · rw [← el]; exact num hlv
      · rw [← em]; exact num hmv
    · graceful

theorem parseFieldInfo_graceful (t : Xml) : Graceful (PanicInput oc t) (parseFieldInfo oc cfg t) := by
  unfold parseFieldInfo
  refine .ite (fun _ => .fail _) fun ht => ?_
  refine .bind ((parseBitRange_graceful oc t).mono fun h =>
    ⟨t, .self t, .inr ⟨h.1, by simpa using ht, h.2⟩⟩) fun _ _ => ?_
  have h1 := optionalWriteConstraint_graceful oc t
  unfold parseAccess parseModifiedWriteValues parseReadAction
  graceful
  · exact .mapM fun _ _ => parseEnums_graceful cfg _
  · exact buildField_graceful _ _

theorem parseField_graceful (t : Xml) : Graceful (PanicInput oc t) (parseField oc cfg t) :=
  parseArray_graceful cfg _ _ _ fun _ => parseFieldInfo_graceful oc cfg t

theorem parseRegisterInfo_graceful (t : Xml) :
    Graceful (PanicInput oc t) (parseRegisterInfo oc cfg t) := by
  unfold parseRegisterInfo
  have h1 := optionalWriteConstraint_graceful oc t
  have h2 : Graceful (PanicInput oc t) (parseRegisterProperties cfg t) := parseProps_graceful cfg t
  unfold parseDataType parseModifiedWriteValues parseReadAction
  graceful
  · rename_i fs hfs
    exact .mapM fun c hc => (parseField_graceful oc cfg c).mono fun h =>
      panicInput_child (mem_of_getChild hfs).1 (panicInput_child (List.mem_filter.mp hc).1 h)
  · exact buildRegister_graceful _ _

theorem parseRegister_graceful (t : Xml) : Graceful (PanicInput oc t) (parseRegister oc cfg t) :=
  parseArray_graceful cfg _ _ _ fun _ => parseRegisterInfo_graceful oc cfg t

theorem parseClusterInfoWith_graceful (t : Xml) {kids : M (List RegisterCluster)}
    (h : Graceful P kids) : Graceful P (parseClusterInfoWith cfg t kids) := by
  have h2 : Graceful P (parseRegisterProperties cfg t) := parseProps_graceful cfg t
  unfold parseClusterInfoWith
  graceful
  exact buildCluster_graceful _ _

mutual
theorem parseRegisterCluster_graceful : ∀ t : Xml,
    Graceful (PanicInput oc t) (parseRegisterCluster oc cfg t)
  | .elem tag attrs kids => by
    unfold parseRegisterCluster
    have h := parseClusterKids_graceful kids
    refine .ite (fun _ => .bind (parseRegister_graceful oc cfg _) fun _ _ => .ok _) fun _ =>
      .ite (fun _ => .bind (parseArray_graceful cfg _ _ _ fun _ => parseClusterInfoWith_graceful cfg _
        (h.mono fun ⟨x, hx, hp⟩ => panicInput_child (t := .elem tag attrs kids) hx hp)) fun _ _ => .ok _)
        fun _ => .fail _
  | .text _ => by unfold parseRegisterCluster; exact .fail _
  | .other => by unfold parseRegisterCluster; exact .fail _
theorem parseClusterKids_graceful : ∀ kids : List Xml,
    Graceful (∃ x ∈ kids, PanicInput oc x) (parseClusterKids oc cfg kids)
  | [] => by unfold parseClusterKids; exact .ok _
  | x :: xs => by
    unfold parseClusterKids
    have hx := parseRegisterCluster_graceful x
    have hxs := parseClusterKids_graceful xs
    have hxs' := hxs.mono (Q := ∃ y ∈ x :: xs, PanicInput oc y) fun ⟨y, hy, hp⟩ =>
      ⟨y, List.mem_cons_of_mem _ hy, hp⟩
    exact .ite (fun _ => .bind (hx.mono fun hp => ⟨x, List.mem_cons_self, hp⟩) fun _ _ =>
      .bind hxs' fun _ _ => .ok _) fun _ => hxs'
end

theorem parseAddressBlock_graceful (t : Xml) : Graceful P (parseAddressBlock cfg t) := by
  unfold parseAddressBlock parseAddressBlockUsage parseProtection; graceful
  exact buildAddressBlock_graceful _ _

theorem parseInterrupt_graceful (t : Xml) : Graceful P (parseInterrupt cfg t) := by
  unfold parseInterrupt; graceful
  exact buildInterrupt_graceful _ _

theorem parsePeripheralInfo_graceful (t : Xml) :
    Graceful (PanicInput oc t) (parsePeripheralInfo oc cfg t) := by
  have h2 : Graceful (PanicInput oc t) (parseRegisterProperties cfg t) := parseProps_graceful cfg t
  unfold parsePeripheralInfo
  graceful
  · exact .mapM fun c _ => parseAddressBlock_graceful cfg c
  · exact .mapM fun c _ => parseInterrupt_graceful cfg c
  · rename_i rs hrs
    exact .mapM fun c hc => (parseRegisterCluster_graceful oc cfg c).mono fun h =>
      panicInput_child (mem_of_getChild hrs).1 (panicInput_child (List.mem_filter.mp hc).1 h)
  all_goals exact buildPeripheral_graceful _ _

theorem parsePeripheral_graceful (t : Xml) : Graceful (PanicInput oc t) (parsePeripheral oc cfg t) :=
  parseArray_graceful cfg _ _ _ fun _ => parsePeripheralInfo_graceful oc cfg t

theorem parseCpu_graceful (t : Xml) : Graceful P (parseCpu cfg t) := by
  unfold parseCpu parseEndian; graceful
  exact buildCpu_graceful _ _

theorem parseDevice_graceful (t : Xml) : Graceful (PanicInput oc t) (parseDevice oc cfg t) := by
  have h2 : Graceful (PanicInput oc t) (parseRegisterProperties cfg t) := parseProps_graceful cfg t
  unfold parseDevice
  refine .ite (fun _ => .fail _) fun ht => ?_
  refine .bind (.getChildTextOpt _ _) fun _ _ => .bind (.getChildTextOpt _ _) fun _ _ =>
    .bind (.getChildText _ _) fun _ _ => .bind (.getChildTextOpt _ _) fun _ _ =>
    .bind (.getChildTextOpt _ _) fun _ _ => .bind (.optional fun _ _ => parseCpu_graceful cfg _) fun _ _ =>
    .bind (.getChildTextOpt _ _) fun _ _ => .bind (.getChildTextOpt _ _) fun _ _ =>
    .bind h2 fun _ _ => .bind (.getChildElem _ _) fun ps hps => .bind ?_ fun _ _ => ?_
  · have hps : t.getChild "peripherals" = some ps := by
      unfold Xml.getChildElem okOr at hps
      split at hps
      · rename_i h; injection hps with hps; rw [h, hps]
      · cases hps
    exact .mapM fun c hc => (parsePeripheral_graceful oc cfg c).mono fun h =>
      panicInput_child (mem_of_getChild hps).1 (panicInput_child (List.mem_filter.mp hc).1 h)
  · graceful
    all_goals exact buildDevice_graceful _ _

end parse

/-- **C32.** Parsing returns a device or an error, unless the document contains one of the two kinds
of input in `PanicInput`. -/
theorem C32_returns_or_reports (oc : Bool) (cfg : ParseConfig) (top : List Xml)
    (h : ∀ x ∈ top, ¬ PanicInput oc x) :
    (∃ d, parseDocument oc cfg top = .ok d) ∨ ∃ e, parseDocument oc cfg top = .error (.err e) := by
  have hg : Graceful (∃ x ∈ top, PanicInput oc x) (parseDocument oc cfg top) := by
    unfold parseDocument
    refine .bind (.okOr _ _) fun d hd => (parseDevice_graceful oc cfg d).mono fun hp => ?_
    unfold okOr at hd
    split at hd
    · rename_i hx; injection hd with hd; subst hd
      exact ⟨_, List.mem_of_find?_eq_some hx, hp⟩
    · cases hd
  cases hr : parseDocument oc cfg top with
  | ok d => exact .inl ⟨d, rfl⟩
  | error f =>
    rcases hg f hr with ⟨e, rfl⟩ | ⟨x, hx, hp⟩
    · exact .inr ⟨e, rfl⟩
    · exact absurd hp (h x hx)

example (oc : Bool) (cfg : ParseConfig) (name vendor : Str) :
    let top : List Xml := [.other, .elem "device" [] [.elem "name" [] [.text name], .elem "vendor" [] [.text vendor]]]
    (∃ d, parseDocument oc cfg top = .ok d) ∨ ∃ e, parseDocument oc cfg top = .error (.err e) := by
  refine C32_returns_or_reports oc cfg _ ?_
  have leaf : ∀ t s y, Within (.elem t [] [.text s]) y → y = .elem t [] [.text s] ∨ y = .text s := by
    rintro t s y (_ | ⟨hm, hw⟩)
    · exact .inl rfl
    · rw [List.mem_singleton.mp hm] at hw
      cases hw; exact .inr rfl
  rintro x hx ⟨y, hw, hp⟩
  have : y.hasTag "writeConstraint" = false ∧ y.hasTag "field" = false := by
    simp only [List.mem_cons, List.not_mem_nil, or_false] at hx
    rcases hx with rfl | rfl
    · cases hw; exact ⟨rfl, rfl⟩
    · rcases hw with _ | ⟨hm, hw⟩
      · exact ⟨rfl, rfl⟩
      · simp only [List.mem_cons, List.not_mem_nil, or_false] at hm
        rcases hm with rfl | rfl <;> rcases leaf _ _ _ hw with rfl | rfl <;> exact ⟨rfl, rfl⟩
  rcases hp with h | h
  · exact absurd h.1 (by rw [this.1]; decide)
  · exact absurd h.2.1 (by rw [this.2]; decide)

/-- **C32.** The two exceptions are real: an empty `writeConstraint` makes the reader of write
constraints panic, and a field over all bits the reader of bit ranges. -/
theorem C32_exceptions :
    (∀ y, EmptyConstraint y → parseWriteConstraint y = .error (.panic .unwrap)) ∧
    (∀ y, FullRange y → parseBitRange true y = .error (.panic .overflow)) := by
  constructor
  · rintro y ⟨_, h⟩
    unfold parseWriteConstraint
    have : y.children.filter isElement = [] := List.filter_eq_nil_iff.mpr fun c hc => by simp [h c hc]
    rw [this]; rfl
  · intro y h
    have hf : ∀ ty, finishBitRange true (BitVec.ofNat 32 (2 ^ 32 - 1)) (BitVec.ofNat 32 0) ty =
        .error (.panic .overflow) := by intro ty; cases ty <;> decide
    cases h with
    | text h1 h2 h3 h4 h5 =>
      rename_i r p q rest
      unfold parseBitRange
      simp only [h1, h2]
      have e : parseBitRangeText ('[' :: (p ++ ':' :: q ++ rest) ++ [']']) =
          .ok (BitVec.ofNat 32 (2 ^ 32 - 1), BitVec.ofNat 32 0) := by
        unfold parseBitRangeText
        rw [isSuffixOf_bracket, List.cons_append, isPrefixOf_bracket, bracket_inner]
        have hs : ∃ tl, splitOn ':' (p ++ ':' :: q ++ rest) = p :: q :: tl := by
          rw [List.append_assoc, List.cons_append, splitOn_append _ (numeral_no_colon h4.1)]
          rcases h3 with rfl | ⟨r', rfl⟩
          · rw [List.append_nil, splitOn_noSep (numeral_no_colon h5.1)]; exact ⟨_, rfl⟩
          · rw [splitOn_append _ (numeral_no_colon h5.1)]; exact ⟨_, rfl⟩
        obtain ⟨tl, hs⟩ := hs
        rw [hs]
        simp only [fromStr_dec.mpr ⟨_, h4, rfl⟩, fromStr_dec.mpr ⟨_, h5, rfl⟩]
        rfl
      rw [e, ok_bind]
      exact hf _
    | bits h =>
      cases h with
      | msbLsb h1 h2 h3 h4 h5 =>
        unfold parseBitRange
        simp only [h1, h2, h3]
        rw [parseInt_of_number h4, parseInt_of_number h5]
        exact hf .msbLsb

/-- A small document used by the examples, with the given children of its only field. -/
def panicDocument (extra : List Xml) : List Xml :=
  [.elem "device" [] [newNode "name" "D".toList, .elem "peripherals" [] [.elem "peripheral" []
    [newNode "name" "P".toList, newNode "baseAddress" "0".toList, .elem "registers" []
      [.elem "register" [] [newNode "name" "R".toList, newNode "addressOffset" "0".toList,
        .elem "fields" [] [.elem "field" [] (newNode "name" "F".toList :: extra)]]]]]]]

example : parseDocument true {} (panicDocument [newNode "bitRange" "[4294967295:0]".toList]) =
    .error (.panic .overflow) := by decide
example : parseDocument false {} (panicDocument [newNode "bitRange" "[4294967295:0]".toList]) =
    .error (.err .zeroWidth) := by decide
example : parseDocument true {} (panicDocument [newNode "bitRange" "[1:0]".toList,
    .elem "writeConstraint" [] [.text " ".toList]]) = .error (.panic .unwrap) := by decide
example : (parseDocument true {} (panicDocument [newNode "bitRange" "[4294967295:1]".toList,
    .elem "writeConstraint" [] [newNode "writeAsRead" "true".toList]])).isOk = true := by decide

end Svd
