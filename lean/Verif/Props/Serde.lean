import Verif.Spec.Serde
import Verif.Spec.Parts
import Verif.Props.Misc
import Verif.Props.EncodeTotal

/-!
# C54 Conversion with serde
-/

namespace Svd

open Spec

/-! ## Looking up entries -/

theorem hits_append (k : String) (a b : Entries) : hits k (a ++ b) = hits k a ++ hits k b := by
  simp [hits]

theorem hits_nil (k : String) : hits k [] = [] := rfl

theorem hits_entry (k k' : String) (v : Val) : hits k (entry k' v) = if k' = k then [v] else [] := by
  by_cases h : k' = k <;> simp [hits, entry, h]

theorem hits_opt {α : Type} (k k' : String) (ser : α → Val) (o : Option α) :
    hits k (optEntry k' ser o) = if k' = k then (o.map ser).toList else [] := by
  cases o <;> by_cases h : k' = k <;> simp [hits, optEntry, h]

theorem hits_list (k k' : String) (l : List Val) :
    hits k (listEntry k' l) = if k' = k ∧ l ≠ [] then [.arr l] else [] := by
  cases l <;> by_cases h : k' = k <;> simp [hits, listEntry, h]

theorem hits_rest (k : String) (own : List String) (es : Entries) :
    hits k (rest own es) = if k ∈ own then [] else hits k es := by
  unfold hits rest
  rw [List.filter_filter]
  by_cases h : k ∈ own
  · rw [if_pos h, List.map_eq_nil_iff, List.filter_eq_nil_iff]
    rintro ⟨a, b⟩ _
    simp only [Bool.and_eq_true, beq_iff_eq, not_and]
    rintro rfl
    simp [h]
  · rw [if_neg h]
    congr 1
    apply List.filter_congr
    rintro ⟨a, b⟩ _
    by_cases e : a = k
    · subst e; simp [h]
    · simp [e]

theorem req_hit {α : Type} {de : Val → M α} {k : String} {es : Entries} {v : Val} (h : hits k es = [v]) :
    reqField de k es = de v := by
  unfold reqField; rw [h]

theorem req_none {α : Type} {de : Val → M α} {k : String} {es : Entries} (h : hits k es = []) :
    reqField de k es = bad := by
  unfold reqField; rw [h]

theorem opt_hit {α β : Type} {de : Val → M β} {k : String} {es : Entries} {ser : α → Val} {o : Option α}
    {f : α → β} (h : hits k es = (o.map ser).toList) (hn : ∀ a, ser a ≠ .null)
    (hd : ∀ a, o = some a → de (ser a) = .ok (f a)) : optField de k es = .ok (o.map f) := by
  unfold optField
  rw [h]
  cases o with
  | none => rfl
  | some a =>
    have hn := hn a
    have hd := hd a rfl
    simp only [Option.map_some, Option.toList]
    generalize ser a = v at hn hd
    cases v with
    | null => exact absurd rfl hn
    | _ => simp only [hd]; rfl

theorem opt_same {α : Type} {de : Val → M α} {k : String} {es : Entries} {ser : α → Val} {o : Option α}
    (h : hits k es = (o.map ser).toList) (hn : ∀ a, ser a ≠ .null)
    (hd : ∀ a, de (ser a) = .ok a) : optField de k es = .ok o := by
  rw [opt_hit (f := id) h hn (fun a _ => hd a), Option.map_id]; rfl

theorem list_hit {α β : Type} {de : Val → M β} {k : String} {es : Entries} {ser : α → Val} {l : List α}
    {f : α → β} (h : hits k es = if l.map ser ≠ [] then [.arr (l.map ser)] else [])
    (hd : (l.map ser).mapM de = .ok (l.map f)) : listField (deList de) k es = .ok (l.map f) := by
  unfold listField
  rw [h]
  cases l with
  | nil => rfl
  | cons a l => simpa [deList] using hd

theorem mapM_ser {α : Type} {de : Val → M α} {ser : α → Val} (h : ∀ a, de (ser a) = .ok a) (l : List α) :
    (l.map ser).mapM de = .ok l := by
  induction l with
  | nil => rfl
  | cons a l ih => rw [List.map_cons, mapM_cons, h, ok_bind, ih]; rfl

theorem list_same {α : Type} {de : Val → M α} {k : String} {es : Entries} {ser : α → Val} {l : List α}
    (h : hits k es = if l.map ser ≠ [] then [.arr (l.map ser)] else [])
    (hd : ∀ a, de (ser a) = .ok a) : listField (deList de) k es = .ok l := by
  rw [list_hit (f := id) h (by rw [List.map_id]; exact mapM_ser hd l), List.map_id]

/-! ## Leaves -/

theorem de_str (s : Str) : deStr (.str s) = .ok s := rfl
theorem de_bool (b : Bool) : deBool (.bool b) = .ok b := rfl
theorem de_int {n : Nat} (x : BitVec n) : deInt n (serInt x) = .ok x := by
  unfold deInt serInt
  simp [x.isLt]

theorem de_struct {α : Type} {de : Entries → M α} {es : Entries} : deStruct de (.obj es) = de es := rfl

theorem de_unit {α : Type} (all : List α) (name : α → String) (a : α)
    (h : all.find? (fun b => (name b).toList == (name a).toList) = some a) :
    deUnit all name (serUnit name a) = .ok a := by
  unfold deUnit serUnit
  simp only [h]

theorem de_access (a : Access) : deAccess (serAccess a) = .ok a := by cases a <;> exact de_unit _ _ _ (by decide)
theorem de_usage (a : Usage) : deUsage (serUsage a) = .ok a := by cases a <;> exact de_unit _ _ _ (by decide)
theorem de_protection (a : Protection) : deProtection (serProtection a) = .ok a := by
  cases a <;> exact de_unit _ _ _ (by decide)
theorem de_endian (a : Endian) : deEndian (serEndian a) = .ok a := by cases a <;> exact de_unit _ _ _ (by decide)
theorem de_readAction (a : ReadAction) : deReadAction (serReadAction a) = .ok a := by
  cases a <;> exact de_unit _ _ _ (by decide)
theorem de_modified (a : ModifiedWriteValues) : deModified (serModified a) = .ok a := by
  cases a <;> exact de_unit _ _ _ (by decide)
theorem de_dataType (a : DataType) : deDataType (serDataType a) = .ok a := by
  cases a <;> exact de_unit _ _ _ (by decide)
theorem de_blockUsage (a : AddressBlockUsage) : deBlockUsage (serBlockUsage a) = .ok a := by
  cases a <;> exact de_unit _ _ _ (by decide)

/-- Computes the entries with a key. -/
macro "look" : tactic => `(tactic| simp [hits_append, hits_entry, hits_opt, hits_list, hits_rest, hits_nil])

theorem ser_str_ne (s : Str) : Val.str s ≠ .null := nofun
theorem ser_bool_ne (s : Bool) : Val.bool s ≠ .null := nofun
theorem ser_int_ne {n : Nat} (s : BitVec n) : serInt s ≠ .null := nofun
theorem ser_unit_ne {α : Type} (name : α → String) (s : α) : serUnit name s ≠ .null := nofun

theorem de_range (r : WriteConstraintRange) : deRange (serRange r) = .ok r := by
  rw [deRange, serRange, de_struct, req_hit (v := serInt r.min) (by look), de_int, ok_bind, req_hit (v := serInt r.max) (by look), de_int, ok_bind]

theorem de_writeConstraint (w : WriteConstraint) : deWriteConstraint (serWriteConstraint w) = .ok w := by
  cases w with
  | writeAsRead b => rfl
  | useEnumeratedValues b => rfl
  | range r => simp [deWriteConstraint, serWriteConstraint, entry, de_range, bind, Except.bind]

theorem ser_writeConstraint_ne (w : WriteConstraint) : serWriteConstraint w ≠ .null := by
  cases w <;> exact nofun

theorem de_enumValue (v : EnumeratedValue) : deEnumValue (serEnumValue v) = .ok v := by
  rw [deEnumValue, serEnumValue, de_struct, req_hit (v := .str v.name) (by look), de_str, ok_bind,
    opt_same (o := v.description) (ser := .str) (by look) ser_str_ne de_str, ok_bind,
    opt_same (o := v.value) (ser := serInt) (by look) ser_int_ne de_int, ok_bind,
    opt_same (o := v.isDefault) (ser := .bool) (by look) ser_bool_ne de_bool, ok_bind]

theorem de_enums (e : EnumeratedValues) : deEnums (serEnums e) = .ok e := by
  rw [deEnums, serEnums, de_struct, opt_same (o := e.name) (ser := .str) (by look) ser_str_ne de_str, ok_bind,
    opt_same (o := e.usage) (ser := serUsage) (by look) (ser_unit_ne _) de_usage, ok_bind,
    opt_same (o := e.derivedFrom) (ser := .str) (by look) ser_str_ne de_str, ok_bind,
    list_same (l := e.values) (ser := serEnumValue) (by look) de_enumValue, ok_bind]


theorem de_dimArrayIndex (d : DimArrayIndex) : deDimArrayIndex (serDimArrayIndex d) = .ok d := by
  rw [deDimArrayIndex, serDimArrayIndex, de_struct,
    opt_same (o := d.headerEnumName) (ser := .str) (by look) ser_str_ne de_str, ok_bind,
    req_hit (v := .arr (d.values.map serEnumValue)) (by look), deList, mapM_ser de_enumValue, ok_bind]

theorem de_interrupt (i : Interrupt) : deInterrupt (serInterrupt i) = .ok i := by
  rw [deInterrupt, serInterrupt, de_struct, req_hit (v := .str i.name) (by look), de_str, ok_bind,
    opt_same (o := i.description) (ser := .str) (by look) ser_str_ne de_str, ok_bind,
    req_hit (v := serInt i.value) (by look), de_int, ok_bind]

theorem de_addressBlock (b : AddressBlock) : deAddressBlock (serAddressBlock b) = .ok b := by
  rw [deAddressBlock, serAddressBlock, de_struct, req_hit (v := serInt b.offset) (by look), de_int, ok_bind,
    req_hit (v := serInt b.size) (by look), de_int, ok_bind,
    req_hit (v := serBlockUsage b.usage) (by look), de_blockUsage, ok_bind,
    opt_same (o := b.protection) (ser := serProtection) (by look) (ser_unit_ne _) de_protection, ok_bind]

theorem de_cpu (c : Cpu) : deCpu (serCpu c) = .ok c := by
  rw [deCpu, serCpu, de_struct, req_hit (v := .str c.name) (by look), de_str, ok_bind,
    req_hit (v := .str c.revision) (by look), de_str, ok_bind,
    req_hit (v := serEndian c.endian) (by look), de_endian, ok_bind,
    req_hit (v := .bool c.mpuPresent) (by look), de_bool, ok_bind,
    req_hit (v := .bool c.fpuPresent) (by look), de_bool, ok_bind,
    opt_same (o := c.fpuDoublePrecision) (ser := .bool) (by look) ser_bool_ne de_bool, ok_bind,
    opt_same (o := c.dspPresent) (ser := .bool) (by look) ser_bool_ne de_bool, ok_bind,
    opt_same (o := c.icachePresent) (ser := .bool) (by look) ser_bool_ne de_bool, ok_bind,
    opt_same (o := c.dcachePresent) (ser := .bool) (by look) ser_bool_ne de_bool, ok_bind,
    opt_same (o := c.itcmPresent) (ser := .bool) (by look) ser_bool_ne de_bool, ok_bind,
    opt_same (o := c.dtcmPresent) (ser := .bool) (by look) ser_bool_ne de_bool, ok_bind,
    opt_same (o := c.vtorPresent) (ser := .bool) (by look) ser_bool_ne de_bool, ok_bind,
    req_hit (v := serInt c.nvicPriorityBits) (by look), de_int, ok_bind,
    req_hit (v := .bool c.hasVendorSystick) (by look), de_bool, ok_bind,
    opt_same (o := c.deviceNumInterrupts) (ser := serInt) (by look) ser_int_ne de_int, ok_bind,
    opt_same (o := c.sauNumRegions) (ser := serInt) (by look) ser_int_ne de_int, ok_bind]

/-! ## Flattened structs -/

/-- Properties are read from any entries that contain exactly those of the properties under their keys. -/
theorem de_properties {p : RegisterProperties} {es : Entries}
    (h : ∀ k ∈ ["size", "access", "protection", "resetValue", "resetMask"], hits k es = hits k (serProperties p)) :
    deProperties es = .ok p := by
  have h1 := h "size" (by simp)
  have h2 := h "access" (by simp)
  have h3 := h "protection" (by simp)
  have h4 := h "resetValue" (by simp)
  have h5 := h "resetMask" (by simp)
  unfold serProperties at h1 h2 h3 h4 h5
  rw [deProperties, opt_same (o := p.size) (ser := serInt) (by rw [h1]; look) ser_int_ne de_int, ok_bind,
    opt_same (o := p.access) (ser := serAccess) (by rw [h2]; look) (ser_unit_ne _) de_access, ok_bind,
    opt_same (o := p.protection) (ser := serProtection) (by rw [h3]; look) (ser_unit_ne _) de_protection, ok_bind,
    opt_same (o := p.resetValue) (ser := serInt) (by rw [h4]; look) ser_int_ne de_int, ok_bind,
    opt_same (o := p.resetMask) (ser := serInt) (by rw [h5]; look) ser_int_ne de_int, ok_bind]

/-- Keys that do not occur. -/
theorem properties_other {p : RegisterProperties} {k : String}
    (h : k ∉ ["size", "access", "protection", "resetValue", "resetMask"]) : hits k (serProperties p) = [] := by
  simp only [List.mem_cons, List.not_mem_nil, or_false, not_or] at h
  obtain ⟨h1, h2, h3, h4, h5⟩ := h
  unfold serProperties
  simp [hits_append, hits_opt, Ne.symm h1, Ne.symm h2, Ne.symm h3, Ne.symm h4, Ne.symm h5]

theorem de_dimIndex {l : List Str} (hne : l ≠ []) (hl : ∀ p ∈ l, '-' ∉ p ∧ ',' ∉ p) :
    ∃ s, serializeDimIndex (some l) = .ok s ∧ deDimIndexVal (serDimIndexVal s) = .ok s ∧
      deserializeDimIndex (some s) = some (some l) ∧ serDimIndexVal s ≠ .null := by
  obtain ⟨s, h1, h2⟩ := C47_index_list l hne hl
  refine ⟨s, h1, ?_, h2, ?_⟩
  all_goals
    unfold serializeDimIndex at h1
    injection h1 with h1
    subst h1
  · rfl
  · exact nofun

/-- An array description with its list of indexes is read from its entries and others with other keys. -/
theorem de_dim {d : DimElement} (h : JoinableIndexes d) :
    ∃ ds, serDim d = .ok ds ∧ (∀ k ∉ dimKeys, hits k ds = []) ∧
      ∀ es, (∀ k ∈ dimKeys, hits k es = hits k ds) → deDimOpt es = .ok (indexed d) := by
  cases hd : d.dimIndex with
  | none =>
    refine ⟨_, by rw [serDim, hd]; rfl, fun k hk => ?_, fun es he => ?_⟩
    · simp only [dimKeys, List.mem_cons, List.not_mem_nil, or_false, not_or] at hk
      obtain ⟨h1, h2, h3, h4, h5⟩ := hk
      simp [hits_append, hits_opt, hits_entry, Ne.symm h1, Ne.symm h2, Ne.symm h4, Ne.symm h5]
    · have h1 := he "dim" (by simp [dimKeys])
      have h2 := he "dimIncrement" (by simp [dimKeys])
      have h3 := he "dimIndex" (by simp [dimKeys])
      have : deDim es = bad := by
        rw [deDim, req_hit (v := serInt d.dim) (by rw [h1]; look), de_int, ok_bind,
          req_hit (v := serInt d.dimIncrement) (by rw [h2]; look), de_int, ok_bind]
        unfold reqField
        rw [h3]
        simp [hits_append, hits_entry, hits_opt, bad, fail, bind, Except.bind]
      rw [deDimOpt, this, indexed, if_pos hd]; rfl
  | some l =>
    obtain ⟨hne, hl⟩ := h l hd
    obtain ⟨s, g1, g2, g3, g4⟩ := de_dimIndex hne hl
    refine ⟨_, by rw [serDim, hd]; simp only [g1, ok_bind]; rfl, fun k hk => ?_, fun es he => ?_⟩
    · simp only [dimKeys, List.mem_cons, List.not_mem_nil, or_false, not_or] at hk
      obtain ⟨h1, h2, h3, h4, h5⟩ := hk
      simp [hits_append, hits_opt, hits_entry, Ne.symm h1, Ne.symm h2, Ne.symm h3, Ne.symm h4, Ne.symm h5]
    · have h1 := he "dim" (by simp [dimKeys])
      have h2 := he "dimIncrement" (by simp [dimKeys])
      have h3 := he "dimIndex" (by simp [dimKeys])
      have h4 := he "dimName" (by simp [dimKeys])
      have h5 := he "dimArrayIndex" (by simp [dimKeys])
      have : deDim es = .ok d := by
        rw [deDim, req_hit (v := serInt d.dim) (by rw [h1]; look), de_int, ok_bind,
          req_hit (v := serInt d.dimIncrement) (by rw [h2]; look), de_int, ok_bind,
          req_hit (v := serDimIndexVal s) (by rw [h3]; look)]
        have : ∀ v : Val, v ≠ .null → deDimIndexVal v = .ok s → deDimIndex v = .ok (some l) := by
          intro v hv hs
          cases v
          case null => exact absurd rfl hv
          all_goals simp only [deDimIndex, hs, ok_bind, g3]
        rw [this _ g4 g2, ok_bind,
          opt_same (o := d.dimName) (ser := .str) (by rw [h4]; look) ser_str_ne de_str, ok_bind,
          opt_same (o := d.dimArrayIndex) (ser := serDimArrayIndex) (by rw [h5]; look) (fun _ => nofun)
            de_dimArrayIndex, ok_bind, ← hd]
      rw [deDimOpt, this, indexed, if_neg (by rw [hd]; exact nofun)]


/-- The struct is written, and read again from any entries that contain the written ones under the keys of the
struct; `f` says what is lost. -/
def Reads {α : Type} (keys : List String) (ser : α → M Entries) (de : Entries → M α) (f : α → α) (a : α) : Prop :=
  ∃ es, ser a = .ok es ∧ (∀ k ∉ keys, hits k es = []) ∧
    ∀ es', (∀ k ∈ keys, hits k es' = hits k es) → de es' = .ok (f a)

theorem de_array {α : Type} {keys : List String} {ser : α → M Entries} {de : Entries → M α} {f : α → α}
    (hk : ∀ k ∈ dimKeys, k ∉ keys) {x : MaybeArray α} (h : Reads keys ser de f x.info)
    (hd : DimPart JoinableIndexes x) :
    ∃ v, serArray ser x = .ok v ∧ deArray de v = .ok (keepIndexed (x.mapInfo f)) ∧ v ≠ .null := by
  obtain ⟨es, h1, h2, h3⟩ := h
  have hk' : ∀ k ∈ keys, k ∉ dimKeys := fun k h1 h2 => hk k h2 h1
  cases x with
  | single i =>
    have h1 : ser i = .ok es := h1
    refine ⟨.obj es, by rw [serArray, h1]; rfl, ?_, nofun⟩
    have : deDimOpt es = .ok none := by
      rw [deDimOpt, deDim]
      unfold reqField
      rw [h2 "dim" (hk _ (by simp [dimKeys]))]
      rfl
    rw [deArray, de_struct, this, ok_bind, h3 _ (fun k hk => by rw [hits_rest, if_neg (hk' k hk)]), ok_bind]
    rfl
  | array i d =>
    have h1 : ser i = .ok es := h1
    obtain ⟨ds, g1, g2, g3⟩ := de_dim (d := d) hd
    refine ⟨.obj (ds ++ es), by rw [serArray, g1, ok_bind, h1]; rfl, ?_, nofun⟩
    rw [deArray, de_struct, g3 _ (fun k hk => by rw [hits_append, h2 k (by solve_by_elim), List.append_nil]),
      ok_bind, h3 _ (fun k hk => by rw [hits_rest, if_neg (hk' k hk), hits_append, g2 k (hk' k hk), List.nil_append]),
      ok_bind]
    by_cases hn : d.dimIndex = none
    · simp only [indexed, MaybeArray.mapInfo, keepIndexed, if_pos hn]; rfl
    · simp only [indexed, MaybeArray.mapInfo, keepIndexed, if_neg hn]; rfl

/-! ## Fields and registers -/

theorem de_bitRange (oc : Bool) {b : BitRange} (h : WritableRange b) :
    ∃ es, serBitRange oc b = .ok es ∧
      (∀ k ∉ ["bitRange", "bitOffset", "bitWidth", "lsb", "msb"], hits k es = []) ∧
      ∀ es', (∀ k ∈ ["bitRange", "bitOffset", "bitWidth", "lsb", "msb"], hits k es' = hits k es) →
        deBitRange oc es' = .ok b := by
  obtain ⟨s, h1, h2⟩ := C47_bit_range oc b h.1 h.2
  refine ⟨serSerBitRange s, by rw [serBitRange, h1, ok_bind], fun k hk => ?_, fun es he => ?_⟩
  · simp only [List.mem_cons, List.not_mem_nil, or_false, not_or] at hk
    obtain ⟨k1, k2, k3, k4, k5⟩ := hk
    cases s <;> simp [serSerBitRange, hits_append, hits_entry, Ne.symm k1, Ne.symm k2, Ne.symm k3, Ne.symm k4,
      Ne.symm k5]
  · have e1 := he "bitRange" (by simp)
    have e2 := he "bitOffset" (by simp)
    have e3 := he "bitWidth" (by simp)
    have e4 := he "lsb" (by simp)
    have e5 := he "msb" (by simp)
    have : deSerBitRange es = .ok s := by
      cases s with
      | bitRange t =>
        rw [deSerBitRange, req_hit (v := .str t) (by rw [e1, serSerBitRange]; look), de_str]
      | offsetWidth o w =>
        have n1 : hits "bitRange" es = [] := by rw [e1, serSerBitRange]; look
        have r1 : reqField deStr "bitRange" es = bad := req_none n1
        have r2 : reqField (deInt 32) "bitOffset" es = .ok o := by
          rw [req_hit (v := serInt o) (by rw [e2, serSerBitRange]; look), de_int]
        have r3 : reqField (deInt 32) "bitWidth" es = .ok w := by
          rw [req_hit (v := serInt w) (by rw [e3, serSerBitRange]; look), de_int]
        rw [deSerBitRange, r1, r2, r3]
        rfl
      | msbLsb l m =>
        have n1 : hits "bitRange" es = [] := by rw [e1, serSerBitRange]; look
        have n2 : hits "bitOffset" es = [] := by rw [e2, serSerBitRange]; look
        have r1 : reqField deStr "bitRange" es = bad := req_none n1
        have r2 : reqField (deInt 32) "bitOffset" es = bad := req_none n2
        have r3 : reqField (deInt 32) "lsb" es = .ok l := by
          rw [req_hit (v := serInt l) (by rw [e4, serSerBitRange]; look), de_int]
        have r4 : reqField (deInt 32) "msb" es = .ok m := by
          rw [req_hit (v := serInt m) (by rw [e5, serSerBitRange]; look), de_int]
        rw [deSerBitRange, r1, r2, r3, r4]
        rfl
    rw [deBitRange, this, ok_bind, h2, ok_bind]

/-- All keys of a field. -/
def allFieldKeys : List String := fieldKeys ++ ["bitRange", "bitOffset", "bitWidth", "lsb", "msb"]

theorem de_fieldInfo (oc : Bool) {f : FieldInfo} (h : WritableRange f.bitRange) :
    Reads allFieldKeys (serFieldInfo oc) (deFieldInfo oc) id f := by
  obtain ⟨bs, h1, h2, h3⟩ := de_bitRange oc h
  refine ⟨_, by rw [serFieldInfo, h1, ok_bind], fun k hk => ?_, fun es he => ?_⟩
  · have hb := h2 k (fun h => hk (List.mem_append_right _ h))
    have hk : k ∉ fieldKeys := fun h => hk (List.mem_append_left _ h)
    simp only [fieldKeys, List.mem_cons, List.not_mem_nil, or_false, not_or] at hk
    obtain ⟨k1, k2, k3, k4, k5, k6, k7, k8⟩ := hk
    simp [hits_append, hits_entry, hits_opt, hits_list, hb, Ne.symm k1, Ne.symm k2, Ne.symm k3, Ne.symm k4,
      Ne.symm k5, Ne.symm k6, Ne.symm k7, Ne.symm k8]
  · have hb : ∀ k ∈ fieldKeys, hits k bs = [] := fun k hk => h2 k (by revert k; decide)
    have e1 := he "name" (by decide)
    have e2 := he "description" (by decide)
    have e3 := he "access" (by decide)
    have e4 := he "modifiedWriteValues" (by decide)
    have e5 := he "writeConstraint" (by decide)
    have e6 := he "readAction" (by decide)
    have e7 := he "enumeratedValues" (by decide)
    have e8 := he "derivedFrom" (by decide)
    simp [hits_append, hits_entry, hits_opt, hits_list, hb "name" (by decide), hb "description" (by decide),
      hb "access" (by decide), hb "modifiedWriteValues" (by decide), hb "writeConstraint" (by decide),
      hb "readAction" (by decide), hb "enumeratedValues" (by decide), hb "derivedFrom" (by decide)]
      at e1 e2 e3 e4 e5 e6 e7 e8
    rw [deFieldInfo, req_hit e1, de_str, ok_bind, opt_same e2 ser_str_ne de_str, ok_bind,
      opt_same e3 (ser_unit_ne _) de_access, ok_bind, opt_same e4 (ser_unit_ne _) de_modified, ok_bind,
      opt_same e5 ser_writeConstraint_ne de_writeConstraint, ok_bind,
      opt_same e6 (ser_unit_ne _) de_readAction, ok_bind,
      list_same (l := f.enumeratedValues) (ser := serEnums) (by rw [e7]; simp) de_enums, ok_bind,
      opt_same e8 ser_str_ne de_str, ok_bind, h3, ok_bind]
    · rfl
    · intro k hk
      rw [hits_rest, if_neg (by revert k; decide), he k (List.mem_append_right _ hk)]
      revert k
      simp [hits_append, hits_entry, hits_opt, hits_list]

theorem de_field (oc : Bool) {f : Field} (h : FieldParts (fun f => WritableRange f.bitRange) JoinableIndexes f) :
    ∃ v, serField oc f = .ok v ∧ deField oc v = .ok (keepIndexed f) ∧ v ≠ .null := by
  obtain ⟨v, h1, h2, h3⟩ := de_array (by decide) (de_fieldInfo oc h.1) h.2
  refine ⟨v, h1, ?_, h3⟩
  rw [deField, h2]
  cases f <;> rfl


/-- A list of elements that are written and read one by one. -/
theorem mapM_round {α : Type} {ser : α → M Val} {de : Val → M α} {f : α → α} {l : List α}
    (h : ∀ a ∈ l, ∃ v, ser a = .ok v ∧ de v = .ok (f a)) :
    ∃ vs, l.mapM ser = .ok vs ∧ vs.mapM de = .ok (l.map f) := by
  induction l with
  | nil => exact ⟨[], rfl, rfl⟩
  | cons a l ih =>
    obtain ⟨v, h1, h2⟩ := h a (by simp)
    obtain ⟨vs, h3, h4⟩ := ih fun b hb => h b (by simp [hb])
    refine ⟨v :: vs, ?_, ?_⟩
    · rw [mapM_cons, h1, ok_bind, h3]; rfl
    · rw [mapM_cons, h2, ok_bind, h4]; rfl

theorem opt_round {α : Type} {k : String} {ser : α → M Val} {de : Val → M α} {f : α → α} {o : Option α}
    (h : ∀ a, o = some a → ∃ v, ser a = .ok v ∧ v ≠ .null ∧ de v = .ok (f a)) :
    ∃ fs, optEntryM k ser o = .ok fs ∧ (∀ k', k' ≠ k → hits k' fs = []) ∧
      ∀ es, hits k es = hits k fs → optField de k es = .ok (o.map f) := by
  cases o with
  | none => exact ⟨[], rfl, fun _ _ => rfl, fun es he => by rw [optField, he]; rfl⟩
  | some a =>
    obtain ⟨v, h1, h2, h3⟩ := h a rfl
    refine ⟨entry k v, by rw [optEntryM, h1, ok_bind], fun k' hk => ?_, fun es he => ?_⟩
    · rw [hits_entry, if_neg (Ne.symm hk)]
    · rw [hits_entry, if_pos rfl] at he
      exact opt_hit (ser := fun _ => v) (o := some a) he (fun _ => h2) fun b hb => by
        injection hb with hb; subst hb; exact h3

/-- The keys of the properties. -/
def propertyKeys : List String := ["size", "access", "protection", "resetValue", "resetMask"]

theorem de_registerInfo (oc : Bool) {r : RegisterInfo}
    (h : ∀ l, r.fields = some l → ∀ f ∈ l, FieldParts (fun f => WritableRange f.bitRange) JoinableIndexes f) :
    Reads (registerKeys ++ propertyKeys) (serRegisterInfo oc) (deRegisterInfo oc)
      (fun i => { i with fields := i.fields.map fun l => l.map keepIndexed }) r := by
  obtain ⟨fs, h1, h2, h3⟩ := opt_round (k := "fields") (o := r.fields) (ser := serListM (serField oc))
    (de := deList (deField oc)) (f := fun l => l.map keepIndexed) fun l hl => by
      obtain ⟨vs, g1, g2⟩ := mapM_round (l := l) (ser := serField oc) (de := deField oc) (f := keepIndexed)
        fun f hfl => by
          obtain ⟨v, a, b, _⟩ := de_field oc (h l hl f hfl)
          exact ⟨v, a, b⟩
      exact ⟨.arr vs, by rw [serListM, g1, ok_bind], nofun, g2⟩
  refine ⟨_, by rw [serRegisterInfo, h1, ok_bind], fun k hk => ?_, fun es he => ?_⟩
  · have hp : hits k (serProperties r.properties) = [] := properties_other fun h => hk (List.mem_append_right _ h)
    have hk : k ∉ registerKeys := fun h => hk (List.mem_append_left _ h)
    simp only [registerKeys, List.mem_cons, List.not_mem_nil, or_false, not_or] at hk
    obtain ⟨k1, k2, k3, k4, k5, k6, k7, k8, k9, k10, k11, k12⟩ := hk
    simp [hits_append, hits_entry, hits_opt, hp, h2 k k11, Ne.symm k1, Ne.symm k2, Ne.symm k3, Ne.symm k4,
      Ne.symm k5, Ne.symm k6, Ne.symm k7, Ne.symm k8, Ne.symm k9, Ne.symm k10, Ne.symm k12]
  · have hp : ∀ k ∈ registerKeys, hits k (serProperties r.properties) = [] :=
      fun k hk => properties_other (by revert k; decide)
    have e1 := he "name" (by decide)
    have e2 := he "displayName" (by decide)
    have e3 := he "description" (by decide)
    have e4 := he "alternateGroup" (by decide)
    have e5 := he "alternateRegister" (by decide)
    have e6 := he "addressOffset" (by decide)
    have e7 := he "datatype" (by decide)
    have e8 := he "modifiedWriteValues" (by decide)
    have e9 := he "writeConstraint" (by decide)
    have e10 := he "readAction" (by decide)
    have e11 := he "fields" (by decide)
    have e12 := he "derivedFrom" (by decide)
    simp [hits_append, hits_entry, hits_opt, hp "name" (by decide), hp "displayName" (by decide),
      hp "description" (by decide), hp "alternateGroup" (by decide), hp "alternateRegister" (by decide),
      hp "addressOffset" (by decide), hp "datatype" (by decide), hp "modifiedWriteValues" (by decide),
      hp "writeConstraint" (by decide), hp "readAction" (by decide), hp "fields" (by decide),
      hp "derivedFrom" (by decide), h2] at e1 e2 e3 e4 e5 e6 e7 e8 e9 e10 e11 e12
    rw [deRegisterInfo, req_hit e1, de_str, ok_bind, opt_same e2 ser_str_ne de_str, ok_bind,
      opt_same e3 ser_str_ne de_str, ok_bind, opt_same e4 ser_str_ne de_str, ok_bind,
      opt_same e5 ser_str_ne de_str, ok_bind, req_hit e6, de_int, ok_bind,
      opt_same e7 (ser_unit_ne _) de_dataType, ok_bind, opt_same e8 (ser_unit_ne _) de_modified, ok_bind,
      opt_same e9 ser_writeConstraint_ne de_writeConstraint, ok_bind,
      opt_same e10 (ser_unit_ne _) de_readAction, ok_bind, h3 _ e11, ok_bind,
      opt_same e12 ser_str_ne de_str, ok_bind, de_properties (p := r.properties), ok_bind]
    intro k hk
    have hk' : k ∉ registerKeys := by revert k; decide
    rw [hits_rest, if_neg hk', he k (List.mem_append_right _ hk)]
    simp only [registerKeys, List.mem_cons, List.not_mem_nil, or_false, not_or] at hk'
    obtain ⟨k1, k2, k3, k4, k5, k6, k7, k8, k9, k10, k11, k12⟩ := hk'
    simp [hits_append, hits_entry, hits_opt, h2 k k11, Ne.symm k1, Ne.symm k2, Ne.symm k3, Ne.symm k4,
      Ne.symm k5, Ne.symm k6, Ne.symm k7, Ne.symm k8, Ne.symm k9, Ne.symm k10, Ne.symm k12]

theorem de_register (oc : Bool) {r : Register}
    (h : RegisterParts (fun f => WritableRange f.bitRange) JoinableIndexes r) :
    ∃ v, serRegister oc r = .ok v ∧ deRegister oc v = .ok (keptRegister r) := by
  obtain ⟨v, h1, h2, _⟩ := de_array (by decide) (de_registerInfo oc h.1) h.2
  exact ⟨v, h1, h2⟩


/-! ## Clusters -/

theorem de_children (oc : Bool) {es : Entries} {v : Val} (h : hits "children" es = [v]) :
    deChildren oc es = deRcList oc v := by
  induction es with
  | nil => cases h
  | cons e es ih =>
    obtain ⟨k, w⟩ := e
    rw [deChildren]
    by_cases hk : k = "children"
    · subst hk
      rw [if_pos rfl]
      simp [hits] at h
      rw [h.1]
    · rw [if_neg hk]
      refine ih ?_
      simpa [hits, hk] using h

theorem de_clusterInfo (kids : List RegisterCluster) (vs : List Val) (h : ClusterInfo) :
    Reads (clusterKeys ++ propertyKeys) (fun i : ClusterInfo => .ok (serClusterInfo i.toClusterHead vs))
      (deClusterInfo (.ok kids)) (fun i => { i with children := kids }) h := by
  refine ⟨_, rfl, fun k hk => ?_, fun es he => ?_⟩
  · have hp : hits k (serProperties h.defaultRegisterProperties) = [] :=
      properties_other fun h => hk (List.mem_append_right _ h)
    have hk : k ∉ clusterKeys := fun h => hk (List.mem_append_left _ h)
    simp only [clusterKeys, List.mem_cons, List.not_mem_nil, or_false, not_or] at hk
    obtain ⟨k1, k2, k3, k4, k5, k6, k7⟩ := hk
    simp [serClusterInfo, hits_append, hits_entry, hits_opt, hp, Ne.symm k1, Ne.symm k2, Ne.symm k3, Ne.symm k4,
      Ne.symm k5, Ne.symm k6, Ne.symm k7]
  · have hp : ∀ k ∈ clusterKeys, hits k (serProperties h.defaultRegisterProperties) = [] :=
      fun k hk => properties_other (by revert k; decide)
    have e1 := he "name" (by decide)
    have e2 := he "description" (by decide)
    have e3 := he "alternateCluster" (by decide)
    have e4 := he "headerStructName" (by decide)
    have e5 := he "addressOffset" (by decide)
    have e6 := he "derivedFrom" (by decide)
    simp [serClusterInfo, hits_append, hits_entry, hits_opt, hp "name" (by decide), hp "description" (by decide),
      hp "alternateCluster" (by decide), hp "headerStructName" (by decide), hp "addressOffset" (by decide),
      hp "derivedFrom" (by decide)] at e1 e2 e3 e4 e5 e6
    rw [deClusterInfo, req_hit e1, de_str, ok_bind, opt_same e2 ser_str_ne de_str, ok_bind,
      opt_same e3 ser_str_ne de_str, ok_bind, opt_same e4 ser_str_ne de_str, ok_bind, req_hit e5, de_int, ok_bind,
      ok_bind, opt_same e6 ser_str_ne de_str, ok_bind, de_properties (p := h.defaultRegisterProperties), ok_bind]
    intro k hk
    have hk' : k ∉ clusterKeys := by revert k; decide
    rw [hits_rest, if_neg hk', he k (List.mem_append_right _ hk)]
    simp only [clusterKeys, List.mem_cons, List.not_mem_nil, or_false, not_or] at hk'
    obtain ⟨k1, k2, k3, k4, k5, k6, k7⟩ := hk'
    simp [serClusterInfo, hits_append, hits_entry, hits_opt, Ne.symm k1, Ne.symm k2, Ne.symm k3, Ne.symm k4,
      Ne.symm k5, Ne.symm k6, Ne.symm k7]

/-- The written array contains the entries of the struct. -/
theorem serArray_hits {α : Type} {ser : α → M Entries} {x : MaybeArray α} {v : Val} {es : Entries} {k : String}
    (h : serArray ser x = .ok v) (he : ser x.info = .ok es) (hk : k ∉ dimKeys)
    (hd : DimPart JoinableIndexes x) : ∃ es', v = .obj es' ∧ hits k es' = hits k es := by
  cases x with
  | single i =>
    have he : ser i = .ok es := he
    rw [serArray, he] at h
    injection h with h
    exact ⟨es, h.symm, rfl⟩
  | array i d =>
    have he : ser i = .ok es := he
    obtain ⟨ds, g1, g2, _⟩ := de_dim (d := d) hd
    rw [serArray, g1, ok_bind, he] at h
    injection h with h
    exact ⟨ds ++ es, h.symm, by rw [hits_append, g2 k hk, List.nil_append]⟩

mutual
theorem de_rc (oc : Bool) : ∀ c : RegisterCluster,
    RcParts (fun f => WritableRange f.bitRange) JoinableIndexes c →
      ∃ v, serRc oc c = .ok v ∧ deRc oc v = .ok (keptRc c)
  | .register r, h => by
    rw [RcParts] at h
    obtain ⟨v, h1, h2⟩ := de_register oc h
    refine ⟨.obj (entry "register" v), by rw [serRc, h1, ok_bind], ?_⟩
    rw [entry, deRc, if_pos rfl, h2, ok_bind, keptRc]
  | .cluster hd d cs, h => by
    rw [RcParts] at h
    obtain ⟨vs, h1, h2⟩ := de_rcs oc cs h.2
    have hdim : DimPart JoinableIndexes (MaybeArray.mk' ({ hd with children := cs } : ClusterInfo) d) := by
      cases d with
      | none => trivial
      | some d => exact h.1 d rfl
    obtain ⟨v, g1, g2, _⟩ := de_array (by decide) (de_clusterInfo (keptRcs cs) vs _) hdim
    obtain ⟨es, rfl, he⟩ := serArray_hits (k := "children") g1 rfl (by decide) hdim
    have he : hits "children" es = [.arr vs] := by
      rw [he]
      simp [serClusterInfo, hits_append, hits_entry, hits_opt, properties_other]
    refine ⟨.obj (entry "cluster" (.obj es)), by rw [serRc, h1, ok_bind, g1, ok_bind], ?_⟩
    rw [entry, deRc, if_neg (by decide), if_pos rfl, deCluster, he, if_pos (show [Val.arr vs].length = 1 from rfl), de_children oc he, deRcList, h2, g2,
      ok_bind, keptRc]
    cases d with
    | none => rfl
    | some d =>
      by_cases hn : d.dimIndex = none
      · simp [keepIndexed, MaybeArray.mapInfo, MaybeArray.mk', RegisterCluster.ofCluster, indexed, hn]
      · simp [keepIndexed, MaybeArray.mapInfo, MaybeArray.mk', RegisterCluster.ofCluster, indexed, hn]
theorem de_rcs (oc : Bool) : ∀ cs : List RegisterCluster,
    RcsParts (fun f => WritableRange f.bitRange) JoinableIndexes cs →
      ∃ vs, serRcs oc cs = .ok vs ∧ deRcs oc vs = .ok (keptRcs cs)
  | [], _ => ⟨[], by rw [serRcs], by rw [deRcs, keptRcs]⟩
  | c :: cs, h => by
    rw [RcsParts] at h
    obtain ⟨v, h1, h2⟩ := de_rc oc c h.1
    obtain ⟨vs, h3, h4⟩ := de_rcs oc cs h.2
    exact ⟨v :: vs, by rw [serRcs, h1, ok_bind, h3, ok_bind], by rw [deRcs, h2, ok_bind, h4, ok_bind, keptRcs]⟩
end

/-! ## Peripherals and devices -/

theorem de_peripheralInfo (oc : Bool) {p : PeripheralInfo}
    (h : ∀ l, p.registers = some l → RcsParts (fun f => WritableRange f.bitRange) JoinableIndexes l) :
    Reads (peripheralKeys ++ propertyKeys) (serPeripheralInfo oc) (dePeripheralInfo oc)
      (fun i => { i with registers := i.registers.map keptRcs }) p := by
  obtain ⟨fs, h1, h2, h3⟩ := opt_round (k := "registers") (o := p.registers) (ser := serRcList oc)
    (de := deRcList oc) (f := keptRcs) fun l hl => by
      obtain ⟨vs, g1, g2⟩ := de_rcs oc l (h l hl)
      exact ⟨.arr vs, by rw [serRcList, g1, ok_bind], nofun, by rw [deRcList, g2]⟩
  refine ⟨_, by rw [serPeripheralInfo, h1, ok_bind], fun k hk => ?_, fun es he => ?_⟩
  · have hp : hits k (serProperties p.defaultRegisterProperties) = [] :=
      properties_other fun h => hk (List.mem_append_right _ h)
    have hk : k ∉ peripheralKeys := fun h => hk (List.mem_append_left _ h)
    simp only [peripheralKeys, List.mem_cons, List.not_mem_nil, or_false, not_or] at hk
    obtain ⟨k1, k2, k3, k4, k5, k6, k7, k8, k9, k10, k11, k12, k13, k14⟩ := hk
    simp [hits_append, hits_entry, hits_opt, hits_list, hp, h2 k k13, Ne.symm k1, Ne.symm k2, Ne.symm k3,
      Ne.symm k4, Ne.symm k5, Ne.symm k6, Ne.symm k7, Ne.symm k8, Ne.symm k9, Ne.symm k10, Ne.symm k11,
      Ne.symm k12, Ne.symm k14]
  · have hp : ∀ k ∈ peripheralKeys, hits k (serProperties p.defaultRegisterProperties) = [] :=
      fun k hk => properties_other (by revert k; decide)
    have e1 := he "name" (by decide)
    have e2 := he "displayName" (by decide)
    have e3 := he "version" (by decide)
    have e4 := he "description" (by decide)
    have e5 := he "alternatePeripheral" (by decide)
    have e6 := he "groupName" (by decide)
    have e7 := he "prependToName" (by decide)
    have e8 := he "appendToName" (by decide)
    have e9 := he "headerStructName" (by decide)
    have e10 := he "baseAddress" (by decide)
    have e11 := he "addressBlock" (by decide)
    have e12 := he "interrupt" (by decide)
    have e13 := he "registers" (by decide)
    have e14 := he "derivedFrom" (by decide)
    simp [hits_append, hits_entry, hits_opt, hits_list, hp "name" (by decide), hp "displayName" (by decide),
      hp "version" (by decide), hp "description" (by decide), hp "alternatePeripheral" (by decide),
      hp "groupName" (by decide), hp "prependToName" (by decide), hp "appendToName" (by decide),
      hp "headerStructName" (by decide), hp "baseAddress" (by decide), hp "addressBlock" (by decide),
      hp "interrupt" (by decide), hp "registers" (by decide), hp "derivedFrom" (by decide), h2]
      at e1 e2 e3 e4 e5 e6 e7 e8 e9 e10 e11 e12 e13 e14
    rw [dePeripheralInfo, req_hit e1, de_str, ok_bind, opt_same e2 ser_str_ne de_str, ok_bind,
      opt_same e3 ser_str_ne de_str, ok_bind, opt_same e4 ser_str_ne de_str, ok_bind,
      opt_same e5 ser_str_ne de_str, ok_bind, opt_same e6 ser_str_ne de_str, ok_bind,
      opt_same e7 ser_str_ne de_str, ok_bind, opt_same e8 ser_str_ne de_str, ok_bind,
      opt_same e9 ser_str_ne de_str, ok_bind, req_hit e10, de_int, ok_bind,
      opt_same (o := p.addressBlock) (ser := fun l => .arr (l.map serAddressBlock)) (by rw [e11]) (fun _ => nofun)
        (mapM_ser de_addressBlock), ok_bind,
      list_same (l := p.interrupt) (ser := serInterrupt) (by rw [e12]; simp) de_interrupt, ok_bind,
      h3 _ e13, ok_bind, opt_same e14 ser_str_ne de_str, ok_bind,
      de_properties (p := p.defaultRegisterProperties), ok_bind]
    intro k hk
    have hk' : k ∉ peripheralKeys := by revert k; decide
    rw [hits_rest, if_neg hk', he k (List.mem_append_right _ hk)]
    simp only [peripheralKeys, List.mem_cons, List.not_mem_nil, or_false, not_or] at hk'
    obtain ⟨k1, k2, k3, k4, k5, k6, k7, k8, k9, k10, k11, k12, k13, k14⟩ := hk'
    simp [hits_append, hits_entry, hits_opt, hits_list, h2 k k13, Ne.symm k1, Ne.symm k2, Ne.symm k3,
      Ne.symm k4, Ne.symm k5, Ne.symm k6, Ne.symm k7, Ne.symm k8, Ne.symm k9, Ne.symm k10, Ne.symm k11,
      Ne.symm k12, Ne.symm k14]

theorem de_peripheral (oc : Bool) {p : Peripheral}
    (h : PeripheralParts (fun f => WritableRange f.bitRange) JoinableIndexes p) :
    ∃ v, serPeripheral oc p = .ok v ∧ dePeripheral oc v = .ok (keptPeripheral p) := by
  obtain ⟨v, h1, h2, _⟩ := de_array (by decide) (de_peripheralInfo oc h.1) h.2
  exact ⟨v, h1, h2⟩

theorem de_device (oc : Bool) (d : Device)
    (h : DeviceParts (fun f => WritableRange f.bitRange) JoinableIndexes d) :
    ∃ v, serDevice oc d = .ok v ∧ deDevice oc v = .ok (kept d) := by
  obtain ⟨ps, h1, h2⟩ := mapM_round (l := d.peripherals) (ser := serPeripheral oc) (de := dePeripheral oc)
    (f := keptPeripheral) fun p hp => de_peripheral oc (h p hp)
  obtain ⟨es, he, hs⟩ : ∃ es, optEntry "vendor" .str d.vendor ++ optEntry "vendorID" .str d.vendorId ++
      entry "name" (.str d.name) ++ optEntry "series" .str d.series ++ entry "version" (.str d.version) ++
      entry "description" (.str d.description) ++ optEntry "licenseText" .str d.licenseText ++
      optEntry "cpu" serCpu d.cpu ++ optEntry "headerSystemFilename" .str d.headerSystemFilename ++
      optEntry "headerDefinitionsPrefix" .str d.headerDefinitionsPrefix ++
      entry "addressUnitBits" (serInt d.addressUnitBits) ++ entry "width" (serInt d.width) ++
      serProperties d.defaultRegisterProperties ++ entry "peripherals" (.arr ps) = es ∧
      serDevice oc d = .ok (.obj es) := ⟨_, rfl, by rw [serDevice, serListM, h1, ok_bind, ok_bind]⟩
  refine ⟨_, hs, ?_⟩
  have hp : ∀ k ∈ deviceKeys, hits k (serProperties d.defaultRegisterProperties) = [] :=
    fun k hk => properties_other (by revert k; decide)
  have e1 := congrArg (hits "vendor") he
  have e2 := congrArg (hits "vendorID") he
  have e3 := congrArg (hits "name") he
  have e4 := congrArg (hits "series") he
  have e5 := congrArg (hits "version") he
  have e6 := congrArg (hits "description") he
  have e7 := congrArg (hits "licenseText") he
  have e8 := congrArg (hits "cpu") he
  have e9 := congrArg (hits "headerSystemFilename") he
  have e10 := congrArg (hits "headerDefinitionsPrefix") he
  have e11 := congrArg (hits "addressUnitBits") he
  have e12 := congrArg (hits "width") he
  have e13 := congrArg (hits "peripherals") he
  simp [hits_append, hits_entry, hits_opt, hp "vendor" (by decide), hp "vendorID" (by decide), hp "name" (by decide), hp "series" (by decide), hp "version" (by decide), hp "description" (by decide), hp "licenseText" (by decide), hp "cpu" (by decide), hp "headerSystemFilename" (by decide), hp "headerDefinitionsPrefix" (by decide), hp "addressUnitBits" (by decide), hp "width" (by decide), hp "peripherals" (by decide)] at e1 e2 e3 e4 e5 e6 e7 e8 e9 e10 e11 e12 e13
  rw [deDevice, de_struct, opt_same e1.symm ser_str_ne de_str, ok_bind, opt_same e2.symm ser_str_ne de_str, ok_bind,
    req_hit e3.symm, de_str, ok_bind, opt_same e4.symm ser_str_ne de_str, ok_bind, req_hit e5.symm, de_str, ok_bind,
    req_hit e6.symm, de_str, ok_bind, opt_same e7.symm ser_str_ne de_str, ok_bind,
    opt_same e8.symm (fun _ => nofun) de_cpu, ok_bind, opt_same e9.symm ser_str_ne de_str, ok_bind,
    opt_same e10.symm ser_str_ne de_str, ok_bind, req_hit e11.symm, de_int, ok_bind, req_hit e12.symm, de_int, ok_bind,
    req_hit e13.symm, deList, h2, ok_bind, de_properties (p := d.defaultRegisterProperties), ok_bind]
  · rfl
  · intro k hk
    have hk' : k ∉ deviceKeys := by revert k; decide
    rw [hits_rest, if_neg hk', ← he]
    simp only [deviceKeys, List.mem_cons, List.not_mem_nil, or_false, not_or] at hk'
    obtain ⟨k1, k2, k3, k4, k5, k6, k7, k8, k9, k10, k11, k12, k13⟩ := hk'
    simp [hits_append, hits_entry, hits_opt, Ne.symm k1, Ne.symm k2, Ne.symm k3,
      Ne.symm k4, Ne.symm k5, Ne.symm k6, Ne.symm k7, Ne.symm k8, Ne.symm k9, Ne.symm k10, Ne.symm k11,
      Ne.symm k12, Ne.symm k13]

end Svd
