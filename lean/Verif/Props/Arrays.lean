import Verif.Spec.Sample
import Verif.Spec.Instance
import Verif.Model.Dim
import Verif.Lemmas.Subst
import Verif.Lemmas.Except
import Verif.Lemmas.Arith
import Verif.Spec.Name
import Verif.Props.Dim

/-!
# C21, C22: the instances of an array
-/

namespace Svd

open Spec

/-! ## Parts of an instance -/

/-- The arithmetic `base + k * inc`. -/
theorem linear_checked {w : Nat} (base i inc : BitVec w) :
    (do let p ← mulC true i inc; addC true base p) =
      if base.toNat + i.toNat * inc.toNat < 2 ^ w
      then .ok (BitVec.ofNat w (base.toNat + i.toNat * inc.toNat)) else panics .overflow := by
  unfold mulC addC arith
  by_cases h : i.toNat * inc.toNat < 2 ^ w
  · have e : (i * inc).toNat = i.toNat * inc.toNat := by
      rw [BitVec.toNat_mul, Nat.mod_eq_of_lt h]
    simp only [if_pos h, ok_bind, e, ↓reduceIte]
    split
    · congr 1; apply BitVec.eq_of_toNat_eq; simp
    · rfl
  · rw [if_neg (c := i.toNat * inc.toNat < 2 ^ w) h,
      if_neg (c := base.toNat + i.toNat * inc.toNat < 2 ^ w) (by omega)]
    rfl

theorem linear_fits {w : Nat} (oc : Bool) (base i inc : BitVec w)
    (h : base.toNat + i.toNat * inc.toNat < 2 ^ w) :
    (do let p ← mulC oc i inc; addC oc base p) =
      .ok (BitVec.ofNat w (base.toNat + i.toNat * inc.toNat)) := by
  unfold mulC addC arith
  have h1 : i.toNat * inc.toNat < 2 ^ w := by omega
  have e : (i * inc).toNat = i.toNat * inc.toNat := by
    rw [BitVec.toNat_mul, Nat.mod_eq_of_lt h1]
  simp only [if_pos h1, ok_bind, e, if_pos h]
  congr 1; apply BitVec.eq_of_toNat_eq; simp

theorem dim_lt (d : DimElement) {k : Nat} (hk : k < d.dim.toNat) : k < 2 ^ 32 :=
  Nat.lt_trans hk d.dim.isLt

theorem offsetAt_true (base : U32) (d : DimElement) {k : Nat} (hk : k < d.dim.toNat) :
    offsetAt true base d k =
      if base.toNat + k * d.dimIncrement.toNat < 2 ^ 32
      then .ok (BitVec.ofNat 32 (base.toNat + k * d.dimIncrement.toNat)) else panics .overflow := by
  unfold offsetAt
  rw [linear_checked]
  simp only [BitVec.toNat_ofNat, Nat.mod_eq_of_lt (dim_lt d hk)]

theorem offsetAt_fits (oc : Bool) (base : U32) (d : DimElement) {k : Nat} (hk : k < d.dim.toNat)
    (h : base.toNat + k * d.dimIncrement.toNat < 2 ^ 32) :
    offsetAt oc base d k = .ok (BitVec.ofNat 32 (base.toNat + k * d.dimIncrement.toNat)) := by
  have e : (BitVec.ofNat 32 k).toNat = k := by simp [Nat.mod_eq_of_lt (dim_lt d hk)]
  have := linear_fits oc base (BitVec.ofNat 32 k) d.dimIncrement (by rw [e]; exact h)
  rw [e] at this
  exact this

theorem baseAddressAt_true (base : U64) (d : DimElement) {k : Nat} (hk : k < d.dim.toNat) :
    baseAddressAt true base d k =
      if base.toNat + k * d.dimIncrement.toNat < 2 ^ 64
      then .ok (BitVec.ofNat 64 (base.toNat + k * d.dimIncrement.toNat)) else panics .overflow := by
  have := dim_lt d hk
  have := d.dimIncrement.isLt
  unfold baseAddressAt
  rw [linear_checked]
  simp only [BitVec.toNat_ofNat, BitVec.toNat_setWidth, Nat.mod_eq_of_lt (show k < 2 ^ 64 by omega),
    Nat.mod_eq_of_lt (show d.dimIncrement.toNat < 2 ^ 64 by omega)]

theorem baseAddressAt_fits (oc : Bool) (base : U64) (d : DimElement) {k : Nat}
    (hk : k < d.dim.toNat) (h : base.toNat + k * d.dimIncrement.toNat < 2 ^ 64) :
    baseAddressAt oc base d k = .ok (BitVec.ofNat 64 (base.toNat + k * d.dimIncrement.toNat)) := by
  have := dim_lt d hk
  have := d.dimIncrement.isLt
  have e : (BitVec.ofNat 64 k).toNat = k := by
    simp [Nat.mod_eq_of_lt (show k < 2 ^ 64 by omega)]
  have e2 : (d.dimIncrement.setWidth 64).toNat = d.dimIncrement.toNat := by
    simp [Nat.mod_eq_of_lt (show d.dimIncrement.toNat < 2 ^ 64 by omega)]
  have := linear_fits oc base (BitVec.ofNat 64 k) (d.dimIncrement.setWidth 64)
    (by rw [e, e2]; exact h)
  rw [e, e2] at this
  exact this

theorem indexAt_eq (d : DimElement) {k : Nat} (hk : k < d.dim.toNat) :
    d.indexAt k = match (indexList d)[k]? with
      | some s => .ok s
      | none => panics .indexOutOfBounds := by
  unfold DimElement.indexAt indexList decimalRange decimal
  cases d.dimIndex with
  | some l => rfl
  | none => simp [List.getElem?_range' hk]

theorem arrayIndexValue_iff (d : DimElement) (idx : Str) (e : EnumeratedValue) :
    arrayIndexValue d idx = some e ↔ ValueFor d idx e := by
  unfold arrayIndexValue ValueFor
  have key : ∀ x : EnumeratedValue, (x.value.any fun v => decString v == idx) = true ↔
      ∃ v, x.value = some v ∧ decimal v.toNat = idx := by
    intro x
    cases x.value <;> simp [decString, decimal]
  cases d.dimArrayIndex with
  | none => simp
  | some dai =>
    simp only [Option.bind_some, List.find?_eq_some_iff_append, key]
    constructor
    · rintro ⟨h1, pre, post, h2, h3⟩
      refine ⟨dai, pre, post, rfl, h2, h1, fun x hx v hv he => ?_⟩
      have := h3 x hx
      simp only [Bool.not_eq_true', ← Bool.not_eq_true] at this
      exact this ((key x).mpr ⟨v, hv, he⟩)
    · rintro ⟨dai', pre, post, h0, h2, h1, h3⟩
      injection h0 with h0; subst h0
      refine ⟨h1, pre, post, h2, fun x hx => ?_⟩
      simp only [Bool.not_eq_true', ← Bool.not_eq_true]
      intro h
      obtain ⟨v, hv, he⟩ := (key x).mp h
      exact h3 x hx v hv he

/-- The name given index `idx`. -/
def nameFor (name : Str) (d : DimElement) (idx : Str) : Str :=
  match arrayIndexValue d idx with
  | some e => e.name
  | none => substIndex name idx

/-- The description given index `idx`. -/
def descriptionFor (desc : Option Str) (d : DimElement) (idx : Str) : Option Str :=
  match (arrayIndexValue d idx).bind (·.description) with
  | some s => some s
  | none => desc.map fun s => substIndex s idx

theorem nameAt_eq (name : Str) (d : DimElement) (k : Nat) :
    nameAt name d k = (do let idx ← d.indexAt k; .ok (nameFor name d idx)) := by
  unfold nameAt nameFor
  cases d.indexAt k with
  | error e => rfl
  | ok idx => simp only [ok_bind]; cases arrayIndexValue d idx <;> rfl

theorem descriptionAt_eq (desc : Option Str) (d : DimElement) (k : Nat) :
    descriptionAt desc d k = (do let idx ← d.indexAt k; .ok (descriptionFor desc d idx)) := by
  unfold descriptionAt descriptionFor
  cases d.indexAt k with
  | error e => rfl
  | ok idx => simp only [ok_bind]; cases (arrayIndexValue d idx).bind (·.description) <;> rfl

theorem nameFor_iff (d : DimElement) (idx name new : Str) :
    nameFor name d idx = new ↔ InstanceName d idx name new := by
  unfold nameFor InstanceName
  simp only [← arrayIndexValue_iff]
  cases arrayIndexValue d idx with
  | none => simp [substIndex_iff]
  | some e => simp [eq_comm]

theorem substOpt_iff (idx : Str) (s t : Option Str) :
    s.map (fun s => substIndex s idx) = t ↔ SubstitutedOpt idx s t := by
  unfold SubstitutedOpt
  simp only [← substIndex_iff]
  cases s <;> cases t <;> simp

theorem descriptionFor_iff (d : DimElement) (idx : Str) (desc new : Option Str) :
    descriptionFor desc d idx = new ↔ InstanceDescription d idx desc new := by
  unfold descriptionFor InstanceDescription
  simp only [← arrayIndexValue_iff]
  cases h : arrayIndexValue d idx with
  | none => simp [substOpt_iff]
  | some e =>
    cases h2 : e.description with
    | none =>
      simp only [Option.bind_some, h2, substOpt_iff]
      constructor
      · intro h3
        refine .inr ⟨?_, h3⟩
        rintro ⟨e', s, he, hs⟩
        injection he with he; subst he; simp [h2] at hs
      · rintro (⟨e', s, he, hs, _⟩ | ⟨_, h3⟩)
        · injection he with he; subst he; simp [h2] at hs
        · exact h3
    | some s =>
      simp only [Option.bind_some, h2]
      constructor
      · rintro rfl; exact .inl ⟨e, s, rfl, h2, rfl⟩
      · rintro (⟨e', s', he, hs, h3⟩ | ⟨h3, _⟩)
        · injection he with he; subst he
          rw [h2] at hs; rw [h3, ← hs]
        · exact absurd ⟨e, s, rfl, h2⟩ h3

theorem range_mapM_ok {α : Type} {f : Nat → M α} {n : Nat} {l : List α} :
    (List.range n).mapM f = .ok l ↔ l.length = n ∧ ∀ k a, l[k]? = some a → f k = .ok a := by
  constructor
  · intro h
    have hl := mapM_ok_length h
    rw [List.length_range] at hl
    refine ⟨hl, fun k a hk => ?_⟩
    have hkn : k < n := by
      rw [← hl]; exact (List.getElem?_eq_some_iff.mp hk).1
    have := mapM_ok_get h k
    rw [hk, List.getElem?_range hkn] at this
    simpa using this
  · rintro ⟨hl, h⟩
    rw [mapM_ok]
    apply List.ext_getElem?
    intro k
    by_cases hk : k < n
    · rw [List.getElem?_map, List.getElem?_map, List.getElem?_range hk]
      have hk' : k < l.length := by omega
      rw [List.getElem?_eq_getElem hk']
      simp only [Option.map_some]
      rw [h k l[k] (List.getElem?_eq_getElem hk')]
    · rw [List.getElem?_eq_none (by simp; omega), List.getElem?_eq_none (by simp; omega)]

/-- Putting the parts together. -/
theorem expand_iff {α : Type} {f : Nat → M α} {inst : Nat → α → Prop} {d : DimElement}
    (h : ∀ k < d.dim.toNat, ∀ a, f k = .ok a ↔ inst k a) (l : List α) :
    (List.range d.dim.toNat).mapM f = .ok l ↔ Instances inst d l := by
  rw [range_mapM_ok]
  unfold Instances
  refine and_congr_right fun hl => forall_congr' fun k => forall_congr' fun a => ?_
  refine imp_congr_right fun hk => ?_
  exact h k (by rw [← hl]; exact (List.getElem?_eq_some_iff.mp hk).1) a

/-! ## C21 -/

/-- **C21.** Fields. -/
theorem C21_fields (info : FieldInfo) (d : DimElement) (l : List FieldInfo) :
    info.expand true d = .ok l ↔ Instances (FieldInstance info d) d l := by
  refine expand_iff (fun k hk a => ?_) l
  unfold FieldInfo.expandAt FieldInstance
  rw [nameAt_eq, descriptionAt_eq, indexAt_eq d hk, offsetAt_true _ _ hk]
  cases (indexList d)[k]? with
  | none => simp [panics]
  | some idx =>
    simp only [ok_bind, Option.some.injEq, exists_eq_left', ← nameFor_iff, ← descriptionFor_iff]
    split
    · next hlt =>
      simp only [ok_bind, Except.ok.injEq]
      constructor
      · rintro rfl
        exact ⟨rfl, rfl, by simp [Nat.mod_eq_of_lt hlt], rfl, rfl, rfl⟩
      · rintro ⟨h1, h2, h3, h4, h5, h6⟩
        rw [h6, h1, h2]
        congr 1
        rcases hb : a.bitRange with ⟨o, w, t⟩
        simp only [hb] at h3 h4 h5
        subst h4 h5
        congr 1
        apply BitVec.eq_of_toNat_eq
        simp [h3, Nat.mod_eq_of_lt hlt]
    · next hlt =>
      simp only [panics, error_bind, reduceCtorEq, false_iff]
      rintro ⟨_, _, h3, _⟩
      exact hlt (h3 ▸ BitVec.isLt _)

example : Instances (FieldInstance (Sample.fieldInfo "F%s" 4) (Sample.dim 2 8 (some ["A", "B"])))
    (Sample.dim 2 8 (some ["A", "B"])) [Sample.fieldInfo "FA" 4, Sample.fieldInfo "FB" 12] :=
  (C21_fields _ _ _).mp (by decide +kernel)

/-- **C21.** Registers. -/
theorem C21_registers (info : RegisterInfo) (d : DimElement) (l : List RegisterInfo) :
    info.expand true d = .ok l ↔ Instances (RegisterInstance info d) d l := by
  refine expand_iff (fun k hk a => ?_) l
  unfold RegisterInfo.expandAt RegisterInstance
  rw [nameAt_eq, descriptionAt_eq, indexAt_eq d hk, offsetAt_true _ _ hk]
  cases (indexList d)[k]? with
  | none => simp [panics]
  | some idx =>
    simp only [ok_bind, Option.some.injEq, exists_eq_left', ← nameFor_iff, ← descriptionFor_iff,
      ← substOpt_iff]
    split
    · next hlt =>
      simp only [ok_bind, Except.ok.injEq]
      constructor
      · rintro rfl
        exact ⟨rfl, rfl, by simp [Nat.mod_eq_of_lt hlt], rfl, rfl⟩
      · rintro ⟨h1, h2, h3, h4, h5⟩
        rw [h5, h1, h2, h4]
        congr 1
        apply BitVec.eq_of_toNat_eq
        simp [h3, Nat.mod_eq_of_lt hlt]
    · next hlt =>
      simp only [panics, error_bind, reduceCtorEq, false_iff]
      rintro ⟨_, _, h3, _⟩
      exact hlt (h3 ▸ BitVec.isLt _)

example : Instances (RegisterInstance (Sample.registerInfo "R[%s]" 0x10) (Sample.dim 3 4))
    (Sample.dim 3 4) [Sample.registerInfo "R0" 0x10, Sample.registerInfo "R1" 0x14, Sample.registerInfo "R2" 0x18] :=
  (C21_registers _ _ _).mp (by decide +kernel)

/-- **C21.** Clusters. -/
theorem C21_clusters (info : ClusterInfo) (d : DimElement) (l : List ClusterInfo) :
    info.expand true d = .ok l ↔ Instances (ClusterInstance info d) d l := by
  refine expand_iff (fun k hk a => ?_) l
  unfold ClusterInfo.expandAt ClusterInstance
  rw [nameAt_eq, descriptionAt_eq, indexAt_eq d hk, offsetAt_true _ _ hk]
  cases (indexList d)[k]? with
  | none => simp [panics]
  | some idx =>
    simp only [ok_bind, Option.some.injEq, exists_eq_left', ← nameFor_iff, ← descriptionFor_iff]
    split
    · next hlt =>
      simp only [ok_bind, Except.ok.injEq]
      constructor
      · rintro rfl
        exact ⟨rfl, rfl, by simp [Nat.mod_eq_of_lt hlt], rfl⟩
      · rintro ⟨h1, h2, h3, h5⟩
        rw [h5, h1, h2]
        congr 2
        apply BitVec.eq_of_toNat_eq
        simp [h3, Nat.mod_eq_of_lt hlt]
    · next hlt =>
      simp only [panics, error_bind, reduceCtorEq, false_iff]
      rintro ⟨_, _, h3, _⟩
      exact hlt (h3 ▸ BitVec.isLt _)

example : ∃ l, Instances (ClusterInstance ⟨{ Sample.clusterHead "C%s" 0x10 with
      description := some "Cluster %s".toList }, [.register (.single (Sample.registerInfo "R" 0))]⟩ (Sample.dim 2 0x20)) (Sample.dim 2 0x20) l ∧
    l.map (fun c => (c.name, c.addressOffset, c.description)) =
      [("C0".toList, 0x10, some "Cluster 0".toList), ("C1".toList, 0x30, some "Cluster 1".toList)] :=
  ⟨_, (C21_clusters _ _ _).mp rfl, by decide +kernel⟩

/-- **C21.** Peripherals. -/
theorem C21_peripherals (info : PeripheralInfo) (d : DimElement) (l : List PeripheralInfo) :
    info.expand true d = .ok l ↔ Instances (PeripheralInstance info d) d l := by
  refine expand_iff (fun k hk a => ?_) l
  unfold PeripheralInfo.expandAt PeripheralInstance
  rw [nameAt_eq, descriptionAt_eq, indexAt_eq d hk, baseAddressAt_true _ _ hk]
  cases (indexList d)[k]? with
  | none => simp [panics]
  | some idx =>
    simp only [ok_bind, Option.some.injEq, exists_eq_left', ← nameFor_iff, ← descriptionFor_iff,
      ← substOpt_iff]
    split
    · next hlt =>
      simp only [ok_bind, Except.ok.injEq]
      constructor
      · rintro rfl
        exact ⟨rfl, rfl, by simp [Nat.mod_eq_of_lt hlt], rfl, rfl⟩
      · rintro ⟨h1, h2, h3, h4, h5⟩
        rw [h5, h1, h2, h4]
        congr 1
        apply BitVec.eq_of_toNat_eq
        simp [h3, Nat.mod_eq_of_lt hlt]
    · next hlt =>
      simp only [panics, error_bind, reduceCtorEq, false_iff]
      rintro ⟨_, _, h3, _⟩
      exact hlt (h3 ▸ BitVec.isLt _)

example : Instances (PeripheralInstance (Sample.peripheralInfo "P%s" 0x1000) (Sample.dim 2 0x100))
    (Sample.dim 2 0x100) [Sample.peripheralInfo "P0" 0x1000, Sample.peripheralInfo "P1" 0x1100] :=
  (C21_peripherals _ _ _).mp (by decide +kernel)

/-- Enough indexes for the array. -/
def EnoughIndexes (d : DimElement) : Prop := ∀ l, d.dimIndex = some l → d.dim.toNat ≤ l.length

theorem indexList_some {d : DimElement} (h : EnoughIndexes d) {k : Nat} (hk : k < d.dim.toNat) :
    ∃ idx, (indexList d)[k]? = some idx := by
  unfold indexList
  cases hd : d.dimIndex with
  | none => simp [decimalRange, List.getElem?_range' hk]
  | some l =>
    have := h l hd
    exact ⟨l[k]'(by omega), List.getElem?_eq_getElem _⟩

/-- The outcomes of an expansion: complete whatever the build if every address is representable; a
panic for overflow otherwise. -/
def ExpandOutcomes {α : Type} (expand : Bool → M (List α)) (base bound : Nat) (d : DimElement) : Prop :=
  ((∀ k < d.dim.toNat, base + k * d.dimIncrement.toNat < bound) →
    ∃ l, ∀ oc, expand oc = .ok l) ∧
  ((∃ k < d.dim.toNat, bound ≤ base + k * d.dimIncrement.toNat) →
    expand true = .error (.panic .overflow))

theorem outcomes {α : Type} {f : Bool → Nat → M α} {base bound : Nat} {d : DimElement}
    (h1 : ∀ k < d.dim.toNat, base + k * d.dimIncrement.toNat < bound →
      ∃ a, ∀ oc, f oc k = .ok a)
    (h2 : ∀ k < d.dim.toNat, bound ≤ base + k * d.dimIncrement.toNat →
      f true k = .error (.panic .overflow)) :
    ExpandOutcomes (fun oc => (List.range d.dim.toNat).mapM (f oc)) base bound d := by
  constructor
  · intro h
    obtain ⟨l, hl⟩ := mapM_ok_of_forall (f := f true) (l := List.range d.dim.toNat) fun k hk => by
      obtain ⟨a, ha⟩ := h1 k (List.mem_range.mp hk) (h k (List.mem_range.mp hk))
      exact ⟨a, ha true⟩
    refine ⟨l, fun oc => ?_⟩
    show (List.range d.dim.toNat).mapM (f oc) = .ok l
    rw [← hl]
    refine mapM_congr fun k hk => ?_
    obtain ⟨a, ha⟩ := h1 k (List.mem_range.mp hk) (h k (List.mem_range.mp hk))
    rw [ha, ha]
  · rintro ⟨k, hk, hb⟩
    show (List.range d.dim.toNat).mapM (f true) = _
    cases hm : (List.range d.dim.toNat).mapM (f true) with
    | ok l =>
      obtain ⟨b, _, hb'⟩ := mapM_ok_mem hm (List.mem_range.mpr hk)
      rw [h2 k hk hb] at hb'; cases hb'
    | error e =>
      obtain ⟨j, hj, he⟩ := mapM_error hm
      rw [List.mem_range] at hj
      by_cases hlt : base + j * d.dimIncrement.toNat < bound
      · obtain ⟨a, ha⟩ := h1 j hj hlt
        rw [ha] at he; cases he
      · rw [h2 j hj (by omega)] at he
        injection he with he
        rw [← he]

/-- **C21.** Every expansion is complete, or panics because an address is not representable. -/
theorem C21_outcomes (d : DimElement) (hd : EnoughIndexes d) :
    (∀ info : FieldInfo,
      ExpandOutcomes (fun oc => info.expand oc d) info.bitRange.offset.toNat (2 ^ 32) d) ∧
    (∀ info : RegisterInfo,
      ExpandOutcomes (fun oc => info.expand oc d) info.addressOffset.toNat (2 ^ 32) d) ∧
    (∀ info : ClusterInfo,
      ExpandOutcomes (fun oc => info.expand oc d) info.addressOffset.toNat (2 ^ 32) d) ∧
    (∀ info : PeripheralInfo,
      ExpandOutcomes (fun oc => info.expand oc d) info.baseAddress.toNat (2 ^ 64) d) := by
  refine ⟨fun info => outcomes ?_ ?_, fun info => outcomes ?_ ?_, fun info => outcomes ?_ ?_,
    fun info => outcomes ?_ ?_⟩ <;> intro k hk hb <;> obtain ⟨idx, hidx⟩ := indexList_some hd hk
  · simp only [FieldInfo.expandAt, nameAt_eq, descriptionAt_eq, indexAt_eq d hk,
      offsetAt_fits _ _ _ hk hb, hidx, ok_bind]
    exact ⟨_, fun _ => rfl⟩
  · unfold FieldInfo.expandAt
    rw [nameAt_eq, descriptionAt_eq, indexAt_eq d hk, offsetAt_true _ _ hk, if_neg (by omega), hidx]
    rfl
  · simp only [RegisterInfo.expandAt, nameAt_eq, descriptionAt_eq, indexAt_eq d hk,
      offsetAt_fits _ _ _ hk hb, hidx, ok_bind]
    exact ⟨_, fun _ => rfl⟩
  · unfold RegisterInfo.expandAt
    rw [nameAt_eq, descriptionAt_eq, indexAt_eq d hk, offsetAt_true _ _ hk, if_neg (by omega), hidx]
    rfl
  · simp only [ClusterInfo.expandAt, nameAt_eq, descriptionAt_eq, indexAt_eq d hk,
      offsetAt_fits _ _ _ hk hb, hidx, ok_bind]
    exact ⟨_, fun _ => rfl⟩
  · unfold ClusterInfo.expandAt
    rw [nameAt_eq, descriptionAt_eq, indexAt_eq d hk, offsetAt_true _ _ hk, if_neg (by omega), hidx]
    rfl
  · simp only [PeripheralInfo.expandAt, nameAt_eq, descriptionAt_eq, indexAt_eq d hk,
      baseAddressAt_fits _ _ _ hk hb, hidx, ok_bind]
    exact ⟨_, fun _ => rfl⟩
  · unfold PeripheralInfo.expandAt
    rw [nameAt_eq, descriptionAt_eq, indexAt_eq d hk, baseAddressAt_true _ _ hk, if_neg (by omega),
      hidx]
    rfl

/-- A register array used by the examples. -/
def exampleArray : RegisterInfo :=
  ⟨"R[%s]".toList, some "R%s".toList, some "Register %s".toList, none, none, 16, {}, none, none, none,
    none, none, none⟩

example : exampleArray.expand true ⟨2, 8, some ["A".toList, "B".toList], none, none⟩ =
    .ok [{ exampleArray with
            name := "RA".toList, displayName := some "RA".toList
            description := some "Register A".toList },
         { exampleArray with
            name := "RB".toList, displayName := some "RB".toList
            description := some "Register B".toList, addressOffset := 24 }] := by decide
example : exampleArray.expand true ⟨3, 0x7FFFFFFF, none, none, none⟩ =
    .error (.panic .overflow) := by decide

/-! ## C22 -/

/-- A name as characters and holes for the index. -/
def template : Str → List (Option Char)
  | '[' :: '%' :: 's' :: ']' :: r => none :: template r
  | '%' :: 's' :: r => none :: template r
  | c :: r => some c :: template r
  | [] => []

/-- Filling the holes. -/
def fill (i : Str) : List (Option Char) → Str
  | [] => []
  | none :: t => i ++ fill i t
  | some c :: t => c :: fill i t

theorem fill_length (i : Str) (t : List (Option Char)) :
    (fill i t).length = t.count none * i.length + (t.length - t.count none) := by
  induction t with
  | nil => simp [fill]
  | cons x t ih =>
    have := List.count_le_length (a := (none : Option Char)) (l := t)
    cases x with
    | none =>
      simp only [fill, List.length_append, ih, List.count_cons_self, List.length_cons,
        Nat.add_mul, Nat.one_mul]
      omega
    | some c => simp [fill, ih]; omega

theorem fill_inj {i j : Str} {t : List (Option Char)} (ht : none ∈ t) (h : fill i t = fill j t) :
    i = j := by
  have hl : i.length = j.length := by
    have := congrArg List.length h
    rw [fill_length, fill_length] at this
    have h0 : 0 < t.count none := List.count_pos_iff.mpr ht
    exact Nat.eq_of_mul_eq_mul_left h0 (by omega)
  revert ht h
  induction t with
  | nil => intro ht; simp at ht
  | cons x t ih =>
    intro ht h
    cases x with
    | none => exact (List.append_inj h hl).1
    | some c =>
      simp only [fill, List.cons.injEq, true_and] at h
      exact ih (by simpa using ht) h

/-- The indexes that cannot run together with a percent sign in front of them. -/
def Separate (i : Str) : Prop := ∃ c r, i = c :: r ∧ c ≠ 's'

/-- Every percent sign of the name begins a placeholder. -/
def PercentOnlyInPlaceholders (name : Str) : Prop :=
  ∀ a b, name = a ++ '%' :: b → ∃ b', b = 's' :: b'

theorem percent_tail {a s : Str} (h : PercentOnlyInPlaceholders (a ++ s)) :
    PercentOnlyInPlaceholders s :=
  fun x y e => h (a ++ x) y (by rw [e, List.append_assoc])

theorem replace_no_percent {i : Str} (hi : '%' ∉ i) (t : Str) :
    replaceStr ['%', 's'] i (i ++ t) = i ++ replaceStr ['%', 's'] i t := by
  generalize hj : i = j at *
  have : ∀ u : Str, '%' ∉ u → replaceStr ['%', 's'] j (u ++ t) = u ++ replaceStr ['%', 's'] j t := by
    intro u
    induction u with
    | nil => intro _; rfl
    | cons c u ih =>
      intro hu
      rw [List.cons_append, replaceStr_skip, ih (by simp_all)]
      · rfl
      · rintro ⟨r, hr⟩
        simp only [List.cons_append, List.cons.injEq] at hr
        exact hu (by rw [← hr.1]; simp)
  exact this j hi

theorem substIndex_template (s i : Str) (hi : '%' ∉ i)
    (h : PercentOnlyInPlaceholders s ∨ Separate i) : substIndex s i = fill i (template s) := by
  unfold substIndex
  show replaceStr ['%', 's'] i (replaceStr ['[', '%', 's', ']'] i s) = _
  have h1 : ∀ r, replaceStr ['[', '%', 's', ']'] i ('[' :: '%' :: 's' :: ']' :: r) =
      i ++ replaceStr ['[', '%', 's', ']'] i r := fun r => replaceStr_hit (by simp) i r
  have h2 : ∀ r, replaceStr ['%', 's'] i ('%' :: 's' :: r) = i ++ replaceStr ['%', 's'] i r :=
    fun r => replaceStr_hit (by simp) i r
  fun_induction template s with
  | case1 r ih =>
    rw [h1, replace_no_percent hi, ih]
    · rfl
    · exact h.imp_left fun h => percent_tail (a := ['[', '%', 's', ']']) h
  | case2 r ih =>
    rw [replaceStr_skip (c := '%'), replaceStr_skip (c := 's'), h2, ih]
    · rfl
    · exact h.imp_left fun h => percent_tail (a := ['%', 's']) h
    · rintro ⟨x, hx⟩; simp at hx
    · rintro ⟨x, hx⟩; simp at hx
  | case3 c r hn1 hn2 ih =>
    have hskip : ¬ ['[', '%', 's', ']'] <+: (c :: r) := by
      rintro ⟨x, hx⟩
      simp only [List.cons_append, List.cons.injEq, List.nil_append] at hx
      obtain ⟨rfl, rfl⟩ := hx
      exact hn1 _ rfl rfl
    rw [replaceStr_skip hskip, replaceStr_skip, ih]
    · rfl
    · exact h.imp_left fun h => percent_tail (a := [c]) h
    · rintro ⟨x, hx⟩
      simp only [List.cons_append, List.cons.injEq, List.nil_append] at hx
      obtain ⟨rfl, hx⟩ := hx
      rcases h with h | ⟨c, i', rfl, hc⟩
      · obtain ⟨b, hb⟩ := h [] r rfl
        exact hn2 _ rfl hb
      · cases r with
        | nil => simp [replaceStr_nil] at hx
        | cons y r =>
          by_cases hy : ['[', '%', 's', ']'] <+: (y :: r)
          · obtain ⟨z, hz⟩ := hy
            rw [← hz, replaceStr_hit (by simp)] at hx
            simp only [List.cons_append, List.cons.injEq] at hx
            exact hc hx.1.symm
          · rw [replaceStr_skip hy] at hx
            simp only [List.cons.injEq] at hx
            exact hn2 r rfl (by rw [← hx.1])
  | case4 => simp [replaceStr_nil, fill]

theorem template_hole {s : Str} (h : ∃ a b, s = a ++ '%' :: 's' :: b) : none ∈ template s := by
  obtain ⟨a, b, rfl⟩ := h
  induction hn : a.length using Nat.strongRecOn generalizing a with
  | ind n ih =>
    generalize hs : a ++ '%' :: 's' :: b = s
    unfold template
    split
    · simp
    · simp
    · next c r h1 h2 =>
      cases a with
      | nil =>
        simp only [List.nil_append, List.cons.injEq] at hs
        exact absurd hs.2.symm (h2 _ hs.1.symm)
      | cons x a =>
        simp only [List.cons_append, List.cons.injEq] at hs
        obtain ⟨rfl, rfl⟩ := hs
        exact List.mem_cons_of_mem _ (ih a.length (by simp at hn; omega) a rfl)
    · simp at hs

/-- No placeholder is left. -/
theorem fill_no_placeholder (s i : Str) (hi : '%' ∉ i)
    (h : PercentOnlyInPlaceholders s ∨ Separate i) :
    ¬ ∃ a b, fill i (template s) = a ++ '%' :: 's' :: b := by
  have app : ∀ (u t : Str), '%' ∉ u → (∃ a b, u ++ t = a ++ '%' :: 's' :: b) →
      ∃ a b, t = a ++ '%' :: 's' :: b := by
    intro u t
    induction u with
    | nil => intro _ h; exact h
    | cons c u ih =>
      rintro hu ⟨a, b, e⟩
      refine ih (by simp_all) ?_
      cases a with
      | nil => simp only [List.cons_append, List.nil_append, List.cons.injEq] at e; simp [e.1] at hu
      | cons x a =>
        simp only [List.cons_append, List.cons.injEq] at e
        exact ⟨a, b, e.2⟩
  fun_induction template s with
  | case1 r ih =>
    intro hx
    exact ih (h.imp_left fun h => percent_tail (a := ['[', '%', 's', ']']) h) (app _ _ hi hx)
  | case2 r ih =>
    intro hx
    exact ih (h.imp_left fun h => percent_tail (a := ['%', 's']) h) (app _ _ hi hx)
  | case3 c r hn1 hn2 ih =>
    rintro ⟨a, b, e⟩
    simp only [fill] at e
    cases a with
    | cons x a =>
      simp only [List.cons_append, List.cons.injEq] at e
      exact ih (h.imp_left fun h => percent_tail (a := [c]) h) ⟨a, b, e.2⟩
    | nil =>
      simp only [List.nil_append, List.cons.injEq] at e
      obtain ⟨rfl, e⟩ := e
      rcases h with h | ⟨c, i', rfl, hc⟩
      · obtain ⟨b, hb⟩ := h [] r rfl
        exact hn2 _ rfl hb
      · revert e
        unfold template
        split
        · intro e
          simp only [fill, List.cons_append, List.cons.injEq] at e
          exact hc e.1
        · intro e
          simp only [fill, List.cons_append, List.cons.injEq] at e
          exact hc e.1
        · intro e
          simp only [fill, List.cons.injEq] at e
          exact hn2 _ rfl (by rw [e.1])
        · intro e; simp [fill] at e
  | case4 => rintro ⟨a, b, e⟩; simp [fill] at e

/-- **C22.** If the indexes are distinct, contain no percent sign, and either every percent sign of
the name begins a placeholder or every index begins with a character other than `s`, then the names
are distinct and without placeholder. -/
theorem C22_names (name : Str) (d : DimElement) (l : List Str) (h : names name d = .ok l)
    (hph : ∃ a b, name = a ++ '%' :: 's' :: b)
    (hdist : ((indexList d).take d.dim.toNat).Nodup)
    (hpc : ∀ i ∈ (indexList d).take d.dim.toNat, '%' ∉ i)
    (hdai : ∀ i ∈ (indexList d).take d.dim.toNat, ¬ ∃ e, ValueFor d i e)
    (hsep : PercentOnlyInPlaceholders name ∨ ∀ i ∈ (indexList d).take d.dim.toNat, Separate i) :
    l.Nodup ∧ ∀ n ∈ l, ¬ ∃ a b, n = a ++ '%' :: 's' :: b := by
  have key : l = ((indexList d).take d.dim.toNat).map fun i => fill i (template name) := by
    obtain ⟨hl, hk⟩ := range_mapM_ok.mp h
    apply List.ext_getElem?
    intro k
    by_cases hkn : k < d.dim.toNat
    · have hkl : k < l.length := by omega
      have e := hk k l[k] (List.getElem?_eq_getElem hkl)
      rw [nameAt_eq, indexAt_eq d hkn] at e
      rw [List.getElem?_eq_getElem hkl, List.getElem?_map, List.getElem?_take, if_pos hkn]
      cases hi : (indexList d)[k]? with
      | none => simp [hi, panics] at e
      | some idx =>
        have hm : idx ∈ (indexList d).take d.dim.toNat := by
          refine List.mem_of_getElem? (i := k) ?_
          rw [List.getElem?_take, if_pos hkn, hi]
        simp only [hi, ok_bind, Except.ok.injEq] at e
        simp only [Option.map_some, Option.some.injEq]
        rw [← e, nameFor]
        have : arrayIndexValue d idx = none := by
          cases ha : arrayIndexValue d idx with
          | none => rfl
          | some e => exact absurd ⟨e, (arrayIndexValue_iff ..).mp ha⟩ (hdai idx hm)
        simp only [this]
        exact substIndex_template _ _ (hpc idx hm) (hsep.imp_right fun h => h idx hm)
    · rw [List.getElem?_eq_none (by omega), List.getElem?_map, List.getElem?_take, if_neg hkn]
      rfl
  subst key
  constructor
  · rw [List.nodup_iff_pairwise_ne, List.pairwise_map]
    exact List.Pairwise.imp (fun hne he => hne (fill_inj (template_hole hph) he))
      (List.nodup_iff_pairwise_ne.mp hdist)
  · intro n hn
    obtain ⟨i, hi, rfl⟩ := List.mem_map.mp hn
    exact fill_no_placeholder _ _ (hpc i hi) (hsep.imp_right fun h => h i hi)

example : ["RA_A".toList, "RBC_BC".toList].Nodup ∧ ∀ n ∈ ["RA_A".toList, "RBC_BC".toList],
    ¬ ∃ a b, n = a ++ '%' :: 's' :: b := by
  refine C22_names "R%s_%s".toList (Sample.dim 2 4 (some ["A", "BC"])) _ (by decide) ⟨['R'], "_%s".toList, rfl⟩
    (by decide) (by decide) ?_ (.inr ?_)
  · rintro i _ ⟨e, dai, _, _, h, _⟩; cases h
  · intro i hi
    have : i = ['A'] ∨ i = "BC".toList := by revert hi; simp [indexList, Sample.dim]
    rcases this with rfl | rfl
    · exact ⟨'A', [], rfl, by decide⟩
    · exact ⟨'B', ['C'], rfl, by decide⟩

theorem percent_split {a b : Str} (ha : '%' ∉ a) (hb : '%' ∉ b) :
    PercentOnlyInPlaceholders (a ++ '%' :: 's' :: b) := by
  induction a with
  | nil =>
    intro x y e
    cases x with
    | nil => simp only [List.nil_append, List.cons.injEq] at e; exact ⟨b, e.2.symm⟩
    | cons c x =>
      simp only [List.nil_append, List.cons_append, List.cons.injEq] at e
      have hm : '%' ∈ 's' :: b := by rw [e.2]; simp
      simp [hb] at hm
  | cons c a ih =>
    intro x y e
    cases x with
    | nil =>
      simp only [List.nil_append, List.cons_append, List.cons.injEq] at e
      exact absurd (by rw [e.1]; simp) ha
    | cons z x =>
      simp only [List.cons_append, List.cons.injEq] at e
      exact ih (by simp_all) x y e.2

theorem identChar_no_percent {c : Char} (h : IdentChar c) : c ≠ '%' := by
  rintro rfl; revert h; unfold IdentChar IdentStart; decide

theorem ident_no_percent {s : Str} (h : Ident s) : '%' ∉ s := by
  obtain ⟨c, r, rfl, hc, hr⟩ := h
  intro hm
  rcases List.mem_cons.mp hm with e | hm
  · exact identChar_no_percent (.inl hc) e.symm
  · exact identChar_no_percent (hr _ hm) rfl

/-- **C22.** The names accepted by validation have percent signs in placeholders only. -/
theorem C22_valid_name {name : Str} (h : DimableName name) : PercentOnlyInPlaceholders name := by
  cases h with
  | placeholder => exact percent_split (a := []) (b := []) (by simp) (by simp)
  | placeholderIdent hi => exact percent_split (a := []) (by simp) (ident_no_percent hi)
  | ident hi =>
    intro a b e
    have : '%' ∈ name := by rw [e]; simp
    exact absurd this (ident_no_percent hi)
  | @identBracket i hi =>
    have e : i ++ "[%s]".toList = (i ++ ['[']) ++ '%' :: 's' :: [']'] := by simp
    rw [e]
    exact percent_split (by simp [ident_no_percent hi]) (by simp)
  | @identPlaceholder i t hi ht =>
    have e : i ++ "%s".toList ++ t = i ++ '%' :: 's' :: t := by simp
    rw [e]
    exact percent_split (ident_no_percent hi) fun hm => identChar_no_percent (ht _ hm) rfl

example : PercentOnlyInPlaceholders "GPIO[%s]".toList :=
  C22_valid_name (.identBracket (i := "GPIO".toList)
    ⟨'G', "PIO".toList, rfl, by unfold IdentStart; decide, by unfold IdentChar IdentStart; decide⟩)

theorem decimal_digit {n : Nat} {c : Char} (h : c ∈ decimal n) : 48 ≤ c.toNat ∧ c.toNat ≤ 57 := by
  obtain ⟨k, hk, hlt⟩ :=
    positional_mem (positional_toDigits (radix := 10) (by decide) (by decide) n) c h
  rw [digitValue_eq] at hk
  split at hk
  · assumption
  · split at hk
    · injection hk; omega
    · split at hk
      · injection hk; omega
      · cases hk

theorem decimal_ne_nil (n : Nat) : decimal n ≠ [] := by
  have := positional_toDigits (radix := 10) (by decide) (by decide) n
  unfold decimal
  intro e
  rw [e] at this
  generalize hs : ([] : Str) = s at this
  cases this <;> simp at hs

/-- **C22.** The default indexes always qualify, whatever the name. -/
theorem C22_default (name : Str) (d : DimElement) (l : List Str) (h : names name d = .ok l)
    (hph : ∃ a b, name = a ++ '%' :: 's' :: b)
    (hidx : d.dimIndex = none) (hdai : d.dimArrayIndex = none) :
    l.Nodup ∧ ∀ n ∈ l, ¬ ∃ a b, n = a ++ '%' :: 's' :: b := by
  have e : (indexList d).take d.dim.toNat = (List.range' 0 d.dim.toNat).map decimal := by
    simp [indexList, hidx, decimalRange, List.take_of_length_le]
  refine C22_names name d l h hph ?_ ?_ ?_ (.inr ?_) <;> rw [e]
  · rw [List.nodup_iff_pairwise_ne, List.pairwise_map]
    refine List.Pairwise.imp_of_mem ?_ (List.nodup_iff_pairwise_ne.mp List.nodup_range')
    intro a b ha hb hne heq
    apply hne
    rw [List.mem_range'_1] at ha hb
    have ha : a < 2 ^ 32 := dim_lt d (by omega)
    have hb : b < 2 ^ 32 := dim_lt d (by omega)
    have hab : decString (BitVec.ofNat 32 a) = decString (BitVec.ofNat 32 b) := by
      simpa [decString, Nat.mod_eq_of_lt ha, Nat.mod_eq_of_lt hb, decimal] using heq
    have := congrArg BitVec.toNat (decString_inj hab)
    simpa [Nat.mod_eq_of_lt ha, Nat.mod_eq_of_lt hb] using this
  · intro i hi hm
    obtain ⟨n, _, rfl⟩ := List.mem_map.mp hi
    have := decimal_digit hm
    revert this; decide
  · rintro i _ ⟨e, dai, _, _, h0, _⟩
    rw [hdai] at h0; cases h0
  · intro i hi
    obtain ⟨n, _, rfl⟩ := List.mem_map.mp hi
    cases hd : decimal n with
    | nil => exact absurd hd (decimal_ne_nil n)
    | cons c r =>
      refine ⟨c, r, rfl, ?_⟩
      rintro rfl
      have := decimal_digit (n := n) (c := 's') (by rw [hd]; simp)
      revert this; decide

example : ["R0".toList, "R1".toList, "R2".toList].Nodup ∧ ∀ n ∈ ["R0".toList, "R1".toList, "R2".toList],
    ¬ ∃ a b, n = a ++ '%' :: 's' :: b :=
  C22_default "R%s".toList (Sample.dim 3 4) _ (by decide) ⟨['R'], [], rfl⟩ rfl rfl

/-- **C22.** The condition on percent signs is needed: here a placeholder is left. -/
theorem C22_percent_counterexample :
    names "%%s".toList ⟨1, 4, some ["s".toList], none, none⟩ = .ok ["%s".toList] := by decide

/-- **C22.** Names taken from `dimArrayIndex` need not be distinct. -/
theorem C22_array_index_counterexample :
    names "R%s".toList ⟨2, 4, none, none, some ⟨none, [⟨"X".toList, none, some 0, none⟩,
      ⟨"X".toList, none, some 1, none⟩]⟩⟩ = .ok ["X".toList, "X".toList] := by decide

example : names "R%s".toList ⟨3, 4, none, none, none⟩ =
    .ok ["R0".toList, "R1".toList, "R2".toList] := by decide
example : DimableName "GPIO[%s]".toList := .identBracket (i := "GPIO".toList)
  ⟨'G', "PIO".toList, rfl, by unfold IdentStart; decide, by unfold IdentChar IdentStart; decide⟩

end Svd
