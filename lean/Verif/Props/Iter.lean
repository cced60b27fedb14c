import Verif.Spec.Sample
import Verif.Spec.Iter
import Verif.Model.Iter
import Verif.Lemmas.Arith
import Verif.Lemmas.Except

/-!
# C23, C24, C25: bit masks, iterators and lookups
-/

namespace Svd

open Spec

/-! ## C23 -/

theorem shlC_lt {oc : Bool} {a : U64} {n : U32} (h : n.toNat < 64) :
    shlC oc a n = .ok (a <<< n.toNat) := by
  unfold shlC arith; rw [if_pos h, Nat.mod_eq_of_lt h]

theorem shrC_lt {oc : Bool} {a : U64} {n : U32} (h : n.toNat < 64) :
    shrC oc a n = .ok (a >>> n.toNat) := by
  unfold shrC arith; rw [if_pos h, Nat.mod_eq_of_lt h]

theorem fieldInfo_bitmask (oc : Bool) (f : FieldInfo) (h1 : 1 ≤ f.bitRange.width.toNat)
    (h2 : f.bitRange.width.toNat ≤ 64) (h3 : f.bitRange.offset.toNat < 64) :
    ∃ m, f.bitmask oc = .ok m ∧ ∀ i < 64, (m.getLsbD i = true ↔
      f.bitRange.offset.toNat ≤ i ∧ i < f.bitRange.offset.toNat + f.bitRange.width.toNat) := by
  have e : (64 : U32).toNat = 64 := rfl
  unfold FieldInfo.bitmask
  rw [subC_le (by rw [e]; exact h2), ok_bind, e]
  have e2 : (BitVec.ofNat 32 (64 - f.bitRange.width.toNat)).toNat = 64 - f.bitRange.width.toNat := by
    rw [BitVec.toNat_ofNat, Nat.mod_eq_of_lt (by omega)]
  rw [shrC_lt (by rw [e2]; omega), ok_bind, shlC_lt h3, e2]
  refine ⟨_, rfl, fun i hi => ?_⟩
  simp only [BitVec.getLsbD_shiftLeft, BitVec.getLsbD_ushiftRight, BitVec.getLsbD_allOnes,
    Bool.and_eq_true, decide_eq_true_eq, Bool.not_eq_true', decide_eq_false_iff_not]
  omega

theorem maskLoop_spec (oc : Bool) (mask : U64) (inc : U32) (ks : List Nat) (bits : U64)
    (hk : ∀ k ∈ ks, k < 2 ^ 32 ∧ k * inc.toNat < 64) :
    ∃ m, maskLoop oc mask inc bits ks = .ok m ∧ ∀ i < 64, (m.getLsbD i = true ↔
      bits.getLsbD i = true ∨
        ∃ k ∈ ks, k * inc.toNat ≤ i ∧ mask.getLsbD (i - k * inc.toNat) = true) := by
  induction ks generalizing bits with
  | nil => exact ⟨bits, rfl, fun i _ => by simp⟩
  | cons k ks ih =>
    obtain ⟨hk1, hk2⟩ := hk k (by simp)
    have e : (BitVec.ofNat 32 k).toNat = k := by simp [Nat.mod_eq_of_lt hk1]
    have e2 : ((BitVec.ofNat 32 k) * inc).toNat = k * inc.toNat := by
      rw [BitVec.toNat_mul, e, Nat.mod_eq_of_lt (by omega)]
    have e3 : mulC oc (BitVec.ofNat 32 k) inc = .ok (BitVec.ofNat 32 k * inc) := by
      unfold mulC arith; rw [if_pos (by rw [e]; omega)]
    unfold maskLoop
    rw [e3, ok_bind, shlC_lt (by rw [e2]; exact hk2), ok_bind, e2]
    obtain ⟨m, hm, h⟩ := ih (bits ||| mask <<< (k * inc.toNat)) fun k hk' => hk k (by simp [hk'])
    refine ⟨m, hm, fun i hi => ?_⟩
    rw [h i hi]
    simp only [BitVec.getLsbD_or, BitVec.getLsbD_shiftLeft, Bool.or_eq_true, Bool.and_eq_true,
      decide_eq_true_eq, Bool.not_eq_true', decide_eq_false_iff_not, List.mem_cons, exists_eq_or_imp, hi,
      true_and, Nat.not_lt, or_assoc]

/-- **C23.** A field, single or array. -/
theorem C23_field (oc : Bool) (f : Field) (h : InWord f) :
    ∃ m, Field.bitmask oc f = .ok m ∧ ∀ i < 64, (m.getLsbD i = true ↔ Covers f i) := by
  cases f with
  | single f => exact fieldInfo_bitmask oc f h.1 h.2.1 h.2.2
  | array f d =>
    obtain ⟨⟨h1, h2, h3⟩, h4⟩ := h
    obtain ⟨m, hm, hb⟩ := fieldInfo_bitmask oc f h1 h2 h3
    obtain ⟨m', hm', hb'⟩ := maskLoop_spec oc m d.dimIncrement (List.range d.dim.toNat) 0
      fun k hk => ⟨Nat.lt_trans (List.mem_range.mp hk) d.dim.isLt, h4 k (List.mem_range.mp hk)⟩
    refine ⟨m', by simp only [Field.bitmask, hm, ok_bind]; exact hm', fun i hi => ?_⟩
    rw [hb' i hi]
    simp only [Covers, List.mem_range]
    constructor
    · rintro (h0 | ⟨k, hk, hle, hs⟩)
      · simp at h0
      · have := (hb _ (by omega)).mp hs
        exact ⟨k, hk, by omega, by omega⟩
    · rintro ⟨k, hk, hle, hlt⟩
      exact .inr ⟨k, hk, by omega, (hb _ (by omega)).mpr (by omega)⟩

theorem fields_bitmask (oc : Bool) (fs : List Field) (h : ∀ f ∈ fs, InWord f) (m0 : U64) :
    ∃ m, fs.foldlM (fun mask f => do let m ← Field.bitmask oc f; .ok (mask ||| m)) m0 = .ok m ∧
      ∀ i < 64, (m.getLsbD i = true ↔ m0.getLsbD i = true ∨ ∃ f ∈ fs, Covers f i) := by
  induction fs generalizing m0 with
  | nil => exact ⟨m0, rfl, fun i _ => by simp⟩
  | cons f fs ih =>
    obtain ⟨m, hm, hb⟩ := C23_field oc f (h f (by simp))
    obtain ⟨m', hm', hb'⟩ := ih (fun f hf => h f (by simp [hf])) (m0 ||| m)
    refine ⟨m', by simp only [List.foldlM_cons, hm, ok_bind]; exact hm', fun i hi => ?_⟩
    rw [hb' i hi]
    simp [BitVec.getLsbD_or, hb i hi, or_assoc]

/-- **C23.** A register. -/
theorem C23_register (oc : Bool) (r : RegisterInfo) (h : ∀ fs, r.fields = some fs → ∀ f ∈ fs, InWord f) :
    ∃ m, r.bitmask oc = .ok m ∧ ∀ i < 64, (m.getLsbD i = true ↔
      ∃ fs, r.fields = some fs ∧ ∃ f ∈ fs, Covers f i) := by
  unfold RegisterInfo.bitmask RegisterInfo.fieldList
  cases hf : r.fields with
  | none => exact ⟨0, rfl, fun i _ => by simp⟩
  | some fs =>
    obtain ⟨m, hm, hb⟩ := fields_bitmask oc fs (h fs hf) 0
    exact ⟨m, hm, fun i hi => by rw [hb i hi]; simp⟩

/-- **C23.** The conditions are needed: a field of more than 64 bits, one without bits, or one that
begins past bit 63 panics when overflows are checked. -/
theorem C23_outside (f : FieldInfo) (h : f.bitRange.width.toNat = 0 ∨ 64 < f.bitRange.width.toNat ∨
    64 ≤ f.bitRange.offset.toNat) : f.bitmask true = .error (.panic .overflow) := by
  have e : (64 : U32).toNat = 64 := rfl
  unfold FieldInfo.bitmask
  by_cases h2 : f.bitRange.width.toNat ≤ 64
  · rw [subC_le (by rw [e]; exact h2), ok_bind, e]
    have e2 : (BitVec.ofNat 32 (64 - f.bitRange.width.toNat)).toNat =
        64 - f.bitRange.width.toNat := by
      rw [BitVec.toNat_ofNat, Nat.mod_eq_of_lt (by omega)]
    by_cases h1 : f.bitRange.width.toNat = 0
    · unfold shrC arith
      rw [if_neg (by rw [e2]; omega)]
      rfl
    · rw [shrC_lt (by rw [e2]; omega), ok_bind]
      unfold shlC arith
      rw [if_neg (by omega)]
      rfl
  · unfold subC arith
    rw [if_neg (by rw [e]; exact h2)]
    rfl

/-- A field used by the examples. -/
def exampleBits (o w : U32) : FieldInfo :=
  ⟨"F".toList, none, ⟨o, w, .bitRange⟩, none, none, none, none, [], none⟩

example : InWord (.array (exampleBits 1 2) ⟨3, 4, none, none, none⟩) := by
  refine ⟨by decide, fun k hk => ?_⟩
  have e : (3 : U32).toNat = 3 := rfl
  have e4 : (4 : U32).toNat = 4 := rfl
  simp only [e, e4] at *
  omega
example : Field.bitmask true (.array (exampleBits 1 2) ⟨3, 4, none, none, none⟩) =
    .ok 0b11001100110 := by decide

/-! ## C24 -/

theorem registersInAll_append (a b : List RegisterCluster) :
    registersInAll (a ++ b) = registersInAll a ++ registersInAll b := by
  induction a with
  | nil => rfl
  | cons x xs ih => simp [registersInAll, ih]

theorem allRegistersNext_spec (s : List RegisterCluster) :
    (allRegistersNext s = none → registersInAll s = []) ∧
    (∀ r s', allRegistersNext s = some (r, s') → registersInAll s = r :: registersInAll s') := by
  fun_induction allRegistersNext s with
  | case1 => simp [registersInAll]
  | case2 r rem =>
    refine ⟨by simp, fun r' s' h => ?_⟩
    simp only [Option.some.injEq, Prod.mk.injEq] at h
    obtain ⟨rfl, rfl⟩ := h
    simp [registersInAll, registersIn]
  | case3 h d cs rem ih =>
    have e : registersInAll (.cluster h d cs :: rem) = registersInAll (cs ++ rem) := by
      rw [registersInAll_append, registersInAll, registersIn]
    rw [e]; exact ih

/-- **C24.** Recursive iteration yields the registers of the tree in document order. -/
theorem C24_all_registers (children : List RegisterCluster) :
    allRegisters children = registersInAll children := by
  unfold allRegisters
  fun_induction allRegistersRun children with
  | case1 s h => exact ((allRegistersNext_spec s).1 h).symm
  | case2 s r s' h ih => rw [(allRegistersNext_spec s).2 r s' h, ih]

/-- **C24.** A register is reached as often as it occurs in the tree. -/
theorem C24_each_once (c : RegisterCluster) (a b : List RegisterCluster) :
    allRegisters (a ++ c :: b) = allRegisters a ++ registersIn c ++ allRegisters b := by
  simp [C24_all_registers, registersInAll_append, registersInAll]

/-- A register used by the examples. -/
def exampleReg (n : String) : Register :=
  .single ⟨n.toList, none, none, none, none, 0, {}, none, none, none, none, none, none⟩

/-- A tree used by the examples. -/
def exampleTree : List RegisterCluster :=
  [.register (exampleReg "A"),
   .cluster ⟨"C".toList, none, none, none, 0, {}, none⟩ none
     [.register (exampleReg "B"),
      .cluster ⟨"D".toList, none, none, none, 0, {}, none⟩ none [.register (exampleReg "E")]],
   .register (exampleReg "A")]

example : allRegisters exampleTree =
    [exampleReg "A", exampleReg "B", exampleReg "E", exampleReg "A"] := by
  rw [C24_all_registers]; decide

/-! ## C25 -/

/-- **C25.** The two iterators separate the children. -/
theorem C25_separated (cs : List RegisterCluster) (rs : List Register) (ks : List Cluster) :
    (registersOf cs = rs ∧ clustersOf cs = ks) ↔ Separated cs rs ks := by
  constructor
  · rintro ⟨rfl, rfl⟩
    induction cs with
    | nil => exact .nil
    | cons c cs ih =>
      cases c with
      | register r => exact .register ih
      | cluster h d ch =>
        have e : RegisterCluster.cluster h d ch =
            .ofCluster (MaybeArray.mk' { h with children := ch } d) := by
          cases d <;> rfl
        rw [e]
        have e2 : clustersOf (.ofCluster (MaybeArray.mk' { h with children := ch } d) :: cs) =
            MaybeArray.mk' { h with children := ch } d :: clustersOf cs := by
          cases d <;> rfl
        have e3 : registersOf (.ofCluster (MaybeArray.mk' { h with children := ch } d) :: cs) =
            registersOf cs := by cases d <;> rfl
        rw [e2, e3]
        exact .cluster ih
  · intro h
    induction h with
    | nil => exact ⟨rfl, rfl⟩
    | register _ ih => exact ⟨by rw [registersOf, ih.1], by rw [clustersOf, ih.2]⟩
    | @cluster cs rs ks k _ ih =>
      cases k <;> exact ⟨by simp only [RegisterCluster.ofCluster, registersOf, ih.1],
        by simp only [RegisterCluster.ofCluster, clustersOf, ih.2, MaybeArray.mk']⟩

/-- **C25.** Together they cover all children. -/
theorem C25_cover (cs : List RegisterCluster) :
    (registersOf cs).length + (clustersOf cs).length = cs.length ∧
    ∀ c, c ∈ cs ↔ (∃ r ∈ registersOf cs, c = .register r) ∨ (∃ k ∈ clustersOf cs, c = .ofCluster k) := by
  have h := (C25_separated cs _ _).mp ⟨rfl, rfl⟩
  revert h
  generalize registersOf cs = rs
  generalize clustersOf cs = ks
  intro h
  induction h with
  | nil => simp
  | register _ ih =>
    refine ⟨by simp; omega, fun c => ?_⟩
    rw [List.mem_cons, ih.2]
    simp [or_assoc]
  | cluster _ ih =>
    refine ⟨by simp; omega, fun c => ?_⟩
    rw [List.mem_cons, ih.2]
    simp only [List.mem_cons, exists_eq_or_imp]
    constructor
    · rintro (h | h | h)
      · exact .inr (.inl h)
      · exact .inl h
      · exact .inr (.inr h)
    · rintro (h | h | h)
      · exact .inr (.inl h)
      · exact .inl h
      · exact .inr (.inr h)

example : (registersOf [.register (.single (Sample.registerInfo "A" 0)), .cluster (Sample.clusterHead "C" 4) none []]).length +
    (clustersOf [.register (.single (Sample.registerInfo "A" 0)), .cluster (Sample.clusterHead "C" 4) none []]).length = 2 :=
  (C25_cover _).1

theorem find_firstNamed {α : Type} (nm : α → Str) (l : List α) (n : Str) :
    (∀ x, l.find? (fun y => nm y == n) = some x ↔ FirstNamed nm l n x) ∧
    (l.find? (fun y => nm y == n) = none ↔ ∀ x ∈ l, nm x ≠ n) := by
  constructor
  · intro x
    rw [List.find?_eq_some_iff_append]
    simp [FirstNamed]
  · simp

/-- A lookup finds the first element with the name, if there is one. -/
def LooksUp {α : Type} (nm : α → Str) (l : List α) (get : Str → Option α) : Prop :=
  ∀ n, (∀ x, get n = some x ↔ FirstNamed nm l n x) ∧ (get n = none ↔ ∀ x ∈ l, nm x ≠ n)

/-- **C25.** Lookups by name. -/
theorem C25_lookups :
    (∀ cs rs ks, Separated cs rs ks → LooksUp (fun r : Register => r.info.name) rs (getRegister cs) ∧
      LooksUp (fun c : Cluster => c.info.name) ks (getCluster cs)) ∧
    (∀ (r : RegisterInfo) fs, r.fields = some fs →
      LooksUp (fun f : Field => f.info.name) fs r.getField) ∧
    (∀ (r : RegisterInfo) n, r.fields = none → r.getField n = none) ∧
    (∀ p : PeripheralInfo, LooksUp Interrupt.name p.interrupt p.getInterrupt) ∧
    (∀ d : Device, LooksUp (fun p : Peripheral => p.info.name) d.peripherals d.getPeripheral) := by
  refine ⟨fun cs rs ks h => ?_, fun r fs h n => ?_, fun r n h => ?_, fun p n => ?_, fun d n => ?_⟩
  · obtain ⟨rfl, rfl⟩ := (C25_separated cs rs ks).mpr h
    exact ⟨fun n => find_firstNamed .., fun n => find_firstNamed ..⟩
  · simp only [RegisterInfo.getField, RegisterInfo.fieldList, h]
    exact find_firstNamed (fun f : Field => f.info.name) fs n
  · simp [RegisterInfo.getField, RegisterInfo.fieldList, h]
  · exact find_firstNamed ..
  · exact find_firstNamed ..

example : registersOf exampleTree = [exampleReg "A", exampleReg "A"] ∧
    (clustersOf exampleTree).map (fun c => c.info.name) = ["C".toList] ∧
    getRegister exampleTree "A".toList = some (exampleReg "A") ∧
    getRegister exampleTree "B".toList = none := by decide

-- The hypotheses of `C23_field` and `C23_register` can be met.
example : (∃ m, Field.bitmask true (.array (exampleBits 1 2) ⟨3, 4, none, none, none⟩) = .ok m ∧
      ∀ i < 64, (m.getLsbD i = true ↔ Covers (.array (exampleBits 1 2) ⟨3, 4, none, none, none⟩) i)) ∧
    ∃ m, (Sample.registerInfo "R" 0 none (some [.single (exampleBits 0 1),
        .single (exampleBits 4 2)])).bitmask true = .ok m ∧
      ∀ i < 64, (m.getLsbD i = true ↔ i = 0 ∨ i = 4 ∨ i = 5) := by
  constructor
  · refine C23_field true _ ⟨by decide, fun k hk => ?_⟩
    have e : (3 : U32).toNat = 3 := rfl
    have e4 : (4 : U32).toNat = 4 := rfl
    simp only [e, e4] at *
    omega
  · obtain ⟨m, h, hm⟩ := C23_register true (Sample.registerInfo "R" 0 none (some [.single (exampleBits 0 1),
      .single (exampleBits 4 2)])) (by
        rintro fs ⟨⟩ f hf
        simp only [List.mem_cons, List.not_mem_nil, or_false] at hf
        rcases hf with rfl | rfl <;> exact ⟨by decide, by decide, by decide⟩)
    refine ⟨m, h, fun i hi => ?_⟩
    rw [hm i hi]
    simp [Sample.registerInfo, Covers, exampleBits]
    omega

-- `C25_separated`: the registers and the clusters of this tree.
example : Separated exampleTree [exampleReg "A", exampleReg "A"] (clustersOf exampleTree) :=
  (C25_separated _ _ _).mp ⟨by decide +kernel, rfl⟩

end Svd
