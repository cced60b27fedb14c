import Verif.Props.Names
import Verif.Props.BitRange
import Verif.Props.Iter
import Verif.Spec.Masks

/-!
# C08, C10, C23 at the edges: what happens outside the conditions of the theorems
-/

namespace Svd

open Spec

/-! ## C08: the highest bit -/

/-- **C08.** `msb` of every bit range: the exact number where it exists; otherwise a panic in builds with
overflow checks, and the number modulo 2^32 in the others. -/
theorem C08_msb_exact (b : BitRange) :
    (1 ≤ b.offset.toNat + b.width.toNat → b.offset.toNat + b.width.toNat < 2 ^ 32 → ∀ oc,
      ∃ v, b.msb oc = .ok v ∧ v.toNat + 1 = b.offset.toNat + b.width.toNat) ∧
    (b.offset.toNat + b.width.toNat = 0 ∨ 2 ^ 32 ≤ b.offset.toNat + b.width.toNat →
      b.msb true = .error (.panic .overflow)) ∧
    (∃ v, b.msb false = .ok v ∧ (v.toNat + 1) % 2 ^ 32 = (b.offset.toNat + b.width.toNat) % 2 ^ 32) := by
  have e1 : (1 : U32).toNat = 1 := rfl
  refine ⟨fun h1 h2 oc => ?_, fun h => ?_, ?_⟩
  · unfold BitRange.msb
    rw [addC_lt h2, ok_bind]
    have e : (BitVec.ofNat 32 (b.offset.toNat + b.width.toNat)).toNat = b.offset.toNat + b.width.toNat := by
      rw [BitVec.toNat_ofNat, Nat.mod_eq_of_lt h2]
    rw [subC_le (by rw [e, e1]; exact h1)]
    refine ⟨_, rfl, ?_⟩
    rw [e, e1, BitVec.toNat_ofNat, Nat.mod_eq_of_lt (by omega)]
    omega
  · unfold BitRange.msb
    rcases h with h | h
    · rw [addC_lt (by omega), ok_bind]
      unfold subC arith
      rw [if_neg (by rw [BitVec.toNat_ofNat, h, e1]; simp), if_pos rfl]
      rfl
    · unfold addC arith
      rw [if_neg (by omega), if_pos rfl]
      rfl
  · unfold BitRange.msb addC subC arith
    refine ⟨b.offset + b.width - 1, ?_, ?_⟩
    · simp [bind, Except.bind]
    · have h1 := b.offset.isLt
      have h2 := b.width.isLt
      rw [BitVec.toNat_sub, BitVec.toNat_add, e1]
      omega

example : (BitRange.msb true ⟨4, 3, .bitRange⟩).toOption = some 6 ∧
    BitRange.msb true ⟨0, 0, .bitRange⟩ = .error (.panic .overflow) ∧
    BitRange.msb false ⟨0, 0, .bitRange⟩ = .ok 4294967295 ∧
    BitRange.msb true ⟨4294967290, 6, .bitRange⟩ = .error (.panic .overflow) ∧
    BitRange.msb false ⟨4294967290, 6, .bitRange⟩ = .ok 4294967295 := by decide

/-! ## C10: which part of a reference is reported -/

theorem forM_first {α : Type} {f : α → M Unit} : ∀ {l : List α},
    l.forM f = .ok () ∨ ∃ a x b e, l = a ++ x :: b ∧ (∀ y ∈ a, f y = .ok ()) ∧ f x = .error e ∧ l.forM f = .error e
  | [] => .inl rfl
  | x :: l => by
    cases h : f x with
    | error e =>
      refine .inr ⟨[], x, l, e, rfl, by simp, h, ?_⟩
      unfold List.forM; rw [h]; rfl
    | ok _ =>
      have hs : (x :: l).forM f = l.forM f := by
        conv => lhs; unfold List.forM
        rw [h]; rfl
      rcases forM_first (f := f) (l := l) with h0 | ⟨a, y, b, e, rfl, ha, hy, he⟩
      · exact .inl (hs.trans h0)
      · refine .inr ⟨x :: a, y, b, e, rfl, fun z hz => ?_, hy, hs.trans he⟩
        rcases List.mem_cons.mp hz with rfl | hz
        · exact h
        · exact ha z hz

/-- **C10.** A reference is accepted, or the first of its parts that is not a name is reported. -/
theorem C10_derived_outcomes (name : Str) (tag : String) :
    (DerivedName name ∧ checkDerivedName name tag = .ok ()) ∨
    (¬ DerivedName name ∧ ∃ a p b, name = joinWith ['.'] (a ++ p :: b) ∧ (∀ q ∈ a ++ p :: b, '.' ∉ q) ∧
      (∀ q ∈ a, DimableName q) ∧ ¬ DimableName p ∧
      checkDerivedName name tag = .error (.err (.invalidName p tag))) := by
  by_cases hd : DerivedName name
  · exact .inl ⟨hd, (C10_check_derived_name name tag).mpr hd⟩
  · refine .inr ⟨hd, ?_⟩
    have hn : checkDerivedName name tag ≠ .ok () := fun h => hd ((C10_check_derived_name name tag).mp h)
    unfold checkDerivedName at hn ⊢
    rcases forM_first (f := fun x => checkDimableName x tag) (l := splitOn '.' name) with h | ⟨a, p, b, e, hl, ha, hp, he⟩
    · exact absurd h hn
    · have hb : ¬ DimableName p := fun h => by rw [(C10_check_dimable_name p tag).1.mpr h] at hp; cases hp
      have he' : e = .err (.invalidName p tag) := by
        rw [(C10_check_dimable_name p tag).2 hb] at hp
        exact (Except.error.inj hp).symm
      refine ⟨a, p, b, ?_, ?_, fun q hq => (C10_check_dimable_name q tag).1.mp (ha q hq), hb, ?_⟩
      · rw [← hl]; exact (join_splitOn '.' name).symm
      · intro q hq
        rw [← hl] at hq
        exact splitOn_mem hq
      · rw [he, he']

example : checkDerivedName "P.C%s. R.-".toList "derivedFrom" = .error (.err (.invalidName " R".toList "derivedFrom")) := by
  decide

/-! ## C23: masks of every field and register -/

theorem maskLoop_fails (mask : U64) (inc : U32) : ∀ (ks : List Nat) (bits : U64),
    (∃ k ∈ ks, k < 2 ^ 32 ∧ 64 ≤ k * inc.toNat) → (∀ k ∈ ks, k < 2 ^ 32) →
    maskLoop true mask inc bits ks = .error (.panic .overflow)
  | [], _, h, _ => by obtain ⟨_, h, _⟩ := h; cases h
  | k :: ks, bits, h, hl => by
    have hk1 := hl k (by simp)
    have e : (BitVec.ofNat 32 k).toNat = k := by simp [Nat.mod_eq_of_lt hk1]
    unfold maskLoop
    by_cases hm : k * inc.toNat < 2 ^ 32
    · have e2 : ((BitVec.ofNat 32 k) * inc).toNat = k * inc.toNat := by
        rw [BitVec.toNat_mul, e, Nat.mod_eq_of_lt hm]
      have e3 : mulC true (BitVec.ofNat 32 k) inc = .ok (BitVec.ofNat 32 k * inc) := by
        unfold mulC arith; rw [if_pos (by rw [e]; exact hm)]
      rw [e3, ok_bind]
      by_cases hs : k * inc.toNat < 64
      · rw [shlC_lt (by rw [e2]; exact hs), ok_bind]
        refine maskLoop_fails mask inc ks _ ?_ fun j hj => hl j (by simp [hj])
        obtain ⟨j, hj, h1, h2⟩ := h
        rcases List.mem_cons.mp hj with rfl | hj
        · omega
        · exact ⟨j, hj, h1, h2⟩
      · unfold shlC arith
        rw [if_neg (by rw [e2]; exact hs), if_pos rfl]
        rfl
    · unfold mulC arith
      rw [if_neg (by rw [e]; exact hm), if_pos rfl]
      rfl

/-- **C23.** In builds with overflow checks the mask of a field exists exactly if the field is within the
word; all other fields panic. -/
theorem C23_field_outcomes (f : Field) :
    (InWord f ∧ ∃ m, Field.bitmask true f = .ok m ∧ ∀ i < 64, (m.getLsbD i = true ↔ Covers f i)) ∨
    (¬ InWord f ∧ Field.bitmask true f = .error (.panic .overflow)) := by
  by_cases h : InWord f
  · exact .inl ⟨h, C23_field true f h⟩
  · refine .inr ⟨h, ?_⟩
    cases f with
    | single f =>
      refine C23_outside f ?_
      simp only [InWord] at h
      omega
    | array f d =>
      by_cases h1 : 1 ≤ f.bitRange.width.toNat ∧ f.bitRange.width.toNat ≤ 64 ∧ f.bitRange.offset.toNat < 64
      · obtain ⟨m, hm, _⟩ := fieldInfo_bitmask true f h1.1 h1.2.1 h1.2.2
        simp only [Field.bitmask, hm, ok_bind]
        refine maskLoop_fails _ _ _ _ ?_ fun k hk => Nat.lt_trans (List.mem_range.mp hk) d.dim.isLt
        simp only [InWord, h1, true_and, and_self, Classical.not_forall, Nat.not_lt, exists_prop] at h
        obtain ⟨k, hk, hge⟩ := h
        exact ⟨k, List.mem_range.mpr hk, Nat.lt_trans hk d.dim.isLt, hge⟩
      · have h2 : f.bitmask true = .error (.panic .overflow) := C23_outside f (by omega)
        simp only [Field.bitmask, h2]
        rfl

theorem fields_bitmask_fails : ∀ (fs : List Field) (m0 : U64), (∃ f ∈ fs, ¬ InWord f) →
    fs.foldlM (fun mask f => do let m ← Field.bitmask true f; .ok (mask ||| m)) m0 = .error (.panic .overflow)
  | [], _, h => by obtain ⟨_, h, _⟩ := h; cases h
  | f :: fs, m0, h => by
    rw [List.foldlM_cons]
    rcases C23_field_outcomes f with ⟨hf, m, hm, _⟩ | ⟨_, he⟩
    · simp only [hm, ok_bind]
      refine fields_bitmask_fails fs _ ?_
      obtain ⟨g, hg, hn⟩ := h
      rcases List.mem_cons.mp hg with rfl | hg
      · exact absurd hf hn
      · exact ⟨g, hg, hn⟩
    · simp only [he]; rfl

/-- **C23.** The mask of a register: it exists exactly if all fields are within the word. -/
theorem C23_register_outcomes (r : RegisterInfo) :
    ((∀ f ∈ r.fields.getD [], InWord f) ∧ ∃ m, r.bitmask true = .ok m ∧
      ∀ i < 64, (m.getLsbD i = true ↔ ∃ f ∈ r.fields.getD [], Covers f i)) ∨
    ((∃ f ∈ r.fields.getD [], ¬ InWord f) ∧ r.bitmask true = .error (.panic .overflow)) := by
  by_cases h : ∀ f ∈ r.fields.getD [], InWord f
  · refine .inl ⟨h, ?_⟩
    obtain ⟨m, hm, hb⟩ := C23_register true r fun fs hfs f hf => h f (by rw [hfs]; exact hf)
    refine ⟨m, hm, fun i hi => (hb i hi).trans ?_⟩
    cases r.fields <;> simp
  · simp only [Classical.not_forall, exists_prop] at h
    refine .inr ⟨h, ?_⟩
    unfold RegisterInfo.bitmask RegisterInfo.fieldList
    cases hr : r.fields with
    | none => rw [hr] at h; obtain ⟨_, h, _⟩ := h; cases h
    | some fs => rw [hr] at h; exact fields_bitmask_fails fs 0 h

example : (Sample.registerInfo "R" 0 none (some [.single (exampleBits 0 1),
    .single (exampleBits 64 1)])).bitmask true = .error (.panic .overflow) := by decide
example : (Sample.registerInfo "R" 0 none (some [.single (exampleBits 60 10)])).bitmask true =
    .ok 0xF000000000000000 := by decide

end Svd
