import Verif.Model.Validate
import Verif.Lemmas.Except

/-! # Helpers for validation -/

namespace Svd

theorem seq_ok {x : M Unit} {f : Unit → M Unit} :
    (x >>= f) = .ok () ↔ x = .ok () ∧ f () = .ok () := by
  rw [bind_ok]; constructor
  · rintro ⟨⟨⟩, h⟩; exact h
  · exact fun h => ⟨(), h⟩

theorem whenM_ok {b : Bool} {m : M Unit} : whenM b m = .ok () ↔ (b = true → m = .ok ()) := by
  unfold whenM; cases b <;> simp

theorem forOpt_ok {α : Type} {o : Option α} {f : α → M Unit} :
    forOpt o f = .ok () ↔ ∀ a, o = some a → f a = .ok () := by
  cases o <;> simp [forOpt]

theorem iteFail_ok {c : Prop} [Decidable c] {e : Err} :
    (if c then fail e else .ok () : M Unit) = .ok () ↔ ¬ c := by
  split <;> simp_all [fail]

theorem iteFail_ok' {c : Prop} [Decidable c] {e : Err} :
    (if c then .ok () else fail e : M Unit) = .ok () ↔ c := by
  split <;> simp_all [fail]

theorem iteBind_ok {c : Prop} [Decidable c] {e : Err} {f : Unit → M Unit} :
    (if c then fail e >>= f else (Except.ok () : M Unit) >>= f) = .ok () ↔ ¬ c ∧ f () = .ok () := by
  split <;> simp_all [fail]

theorem bitLen_gt (v : U64) (n : Nat) : bitLen v > n ↔ ¬ v.toNat < 2 ^ n := by
  unfold bitLen
  by_cases h : v.toNat = 0
  · simp only [h, if_true]
    have := Nat.two_pow_pos n
    omega
  · rw [if_neg h]
    have h1 : v.toNat.log2 < 64 := (Nat.log2_lt h).mpr v.isLt
    have h2 := Nat.log2_lt (k := n) h
    omega

theorem and_eq_left (v m : U64) :
    v &&& m = v ↔ ∀ i, v.toNat.testBit i = true → m.toNat.testBit i = true := by
  rw [← BitVec.toNat_inj, BitVec.toNat_and]
  constructor
  · intro h i hi
    rw [← h, Nat.testBit_and] at hi
    exact (Bool.and_eq_true_iff.mp hi).2
  · intro h
    apply Nat.eq_of_testBit_eq
    intro i
    rw [Nat.testBit_and]
    have := h i
    cases hv : v.toNat.testBit i <;> simp_all

end Svd
