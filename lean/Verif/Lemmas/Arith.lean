import Verif.Model.Basic

/-! # Machine arithmetic -/

namespace Svd

theorem subC_le {w : Nat} {oc : Bool} {a b : BitVec w} (h : b.toNat ≤ a.toNat) :
    subC oc a b = .ok (BitVec.ofNat w (a.toNat - b.toNat)) := by
  unfold subC arith
  rw [if_pos h]
  congr 1
  apply BitVec.eq_of_toNat_eq
  have := a.isLt
  rw [BitVec.toNat_sub_of_le h, BitVec.toNat_ofNat, Nat.mod_eq_of_lt (by omega)]

theorem addC_lt {w : Nat} {oc : Bool} {a b : BitVec w} (h : a.toNat + b.toNat < 2 ^ w) :
    addC oc a b = .ok (BitVec.ofNat w (a.toNat + b.toNat)) := by
  unfold addC arith
  rw [if_pos h]
  congr 1

end Svd
