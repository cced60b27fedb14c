import Verif.Spec.Iter
import Verif.Spec.Count

/-! # Fields within 64 bits, and something listed for every register -/

namespace Svd.Spec

/-- Every instance of the field begins within a 64-bit word and has between one and 64 bits. -/
def EachInWord : Field → Prop
  | .single f => 1 ≤ f.bitRange.width.toNat ∧ f.bitRange.width.toNat ≤ 64 ∧ f.bitRange.offset.toNat < 64
  | .array f d => (1 ≤ f.bitRange.width.toNat ∧ f.bitRange.width.toNat ≤ 64 ∧ f.bitRange.offset.toNat < 64) ∧
      ∀ k < d.dim.toNat, f.bitRange.offset.toNat + k * d.dimIncrement.toNat < 64

/-- All fields of the register are like that. -/
def RegisterInWord (r : RegisterInfo) : Prop := ∀ fs, r.fields = some fs → ∀ f ∈ fs, EachInWord f

mutual
/-- `w i` for every register that the register or cluster stands for, in order. -/
def listed {α : Type} (w : RegisterInfo → α) : RegisterCluster → List α
  | .register r => List.replicate (copies r.dim?) (w r.info)
  | .cluster _ d cs => (List.replicate (copies d) (listedAll w cs)).flatten
/-- The same for a list. -/
def listedAll {α : Type} (w : RegisterInfo → α) : List RegisterCluster → List α
  | [] => []
  | c :: cs => listed w c ++ listedAll w cs
end

end Svd.Spec
