import Verif.Spec.Iter
import Verif.Spec.Lists

/-! # A device whose elements do not overlap

Every element gets a range of addresses; the ranges of neighbours have no address in common, and an array has
elements that are not longer than its increment. -/

namespace Svd.Spec

/-- The bytes a register occupies; a register without a size occupies nothing. -/
def bytesOf (r : RegisterInfo) : Nat := ((r.properties.size.map BitVec.toNat).getD 0 + 7) / 8

/-- `m` bytes at `a` and `n` bytes at `b` have no address in common. -/
def NoShared (a m b n : Nat) : Prop := ∀ x, ¬ ((a ≤ x ∧ x < a + m) ∧ b ≤ x ∧ x < b + n)

/-- The ranges `lo ≤ x < hi` have no order problem: one ends before the other begins. -/
def Beside (x y : Nat × Nat) : Prop := x.2 ≤ y.1 ∨ y.2 ≤ x.1

/-- An element of `size` bytes at `off`, perhaps an array, is within the range and its copies do not overlap. -/
def Copies (off : Nat) (d : Option DimElement) (size : Nat) (range : Nat × Nat) : Prop :=
  range.1 ≤ off ∧ match d with
  | none => off + size ≤ range.2
  | some d => (∀ k < d.dim.toNat, off + k * d.dimIncrement.toNat + size ≤ range.2) ∧
      (d.dim.toNat ≤ 1 ∨ size ≤ d.dimIncrement.toNat)

/-- The ranges are beside each other and end before `n`. -/
def RangesEnd (ranges : List (Nat × Nat)) (n : Nat) : Prop := ranges.Pairwise Beside ∧ ∀ x ∈ ranges, x.2 ≤ n

mutual
/-- A register or cluster has the range for itself. -/
inductive RcRoom : RegisterCluster → Nat × Nat → Prop where
  | register {r x} : Copies r.info.addressOffset.toNat r.dim? (bytesOf r.info) x → RcRoom (.register r) x
  | cluster {h d cs ranges n x} : RcsRoom cs ranges → RangesEnd ranges n →
      Copies h.addressOffset.toNat d n x → RcRoom (.cluster h d cs) x
/-- The ranges of the elements of a list. -/
inductive RcsRoom : List RegisterCluster → List (Nat × Nat) → Prop where
  | nil : RcsRoom [] []
  | cons {c cs x xs} : RcRoom c x → RcsRoom cs xs → RcsRoom (c :: cs) (x :: xs)
end

/-- A peripheral has the range for itself. -/
def PeripheralRoom (p : Peripheral) (x : Nat × Nat) : Prop :=
  ∀ cs, p.info.registers = some cs → ∃ ranges n, RcsRoom cs ranges ∧ RangesEnd ranges n ∧
    Copies p.info.baseAddress.toNat p.dim? n x

/-- The peripherals have ranges beside each other. -/
def DeviceRoom (d : Device) : Prop :=
  ∃ xs, Pairs PeripheralRoom d.peripherals xs ∧ xs.Pairwise Beside

/-- The first address and the number of bytes of every register of a device. -/
def occupied (d : Device) : List (Nat × Nat) :=
  d.peripherals.flatMap fun p => (registersInAll (p.info.registers.getD [])).map fun r =>
    (p.info.baseAddress.toNat + r.info.addressOffset.toNat, bytesOf r.info)

end Svd.Spec
