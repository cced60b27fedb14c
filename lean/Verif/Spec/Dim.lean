import Verif.Model.Types
import Verif.Spec.Num

/-! # What array index texts and index lists mean -/

namespace Svd.Spec

/-- The canonical decimal numeral of a number. -/
def decimal (n : Nat) : Str := Nat.toDigits 10 n

/-- The canonical decimal numerals of `first, first + 1, ...`, `count` of them. -/
def decimalRange (first count : Nat) : List Str := (List.range' first count).map decimal

/-- A decimal number in the range of `u32`. -/
def DecNumber (s : Str) (n : Nat) : Prop := Numeral (IsDigit 10) 10 s n ∧ n < 2 ^ 32

/-- The index texts of CMSIS-SVD `dimIndexType` and the lists they stand for: an ascending number
range, an ascending letter range of one case, or a comma separated list. -/
inductive IndexText : Str → List Str → Prop where
  | numbers {s t m n} : DecNumber s m → DecNumber t n → m ≤ n →
      IndexText (s ++ '-' :: t) (decimalRange m (n + 1 - m))
  | letters {a b : Char} :
      ('a'.toNat ≤ a.toNat ∧ b.toNat ≤ 'z'.toNat) ∨ ('A'.toNat ≤ a.toNat ∧ b.toNat ≤ 'Z'.toNat) →
      a.toNat ≤ b.toNat →
      IndexText [a, '-', b] ((List.range' a.toNat (b.toNat + 1 - a.toNat)).map fun i => [Char.ofNat i])
  | list {l : List Str} : l ≠ [] → (∀ p ∈ l, '-' ∉ p ∧ ',' ∉ p) → IndexText (joinWith [','] l) l

/-- The indexes of an array: the explicit list, or `0, 1, ...`. -/
def indexList (d : DimElement) : List Str :=
  match d.dimIndex with
  | some l => l
  | none => decimalRange 0 d.dim.toNat

/-- The array's indexes are the canonical numerals of `first, ..., last`. -/
def IsIndexRange (d : DimElement) (first last : Nat) : Prop :=
  0 < d.dim.toNat ∧ first + d.dim.toNat = last + 1 ∧
    (indexList d).take d.dim.toNat = decimalRange first d.dim.toNat

end Svd.Spec
