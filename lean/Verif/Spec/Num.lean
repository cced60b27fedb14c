import Verif.Model.Basic

/-!
# What a number text denotes

Independent of the parser: positional notation, with the digits of a literal listed by the
alphabets below.
-/

namespace Svd.Spec

/-- Value of a digit: its position in the digit alphabet, in either case. -/
def digitValue (c : Char) : Option Nat :=
  match "0123456789abcdef".toList.idxOf? c with
  | some d => some d
  | none => "0123456789ABCDEF".toList.idxOf? c

/-- A digit of the given radix. -/
def IsDigit (radix : Nat) (c : Char) (d : Nat) : Prop := digitValue c = some d ∧ d < radix

/-- A binary digit of a `#` literal: `x` and `X` are don't-care digits and count as zero. -/
def IsHashDigit (c : Char) (d : Nat) : Prop := IsDigit 2 c d ∨ ((c = 'x' ∨ c = 'X') ∧ d = 0)

/-- A binary digit of a `0b` literal: `x` is a don't-care digit and counts as zero. -/
def IsBinDigit (c : Char) (d : Nat) : Prop := IsDigit 2 c d ∨ (c = 'x' ∧ d = 0)

/-- Positional notation: the value of a sequence of digits, most significant first. -/
inductive Positional (digit : Char → Nat → Prop) (radix : Nat) : Str → Nat → Prop where
  | one {c d} : digit c d → Positional digit radix [c] d
  | snoc {s n c d} : Positional digit radix s n → digit c d →
      Positional digit radix (s ++ [c]) (n * radix + d)

/-- A numeral with an optional plus sign. -/
inductive Numeral (digit : Char → Nat → Prop) (radix : Nat) : Str → Nat → Prop where
  | plain {s n} : Positional digit radix s n → Numeral digit radix s n
  | plus {s n} : Positional digit radix s n → Numeral digit radix ('+' :: s) n

/-- The integer literals of SVD files and their values. -/
inductive IntLiteral : Str → Nat → Prop where
  | dec {s n} : Numeral (IsDigit 10) 10 s n → IntLiteral s n
  | hex {s n x} : x = 'x' ∨ x = 'X' → Numeral (IsDigit 16) 16 s n → IntLiteral ('0' :: x :: s) n
  | hash {s n} : Numeral IsHashDigit 2 s n → IntLiteral ('#' :: s) n
  | bin {s n} : Numeral IsBinDigit 2 s n → IntLiteral ('0' :: 'b' :: s) n

end Svd.Spec
