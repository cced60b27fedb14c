import Verif.Model.Str

/-! # Specifications of text operations -/

namespace Svd.Spec

/-- `t` is `s` without the whitespace around it. -/
def IsTrimmed (s t : Str) : Prop :=
  ∃ a b, s = a ++ t ++ b ∧ (∀ c ∈ a, isWhitespace c = true) ∧ (∀ c ∈ b, isWhitespace c = true) ∧
    (∀ c, t.head? = some c → isWhitespace c = false) ∧
    (∀ c, t.getLast? = some c → isWhitespace c = false)

/-- There is no whitespace before the first and after the last entry. -/
def OuterClean (l : List Str) : Prop :=
  (∀ p, l.head? = some p → ∀ c, p.head? = some c → isWhitespace c = false) ∧
  (∀ p, l.getLast? = some p → ∀ c, p.getLast? = some c → isWhitespace c = false)

end Svd.Spec
