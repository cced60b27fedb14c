import Verif.Model.Str

/-! # The documented name languages -/

namespace Svd.Spec

/-- Characters that can begin an identifier. -/
def IdentStart (c : Char) : Prop := c ∈ "_abcdefghijklmnopqrstuvwxyzABCDEFGHIJKLMNOPQRSTUVWXYZ".toList

/-- Characters of identifiers. -/
def IdentChar (c : Char) : Prop := IdentStart c ∨ c ∈ "0123456789".toList

/-- Identifiers. -/
def Ident (s : Str) : Prop := ∃ c r, s = c :: r ∧ IdentStart c ∧ ∀ x ∈ r, IdentChar x

/-- Names without placeholder. -/
def PlainName (s : Str) : Prop := ∀ x ∈ s, IdentChar x

/-- Names that may have a placeholder for the array index. -/
inductive DimableName : Str → Prop where
  | placeholder : DimableName "%s".toList
  | placeholderIdent {i} : Ident i → DimableName ("%s".toList ++ i)
  | ident {i} : Ident i → DimableName i
  | identBracket {i} : Ident i → DimableName (i ++ "[%s]".toList)
  | identPlaceholder {i t} : Ident i → PlainName t → DimableName (i ++ "%s".toList ++ t)

/-- References: dot separated names. -/
def DerivedName (s : Str) : Prop :=
  ∃ l : List Str, l ≠ [] ∧ s = joinWith ['.'] l ∧ ∀ p ∈ l, DimableName p

end Svd.Spec
