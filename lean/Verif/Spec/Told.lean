import Verif.Spec.Num

/-! # What the text of an error contains

Written without looking at the texts: for each error the names and numbers in it, in an order in which a
reader finds them. -/

namespace Svd.Spec

/-- Something to be found in a text. -/
inductive Word where
  /-- the text itself -/
  | text (s : Str)
  /-- a word, with its first letter as it is or as a capital -/
  | kind (s : Str)
  /-- a decimal number -/
  | dec (n : Nat)
  /-- a hexadecimal number after `0x` -/
  | hex (n : Nat)

/-- How it is written. -/
def Spelt : Word → Str → Prop
  | .text s, p => p = s
  | .kind [], p => p = []
  | .kind (c :: s), p => p = c :: s ∨ p = c.toUpper :: s
  | .dec n, p => Positional (IsDigit 10) 10 p n
  | .hex n, p => ∃ q, p = '0' :: 'x' :: q ∧ Positional (IsDigit 16) 16 q n

/-- What must not touch it: a number has no digits around it. -/
def Apart : Word → Char → Prop
  | .dec _, c | .hex _, c => digitValue c = none
  | _, _ => True

/-- The text contains these words, one after the other. -/
def Contains : List Word → Str → Prop
  | [], _ => True
  | w :: ws, s => ∃ a p b, s = a ++ p ++ b ∧ Spelt w p ∧ (∀ c ∈ a.getLast?, Apart w c) ∧ (∀ c ∈ b.head?, Apart w c) ∧
      Contains ws b

/-- The names and numbers of an error.  A range is given by its first value and the one after its last, and shown
with its last value for enumerated values.  `dbg` is `{:?}` of strings. -/
def told (dbg : Str → Str) : Err → List Word
  | .missingTag t | .emptyTag t | .notExpectedTag t | .invalidRegisterCluster t | .uninitialized t => [.text t.toList]
  | .unknownEndian s | .unknownAccessType s | .invalidDatatype s | .invalidModifiedWriteValues s
  | .invalidReadAction s | .invalidProtection s | .invalidBooleanValue s | .invalidName s _ => [.text s]
  | .incorrectDimIndexesCount n k => [.dec n, .dec k]
  | .missingPlaceholder s t => [.text s, .text t.toList]
  | .enumValueAndDefault v => v.toList.map fun v => .dec v.toNat
  | .enumOutOfRange v lo hi => [.dec v.toNat, .dec lo.toNat, .dec (hi.toNat - 1)]
  | .resetValueTooLarge v s | .resetMaskTooLarge v s => [.hex v.toNat, .dec s.toNat]
  | .resetMaskConflict v m => [.hex v.toNat, .hex m.toNat]
  | .wcReversedRange lo hi => [.dec lo.toNat, .dec hi.toNat]
  | .wcOutOfRange v lo hi => [.dec v.toNat, .dec lo.toNat, .dec hi.toNat]
  | .selfDerived w path | .notFound w path => [.kind w.toList, .text path]
  | .enumsNotFound path p cs r f =>
    .text path :: .text (dbg p) :: (cs.map fun c => .text (dbg c)) ++ [.text (dbg r), .text (dbg f)]
  | _ => []

end Svd.Spec
