import Verif.Model.Xml
import Verif.Spec.Num
import Verif.Spec.Str
import Verif.Spec.Dim

/-! # The three notations for bit ranges -/

namespace Svd.Spec

/-- The element holds the 32-bit number `n`. -/
def ElementNumber (t : Xml) (n : Nat) : Prop :=
  ∃ text lit, t.textOf = some text ∧ IsTrimmed text lit ∧ IntLiteral lit n ∧ n < 2 ^ 32

/-- The field element gives the bits `lsb ..= msb` in the notation `ty`.  `bitRange` has precedence over
`lsb`/`msb`, which have precedence over `bitOffset`/`bitWidth`. -/
inductive WritesRange (t : Xml) (msb lsb : Nat) : BitRangeType → Prop where
  | bitRange {r m l} : t.getChild "bitRange" = some r →
      r.textOf = some ('[' :: m ++ ':' :: l ++ [']']) → DecNumber m msb → DecNumber l lsb →
      WritesRange t msb lsb .bitRange
  | msbLsb {x y} : t.getChild "bitRange" = none → t.getChild "lsb" = some x →
      t.getChild "msb" = some y → ElementNumber x lsb → ElementNumber y msb →
      WritesRange t msb lsb .msbLsb
  | offsetWidth {x y w} : t.getChild "bitRange" = none → t.getChild "lsb" = none →
      t.getChild "bitOffset" = some x → t.getChild "bitWidth" = some y →
      ElementNumber x lsb → ElementNumber y w → msb + 1 = lsb + w →
      WritesRange t msb lsb .offsetWidth

end Svd.Spec
