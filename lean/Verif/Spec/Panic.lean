import Verif.Spec.BitRange

/-! # The two kinds of input on which the parser panics -/

namespace Svd.Spec

/-- `y` is `x` or an element anywhere inside it. -/
inductive Within : Xml → Xml → Prop where
  | self (x : Xml) : Within x x
  | child {tag attrs kids x y} : x ∈ kids → Within x y → Within (.elem tag attrs kids) y

/-- A `writeConstraint` element without a child element. -/
def EmptyConstraint (y : Xml) : Prop := y.hasTag "writeConstraint" = true ∧ ∀ c ∈ y.children, c.isElement = false

/-- The bit range of the field is written as all bits from 0 to `2 ^ 32 - 1`, as a text (a further
colon and what follows it are ignored by the reader) or by two elements. -/
inductive FullRange (y : Xml) : Prop where
  | text {r p q rest} : y.getChild "bitRange" = some r →
      r.textOf = some ('[' :: (p ++ ':' :: q ++ rest) ++ [']']) →
      (rest = [] ∨ ∃ r', rest = ':' :: r') → DecNumber p (2 ^ 32 - 1) → DecNumber q 0 → FullRange y
  | bits : WritesRange y (2 ^ 32 - 1) 0 .msbLsb → FullRange y

/-- Somewhere inside `x` there is an empty `writeConstraint`, or (in a build with overflow checks) a
`field` over all bits. -/
def PanicInput (oc : Bool) (x : Xml) : Prop :=
  ∃ y, Within x y ∧
    (EmptyConstraint y ∨ oc = true ∧ y.hasTag "field" = true ∧ FullRange y)

end Svd.Spec
