/-! # Lists related element by element -/

namespace Svd.Spec

/-- The lists have the same length and their elements are related in order. -/
inductive Pairs {α β : Type} (R : α → β → Prop) : List α → List β → Prop where
  | nil : Pairs R [] []
  | cons {a b as bs} : R a b → Pairs R as bs → Pairs R (a :: as) (b :: bs)

end Svd.Spec
