import Verif.Spec.Layout

/-! # Documents that differ in the order of elements with different names

The format prescribes an order of the elements; the reader is supposed not to depend on it. -/

namespace Svd.Spec

/-- The elements before the list in an element that is a list with a head. -/
def headTags : String → List String
  | "enumeratedValues" => ["name", "headerEnumName", "usage"]
  | "dimArrayIndex" => ["headerEnumName"]
  | _ => []

/-- Neighbouring child elements, named `a` and `b`, of an element named `tag` whose order does not matter.
The registers and clusters of a cluster form one list. -/
inductive Swappable : String → String → String → Prop
  | record {tag a b} : (recordTags tag).isSome → a ≠ b →
      ¬ (tag = "cluster" ∧ a ∈ ["register", "cluster"] ∧ b ∈ ["register", "cluster"]) → Swappable tag a b
  | head {tag a b} : a ∈ headTags tag → a ≠ b → Swappable tag a b

/-- Two elements that differ in the order of such children and of attributes only, at any depth. -/
inductive Shuffled : Xml → Xml → Prop
  | refl (x : Xml) : Shuffled x x
  | symm {x y : Xml} : Shuffled x y → Shuffled y x
  | trans {x y z : Xml} : Shuffled x y → Shuffled y z → Shuffled x z
  | swap {tag : String} (as : List (String × Str)) (pre post : List Xml) {a b : String}
      (as₁ as₂ : List (String × Str)) (cs₁ cs₂ : List Xml) : Swappable tag a b →
      Shuffled (.elem tag as (pre ++ .elem a as₁ cs₁ :: .elem b as₂ cs₂ :: post))
        (.elem tag as (pre ++ .elem b as₂ cs₂ :: .elem a as₁ cs₁ :: post))
  | attr (tag : String) (pre post : List (String × Str)) {k l : String} (v w : Str) (cs : List Xml) :
      k ≠ l → Shuffled (.elem tag (pre ++ (k, v) :: (l, w) :: post) cs)
        (.elem tag (pre ++ (l, w) :: (k, v) :: post) cs)
  | child (tag : String) (as : List (String × Str)) (pre post : List Xml) {c d : Xml} :
      Shuffled c d → Shuffled (.elem tag as (pre ++ c :: post)) (.elem tag as (pre ++ d :: post))

end Svd.Spec
