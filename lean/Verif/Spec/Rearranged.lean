import Verif.Spec.Reorder

/-! # Documents that differ in the order of the items of lists

In addition to elements with different names (`Shuffled`), the peripherals of the device, the registers and
clusters on each level and the fields of a register may change places. -/

namespace Svd.Spec

/-- Child elements, named `a` and `b`, of an element named `tag` that are items of the same list. -/
def Listed (tag a b : String) : Prop :=
  tag ∈ ["peripherals", "registers", "fields"] ∨
    tag = "cluster" ∧ a ∈ ["register", "cluster"] ∧ b ∈ ["register", "cluster"]

/-- The elements on the way to a list, with the child in which the way goes on. -/
def onTheWay : List (String × String) :=
  [("device", "peripherals"), ("peripherals", "peripheral"), ("peripheral", "registers"), ("registers", "register"),
    ("registers", "cluster"), ("cluster", "register"), ("cluster", "cluster"), ("register", "fields")]

/-- Two elements that differ in the order of two neighbouring items. -/
inductive Swapped : Xml → Xml → Prop
  | items {tag a b : String} (as as₁ as₂ : List (String × Str)) (pre post cs₁ cs₂ : List Xml) : Listed tag a b →
      Swapped (.elem tag as (pre ++ .elem a as₁ cs₁ :: .elem b as₂ cs₂ :: post))
        (.elem tag as (pre ++ .elem b as₂ cs₂ :: .elem a as₁ cs₁ :: post))
  | inside {tag a : String} (as as₁ as₂ : List (String × Str)) (pre post cs₁ cs₂ : List Xml) : (tag, a) ∈ onTheWay →
      Swapped (.elem a as₁ cs₁) (.elem a as₂ cs₂) →
      Swapped (.elem tag as (pre ++ .elem a as₁ cs₁ :: post)) (.elem tag as (pre ++ .elem a as₂ cs₂ :: post))

/-- Any number of such changes, and of those that do not matter to the reader. -/
inductive Rearranged : Xml → Xml → Prop
  | shuffled {x y : Xml} : Shuffled x y → Rearranged x y
  | swapped {x y : Xml} : Swapped x y → Rearranged x y
  | symm {x y : Xml} : Rearranged x y → Rearranged y x
  | trans {x y z : Xml} : Rearranged x y → Rearranged y z → Rearranged x z

end Svd.Spec
