import Verif.Model.Located

/-!
# What the messages around an error say
-/

namespace Svd.Spec

/-- Going down from the top-level nodes by these child positions, one meets these nodes, outermost first. -/
inductive Way : List Xml → List Nat → List Xml → Prop where
  | last {top : List Xml} {i : Nat} {x : Xml} : top[i]? = some x → Way top [i] [x]
  | step {top : List Xml} {i j : Nat} {r : List Nat} {x : Xml} {l : List Xml} :
      top[i]? = some x → Way x.children (j :: r) l → Way top (i :: j :: r) (x :: l)

/-- The text of the first child `name`, as it is written. -/
def HasName (x : Xml) (s : Str) : Prop := ∃ c, x.getChild "name" = some c ∧ c.textOf = some s

/-- The message `c` names the node if it has a name. -/
def Names (x : Xml) (named : Str → Context) (unnamed : Context) (c : Context) : Prop :=
  (∃ s, HasName x s ∧ c = named s) ∨ (¬ ∃ s, HasName x s) ∧ c = unnamed

/-- The first message: the element and where it is. -/
def OwnMessage (id : List Nat) (x : Xml) : Context → Prop :=
  Names x (fun s => .parsing x.tag s id) (.parsingUnknown x.tag id)

/-- The elements around the error that are mentioned. -/
def mentionedTags : List String := ["device", "peripheral", "register", "field", "enumeratedValue", "interrupt"]

/-- The messages for the elements around the error, innermost first. -/
inductive OuterMessages : List Xml → List Context → Prop where
  | nil : OuterMessages [] []
  | skip {x : Xml} {xs : List Xml} {cs : List Context} : x.tag ∉ mentionedTags → OuterMessages xs cs →
      OuterMessages (x :: xs) cs
  | mention {x : Xml} {xs : List Xml} {c : Context} {cs : List Context} : x.tag ∈ mentionedTags →
      Names x (.within x.tag) (.withinUnknown x.tag) c → OuterMessages xs cs → OuterMessages (x :: xs) (c :: cs)

end Svd.Spec
