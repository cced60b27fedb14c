import Verif.Model.Num
import Verif.Model.Types

/-!
# XML trees and the accessors of svd-parser/src/elementext.rs

The XML reader (roxmltree) is not modelled: a document is a tree.  Element names are local names
(`has_tag_name("x")` ignores the namespace), attributes are kept with their qualified names.
-/

namespace Svd

/-- A node as seen through roxmltree: an element, a text node (character data or CDATA), or
anything else (comment, processing instruction). -/
inductive Xml where
  | elem (tag : String) (attrs : List (String × Str)) (children : List Xml)
  | text (s : Str)
  | other

namespace Xml

mutual
/-- Trees can be compared (used by the concrete examples only). -/
def decEq : (a b : Xml) → Decidable (a = b)
  | .elem t a c, .elem t' a' c' =>
    match decEqs c c' with
    | .isTrue h => decidable_of_iff (t = t' ∧ a = a') (by simp [h])
    | .isFalse h => .isFalse (by simp [h])
  | .text s, .text s' => decidable_of_iff (s = s') (by simp)
  | .other, .other => .isTrue rfl
  | .elem .., .text _ | .elem .., .other | .text _, .elem .. | .text _, .other
  | .other, .elem .. | .other, .text _ => .isFalse (by simp)
/-- Lists of trees. -/
def decEqs : (a b : List Xml) → Decidable (a = b)
  | [], [] => .isTrue rfl
  | x :: xs, y :: ys =>
    match decEq x y, decEqs xs ys with
    | .isTrue h, .isTrue h' => .isTrue (by rw [h, h'])
    | .isFalse h, _ => .isFalse (by simp [h])
    | _, .isFalse h => .isFalse (by simp [h])
  | [], _ :: _ | _ :: _, [] => .isFalse (by simp)
end

instance : DecidableEq Xml := decEq

/-- roxmltree `tag_name().name()`: empty for non-elements. -/
def tag : Xml → String
  | elem t _ _ => t
  | _ => ""

/-- roxmltree `children()`. -/
def children : Xml → List Xml
  | elem _ _ cs => cs
  | _ => []

/-- roxmltree `is_element()`. -/
def isElement : Xml → Bool
  | elem .. => true
  | _ => false

/-- roxmltree `has_tag_name(name)`. -/
def hasTag (n : String) : Xml → Bool
  | elem t _ _ => t == n
  | _ => false

/-- roxmltree `attribute(name)`. -/
def attr (n : String) : Xml → Option Str
  | elem _ as _ => (as.find? fun p => p.1 == n).map (·.2)
  | _ => none

/-- roxmltree `text()`: of an element, the content of its first child if that is a text node. -/
def textOf : Xml → Option Str
  | elem _ _ (text s :: _) => some s
  | text s => some s
  | _ => none

/-- svd-parser/src/elementext.rs:33-38 `get_child`. -/
def getChild (t : Xml) (k : String) : Option Xml := t.children.find? (hasTag k)

/-- svd-parser/src/elementext.rs:71-80 `get_text`. -/
def getText (t : Xml) : M Str :=
  match t.textOf with
  | some s => .ok (trim s)
  | none => fail (.emptyTag t.tag)

/-- svd-parser/src/elementext.rs:39-60 `get_child_text_opt`: an empty tag counts as absent. -/
def getChildTextOpt (t : Xml) (k : String) : M (Option Str) :=
  match t.getChild k with
  | some c =>
    match c.getText with
    | .ok s => .ok (some s)
    | .error (.err (.emptyTag _)) => .ok none
    | .error e => .error e
  | none => .ok none

/-- svd-parser/src/elementext.rs:61-68 `get_child_text`. -/
def getChildText (t : Xml) (k : String) : M Str := do
  let o ← t.getChildTextOpt k
  okOr o (.missingTag k)

/-- svd-parser/src/elementext.rs:83-86 `get_child_elem`. -/
def getChildElem (t : Xml) (n : String) : M Xml := okOr (t.getChild n) (.missingTag n)

/-- svd-parser/src/types.rs:8-36 (`w` = 32) and 38-66 (`w` = 64). -/
def parseInt (w : Nat) (t : Xml) : M (BitVec w) := do
  let text ← t.getText
  match parseIntText w text with
  | .ok v => .ok v
  | .error k => fail (.parseInt k)

/-- svd-parser/src/types.rs:70-86 `BoolParse::parse`. -/
def parseBool (t : Xml) : M Bool := do
  let text ← t.getText
  okOr (parseBoolText text) (.invalidBooleanValue text)

/-- svd-parser/src/elementext.rs:89-98 `get_child_u32` (`w` = 32), `get_child_u64` (`w` = 64). -/
def getChildInt (w : Nat) (t : Xml) (n : String) : M (BitVec w) := do
  let s ← t.getChildElem n
  parseInt w s

/-- svd-parser/src/elementext.rs:101-104 `get_child_bool`. -/
def getChildBool (t : Xml) (n : String) : M Bool := do
  let s ← t.getChildElem n
  parseBool s

/-- svd-parser/src/lib.rs:98-111 `optional`. -/
def optional {α} (n : String) (t : Xml) (p : Xml → M α) : M (Option α) :=
  match t.getChild n with
  | none => .ok none
  | some c => do
    let r ← p c
    .ok (some r)

/-- The keyword parsers (svd-parser/src/{access,endian,usage,protection,readaction,
modifiedwritevalues,datatype}.rs and addressblock.rs:23-33): text, then `parse_str`, else the given
error. -/
def parseKeyword {α} (parseStr : Str → Option α) (e : Str → Err) (t : Xml) : M α := do
  let text ← t.getText
  okOr (parseStr text) (e text)

end Xml

end Svd
