import Verif.Model.Xml

/-! # Documents that say everything explicitly -/

namespace Svd.Spec

/-- A node of a tree: the tree itself or a node of one of its children. -/
inductive Inside : Xml → Xml → Prop
  | self (x : Xml) : Inside x x
  | child {x c : Xml} {tag : String} {as : List (String × Str)} {cs : List Xml} :
      c ∈ cs → Inside x c → Inside x (.elem tag as cs)

/-- The elements whose content is kept as a text. -/
def textTags : List String :=
  ["name", "description", "displayName", "version", "vendor", "vendorID", "series", "licenseText",
   "headerSystemFilename", "headerDefinitionsPrefix", "revision", "alternateGroup", "alternateRegister",
   "alternateCluster", "alternatePeripheral", "headerStructName", "groupName", "prependToName",
   "appendToName", "headerEnumName", "dimName", "dimIndex"]

/-- No text is blank (nothing at all is allowed) and no list of fields is empty. -/
structure Regular (t : Xml) : Prop where
  texts : ∀ x s, Inside x t → x.tag ∈ textTags → x.textOf = some s → ∃ c ∈ s, isWhitespace c = false
  fields : ∀ x, Inside x t → x.tag = "fields" → ∃ c ∈ x.children, c.isElement = true

end Svd.Spec
