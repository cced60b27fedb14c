import Verif.Model.Xml

/-!
# Documents that differ in layout only

Which edits of a document are supposed not to matter, stated from the format: the table of elements
that may occur in each container element, and the attributes the format defines.
-/

namespace Svd.Spec

/-- Dimension elements, allowed in every element that can be an array. -/
def dimTags : List String := ["dim", "dimIncrement", "dimIndex", "dimName", "dimArrayIndex"]

/-- Register properties. -/
def propertyTags : List String := ["size", "access", "protection", "resetValue", "resetMask"]

/-- The child elements the format defines for each container element that is a record. -/
def recordTags : String → Option (List String)
  | "device" => some (["vendor", "vendorID", "name", "series", "version", "description",
      "licenseText", "cpu", "headerSystemFilename", "headerDefinitionsPrefix", "addressUnitBits",
      "width", "peripherals"] ++ propertyTags)
  | "cpu" => some ["name", "revision", "endian", "mpuPresent", "fpuPresent", "fpuDP", "dspPresent",
      "icachePresent", "dcachePresent", "itcmPresent", "dtcmPresent", "vtorPresent",
      "nvicPrioBits", "vendorSystickConfig", "deviceNumInterrupts", "sauNumRegions"]
  | "peripheral" => some (["name", "displayName", "version", "description", "alternatePeripheral",
      "groupName", "prependToName", "appendToName", "headerStructName", "baseAddress",
      "addressBlock", "interrupt", "registers"] ++ propertyTags ++ dimTags)
  | "addressBlock" => some ["offset", "size", "usage", "protection"]
  | "interrupt" => some ["name", "description", "value"]
  | "cluster" => some (["name", "description", "alternateCluster", "headerStructName",
      "addressOffset", "register", "cluster"] ++ propertyTags ++ dimTags)
  | "register" => some (["name", "displayName", "description", "alternateGroup",
      "alternateRegister", "addressOffset", "dataType", "modifiedWriteValues", "writeConstraint",
      "readAction", "fields"] ++ propertyTags ++ dimTags)
  | "field" => some (["name", "description", "bitRange", "lsb", "msb", "bitOffset", "bitWidth",
      "access", "modifiedWriteValues", "writeConstraint", "readAction", "enumeratedValues"] ++
      dimTags)
  | "enumeratedValue" => some ["name", "description", "value", "isDefault"]
  | "range" => some ["minimum", "maximum"]
  | _ => none

/-- Container elements that hold a list: every child element is an item, so here an unknown element
is not harmless. -/
def listTags : List String :=
  ["peripherals", "registers", "fields", "enumeratedValues", "dimArrayIndex", "writeConstraint"]

/-- The attributes the format defines. -/
def attributeNames : List String :=
  ["derivedFrom", "schemaVersion", "xmlns:xs", "xs:noNamespaceSchemaLocation"]

/-- Nodes that may be put among the children of an element named `tag` without changing the meaning:
text, comments and processing instructions between the elements of any container, and elements with
a name the format does not define there. -/
inductive Harmless : String → Xml → Prop
  | inRecord (tag : String) (x : Xml) : (recordTags tag).isSome → x.isElement = false →
      Harmless tag x
  | inList (tag : String) (x : Xml) : tag ∈ listTags → x.isElement = false → Harmless tag x
  | unknown (tag : String) (known : List String) (k : String) (as : List (String × Str))
      (cs : List Xml) : recordTags tag = some known → k ∉ known → Harmless tag (.elem k as cs)

/-- Two elements that differ in layout only: harmless nodes and unknown attributes are inserted or
removed, any number of times, at any depth. -/
inductive Layout : Xml → Xml → Prop
  | refl (x : Xml) : Layout x x
  | symm {x y : Xml} : Layout x y → Layout y x
  | trans {x y z : Xml} : Layout x y → Layout y z → Layout x z
  | insert (tag : String) (as : List (String × Str)) (pre post : List Xml) (x : Xml) :
      Harmless tag x → Layout (.elem tag as (pre ++ post)) (.elem tag as (pre ++ x :: post))
  | attr (tag : String) (pre post : List (String × Str)) (k : String) (v : Str)
      (cs : List Xml) : k ∉ attributeNames →
      Layout (.elem tag (pre ++ post) cs) (.elem tag (pre ++ (k, v) :: post) cs)
  | child (tag : String) (as : List (String × Str)) (pre post : List Xml) {c d : Xml} :
      Layout c d → Layout (.elem tag as (pre ++ c :: post)) (.elem tag as (pre ++ d :: post))

/-- The same for the top-level nodes of a document: anything but a device element may be added
around the root element. -/
inductive LayoutDoc : List Xml → List Xml → Prop
  | refl (x : List Xml) : LayoutDoc x x
  | symm {x y : List Xml} : LayoutDoc x y → LayoutDoc y x
  | trans {x y z : List Xml} : LayoutDoc x y → LayoutDoc y z → LayoutDoc x z
  | insert (pre post : List Xml) (x : Xml) : x.hasTag "device" = false →
      LayoutDoc (pre ++ post) (pre ++ x :: post)
  | child (pre post : List Xml) {c d : Xml} : Layout c d →
      LayoutDoc (pre ++ c :: post) (pre ++ d :: post)

end Svd.Spec
