import Verif.Model.Xml

/-!
# The order of elements in an SVD file

The order in which the CMSIS-SVD format prescribes the children of each element.  Wider than the format: a
peripheral may have a `displayName`, a register may have both `alternateGroup` and `alternateRegister`, a value
of an enumeration both `value` and `isDefault`, and lists may be empty.
-/

namespace Svd.Spec

/-- A part of the content of an element. -/
inductive Item where
  /-- exactly one element -/
  | must (tag : String)
  /-- at most one element -/
  | may (tag : String)
  /-- any number of elements with one of the tags -/
  | any (tags : List String)

/-- The tags are those of the items, in the same order. -/
def Follows : List Item → List String → Prop
  | [], l => l = []
  | .must t :: is, l => ∃ r, l = t :: r ∧ Follows is r
  | .may t :: is, l => Follows is l ∨ ∃ r, l = t :: r ∧ Follows is r
  | .any ts :: is, l => ∃ a r, l = a ++ r ∧ (∀ x ∈ a, x ∈ ts) ∧ Follows is r

open Item

/-- The description of an array. -/
def dimGroup : List Item := [must "dim", must "dimIncrement", may "dimIndex", may "dimName", may "dimArrayIndex"]

/-- The register properties. -/
def propertyGroup : List Item := [may "size", may "access", may "protection", may "resetValue", may "resetMask"]

/-- With or without the description of an array. -/
def dimable (l : List Item) : List (List Item) := [l, dimGroup ++ l]

/-- The content of a field, given the notation of its bits. -/
def fieldContent (range : List Item) : List Item :=
  [must "name", may "description"] ++ range ++
    [may "access", may "modifiedWriteValues", may "writeConstraint", may "readAction", any ["enumeratedValues"]]

/-- The alternatives for the content of an element; nothing for an element that contains a text. -/
def contents : String → List (List Item)
  | "device" =>
    [[may "vendor", may "vendorID", must "name", may "series", must "version", must "description",
      may "licenseText", may "cpu", may "headerSystemFilename", may "headerDefinitionsPrefix",
      must "addressUnitBits", must "width"] ++ propertyGroup ++ [must "peripherals"]]
  | "cpu" =>
    [[must "name", must "revision", must "endian", must "mpuPresent", must "fpuPresent", may "fpuDP",
      may "dspPresent", may "icachePresent", may "dcachePresent", may "itcmPresent", may "dtcmPresent",
      may "vtorPresent", must "nvicPrioBits", must "vendorSystickConfig", may "deviceNumInterrupts",
      may "sauNumRegions"]]
  | "peripherals" => [[any ["peripheral"]]]
  | "peripheral" => dimable
    ([must "name", may "displayName", may "version", may "description", may "alternatePeripheral",
      may "groupName", may "prependToName", may "appendToName", may "headerStructName", must "baseAddress"] ++
      propertyGroup ++ [any ["addressBlock"], any ["interrupt"], may "registers"])
  | "addressBlock" => [[must "offset", must "size", must "usage", may "protection"]]
  | "interrupt" => [[must "name", may "description", must "value"]]
  | "registers" => [[any ["register", "cluster"]]]
  | "cluster" => dimable
    ([must "name", may "description", may "alternateCluster", may "headerStructName", must "addressOffset"] ++
      propertyGroup ++ [any ["register", "cluster"]])
  | "register" => dimable
    ([must "name", may "displayName", may "description", may "alternateGroup", may "alternateRegister",
      must "addressOffset"] ++ propertyGroup ++
      [may "dataType", may "modifiedWriteValues", may "writeConstraint", may "readAction", may "fields"])
  | "fields" => [[any ["field"]]]
  | "field" =>
    dimable (fieldContent [must "bitRange"]) ++ dimable (fieldContent [must "lsb", must "msb"]) ++
      dimable (fieldContent [must "bitOffset", must "bitWidth"])
  | "writeConstraint" => [[must "writeAsRead"], [must "useEnumeratedValues"], [must "range"]]
  | "range" => [[must "minimum", must "maximum"]]
  | "enumeratedValues" => [[may "name", may "usage", any ["enumeratedValue"]]]
  | "enumeratedValue" => [[must "name", may "description", may "value", may "isDefault"]]
  | "dimArrayIndex" => [[may "headerEnumName", any ["enumeratedValue"]]]
  | _ => []

/-- The attributes an element may have. -/
def attributes : String → List (List String)
  | "device" => [["schemaVersion", "xmlns:xs", "xs:noNamespaceSchemaLocation"]]
  | "peripheral" | "cluster" | "register" | "field" | "enumeratedValues" => [[], ["derivedFrom"]]
  | _ => [[]]

/-- Every element of the tree has its attributes and its children in the prescribed order, or one text. -/
inductive InOrder : Xml → Prop
  | leaf {tag : String} {s : Str} : contents tag = [] → InOrder (.elem tag [] [.text s])
  | node {tag : String} {as : List (String × Str)} {cs : List Xml} {l : List Item} :
      as.map (·.1) ∈ attributes tag → l ∈ contents tag → Follows l (cs.map Xml.tag) → (∀ c ∈ cs, InOrder c) →
      InOrder (.elem tag as cs)

end Svd.Spec
