import Verif.Model.Xml
import Verif.Spec.Num
import Verif.Spec.Str
import Verif.Spec.Dim
import Verif.Spec.Keywords
import Verif.Spec.Lists
import Verif.Spec.Valid
import Verif.Spec.Blame

/-!
# What an SVD document says

For every kind of element a relation between the element and the data it describes.  `lvl` is the
validation level, `noEnums` the option to leave out enumerated values and write constraints, `oc` whether
arithmetic overflow is checked (it matters for a field of all 2^32 bits only).
-/

namespace Svd.Spec

/-! ## Values -/

/-- The element holds this number. -/
def IsNumber {w : Nat} (x : Xml) (v : BitVec w) : Prop := ReadsNumber w x v.toNat

/-- The element holds this truth value. -/
def IsTruth (x : Xml) (b : Bool) : Prop :=
  ∃ s ∈ (if b then ["true", "1"] else ["false", "0"]), ReadsText x s.toList

/-- The element holds the keyword for `v`. -/
def IsWord {α : Type} (table : List (String × α)) (x : Xml) (v : α) : Prop :=
  ∃ s, (s, v) ∈ table ∧ ReadsText x s.toList

/-- The child `k` is there and is read as `a`. -/
def ReqChild {α : Type} (R : Xml → α → Prop) (x : Xml) (k : String) (a : α) : Prop :=
  ∃ c, x.getChild k = some c ∧ R c a

/-- The child `k` is read if it is there. -/
def OptChild {α : Type} (R : Xml → α → Prop) (x : Xml) (k : String) : Option α → Prop
  | some a => ReqChild R x k a
  | none => x.getChild k = none

/-- The text of the child `k`, if there is a child with a text. -/
def OptionalText (x : Xml) (k : String) : Option Str → Prop
  | some s => ChildText x k s
  | none => ¬ ∃ s, ChildText x k s

/-- The same, but nothing if the text is blank. -/
def OptNonblank (x : Xml) (k : String) : Option Str → Prop
  | some s => ChildText x k s ∧ s ≠ []
  | none => ∀ s, ChildText x k s → s = []

/-- A value that has a default below level Strict. -/
def OrDefault {α : Type} (lvl : ValidateLevel) (dflt : α) (P : Option α → Prop) (a : α) : Prop :=
  P (some a) ∨ P none ∧ lvl ≠ .strict ∧ a = dflt

/-! ## Register properties, enumerated values, arrays -/

structure PropsSay (lvl : ValidateLevel) (x : Xml) (p : RegisterProperties) : Prop where
  size : OptChild IsNumber x "size" p.size
  access : OptChild (IsWord accessSpelling) x "access" p.access
  protection : OptChild (IsWord protectionSpelling) x "protection" p.protection
  resetValue : OptChild IsNumber x "resetValue" p.resetValue
  resetMask : OptChild IsNumber x "resetMask" p.resetMask
  valid : PropsValid p lvl

structure EnumValueSays (lvl : ValidateLevel) (x : Xml) (e : EnumeratedValue) : Prop where
  tag : x.hasTag "enumeratedValue" = true
  name : ChildText x "name" e.name
  description : OptNonblank x "description" e.description
  value : OptChild IsNumber x "value" e.value
  /-- anything but a truth value is ignored -/
  isDefault : match e.isDefault with
    | some b => ReqChild IsTruth x "isDefault" b
    | none => ¬ ∃ b, ReqChild IsTruth x "isDefault" b
  valid : EnumValueValid e lvl

/-- All elements inside, other than `skip`, are enumerated values. -/
def ValuesSay (lvl : ValidateLevel) (skip : List String) (x : Xml) (l : List EnumeratedValue) : Prop :=
  Pairs (EnumValueSays lvl) (x.children.filter fun c => c.isElement && !skip.contains c.tag) l

structure EnumsSay (lvl : ValidateLevel) (x : Xml) (e : EnumeratedValues) : Prop where
  name : OptNonblank x "name" e.name
  usage : OptChild (IsWord usageSpelling) x "usage" e.usage
  derivedFrom : e.derivedFrom = x.attr "derivedFrom"
  values : ValuesSay lvl ["name", "headerEnumName", "usage"] x e.values
  valid : EnumsValid e lvl

structure ArrayIndexSays (lvl : ValidateLevel) (x : Xml) (a : DimArrayIndex) : Prop where
  headerEnumName : OptionalText x "headerEnumName" a.headerEnumName
  values : ValuesSay lvl ["headerEnumName"] x a.values

structure DimSays (lvl : ValidateLevel) (x : Xml) (d : DimElement) : Prop where
  dim : ReqChild IsNumber x "dim" d.dim
  dimIncrement : ReqChild IsNumber x "dimIncrement" d.dimIncrement
  dimIndex : OptChild (fun c l => ∃ s, ReadsText c s ∧ IndexText s l) x "dimIndex" d.dimIndex
  dimName : OptNonblank x "dimName" d.dimName
  dimArrayIndex : OptChild (ArrayIndexSays lvl) x "dimArrayIndex" d.dimArrayIndex

/-- Whether the element with this name is an array. -/
def ShapeSays (lvl : ValidateLevel) (x : Xml) (name : Str) : Option DimElement → Prop
  | none => x.getChild "dimIncrement" = none
  | some d => DimSays lvl x d ∧ (∃ a b, name = a ++ "%s".toList ++ b) ∧
      ∀ l, d.dimIndex = some l → l.length = d.dim.toNat

/-- A single element or an array. -/
def ArraySays {α : Type} (lvl : ValidateLevel) (tag : String) (Info : Xml → α → Prop) (name : α → Str) (x : Xml)
    (m : MaybeArray α) : Prop :=
  x.hasTag tag = true ∧ Info x m.info ∧ ShapeSays lvl x (name m.info) m.dim?

/-! ## Fields -/

/-- The bits of a field. -/
inductive BitsSay (oc : Bool) (x : Xml) (b : BitRange) : Prop where
  | text {r t m} : x.getChild "bitRange" = some r → r.textOf = some t → RangeText t m b.offset.toNat →
      b.offset.toNat ≤ m → (oc = true → m - b.offset.toNat + 1 < 2 ^ 32) →
      b.width.toNat = (m - b.offset.toNat + 1) % 2 ^ 32 → b.rangeType = .bitRange → BitsSay oc x b
  | elements {m : U32} : x.getChild "bitRange" = none → ReqChild IsNumber x "lsb" b.offset →
      ReqChild IsNumber x "msb" m → b.offset.toNat ≤ m.toNat →
      (oc = true → m.toNat - b.offset.toNat + 1 < 2 ^ 32) →
      b.width.toNat = (m.toNat - b.offset.toNat + 1) % 2 ^ 32 → b.rangeType = .msbLsb → BitsSay oc x b
  | width : NoBits x → ReqChild IsNumber x "bitOffset" b.offset → ReqChild IsNumber x "bitWidth" b.width →
      b.rangeType = .offsetWidth → BitsSay oc x b

/-- A write constraint has exactly one element inside. -/
def ConstraintSays (x : Xml) (w : WriteConstraint) : Prop :=
  ∃ c, x.children.filter Xml.isElement = [c] ∧
    match w with
    | .writeAsRead b => c.tag = "writeAsRead" ∧ IsTruth c b
    | .useEnumeratedValues b => c.tag = "useEnumeratedValues" ∧ IsTruth c b
    | .range r => c.tag = "range" ∧ ReqChild IsNumber c "minimum" r.min ∧ ReqChild IsNumber c "maximum" r.max

structure FieldSays (oc noEnums : Bool) (lvl : ValidateLevel) (x : Xml) (f : FieldInfo) : Prop where
  name : ChildText x "name" f.name
  description : OptNonblank x "description" f.description
  bitRange : BitsSay oc x f.bitRange
  access : OptChild (IsWord accessSpelling) x "access" f.access
  modifiedWriteValues :
    OptChild (IsWord modifiedWriteValuesSpelling) x "modifiedWriteValues" f.modifiedWriteValues
  writeConstraint : if noEnums then f.writeConstraint = none else
    OptChild ConstraintSays x "writeConstraint" f.writeConstraint
  readAction : OptChild (IsWord readActionSpelling) x "readAction" f.readAction
  enumeratedValues : if noEnums then f.enumeratedValues = [] else
    Pairs (EnumsSay lvl) (x.children.filter (Xml.hasTag "enumeratedValues")) f.enumeratedValues
  derivedFrom : f.derivedFrom = x.attr "derivedFrom"
  valid : FieldValid f lvl

/-! ## Registers and clusters -/

/-- A list of elements inside the child `k`. -/
def OptList {α : Type} (R : Xml → α → Prop) : Xml → String → Option (List α) → Prop :=
  OptChild fun c l => Pairs R (c.children.filter Xml.isElement) l

structure RegisterSays (oc noEnums : Bool) (lvl : ValidateLevel) (x : Xml) (r : RegisterInfo) : Prop where
  name : ChildText x "name" r.name
  displayName : OptionalText x "displayName" r.displayName
  description : OptionalText x "description" r.description
  alternateGroup : OptionalText x "alternateGroup" r.alternateGroup
  alternateRegister : OptionalText x "alternateRegister" r.alternateRegister
  addressOffset : ReqChild IsNumber x "addressOffset" r.addressOffset
  properties : PropsSay lvl x r.properties
  datatype : OptChild (IsWord dataTypeSpelling) x "dataType" r.datatype
  modifiedWriteValues :
    OptChild (IsWord modifiedWriteValuesSpelling) x "modifiedWriteValues" r.modifiedWriteValues
  writeConstraint : OptChild ConstraintSays x "writeConstraint" r.writeConstraint
  readAction : OptChild (IsWord readActionSpelling) x "readAction" r.readAction
  fields : OptList (ArraySays lvl "field" (FieldSays oc noEnums lvl) FieldInfo.name) x "fields" r.fields
  derivedFrom : r.derivedFrom = x.attr "derivedFrom"
  valid : RegisterValid r lvl

structure ClusterSays (lvl : ValidateLevel) (x : Xml) (h : ClusterHead) : Prop where
  name : ChildText x "name" h.name
  description : OptNonblank x "description" h.description
  alternateCluster : OptNonblank x "alternateCluster" h.alternateCluster
  headerStructName : OptNonblank x "headerStructName" h.headerStructName
  addressOffset : ReqChild IsNumber x "addressOffset" h.addressOffset
  properties : PropsSay lvl x h.defaultRegisterProperties
  derivedFrom : h.derivedFrom = x.attr "derivedFrom"

mutual
/-- A register or cluster. -/
inductive TreeSays (oc noEnums : Bool) (lvl : ValidateLevel) : Xml → RegisterCluster → Prop where
  | register {x r} : ArraySays lvl "register" (RegisterSays oc noEnums lvl) RegisterInfo.name x r →
      TreeSays oc noEnums lvl x (.register r)
  | cluster {attrs kids h d cs} : ClusterSays lvl (.elem "cluster" attrs kids) h →
      ShapeSays lvl (.elem "cluster" attrs kids) h.name d → KidsSay oc noEnums lvl kids cs →
      ClusterValid { h with children := cs } lvl →
      TreeSays oc noEnums lvl (.elem "cluster" attrs kids) (.cluster h d cs)
/-- The registers and clusters among the children of a cluster; everything else is ignored. -/
inductive KidsSay (oc noEnums : Bool) (lvl : ValidateLevel) : List Xml → List RegisterCluster → Prop where
  | nil : KidsSay oc noEnums lvl [] []
  | skip {x xs l} : x.hasTag "register" = false → x.hasTag "cluster" = false → KidsSay oc noEnums lvl xs l →
      KidsSay oc noEnums lvl (x :: xs) l
  | cons {x xs n l} : TreeSays oc noEnums lvl x n → KidsSay oc noEnums lvl xs l →
      KidsSay oc noEnums lvl (x :: xs) (n :: l)
end

/-! ## Peripherals -/

structure AddressBlockSays (x : Xml) (a : AddressBlock) : Prop where
  offset : ReqChild IsNumber x "offset" a.offset
  size : ReqChild IsNumber x "size" a.size
  usage : ReqChild (IsWord addressBlockUsageSpelling) x "usage" a.usage
  protection : OptChild (IsWord protectionSpelling) x "protection" a.protection

structure InterruptSays (x : Xml) (i : Interrupt) : Prop where
  name : ChildText x "name" i.name
  description : OptionalText x "description" i.description
  value : ReqChild IsNumber x "value" i.value

structure PeripheralSays (oc noEnums : Bool) (lvl : ValidateLevel) (x : Xml) (p : PeripheralInfo) : Prop where
  name : ChildText x "name" p.name
  displayName : OptNonblank x "displayName" p.displayName
  version : OptNonblank x "version" p.version
  description : OptNonblank x "description" p.description
  alternatePeripheral : OptNonblank x "alternatePeripheral" p.alternatePeripheral
  groupName : OptNonblank x "groupName" p.groupName
  prependToName : OptNonblank x "prependToName" p.prependToName
  appendToName : OptNonblank x "appendToName" p.appendToName
  headerStructName : OptNonblank x "headerStructName" p.headerStructName
  baseAddress : ReqChild IsNumber x "baseAddress" p.baseAddress
  properties : PropsSay lvl x p.defaultRegisterProperties
  /-- nothing rather than an empty list -/
  addressBlock : match p.addressBlock with
    | some l => l ≠ [] ∧ Pairs AddressBlockSays (x.children.filter (Xml.hasTag "addressBlock")) l
    | none => x.children.filter (Xml.hasTag "addressBlock") = []
  interrupt : Pairs InterruptSays (x.children.filter (Xml.hasTag "interrupt")) p.interrupt
  registers : OptList (TreeSays oc noEnums lvl) x "registers" p.registers
  derivedFrom : p.derivedFrom = x.attr "derivedFrom"
  valid : PeripheralValid p lvl

/-! ## Device -/

structure CpuSays (x : Xml) (c : Cpu) : Prop where
  name : ChildText x "name" c.name
  revision : ChildText x "revision" c.revision
  endian : ReqChild (IsWord endianSpelling) x "endian" c.endian
  mpuPresent : ReqChild IsTruth x "mpuPresent" c.mpuPresent
  fpuPresent : ReqChild IsTruth x "fpuPresent" c.fpuPresent
  fpuDoublePrecision : OptChild IsTruth x "fpuDP" c.fpuDoublePrecision
  dspPresent : OptChild IsTruth x "dspPresent" c.dspPresent
  icachePresent : OptChild IsTruth x "icachePresent" c.icachePresent
  dcachePresent : OptChild IsTruth x "dcachePresent" c.dcachePresent
  itcmPresent : OptChild IsTruth x "itcmPresent" c.itcmPresent
  dtcmPresent : OptChild IsTruth x "dtcmPresent" c.dtcmPresent
  vtorPresent : OptChild IsTruth x "vtorPresent" c.vtorPresent
  nvicPriorityBits : ReqChild IsNumber x "nvicPrioBits" c.nvicPriorityBits
  hasVendorSystick : ReqChild IsTruth x "vendorSystickConfig" c.hasVendorSystick
  deviceNumInterrupts : OptChild IsNumber x "deviceNumInterrupts" c.deviceNumInterrupts
  sauNumRegions : OptChild IsNumber x "sauNumRegions" c.sauNumRegions

structure DeviceSays (oc noEnums : Bool) (lvl : ValidateLevel) (x : Xml) (d : Device) : Prop where
  tag : x.hasTag "device" = true
  vendor : OptionalText x "vendor" d.vendor
  vendorId : OptionalText x "vendorID" d.vendorId
  name : ChildText x "name" d.name
  series : OptionalText x "series" d.series
  version : OrDefault lvl "1.0".toList (OptionalText x "version") d.version
  description : OrDefault lvl "".toList (OptionalText x "description") d.description
  licenseText : OptionalText x "licenseText" d.licenseText
  cpu : OptChild CpuSays x "cpu" d.cpu
  headerSystemFilename : OptionalText x "headerSystemFilename" d.headerSystemFilename
  headerDefinitionsPrefix : OptionalText x "headerDefinitionsPrefix" d.headerDefinitionsPrefix
  addressUnitBits : OrDefault lvl 8 (OptChild IsNumber x "addressUnitBits") d.addressUnitBits
  width : OrDefault lvl 32 (OptChild IsNumber x "width") d.width
  properties : PropsSay lvl x d.defaultRegisterProperties
  peripherals : ReqChild (fun c l => Pairs (ArraySays lvl "peripheral" (PeripheralSays oc noEnums lvl)
    PeripheralInfo.name) (c.children.filter Xml.isElement) l) x "peripherals" d.peripherals
  schemaVersion : d.schemaVersion = (x.attr "schemaVersion").getD "1.1".toList
  xmlnsXs : d.xmlnsXs = (x.attr "xmlns:xs").getD "http://www.w3.org/2001/XMLSchema-instance".toList
  /-- the prefix `xs` means nothing without its declaration -/
  schemaLocation : d.noNamespaceSchemaLocation =
    match x.attr "xmlns:xs", x.attr "xs:noNamespaceSchemaLocation" with
    | some _, some s => s
    | _, _ => "CMSIS-SVD_Schema_1_1.xsd".toList
  valid : DeviceValid d lvl

end Svd.Spec
