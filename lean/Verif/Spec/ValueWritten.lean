import Verif.Spec.Value
import Verif.Spec.Written

/-!
# What is written as JSON or YAML

For every type: which keys the map has, in which order, and which values belong to them.  A key is there
exactly if the member is; nothing is written as null.
-/

namespace Svd.Put

open Spec

/-! ## Members -/

/-- The keys are among these, in this order. -/
def Keys (ks : List String) (es : Entries) : Prop := (es.map Prod.fst).Sublist ks

/-- An optional member. -/
def Opt {α : Type} (V : Val → α → Prop) (es : Entries) (k : String) : Option α → Prop
  | none => Missing k es
  | some a => Has V es k a

/-- A list that is left out if it is empty. -/
def Some {α : Type} (V : Val → α → Prop) (es : Entries) (k : String) : List α → Prop
  | [] => Missing k es
  | a :: l => Has (ListVal V) es k (a :: l)

/-! ## Small structs -/

structure RangeOut (es : Entries) (r : WriteConstraintRange) : Prop where
  keys : Keys ["minimum", "maximum"] es
  min : Has NumVal es "minimum" r.min
  max : Has NumVal es "maximum" r.max

/-- A map with a single entry. -/
inductive ConstraintOut : Val → WriteConstraint → Prop where
  | writeAsRead {b} : ConstraintOut (.obj [("writeAsRead", .bool b)]) (.writeAsRead b)
  | useEnumeratedValues {b} : ConstraintOut (.obj [("useEnumeratedValues", .bool b)]) (.useEnumeratedValues b)
  | range {es r} : RangeOut es r → ConstraintOut (.obj [("range", .obj es)]) (.range r)

structure EnumValueOut (es : Entries) (e : EnumeratedValue) : Prop where
  keys : Keys ["name", "description", "value", "is_default"] es
  name : Has TextVal es "name" e.name
  description : Opt TextVal es "description" e.description
  value : Opt NumVal es "value" e.value
  isDefault : Opt TruthVal es "is_default" e.isDefault

structure EnumsOut (es : Entries) (e : EnumeratedValues) : Prop where
  keys : Keys ["name", "usage", "derived_from", "values"] es
  name : Opt TextVal es "name" e.name
  usage : Opt (WordVal usageSpelling) es "usage" e.usage
  derivedFrom : Opt TextVal es "derived_from" e.derivedFrom
  values : Some (MapVal EnumValueOut) es "values" e.values

structure ArrayIndexOut (es : Entries) (a : DimArrayIndex) : Prop where
  keys : Keys ["headerEnumName", "values"] es
  headerEnumName : Opt TextVal es "headerEnumName" a.headerEnumName
  values : Has (ListVal (MapVal EnumValueOut)) es "values" a.values

structure InterruptOut (es : Entries) (i : Interrupt) : Prop where
  keys : Keys ["name", "description", "value"] es
  name : Has TextVal es "name" i.name
  description : Opt TextVal es "description" i.description
  value : Has NumVal es "value" i.value

structure AddressBlockOut (es : Entries) (a : AddressBlock) : Prop where
  keys : Keys ["offset", "size", "usage", "protection"] es
  offset : Has NumVal es "offset" a.offset
  size : Has NumVal es "size" a.size
  usage : Has (WordVal addressBlockUsageSpelling) es "usage" a.usage
  protection : Opt (WordVal protectionSpelling) es "protection" a.protection

structure CpuOut (es : Entries) (c : Cpu) : Prop where
  keys : Keys ["name", "revision", "endian", "mpuPresent", "fpuPresent", "fpuDP", "dspPresent", "icachePresent",
    "dcachePresent", "itcmPresent", "dtcmPresent", "vtorPresent", "nvicPrioBits", "vendorSystickConfig",
    "deviceNumInterrupts", "sauNumRegions"] es
  name : Has TextVal es "name" c.name
  revision : Has TextVal es "revision" c.revision
  endian : Has (WordVal endianSpelling) es "endian" c.endian
  mpuPresent : Has TruthVal es "mpuPresent" c.mpuPresent
  fpuPresent : Has TruthVal es "fpuPresent" c.fpuPresent
  fpuDoublePrecision : Opt TruthVal es "fpuDP" c.fpuDoublePrecision
  dspPresent : Opt TruthVal es "dspPresent" c.dspPresent
  icachePresent : Opt TruthVal es "icachePresent" c.icachePresent
  dcachePresent : Opt TruthVal es "dcachePresent" c.dcachePresent
  itcmPresent : Opt TruthVal es "itcmPresent" c.itcmPresent
  dtcmPresent : Opt TruthVal es "dtcmPresent" c.dtcmPresent
  vtorPresent : Opt TruthVal es "vtorPresent" c.vtorPresent
  nvicPriorityBits : Has NumVal es "nvicPrioBits" c.nvicPriorityBits
  hasVendorSystick : Has TruthVal es "vendorSystickConfig" c.hasVendorSystick
  deviceNumInterrupts : Opt NumVal es "deviceNumInterrupts" c.deviceNumInterrupts
  sauNumRegions : Opt NumVal es "sauNumRegions" c.sauNumRegions

/-! ## Members in the same map -/

/-- The keys of the register properties. -/
def props : List String := ["size", "access", "protection", "resetValue", "resetMask"]

structure PropsOut (es : Entries) (p : RegisterProperties) : Prop where
  size : Opt NumVal es "size" p.size
  access : Opt (WordVal accessSpelling) es "access" p.access
  protection : Opt (WordVal protectionSpelling) es "protection" p.protection
  resetValue : Opt NumVal es "resetValue" p.resetValue
  resetMask : Opt NumVal es "resetMask" p.resetMask

/-- The indexes of an array are one text. -/
def IndexesOut (v : Val) (l : List Str) : Prop := v = .str (joinWith [','] l)

/-- The description of an array. -/
def ShapeOut (es : Entries) : Option DimElement → Prop
  | none => True
  | some d =>
    Has NumVal es "dim" d.dim ∧
    Has NumVal es "dimIncrement" d.dimIncrement ∧
    Opt IndexesOut es "dimIndex" d.dimIndex ∧
    Opt TextVal es "dimName" d.dimName ∧
    Opt (MapVal ArrayIndexOut) es "dimArrayIndex" d.dimArrayIndex

/-- The keys of the description of an array come first. -/
def shape : Option DimElement → List String
  | none => []
  | some _ => ["dim", "dimIncrement", "dimIndex", "dimName", "dimArrayIndex"]

/-- A map with the members of an element and, of an array, those of its description. -/
def ArrayOut {α : Type} (ks : List String) (Info : Entries → α → Prop) : Val → MaybeArray α → Prop :=
  MapVal fun es m => Keys (shape m.dim? ++ ks) es ∧ ShapeOut es m.dim? ∧ Info es m.info

/-! ## Fields -/

/-- The bits of a field, in its own notation. -/
def BitsOut (oc : Bool) (es : Entries) (b : BitRange) : Prop :=
  match b.rangeType with
  | .bitRange =>
    (∃ n, Written.LastBit oc b n ∧
      Has TextVal es "bitRange" ('[' :: decimal n ++ ':' :: decimal b.offset.toNat ++ [']'])) ∧
    Missing "bitOffset" es ∧ Missing "bitWidth" es ∧ Missing "lsb" es ∧ Missing "msb" es
  | .offsetWidth =>
    Missing "bitRange" es ∧ Has NumVal es "bitOffset" b.offset ∧ Has NumVal es "bitWidth" b.width ∧
    Missing "lsb" es ∧ Missing "msb" es
  | .msbLsb =>
    Missing "bitRange" es ∧ Missing "bitOffset" es ∧ Missing "bitWidth" es ∧ Has NumVal es "lsb" b.offset ∧
    ∃ n, Written.LastBit oc b n ∧ Only "msb" es (.num n)

def field : List String :=
  ["name", "description", "bitRange", "bitOffset", "bitWidth", "lsb", "msb", "access", "modifiedWriteValues",
   "writeConstraint", "readAction", "enumeratedValues", "derivedFrom"]

structure FieldOut (oc : Bool) (es : Entries) (f : FieldInfo) : Prop where
  name : Has TextVal es "name" f.name
  description : Opt TextVal es "description" f.description
  bitRange : BitsOut oc es f.bitRange
  access : Opt (WordVal accessSpelling) es "access" f.access
  modifiedWriteValues : Opt (WordVal modifiedWriteValuesSpelling) es "modifiedWriteValues" f.modifiedWriteValues
  writeConstraint : Opt ConstraintOut es "writeConstraint" f.writeConstraint
  readAction : Opt (WordVal readActionSpelling) es "readAction" f.readAction
  enumeratedValues : Some (MapVal EnumsOut) es "enumeratedValues" f.enumeratedValues
  derivedFrom : Opt TextVal es "derivedFrom" f.derivedFrom

/-! ## Registers and clusters -/

def register : List String :=
  ["name", "displayName", "description", "alternateGroup", "alternateRegister", "addressOffset"] ++ props ++
  ["datatype", "modifiedWriteValues", "writeConstraint", "readAction", "fields", "derivedFrom"]

structure RegisterOut (oc : Bool) (es : Entries) (r : RegisterInfo) : Prop where
  name : Has TextVal es "name" r.name
  displayName : Opt TextVal es "displayName" r.displayName
  description : Opt TextVal es "description" r.description
  alternateGroup : Opt TextVal es "alternateGroup" r.alternateGroup
  alternateRegister : Opt TextVal es "alternateRegister" r.alternateRegister
  addressOffset : Has NumVal es "addressOffset" r.addressOffset
  properties : PropsOut es r.properties
  datatype : Opt (WordVal dataTypeName) es "datatype" r.datatype
  modifiedWriteValues : Opt (WordVal modifiedWriteValuesSpelling) es "modifiedWriteValues" r.modifiedWriteValues
  writeConstraint : Opt ConstraintOut es "writeConstraint" r.writeConstraint
  readAction : Opt (WordVal readActionSpelling) es "readAction" r.readAction
  fields : Opt (ListVal (ArrayOut field (FieldOut oc))) es "fields" r.fields
  derivedFrom : Opt TextVal es "derivedFrom" r.derivedFrom

def cluster : List String :=
  ["name", "description", "alternateCluster", "headerStructName", "addressOffset"] ++ props ++
  ["children", "derivedFrom"]

/-- A cluster without its children. -/
structure ClusterOut (es : Entries) (h : ClusterHead) : Prop where
  name : Has TextVal es "name" h.name
  description : Opt TextVal es "description" h.description
  alternateCluster : Opt TextVal es "alternateCluster" h.alternateCluster
  headerStructName : Opt TextVal es "headerStructName" h.headerStructName
  addressOffset : Has NumVal es "addressOffset" h.addressOffset
  properties : PropsOut es h.defaultRegisterProperties
  derivedFrom : Opt TextVal es "derivedFrom" h.derivedFrom

mutual
/-- A register or cluster: a map with a single entry. -/
inductive TreeOut (oc : Bool) : Val → RegisterCluster → Prop where
  | register {v r} : ArrayOut register (RegisterOut oc) v r → TreeOut oc (.obj [("register", v)]) (.register r)
  | cluster {es h d vs cs} : Keys (shape d ++ cluster) es → ShapeOut es d → ClusterOut es h →
      Only "children" es (.arr vs) → TreesOut oc vs cs → TreeOut oc (.obj [("cluster", .obj es)]) (.cluster h d cs)
inductive TreesOut (oc : Bool) : List Val → List RegisterCluster → Prop where
  | nil : TreesOut oc [] []
  | cons {v vs c cs} : TreeOut oc v c → TreesOut oc vs cs → TreesOut oc (v :: vs) (c :: cs)
end

/-! ## Peripherals and devices -/

def peripheral : List String :=
  ["name", "displayName", "version", "description", "alternatePeripheral", "groupName", "prependToName",
   "appendToName", "headerStructName", "baseAddress"] ++ props ++
  ["addressBlock", "interrupt", "registers", "derivedFrom"]

structure PeripheralOut (oc : Bool) (es : Entries) (p : PeripheralInfo) : Prop where
  name : Has TextVal es "name" p.name
  displayName : Opt TextVal es "displayName" p.displayName
  version : Opt TextVal es "version" p.version
  description : Opt TextVal es "description" p.description
  alternatePeripheral : Opt TextVal es "alternatePeripheral" p.alternatePeripheral
  groupName : Opt TextVal es "groupName" p.groupName
  prependToName : Opt TextVal es "prependToName" p.prependToName
  appendToName : Opt TextVal es "appendToName" p.appendToName
  headerStructName : Opt TextVal es "headerStructName" p.headerStructName
  baseAddress : Has NumVal es "baseAddress" p.baseAddress
  properties : PropsOut es p.defaultRegisterProperties
  addressBlock : Opt (ListVal (MapVal AddressBlockOut)) es "addressBlock" p.addressBlock
  interrupt : Some (MapVal InterruptOut) es "interrupt" p.interrupt
  registers : Opt (fun v l => ∃ vs, v = .arr vs ∧ TreesOut oc vs l) es "registers" p.registers
  derivedFrom : Opt TextVal es "derivedFrom" p.derivedFrom

def device : List String :=
  ["vendor", "vendorID", "name", "series", "version", "description", "licenseText", "cpu",
   "headerSystemFilename", "headerDefinitionsPrefix", "addressUnitBits", "width"] ++ props ++ ["peripherals"]

/-- The attributes of the document are not written. -/
structure DeviceOut (oc : Bool) (es : Entries) (d : Device) : Prop where
  keys : Keys device es
  vendor : Opt TextVal es "vendor" d.vendor
  vendorId : Opt TextVal es "vendorID" d.vendorId
  name : Has TextVal es "name" d.name
  series : Opt TextVal es "series" d.series
  version : Has TextVal es "version" d.version
  description : Has TextVal es "description" d.description
  licenseText : Opt TextVal es "licenseText" d.licenseText
  cpu : Opt (MapVal CpuOut) es "cpu" d.cpu
  headerSystemFilename : Opt TextVal es "headerSystemFilename" d.headerSystemFilename
  headerDefinitionsPrefix : Opt TextVal es "headerDefinitionsPrefix" d.headerDefinitionsPrefix
  addressUnitBits : Has NumVal es "addressUnitBits" d.addressUnitBits
  width : Has NumVal es "width" d.width
  properties : PropsOut es d.defaultRegisterProperties
  peripherals : Has (ListVal (ArrayOut peripheral (PeripheralOut oc))) es "peripherals" d.peripherals

/-! ## When something can be written -/

/-- With overflow checks, the last bit has to exist if the notation names it. -/
def Printable (oc : Bool) (b : BitRange) : Prop :=
  oc = true → b.rangeType ≠ .offsetWidth →
    1 ≤ b.offset.toNat + b.width.toNat ∧ b.offset.toNat + b.width.toNat < 2 ^ 32

/-- The list of indexes can be recovered from one text. -/
def Separable (d : DimElement) : Prop := ∀ l, d.dimIndex = some l → l ≠ [] ∧ ∀ p ∈ l, ',' ∉ p

/-! ## Tidy values -/

mutual
/-- Nothing is null, and no key occurs twice in a map. -/
inductive Tidy : Val → Prop where
  | bool {b} : Tidy (.bool b)
  | num {n} : Tidy (.num n)
  | str {s} : Tidy (.str s)
  | arr {l} : TidyList l → Tidy (.arr l)
  | obj {es} : (es.map Prod.fst).Nodup → TidyEntries es → Tidy (.obj es)
inductive TidyList : List Val → Prop where
  | nil : TidyList []
  | cons {v l} : Tidy v → TidyList l → TidyList (v :: l)
inductive TidyEntries : Entries → Prop where
  | nil : TidyEntries []
  | cons {k v es} : Tidy v → TidyEntries es → TidyEntries ((k, v) :: es)
end

end Svd.Put
