import Verif.Model.Serde
import Verif.Spec.Num
import Verif.Spec.Dim
import Verif.Spec.Keywords
import Verif.Spec.Lists
import Verif.Spec.Blame

/-!
# What a JSON or YAML value says

For every type a relation between a value and the data it describes: which keys a map has, which of them may
be missing, and what their values look like.  Keys that are not mentioned are ignored, wherever they are; a
key that is mentioned must not occur twice.
-/

namespace Svd.Spec

/-! ## Entries of maps -/

/-- No entry has the key `k`. -/
def Missing (k : String) (es : Entries) : Prop := ∀ e ∈ es, e.1 ≠ k

/-- Exactly one entry has the key `k`, and its value is `v`. -/
def Only (k : String) (es : Entries) (v : Val) : Prop :=
  ∃ a b, es = a ++ (k, v) :: b ∧ Missing k a ∧ Missing k b

/-- A member that has to be there. -/
def Has {α : Type} (V : Val → α → Prop) (es : Entries) (k : String) (a : α) : Prop := ∃ v, Only k es v ∧ V v a

/-- A member that may be missing or null. -/
inductive May {α : Type} (V : Val → α → Prop) (es : Entries) (k : String) : Option α → Prop where
  | missing : Missing k es → May V es k none
  | null : Only k es .null → May V es k none
  | given {v a} : Only k es v → v ≠ .null → V v a → May V es k (some a)

/-- A list that may be missing (but not null) if it is empty. -/
inductive Items {α : Type} (V : Val → α → Prop) (es : Entries) (k : String) : List α → Prop where
  | missing : Missing k es → Items V es k []
  | given {vs l} : Only k es (.arr vs) → Pairs V vs l → Items V es k l

/-! ## Simple values -/

def TruthVal (v : Val) (b : Bool) : Prop := v = .bool b

/-- A number that fits. -/
def NumVal {w : Nat} (v : Val) (x : BitVec w) : Prop := v = .num x.toNat

def TextVal (v : Val) (s : Str) : Prop := v = .str s

def WordVal {α : Type} (table : List (String × α)) (v : Val) (a : α) : Prop :=
  ∃ s, (s, a) ∈ table ∧ v = .str s.toList

def ListVal {α : Type} (V : Val → α → Prop) (v : Val) (l : List α) : Prop := ∃ vs, v = .arr vs ∧ Pairs V vs l

def MapVal {α : Type} (P : Entries → α → Prop) (v : Val) (a : α) : Prop := ∃ es, v = .obj es ∧ P es a

/-- The names of the data types here are not those of the SVD format. -/
def dataTypeName : List (String × DataType) :=
  [("u8", .u8), ("u16", .u16), ("u32", .u32), ("u64", .u64), ("i8", .i8), ("i16", .i16), ("i32", .i32),
   ("i64", .i64), ("u8_ptr", .u8Ptr), ("u16_ptr", .u16Ptr), ("u32_ptr", .u32Ptr), ("u64_ptr", .u64Ptr),
   ("i8_ptr", .i8Ptr), ("i16_ptr", .i16Ptr), ("i32_ptr", .i32Ptr), ("i64_ptr", .i64Ptr)]

/-! ## Small structs -/

structure RangeVal (es : Entries) (r : WriteConstraintRange) : Prop where
  min : Has NumVal es "minimum" r.min
  max : Has NumVal es "maximum" r.max

/-- A map with a single entry. -/
inductive ConstraintVal : Val → WriteConstraint → Prop where
  | writeAsRead {b} : ConstraintVal (.obj [("writeAsRead", .bool b)]) (.writeAsRead b)
  | useEnumeratedValues {b} : ConstraintVal (.obj [("useEnumeratedValues", .bool b)]) (.useEnumeratedValues b)
  | range {v r} : MapVal RangeVal v r → ConstraintVal (.obj [("range", v)]) (.range r)

structure EnumValueVal (es : Entries) (e : EnumeratedValue) : Prop where
  name : Has TextVal es "name" e.name
  description : May TextVal es "description" e.description
  value : May NumVal es "value" e.value
  isDefault : May TruthVal es "is_default" e.isDefault

structure EnumsVal (es : Entries) (e : EnumeratedValues) : Prop where
  name : May TextVal es "name" e.name
  usage : May (WordVal usageSpelling) es "usage" e.usage
  derivedFrom : May TextVal es "derived_from" e.derivedFrom
  values : Items (MapVal EnumValueVal) es "values" e.values

structure ArrayIndexVal (es : Entries) (a : DimArrayIndex) : Prop where
  headerEnumName : May TextVal es "headerEnumName" a.headerEnumName
  values : Has (ListVal (MapVal EnumValueVal)) es "values" a.values

structure InterruptVal (es : Entries) (i : Interrupt) : Prop where
  name : Has TextVal es "name" i.name
  description : May TextVal es "description" i.description
  value : Has NumVal es "value" i.value

structure AddressBlockVal (es : Entries) (a : AddressBlock) : Prop where
  offset : Has NumVal es "offset" a.offset
  size : Has NumVal es "size" a.size
  usage : Has (WordVal addressBlockUsageSpelling) es "usage" a.usage
  protection : May (WordVal protectionSpelling) es "protection" a.protection

structure CpuVal (es : Entries) (c : Cpu) : Prop where
  name : Has TextVal es "name" c.name
  revision : Has TextVal es "revision" c.revision
  endian : Has (WordVal endianSpelling) es "endian" c.endian
  mpuPresent : Has TruthVal es "mpuPresent" c.mpuPresent
  fpuPresent : Has TruthVal es "fpuPresent" c.fpuPresent
  fpuDoublePrecision : May TruthVal es "fpuDP" c.fpuDoublePrecision
  dspPresent : May TruthVal es "dspPresent" c.dspPresent
  icachePresent : May TruthVal es "icachePresent" c.icachePresent
  dcachePresent : May TruthVal es "dcachePresent" c.dcachePresent
  itcmPresent : May TruthVal es "itcmPresent" c.itcmPresent
  dtcmPresent : May TruthVal es "dtcmPresent" c.dtcmPresent
  vtorPresent : May TruthVal es "vtorPresent" c.vtorPresent
  nvicPriorityBits : Has NumVal es "nvicPrioBits" c.nvicPriorityBits
  hasVendorSystick : Has TruthVal es "vendorSystickConfig" c.hasVendorSystick
  deviceNumInterrupts : May NumVal es "deviceNumInterrupts" c.deviceNumInterrupts
  sauNumRegions : May NumVal es "sauNumRegions" c.sauNumRegions

/-! ## Members in the same map -/

structure PropsVal (es : Entries) (p : RegisterProperties) : Prop where
  size : May NumVal es "size" p.size
  access : May (WordVal accessSpelling) es "access" p.access
  protection : May (WordVal protectionSpelling) es "protection" p.protection
  resetValue : May NumVal es "resetValue" p.resetValue
  resetMask : May NumVal es "resetMask" p.resetMask

/-- A list of texts, or one text that stands for a list. -/
inductive IndexesVal : Val → Option (List Str) → Prop where
  | null : IndexesVal .null none
  | list {l} : IndexesVal (.arr (l.map .str)) (some l)
  | text {s l} : IndexText s l → IndexesVal (.str s) (some l)

/-- The member `dimIndex` may be null but not missing. -/
structure DimVal (es : Entries) (d : DimElement) : Prop where
  dim : Has NumVal es "dim" d.dim
  dimIncrement : Has NumVal es "dimIncrement" d.dimIncrement
  dimIndex : Has IndexesVal es "dimIndex" d.dimIndex
  dimName : May TextVal es "dimName" d.dimName
  dimArrayIndex : May (MapVal ArrayIndexVal) es "dimArrayIndex" d.dimArrayIndex

/-- An array if the map describes one; otherwise a single element. -/
def ShapeVal (es : Entries) : Option DimElement → Prop
  | some d => DimVal es d
  | none => ¬ ∃ d, DimVal es d

def ArrayVal {α : Type} (Info : Entries → α → Prop) : Val → MaybeArray α → Prop :=
  MapVal fun es m => Info es m.info ∧ ShapeVal es m.dim?

/-! ## Fields -/

/-- The bits from `l` to `m`, computed with `u32`. -/
def BitsFrom (oc : Bool) (m l : Nat) (b : BitRange) : Prop :=
  b.offset.toNat = l ∧ b.width.toNat = (m + 2 ^ 32 - l + 1) % 2 ^ 32 ∧ (oc = true → l ≤ m ∧ m - l + 1 < 2 ^ 32)

/-- Position and number of bits are given. -/
def WidthVal (es : Entries) (o w : U32) : Prop := Has NumVal es "bitOffset" o ∧ Has NumVal es "bitWidth" w

/-- The first notation that is complete counts. -/
inductive BitsVal (oc : Bool) (es : Entries) (b : BitRange) : Prop where
  | text {t m l} : Has TextVal es "bitRange" t → RangeText t m l → BitsFrom oc m l b →
      b.rangeType = .bitRange → BitsVal oc es b
  | width : (¬ ∃ t, Has TextVal es "bitRange" t) → WidthVal es b.offset b.width →
      b.rangeType = .offsetWidth → BitsVal oc es b
  | ends {m l : U32} : (¬ ∃ t, Has TextVal es "bitRange" t) → (¬ ∃ o w, WidthVal es o w) →
      Has NumVal es "lsb" l → Has NumVal es "msb" m → BitsFrom oc m.toNat l.toNat b →
      b.rangeType = .msbLsb → BitsVal oc es b

structure FieldVal (oc : Bool) (es : Entries) (f : FieldInfo) : Prop where
  name : Has TextVal es "name" f.name
  description : May TextVal es "description" f.description
  bitRange : BitsVal oc es f.bitRange
  access : May (WordVal accessSpelling) es "access" f.access
  modifiedWriteValues : May (WordVal modifiedWriteValuesSpelling) es "modifiedWriteValues" f.modifiedWriteValues
  writeConstraint : May ConstraintVal es "writeConstraint" f.writeConstraint
  readAction : May (WordVal readActionSpelling) es "readAction" f.readAction
  enumeratedValues : Items (MapVal EnumsVal) es "enumeratedValues" f.enumeratedValues
  derivedFrom : May TextVal es "derivedFrom" f.derivedFrom

/-! ## Registers and clusters -/

structure RegisterVal (oc : Bool) (es : Entries) (r : RegisterInfo) : Prop where
  name : Has TextVal es "name" r.name
  displayName : May TextVal es "displayName" r.displayName
  description : May TextVal es "description" r.description
  alternateGroup : May TextVal es "alternateGroup" r.alternateGroup
  alternateRegister : May TextVal es "alternateRegister" r.alternateRegister
  addressOffset : Has NumVal es "addressOffset" r.addressOffset
  properties : PropsVal es r.properties
  datatype : May (WordVal dataTypeName) es "datatype" r.datatype
  modifiedWriteValues : May (WordVal modifiedWriteValuesSpelling) es "modifiedWriteValues" r.modifiedWriteValues
  writeConstraint : May ConstraintVal es "writeConstraint" r.writeConstraint
  readAction : May (WordVal readActionSpelling) es "readAction" r.readAction
  fields : May (ListVal (ArrayVal (FieldVal oc))) es "fields" r.fields
  derivedFrom : May TextVal es "derivedFrom" r.derivedFrom

/-- A cluster without its children. -/
structure ClusterVal (es : Entries) (h : ClusterHead) : Prop where
  name : Has TextVal es "name" h.name
  description : May TextVal es "description" h.description
  alternateCluster : May TextVal es "alternateCluster" h.alternateCluster
  headerStructName : May TextVal es "headerStructName" h.headerStructName
  addressOffset : Has NumVal es "addressOffset" h.addressOffset
  properties : PropsVal es h.defaultRegisterProperties
  derivedFrom : May TextVal es "derivedFrom" h.derivedFrom

mutual
/-- A register or cluster: a map with a single entry. -/
inductive TreeVal (oc : Bool) : Val → RegisterCluster → Prop where
  | register {v r} : ArrayVal (RegisterVal oc) v r → TreeVal oc (.obj [("register", v)]) (.register r)
  | cluster {es h d vs cs} : ClusterVal es h → ShapeVal es d → Only "children" es (.arr vs) →
      TreesVal oc vs cs → TreeVal oc (.obj [("cluster", .obj es)]) (.cluster h d cs)
inductive TreesVal (oc : Bool) : List Val → List RegisterCluster → Prop where
  | nil : TreesVal oc [] []
  | cons {v vs c cs} : TreeVal oc v c → TreesVal oc vs cs → TreesVal oc (v :: vs) (c :: cs)
end

/-! ## Peripherals and devices -/

structure PeripheralVal (oc : Bool) (es : Entries) (p : PeripheralInfo) : Prop where
  name : Has TextVal es "name" p.name
  displayName : May TextVal es "displayName" p.displayName
  version : May TextVal es "version" p.version
  description : May TextVal es "description" p.description
  alternatePeripheral : May TextVal es "alternatePeripheral" p.alternatePeripheral
  groupName : May TextVal es "groupName" p.groupName
  prependToName : May TextVal es "prependToName" p.prependToName
  appendToName : May TextVal es "appendToName" p.appendToName
  headerStructName : May TextVal es "headerStructName" p.headerStructName
  baseAddress : Has NumVal es "baseAddress" p.baseAddress
  properties : PropsVal es p.defaultRegisterProperties
  addressBlock : May (ListVal (MapVal AddressBlockVal)) es "addressBlock" p.addressBlock
  interrupt : Items (MapVal InterruptVal) es "interrupt" p.interrupt
  registers : May (fun v l => ∃ vs, v = .arr vs ∧ TreesVal oc vs l) es "registers" p.registers
  derivedFrom : May TextVal es "derivedFrom" p.derivedFrom

/-- The last three members are not read. -/
structure DeviceVal (oc : Bool) (es : Entries) (d : Device) : Prop where
  vendor : May TextVal es "vendor" d.vendor
  vendorId : May TextVal es "vendorID" d.vendorId
  name : Has TextVal es "name" d.name
  series : May TextVal es "series" d.series
  version : Has TextVal es "version" d.version
  description : Has TextVal es "description" d.description
  licenseText : May TextVal es "licenseText" d.licenseText
  cpu : May (MapVal CpuVal) es "cpu" d.cpu
  headerSystemFilename : May TextVal es "headerSystemFilename" d.headerSystemFilename
  headerDefinitionsPrefix : May TextVal es "headerDefinitionsPrefix" d.headerDefinitionsPrefix
  addressUnitBits : Has NumVal es "addressUnitBits" d.addressUnitBits
  width : Has NumVal es "width" d.width
  properties : PropsVal es d.defaultRegisterProperties
  peripherals : Has (ListVal (ArrayVal (PeripheralVal oc))) es "peripherals" d.peripherals
  xmlnsXs : d.xmlnsXs = "http://www.w3.org/2001/XMLSchema-instance".toList
  schemaLocation : d.noNamespaceSchemaLocation = "CMSIS-SVD_Schema_1_1.xsd".toList
  schemaVersion : d.schemaVersion = "1.1".toList

end Svd.Spec
