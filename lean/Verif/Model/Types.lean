import Verif.Model.Basic
import Verif.Model.Str

/-!
# The SVD data types (crate svd-rs)

Plain records; Rust `Vec` is `List`, `Option` is `Option`.
-/

namespace Svd

/-- svd-rs/src/access.rs:5-28. -/
inductive Access where
  | readOnly | readWrite | readWriteOnce | writeOnce | writeOnly
  deriving DecidableEq, Repr

/-- svd-rs/src/usage.rs:9-16. -/
inductive Usage where
  | read | write | readWrite
  deriving DecidableEq, Repr

/-- svd-rs/src/protection.rs:8-20. -/
inductive Protection where
  | secure | nonSecure | privileged
  deriving DecidableEq, Repr

/-- svd-rs/src/endian.rs:8-17. -/
inductive Endian where
  | little | big | selectable | other
  deriving DecidableEq, Repr

/-- svd-rs/src/readaction.rs:8-20. -/
inductive ReadAction where
  | clear | set | modify | modifyExternal
  deriving DecidableEq, Repr

/-- svd-rs/src/modifiedwritevalues.rs:9-36. -/
inductive ModifiedWriteValues where
  | oneToClear | oneToSet | oneToToggle | zeroToClear | zeroToSet | zeroToToggle
  | clear | set | modify
  deriving DecidableEq, Repr

/-- svd-rs/src/datatype.rs:8-41. -/
inductive DataType where
  | u8 | u16 | u32 | u64 | i8 | i16 | i32 | i64
  | u8Ptr | u16Ptr | u32Ptr | u64Ptr | i8Ptr | i16Ptr | i32Ptr | i64Ptr
  deriving DecidableEq, Repr

/-- svd-rs/src/addressblock.rs:29-36. -/
inductive AddressBlockUsage where
  | registers | buffer | reserved
  deriving DecidableEq, Repr

/-- svd-rs/src/writeconstraint.rs:21-29. -/
structure WriteConstraintRange where
  min : U64
  max : U64
  deriving DecidableEq, Repr

/-- svd-rs/src/writeconstraint.rs:10-17. -/
inductive WriteConstraint where
  | writeAsRead (b : Bool)
  | useEnumeratedValues (b : Bool)
  | range (r : WriteConstraintRange)
  deriving DecidableEq, Repr

/-- svd-rs/src/bitrange.rs:24-31. -/
inductive BitRangeType where
  | bitRange | offsetWidth | msbLsb
  deriving DecidableEq, Repr

/-- svd-rs/src/bitrange.rs:11-20. -/
structure BitRange where
  offset : U32
  width : U32
  rangeType : BitRangeType
  deriving DecidableEq, Repr

/-- svd-rs/src/enumeratedvalue.rs:7-31. -/
structure EnumeratedValue where
  name : Str
  description : Option Str
  value : Option U64
  isDefault : Option Bool
  deriving DecidableEq, Repr

/-- svd-rs/src/enumeratedvalues.rs:7-35. -/
structure EnumeratedValues where
  name : Option Str
  usage : Option Usage
  derivedFrom : Option Str
  values : List EnumeratedValue
  deriving DecidableEq, Repr

/-- svd-rs/src/dimelement.rs:59-69. -/
structure DimArrayIndex where
  headerEnumName : Option Str
  values : List EnumeratedValue
  deriving DecidableEq, Repr

/-- svd-rs/src/dimelement.rs:13-45. -/
structure DimElement where
  dim : U32
  dimIncrement : U32
  dimIndex : Option (List Str)
  dimName : Option Str
  dimArrayIndex : Option DimArrayIndex
  deriving DecidableEq, Repr

/-- svd-rs/src/array.rs:6-11. -/
inductive MaybeArray (α : Type) where
  | single (info : α)
  | array (info : α) (dim : DimElement)
  deriving DecidableEq, Repr

namespace MaybeArray

variable {α : Type}

/-- svd-rs/src/array.rs:13-22 `Deref`. -/
def info : MaybeArray α → α
  | single i => i
  | array i _ => i

/-- svd-rs/src/array.rs:24-31 `DerefMut`: change the description, keep the shape. -/
def mapInfo (f : α → α) : MaybeArray α → MaybeArray α
  | single i => single (f i)
  | array i d => array (f i) d

/-- svd-rs/src/array.rs:35-37. -/
def isSingle : MaybeArray α → Bool
  | single _ => true
  | array _ _ => false

/-- svd-rs/src/array.rs:39-41. -/
def isArray : MaybeArray α → Bool
  | single _ => false
  | array _ _ => true

/-- The array description, if any. -/
def dim? : MaybeArray α → Option DimElement
  | single _ => none
  | array _ d => some d

/-- `maybe_array` constructors, e.g. svd-rs/src/register.rs:307-313, field.rs:252-258,
cluster.rs:207-213, peripheral.rs:317-323. -/
def mk' (i : α) : Option DimElement → MaybeArray α
  | some d => array i d
  | none => single i

end MaybeArray

/-- svd-rs/src/field.rs:25-85. -/
structure FieldInfo where
  name : Str
  description : Option Str
  bitRange : BitRange
  access : Option Access
  modifiedWriteValues : Option ModifiedWriteValues
  writeConstraint : Option WriteConstraint
  readAction : Option ReadAction
  enumeratedValues : List EnumeratedValues
  derivedFrom : Option Str
  deriving DecidableEq, Repr

/-- svd-rs/src/field.rs:10. -/
abbrev Field := MaybeArray FieldInfo

/-- svd-rs/src/registerproperties.rs:25-60. -/
structure RegisterProperties where
  size : Option U32 := none
  access : Option Access := none
  protection : Option Protection := none
  resetValue : Option U64 := none
  resetMask : Option U64 := none
  deriving DecidableEq, Repr

/-- svd-rs/src/register.rs:28-112. -/
structure RegisterInfo where
  name : Str
  displayName : Option Str
  description : Option Str
  alternateGroup : Option Str
  alternateRegister : Option Str
  addressOffset : U32
  properties : RegisterProperties
  datatype : Option DataType
  modifiedWriteValues : Option ModifiedWriteValues
  writeConstraint : Option WriteConstraint
  readAction : Option ReadAction
  fields : Option (List Field)
  derivedFrom : Option Str
  deriving DecidableEq, Repr

/-- svd-rs/src/register.rs:10. -/
abbrev Register := MaybeArray RegisterInfo

/-- svd-rs/src/cluster.rs:31-74 without the field `children` (see `RegisterCluster`). -/
structure ClusterHead where
  name : Str
  description : Option Str
  alternateCluster : Option Str
  headerStructName : Option Str
  addressOffset : U32
  defaultRegisterProperties : RegisterProperties
  derivedFrom : Option Str
  deriving DecidableEq, Repr

/-- svd-rs/src/registercluster.rs:11-16.  `Cluster(MaybeArray<ClusterInfo>)` is represented with
its parts laid out in the constructor (cluster attributes, optional array description, children)
so that the type is a plain rose tree; `RegisterCluster.ofCluster`/`view` convert. -/
inductive RegisterCluster where
  | register (r : Register)
  | cluster (head : ClusterHead) (dim : Option DimElement) (children : List RegisterCluster)

mutual
/-- Trees can be compared (used by the concrete examples only). -/
def RegisterCluster.decEq : (a b : RegisterCluster) → Decidable (a = b)
  | .cluster h d c, .cluster h' d' c' =>
    match RegisterCluster.decEqs c c' with
    | .isTrue e => decidable_of_iff (h = h' ∧ d = d') (by simp [e])
    | .isFalse e => .isFalse (by simp [e])
  | .register r, .register r' => decidable_of_iff (r = r') (by simp)
  | .cluster .., .register _ | .register _, .cluster .. => .isFalse (by simp)
/-- Lists of trees. -/
def RegisterCluster.decEqs : (a b : List RegisterCluster) → Decidable (a = b)
  | [], [] => .isTrue rfl
  | x :: xs, y :: ys =>
    match RegisterCluster.decEq x y, RegisterCluster.decEqs xs ys with
    | .isTrue h, .isTrue h' => .isTrue (by rw [h, h'])
    | .isFalse h, _ => .isFalse (by simp [h])
    | _, .isFalse h => .isFalse (by simp [h])
  | [], _ :: _ | _ :: _, [] => .isFalse (by simp)
end

instance : DecidableEq RegisterCluster := RegisterCluster.decEq

/-- svd-rs/src/cluster.rs:31-74. -/
structure ClusterInfo extends ClusterHead where
  children : List RegisterCluster
  deriving DecidableEq

/-- svd-rs/src/cluster.rs:13. -/
abbrev Cluster := MaybeArray ClusterInfo

namespace RegisterCluster

/-- svd-rs/src/registercluster.rs:24-28 `From<Cluster>`. -/
def ofCluster : Cluster → RegisterCluster
  | .single i => .cluster i.toClusterHead none i.children
  | .array i d => .cluster i.toClusterHead (some d) i.children

/-- Pattern matching on the Rust enum: a register or a cluster. -/
def view : RegisterCluster → Register ⊕ Cluster
  | .register r => .inl r
  | .cluster h d cs => .inr (MaybeArray.mk' { h with children := cs } d)

/-- svd-rs/src/registercluster.rs:32-37. -/
def name : RegisterCluster → Str
  | .register r => r.info.name
  | .cluster h _ _ => h.name

/-- svd-rs/src/registercluster.rs:39-44. -/
def description : RegisterCluster → Option Str
  | .register r => r.info.description
  | .cluster h _ _ => h.description

/-- svd-rs/src/registercluster.rs:46-51. -/
def derivedFrom : RegisterCluster → Option Str
  | .register r => r.info.derivedFrom
  | .cluster h _ _ => h.derivedFrom

/-- svd-rs/src/registercluster.rs:53-58. -/
def addressOffset : RegisterCluster → U32
  | .register r => r.info.addressOffset
  | .cluster h _ _ => h.addressOffset

end RegisterCluster

/-- svd-rs/src/addressblock.rs:7-20. -/
structure AddressBlock where
  offset : U32
  size : U32
  usage : AddressBlockUsage
  protection : Option Protection
  deriving DecidableEq, Repr

/-- svd-rs/src/interrupt.rs:7-20. -/
structure Interrupt where
  name : Str
  description : Option Str
  value : U32
  deriving DecidableEq, Repr

/-- svd-rs/src/peripheral.rs:31-126. -/
structure PeripheralInfo where
  name : Str
  displayName : Option Str
  version : Option Str
  description : Option Str
  alternatePeripheral : Option Str
  groupName : Option Str
  prependToName : Option Str
  appendToName : Option Str
  headerStructName : Option Str
  baseAddress : U64
  defaultRegisterProperties : RegisterProperties
  addressBlock : Option (List AddressBlock)
  interrupt : List Interrupt
  registers : Option (List RegisterCluster)
  derivedFrom : Option Str
  deriving DecidableEq

/-- svd-rs/src/peripheral.rs:13. -/
abbrev Peripheral := MaybeArray PeripheralInfo

/-- svd-rs/src/cpu.rs:10-99. -/
structure Cpu where
  name : Str
  revision : Str
  endian : Endian
  mpuPresent : Bool
  fpuPresent : Bool
  fpuDoublePrecision : Option Bool
  dspPresent : Option Bool
  icachePresent : Option Bool
  dcachePresent : Option Bool
  itcmPresent : Option Bool
  dtcmPresent : Option Bool
  vtorPresent : Option Bool
  nvicPriorityBits : U32
  hasVendorSystick : Bool
  deviceNumInterrupts : Option U32
  sauNumRegions : Option U32
  deriving DecidableEq, Repr

/-- svd-rs/src/device.rs:22-108. -/
structure Device where
  vendor : Option Str
  vendorId : Option Str
  name : Str
  series : Option Str
  version : Str
  description : Str
  licenseText : Option Str
  cpu : Option Cpu
  headerSystemFilename : Option Str
  headerDefinitionsPrefix : Option Str
  addressUnitBits : U32
  width : U32
  defaultRegisterProperties : RegisterProperties
  peripherals : List Peripheral
  xmlnsXs : Str
  noNamespaceSchemaLocation : Str
  schemaVersion : Str
  deriving DecidableEq

end Svd
