import Verif.Spec.Build
import Verif.Spec.Valid

/-! # What a builder that was filled in by hand builds, member by member

A mandatory member has to be given, an optional one is taken over, an empty text counts as absent,
and a list that is not given is empty. -/

namespace Svd.Spec

/-- `k` is the first of the mandatory members that is not given. -/
def Lacks (mandatory : List (String × Bool)) (k : String) : Prop :=
  ∃ before after, mandatory = before ++ (k, false) :: after ∧ ∀ q ∈ before, q.2 = true

structure EnumValueBuilt (b : EnumeratedValueBuilder) (t : EnumeratedValue) : Prop where
  name : b.name = some t.name
  description : t.description = dropEmpty b.description
  value : t.value = b.value
  isDefault : t.isDefault = b.isDefault

structure EnumsBuilt (b : EnumeratedValuesBuilder) (t : EnumeratedValues) : Prop where
  name : t.name = dropEmpty b.name
  usage : t.usage = b.usage
  derivedFrom : t.derivedFrom = b.derivedFrom
  values : t.values = b.values.getD []

structure DimBuilt (b : DimElementBuilder) (t : DimElement) : Prop where
  dim : b.dim = some t.dim
  dimIncrement : b.dimIncrement = some t.dimIncrement
  dimIndex : t.dimIndex = dropEmpty b.dimIndex
  dimName : t.dimName = dropEmpty b.dimName
  dimArrayIndex : t.dimArrayIndex = b.dimArrayIndex

structure BlockBuilt (b : AddressBlockBuilder) (t : AddressBlock) : Prop where
  offset : b.offset = some t.offset
  size : b.size = some t.size
  usage : b.usage = some t.usage
  protection : t.protection = b.protection

structure InterruptBuilt (b : InterruptBuilder) (t : Interrupt) : Prop where
  name : b.name = some t.name
  description : t.description = b.description
  value : b.value = some t.value

/-- An offset or a width kept beside the range is not used. -/
structure FieldBuilt (b : FieldInfoBuilder) (t : FieldInfo) : Prop where
  name : b.name = some t.name
  description : t.description = dropEmpty b.description
  bitRange : b.bitRange = some t.bitRange
  access : t.access = b.access
  modifiedWriteValues : t.modifiedWriteValues = b.modifiedWriteValues
  writeConstraint : t.writeConstraint = b.writeConstraint
  readAction : t.readAction = b.readAction
  enumeratedValues : t.enumeratedValues = b.enumeratedValues.getD []
  derivedFrom : t.derivedFrom = b.derivedFrom

/-- Empty texts of registers are kept. -/
structure RegisterBuilt (b : RegisterInfoBuilder) (t : RegisterInfo) : Prop where
  name : b.name = some t.name
  displayName : t.displayName = b.displayName
  description : t.description = b.description
  alternateGroup : t.alternateGroup = b.alternateGroup
  alternateRegister : t.alternateRegister = b.alternateRegister
  addressOffset : b.addressOffset = some t.addressOffset
  properties : t.properties = b.properties
  datatype : t.datatype = b.datatype
  modifiedWriteValues : t.modifiedWriteValues = b.modifiedWriteValues
  writeConstraint : t.writeConstraint = b.writeConstraint
  readAction : t.readAction = b.readAction
  fields : t.fields = b.fields
  derivedFrom : t.derivedFrom = b.derivedFrom

structure ClusterBuilt (b : ClusterInfoBuilder) (t : ClusterInfo) : Prop where
  name : b.name = some t.name
  description : t.description = dropEmpty b.description
  alternateCluster : t.alternateCluster = dropEmpty b.alternateCluster
  headerStructName : t.headerStructName = dropEmpty b.headerStructName
  addressOffset : b.addressOffset = some t.addressOffset
  props : t.defaultRegisterProperties = b.defaultRegisterProperties
  children : b.children = some t.children
  derivedFrom : t.derivedFrom = b.derivedFrom

structure PeripheralBuilt (b : PeripheralInfoBuilder) (t : PeripheralInfo) : Prop where
  name : b.name = some t.name
  displayName : t.displayName = dropEmpty b.displayName
  version : t.version = dropEmpty b.version
  description : t.description = dropEmpty b.description
  alternatePeripheral : t.alternatePeripheral = dropEmpty b.alternatePeripheral
  groupName : t.groupName = dropEmpty b.groupName
  prependToName : t.prependToName = dropEmpty b.prependToName
  appendToName : t.appendToName = dropEmpty b.appendToName
  headerStructName : t.headerStructName = dropEmpty b.headerStructName
  baseAddress : b.baseAddress = some t.baseAddress
  props : t.defaultRegisterProperties = b.defaultRegisterProperties
  addressBlock : t.addressBlock = b.addressBlock
  interrupt : t.interrupt = b.interrupt.getD []
  registers : t.registers = b.registers
  derivedFrom : t.derivedFrom = b.derivedFrom

structure CpuBuilt (b : CpuBuilder) (t : Cpu) : Prop where
  name : b.name = some t.name
  revision : b.revision = some t.revision
  endian : b.endian = some t.endian
  mpuPresent : b.mpuPresent = some t.mpuPresent
  fpuPresent : b.fpuPresent = some t.fpuPresent
  fpuDoublePrecision : t.fpuDoublePrecision = b.fpuDoublePrecision
  dspPresent : t.dspPresent = b.dspPresent
  icachePresent : t.icachePresent = b.icachePresent
  dcachePresent : t.dcachePresent = b.dcachePresent
  itcmPresent : t.itcmPresent = b.itcmPresent
  dtcmPresent : t.dtcmPresent = b.dtcmPresent
  vtorPresent : t.vtorPresent = b.vtorPresent
  nvicPriorityBits : b.nvicPriorityBits = some t.nvicPriorityBits
  hasVendorSystick : b.hasVendorSystick = some t.hasVendorSystick
  deviceNumInterrupts : t.deviceNumInterrupts = b.deviceNumInterrupts
  sauNumRegions : t.sauNumRegions = b.sauNumRegions

/-- A member that is mandatory at level Strict and has a default below it. -/
def GivenOr {α : Type} (lvl : ValidateLevel) (given : Option α) (dflt t : α) : Prop :=
  given = some t ∨ (given = none ∧ lvl ≠ .strict ∧ t = dflt)

/-- Empty texts of devices are kept. -/
structure DeviceBuilt (lvl : ValidateLevel) (b : DeviceBuilder) (t : Device) : Prop where
  vendor : t.vendor = b.vendor
  vendorId : t.vendorId = b.vendorId
  name : b.name = some t.name
  series : t.series = b.series
  version : GivenOr lvl b.version "1.0".toList t.version
  description : GivenOr lvl b.description "".toList t.description
  licenseText : t.licenseText = b.licenseText
  cpu : t.cpu = b.cpu
  headerSystemFilename : t.headerSystemFilename = b.headerSystemFilename
  headerDefinitionsPrefix : t.headerDefinitionsPrefix = b.headerDefinitionsPrefix
  addressUnitBits : GivenOr lvl b.addressUnitBits 8 t.addressUnitBits
  width : GivenOr lvl b.width 32 t.width
  props : t.defaultRegisterProperties = b.defaultRegisterProperties
  peripherals : b.peripherals = some t.peripherals
  xmlnsXs : t.xmlnsXs = b.xmlnsXs.getD "http://www.w3.org/2001/XMLSchema-instance".toList
  noNamespaceSchemaLocation :
    t.noNamespaceSchemaLocation = b.noNamespaceSchemaLocation.getD "CMSIS-SVD_Schema_1_1.xsd".toList
  schemaVersion : t.schemaVersion = b.schemaVersion.getD "1.1".toList

end Svd.Spec
