import Verif.Model.Build

/-! # What building and modifying mean, member by member

The builder records are those of the code (svd-rs `XBuilder`); nothing else of the model is used. -/

namespace Svd.Spec

/-- An empty text (or list) counts as absent. -/
def dropEmpty {α : Type} : Option (List α) → Option (List α)
  | some [] => none
  | o => o

/-- A mandatory member: new value if one is given, old value otherwise. -/
def Upd {α : Type} (given : Option α) (old new : α) : Prop :=
  (∀ v, given = some v → new = v) ∧ (given = none → new = old)

/-- An optional member. -/
def UpdOpt {α : Type} (given old new : Option α) : Prop :=
  (∀ v, given = some v → new = some v) ∧ (given = none → new = old)

/-- An optional text or list, where an empty one removes the member. -/
def UpdText {α : Type} (given old new : Option (List α)) : Prop :=
  (∀ v, given = some v → v ≠ [] → new = some v) ∧ (given = some [] → new = none) ∧
    (given = none → new = old)

structure PropsUpdated (s b t : RegisterProperties) : Prop where
  size : UpdOpt b.size s.size t.size
  access : UpdOpt b.access s.access t.access
  protection : UpdOpt b.protection s.protection t.protection
  resetValue : UpdOpt b.resetValue s.resetValue t.resetValue
  resetMask : UpdOpt b.resetMask s.resetMask t.resetMask

structure EnumValueUpdated (s : EnumeratedValue) (b : EnumeratedValueBuilder)
    (t : EnumeratedValue) : Prop where
  name : Upd b.name s.name t.name
  description : UpdText b.description s.description t.description
  value : UpdOpt b.value s.value t.value
  isDefault : UpdOpt b.isDefault s.isDefault t.isDefault

structure EnumsUpdated (s : EnumeratedValues) (b : EnumeratedValuesBuilder)
    (t : EnumeratedValues) : Prop where
  name : UpdText b.name s.name t.name
  usage : UpdOpt b.usage s.usage t.usage
  values : Upd b.values s.values t.values
  derivedFrom : t.derivedFrom = s.derivedFrom

structure DimUpdated (s : DimElement) (b : DimElementBuilder) (t : DimElement) : Prop where
  dim : Upd b.dim s.dim t.dim
  dimIncrement : Upd b.dimIncrement s.dimIncrement t.dimIncrement
  dimIndex : UpdText b.dimIndex s.dimIndex t.dimIndex
  dimName : UpdText b.dimName s.dimName t.dimName
  dimArrayIndex : UpdOpt b.dimArrayIndex s.dimArrayIndex t.dimArrayIndex

structure BlockUpdated (s : AddressBlock) (b : AddressBlockBuilder) (t : AddressBlock) : Prop where
  offset : Upd b.offset s.offset t.offset
  size : Upd b.size s.size t.size
  usage : Upd b.usage s.usage t.usage
  protection : UpdOpt b.protection s.protection t.protection

structure InterruptUpdated (s : Interrupt) (b : InterruptBuilder) (t : Interrupt) : Prop where
  name : Upd b.name s.name t.name
  description : UpdOpt b.description s.description t.description
  value : Upd b.value s.value t.value

/-- The bit range: a whole new one, or a new offset or width. -/
structure RangeUpdated (s : BitRange) (b : FieldInfoBuilder) (t : BitRange) : Prop where
  offset : Upd (b.bitOffset <|> b.bitRange.map (·.offset)) s.offset t.offset
  width : Upd (b.bitWidth <|> b.bitRange.map (·.width)) s.width t.width
  kind : Upd (b.bitRange.map (·.rangeType)) s.rangeType t.rangeType

/-- Members of a field that are updated in any case. -/
structure FieldIdentityUpdated (s : FieldInfo) (b : FieldInfoBuilder) (t : FieldInfo) : Prop where
  name : Upd b.name s.name t.name
  description : UpdText b.description s.description t.description
  bitRange : RangeUpdated s.bitRange b t.bitRange
  access : UpdOpt b.access s.access t.access

structure FieldUpdated (s : FieldInfo) (b : FieldInfoBuilder) (t : FieldInfo) : Prop extends
    FieldIdentityUpdated s b t where
  modifiedWriteValues : UpdOpt b.modifiedWriteValues s.modifiedWriteValues t.modifiedWriteValues
  writeConstraint : UpdOpt b.writeConstraint s.writeConstraint t.writeConstraint
  readAction : UpdOpt b.readAction s.readAction t.readAction
  enumeratedValues : Upd b.enumeratedValues s.enumeratedValues t.enumeratedValues
  derivedFrom : t.derivedFrom = s.derivedFrom

/-- With a reference given the reference is stored and the members to inherit are removed
(`readAction` stays). -/
structure FieldRederived (s : FieldInfo) (b : FieldInfoBuilder) (t : FieldInfo) : Prop extends
    FieldIdentityUpdated s b t where
  derivedFrom : t.derivedFrom = b.derivedFrom
  modifiedWriteValues : t.modifiedWriteValues = none
  writeConstraint : t.writeConstraint = none
  enumeratedValues : t.enumeratedValues = []
  readAction : t.readAction = s.readAction

structure RegisterIdentityUpdated (s : RegisterInfo) (b : RegisterInfoBuilder) (t : RegisterInfo) :
    Prop where
  name : Upd b.name s.name t.name
  displayName : UpdText b.displayName s.displayName t.displayName
  description : UpdText b.description s.description t.description
  alternateGroup : UpdText b.alternateGroup s.alternateGroup t.alternateGroup
  alternateRegister : UpdText b.alternateRegister s.alternateRegister t.alternateRegister
  addressOffset : Upd b.addressOffset s.addressOffset t.addressOffset

structure RegisterUpdated (s : RegisterInfo) (b : RegisterInfoBuilder) (t : RegisterInfo) :
    Prop extends RegisterIdentityUpdated s b t where
  properties : PropsUpdated s.properties b.properties t.properties
  datatype : UpdOpt b.datatype s.datatype t.datatype
  modifiedWriteValues : UpdOpt b.modifiedWriteValues s.modifiedWriteValues t.modifiedWriteValues
  writeConstraint : UpdOpt b.writeConstraint s.writeConstraint t.writeConstraint
  readAction : UpdOpt b.readAction s.readAction t.readAction
  fields : UpdText b.fields s.fields t.fields
  derivedFrom : t.derivedFrom = s.derivedFrom

structure RegisterRederived (s : RegisterInfo) (b : RegisterInfoBuilder) (t : RegisterInfo) :
    Prop extends RegisterIdentityUpdated s b t where
  derivedFrom : t.derivedFrom = b.derivedFrom
  properties : t.properties = ⟨none, none, none, none, none⟩
  datatype : t.datatype = none
  modifiedWriteValues : t.modifiedWriteValues = none
  writeConstraint : t.writeConstraint = none
  fields : t.fields = none
  readAction : t.readAction = s.readAction

structure ClusterIdentityUpdated (s : ClusterInfo) (b : ClusterInfoBuilder) (t : ClusterInfo) :
    Prop where
  name : Upd b.name s.name t.name
  description : UpdText b.description s.description t.description
  alternateCluster : UpdText b.alternateCluster s.alternateCluster t.alternateCluster
  headerStructName : UpdText b.headerStructName s.headerStructName t.headerStructName
  addressOffset : Upd b.addressOffset s.addressOffset t.addressOffset

structure ClusterUpdated (s : ClusterInfo) (b : ClusterInfoBuilder) (t : ClusterInfo) :
    Prop extends ClusterIdentityUpdated s b t where
  props : PropsUpdated s.defaultRegisterProperties b.defaultRegisterProperties
    t.defaultRegisterProperties
  children : Upd b.children s.children t.children
  derivedFrom : t.derivedFrom = s.derivedFrom

structure ClusterRederived (s : ClusterInfo) (b : ClusterInfoBuilder) (t : ClusterInfo) :
    Prop extends ClusterIdentityUpdated s b t where
  derivedFrom : t.derivedFrom = b.derivedFrom
  props : t.defaultRegisterProperties = ⟨none, none, none, none, none⟩
  children : t.children = []

structure PeripheralIdentityUpdated (s : PeripheralInfo) (b : PeripheralInfoBuilder)
    (t : PeripheralInfo) : Prop where
  name : Upd b.name s.name t.name
  displayName : UpdText b.displayName s.displayName t.displayName
  version : UpdText b.version s.version t.version
  description : UpdText b.description s.description t.description
  alternatePeripheral : UpdText b.alternatePeripheral s.alternatePeripheral t.alternatePeripheral
  groupName : UpdText b.groupName s.groupName t.groupName
  prependToName : UpdText b.prependToName s.prependToName t.prependToName
  appendToName : UpdText b.appendToName s.appendToName t.appendToName
  headerStructName : UpdText b.headerStructName s.headerStructName t.headerStructName
  baseAddress : Upd b.baseAddress s.baseAddress t.baseAddress
  interrupt : Upd b.interrupt s.interrupt t.interrupt

structure PeripheralUpdated (s : PeripheralInfo) (b : PeripheralInfoBuilder) (t : PeripheralInfo) :
    Prop extends PeripheralIdentityUpdated s b t where
  props : PropsUpdated s.defaultRegisterProperties b.defaultRegisterProperties
    t.defaultRegisterProperties
  addressBlock : UpdOpt b.addressBlock s.addressBlock t.addressBlock
  registers : UpdText b.registers s.registers t.registers
  derivedFrom : t.derivedFrom = s.derivedFrom

structure PeripheralRederived (s : PeripheralInfo) (b : PeripheralInfoBuilder)
    (t : PeripheralInfo) : Prop extends PeripheralIdentityUpdated s b t where
  derivedFrom : t.derivedFrom = b.derivedFrom
  props : t.defaultRegisterProperties = ⟨none, none, none, none, none⟩
  addressBlock : t.addressBlock = none
  registers : t.registers = none

structure CpuUpdated (s : Cpu) (b : CpuBuilder) (t : Cpu) : Prop where
  name : Upd b.name s.name t.name
  revision : Upd b.revision s.revision t.revision
  endian : Upd b.endian s.endian t.endian
  mpuPresent : Upd b.mpuPresent s.mpuPresent t.mpuPresent
  fpuPresent : Upd b.fpuPresent s.fpuPresent t.fpuPresent
  fpuDoublePrecision : UpdOpt b.fpuDoublePrecision s.fpuDoublePrecision t.fpuDoublePrecision
  dspPresent : UpdOpt b.dspPresent s.dspPresent t.dspPresent
  icachePresent : UpdOpt b.icachePresent s.icachePresent t.icachePresent
  dcachePresent : UpdOpt b.dcachePresent s.dcachePresent t.dcachePresent
  itcmPresent : UpdOpt b.itcmPresent s.itcmPresent t.itcmPresent
  dtcmPresent : UpdOpt b.dtcmPresent s.dtcmPresent t.dtcmPresent
  vtorPresent : UpdOpt b.vtorPresent s.vtorPresent t.vtorPresent
  nvicPriorityBits : Upd b.nvicPriorityBits s.nvicPriorityBits t.nvicPriorityBits
  hasVendorSystick : Upd b.hasVendorSystick s.hasVendorSystick t.hasVendorSystick
  deviceNumInterrupts : UpdOpt b.deviceNumInterrupts s.deviceNumInterrupts t.deviceNumInterrupts
  sauNumRegions : UpdOpt b.sauNumRegions s.sauNumRegions t.sauNumRegions

structure DeviceUpdated (s : Device) (b : DeviceBuilder) (t : Device) : Prop where
  vendor : UpdText b.vendor s.vendor t.vendor
  vendorId : UpdText b.vendorId s.vendorId t.vendorId
  name : Upd b.name s.name t.name
  series : UpdText b.series s.series t.series
  version : Upd b.version s.version t.version
  description : Upd b.description s.description t.description
  licenseText : UpdText b.licenseText s.licenseText t.licenseText
  cpu : UpdOpt b.cpu s.cpu t.cpu
  headerSystemFilename : UpdText b.headerSystemFilename s.headerSystemFilename t.headerSystemFilename
  headerDefinitionsPrefix :
    UpdText b.headerDefinitionsPrefix s.headerDefinitionsPrefix t.headerDefinitionsPrefix
  addressUnitBits : Upd b.addressUnitBits s.addressUnitBits t.addressUnitBits
  width : Upd b.width s.width t.width
  props : PropsUpdated s.defaultRegisterProperties b.defaultRegisterProperties
    t.defaultRegisterProperties
  peripherals : Upd b.peripherals s.peripherals t.peripherals
  xmlnsXs : Upd b.xmlnsXs s.xmlnsXs t.xmlnsXs
  noNamespaceSchemaLocation :
    Upd b.noNamespaceSchemaLocation s.noNamespaceSchemaLocation t.noNamespaceSchemaLocation
  schemaVersion : Upd b.schemaVersion s.schemaVersion t.schemaVersion

end Svd.Spec
