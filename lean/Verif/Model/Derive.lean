import Verif.Model.Types

/-!
# Inheritance (svd-rs/src/derive_from.rs)
-/

namespace Svd

/-- svd-rs/src/derive_from.rs:84-94. -/
def RegisterProperties.deriveFrom (s o : RegisterProperties) : RegisterProperties :=
  { s with
    size := s.size.or o.size
    access := s.access.or o.access
    protection := s.protection.or o.protection
    resetValue := s.resetValue.or o.resetValue
    resetMask := s.resetMask.or o.resetMask }

/-- svd-rs/src/derive_from.rs:13-27. -/
def ClusterInfo.deriveFrom (s o : ClusterInfo) : ClusterInfo :=
  { s with
    defaultRegisterProperties := s.defaultRegisterProperties.deriveFrom o.defaultRegisterProperties
    headerStructName := s.headerStructName.or o.headerStructName
    children := if s.children.isEmpty then o.children else s.children }

/-- svd-rs/src/derive_from.rs:29-38. -/
def EnumeratedValues.deriveFrom (s o : EnumeratedValues) : EnumeratedValues :=
  { s with
    usage := s.usage.or o.usage
    values := if s.values.isEmpty then o.values else s.values }

/-- svd-rs/src/derive_from.rs:40-67. -/
def PeripheralInfo.deriveFrom (s o : PeripheralInfo) : PeripheralInfo :=
  { s with
    version := s.version.or o.version
    description := s.description.or o.description
    groupName := s.groupName.or o.groupName
    prependToName := s.prependToName.or o.prependToName
    appendToName := s.appendToName.or o.appendToName
    headerStructName := s.headerStructName.or o.headerStructName
    defaultRegisterProperties := s.defaultRegisterProperties.deriveFrom o.defaultRegisterProperties
    registers := s.registers.or o.registers
    addressBlock := s.addressBlock.or o.addressBlock
    interrupt := if s.interrupt.isEmpty then o.interrupt else s.interrupt }

/-- svd-rs/src/derive_from.rs:69-82. -/
def RegisterInfo.deriveFrom (s o : RegisterInfo) : RegisterInfo :=
  { s with
    description := s.description.or o.description
    properties := s.properties.deriveFrom o.properties
    fields := s.fields.or o.fields
    writeConstraint := s.writeConstraint.or o.writeConstraint
    readAction := s.readAction.or o.readAction
    modifiedWriteValues := s.modifiedWriteValues.or o.modifiedWriteValues }

/-- svd-rs/src/derive_from.rs:96-111. -/
def FieldInfo.deriveFrom (s o : FieldInfo) : FieldInfo :=
  { s with
    description := s.description.or o.description
    access := s.access.or o.access
    enumeratedValues := if s.enumeratedValues.isEmpty then o.enumeratedValues else s.enumeratedValues
    writeConstraint := s.writeConstraint.or o.writeConstraint
    readAction := s.readAction.or o.readAction
    modifiedWriteValues := s.modifiedWriteValues.or o.modifiedWriteValues }

/-- svd-rs/src/derive_from.rs:113-136, over any description type with a name (`nm`) and its own
`derive_from` (`df`). -/
def MaybeArray.deriveFrom {α : Type} (nm : α → Str) (df : α → α → α) :
    MaybeArray α → MaybeArray α → MaybeArray α
  | .single i, .single o => .single (df i o)
  | .single i, .array o od =>
    if containsSub "%s".toList (nm i) then .array (df i o) { od with dimName := none }
    else .single (df i o)
  | .array i d, .single o => .array (df i o) d
  | .array i d, .array o _ => .array (df i o) d

/-- `Peripheral::derive_from`. svd-rs/src/derive_from.rs:113-136. -/
def Peripheral.deriveFrom : Peripheral → Peripheral → Peripheral :=
  MaybeArray.deriveFrom PeripheralInfo.name PeripheralInfo.deriveFrom
/-- `Cluster::derive_from`. svd-rs/src/derive_from.rs:113-136. -/
def Cluster.deriveFrom : Cluster → Cluster → Cluster :=
  MaybeArray.deriveFrom (fun c => c.name) ClusterInfo.deriveFrom
/-- `Register::derive_from`. svd-rs/src/derive_from.rs:113-136. -/
def Register.deriveFrom : Register → Register → Register :=
  MaybeArray.deriveFrom RegisterInfo.name RegisterInfo.deriveFrom
/-- `Field::derive_from`. svd-rs/src/derive_from.rs:113-136. -/
def Field.deriveFrom : Field → Field → Field :=
  MaybeArray.deriveFrom FieldInfo.name FieldInfo.deriveFrom

end Svd
