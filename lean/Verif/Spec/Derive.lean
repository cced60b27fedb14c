import Verif.Model.Types

/-! # Inheritance, member by member -/

namespace Svd.Spec

/-- An optional member: the own value if there is one, otherwise that of the base. -/
def Inh {α : Type} (own base new : Option α) : Prop :=
  (∀ v, own = some v → new = some v) ∧ (own = none → new = base)

/-- A list: the own one unless empty. -/
def InhList {α : Type} (own base new : List α) : Prop :=
  (own ≠ [] → new = own) ∧ (own = [] → new = base)

structure PropsInherited (s o t : RegisterProperties) : Prop where
  size : Inh s.size o.size t.size
  access : Inh s.access o.access t.access
  protection : Inh s.protection o.protection t.protection
  resetValue : Inh s.resetValue o.resetValue t.resetValue
  resetMask : Inh s.resetMask o.resetMask t.resetMask

structure ClusterInherited (s o t : ClusterInfo) : Prop where
  props : PropsInherited s.defaultRegisterProperties o.defaultRegisterProperties
    t.defaultRegisterProperties
  headerStructName : Inh s.headerStructName o.headerStructName t.headerStructName
  children : InhList s.children o.children t.children
  name : t.name = s.name
  description : t.description = s.description
  alternateCluster : t.alternateCluster = s.alternateCluster
  addressOffset : t.addressOffset = s.addressOffset
  derivedFrom : t.derivedFrom = s.derivedFrom

structure EnumsInherited (s o t : EnumeratedValues) : Prop where
  usage : Inh s.usage o.usage t.usage
  values : InhList s.values o.values t.values
  name : t.name = s.name
  derivedFrom : t.derivedFrom = s.derivedFrom

structure PeripheralInherited (s o t : PeripheralInfo) : Prop where
  version : Inh s.version o.version t.version
  description : Inh s.description o.description t.description
  groupName : Inh s.groupName o.groupName t.groupName
  prependToName : Inh s.prependToName o.prependToName t.prependToName
  appendToName : Inh s.appendToName o.appendToName t.appendToName
  headerStructName : Inh s.headerStructName o.headerStructName t.headerStructName
  props : PropsInherited s.defaultRegisterProperties o.defaultRegisterProperties
    t.defaultRegisterProperties
  registers : Inh s.registers o.registers t.registers
  addressBlock : Inh s.addressBlock o.addressBlock t.addressBlock
  interrupt : InhList s.interrupt o.interrupt t.interrupt
  name : t.name = s.name
  displayName : t.displayName = s.displayName
  alternatePeripheral : t.alternatePeripheral = s.alternatePeripheral
  baseAddress : t.baseAddress = s.baseAddress
  derivedFrom : t.derivedFrom = s.derivedFrom

structure RegisterInherited (s o t : RegisterInfo) : Prop where
  description : Inh s.description o.description t.description
  properties : PropsInherited s.properties o.properties t.properties
  fields : Inh s.fields o.fields t.fields
  writeConstraint : Inh s.writeConstraint o.writeConstraint t.writeConstraint
  readAction : Inh s.readAction o.readAction t.readAction
  modifiedWriteValues : Inh s.modifiedWriteValues o.modifiedWriteValues t.modifiedWriteValues
  name : t.name = s.name
  displayName : t.displayName = s.displayName
  alternateGroup : t.alternateGroup = s.alternateGroup
  alternateRegister : t.alternateRegister = s.alternateRegister
  addressOffset : t.addressOffset = s.addressOffset
  datatype : t.datatype = s.datatype
  derivedFrom : t.derivedFrom = s.derivedFrom

structure FieldInherited (s o t : FieldInfo) : Prop where
  description : Inh s.description o.description t.description
  access : Inh s.access o.access t.access
  enumeratedValues : InhList s.enumeratedValues o.enumeratedValues t.enumeratedValues
  writeConstraint : Inh s.writeConstraint o.writeConstraint t.writeConstraint
  readAction : Inh s.readAction o.readAction t.readAction
  modifiedWriteValues : Inh s.modifiedWriteValues o.modifiedWriteValues t.modifiedWriteValues
  name : t.name = s.name
  bitRange : t.bitRange = s.bitRange
  derivedFrom : t.derivedFrom = s.derivedFrom

/-- The array description: the own one; else that of the base, without its `dimName`, if the name has
a placeholder. -/
def DimInherited (name : Str) (own base new : Option DimElement) : Prop :=
  (∀ d, own = some d → new = some d) ∧
  (own = none → (∃ a b, name = a ++ '%' :: 's' :: b) → new = base.map fun d => { d with dimName := none }) ∧
  (own = none → (¬ ∃ a b, name = a ++ '%' :: 's' :: b) → new = none)

end Svd.Spec
