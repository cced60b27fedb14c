import Verif.Model.BitRange
import Verif.Model.Validate

/-!
# Builders and `modify_from`

A builder is a record of optional members.  Its setters that only assign one member are Lean's
record update; the setters of `FieldInfoBuilder` that do more are modelled below.
`modify_from` is modelled as a function returning the updated object together with the `Result`:
Rust mutates `self` in place and validates afterwards, so the object is changed even when the
result is an error.
-/

namespace Svd

/-- `if let Some(v) = b { s = v }`. -/
def setIf {α} (b : Option α) (s : α) : α := b.getD s

/-- `if b.is_some() { s = b }`. -/
def setIfSome {α} (b s : Option α) : Option α := if b.isSome then b else s

/-- `if b.is_some() { s = b.empty_to_none() }`. -/
def setIfSomeE {α} (b s : Option (List α)) : Option (List α) := if b.isSome then emptyToNone b else s

/-- `BuildError::Uninitialized` when a mandatory member is missing. -/
def need {α} (o : Option α) (what : String) : M α := okOr o (.uninitialized what)

/-! ## RegisterProperties -/

/-- svd-rs/src/registerproperties.rs:124-127 `build`. -/
def RegisterProperties.build (p : RegisterProperties) (lvl : ValidateLevel) :
    M RegisterProperties := do
  p.validate lvl
  .ok p

/-- svd-rs/src/registerproperties.rs:68-89: the assignments of `modify_from`. -/
def RegisterProperties.modified (s b : RegisterProperties) : RegisterProperties :=
  { s with
    size := setIfSome b.size s.size
    access := setIfSome b.access s.access
    protection := setIfSome b.protection s.protection
    resetValue := setIfSome b.resetValue s.resetValue
    resetMask := setIfSome b.resetMask s.resetMask }

/-- svd-rs/src/registerproperties.rs:68-89 `modify_from`. -/
def RegisterProperties.modifyFrom (s b : RegisterProperties) (lvl : ValidateLevel) :
    RegisterProperties × M Unit :=
  (s.modified b, (s.modified b).validate lvl)

/-! ## EnumeratedValue -/

/-- svd-rs/src/enumeratedvalue.rs:49-54. -/
structure EnumeratedValueBuilder where
  name : Option Str := none
  description : Option Str := none
  value : Option U64 := none
  isDefault : Option Bool := none

/-- svd-rs/src/enumeratedvalue.rs:56-65. -/
def EnumeratedValue.toBuilder (e : EnumeratedValue) : EnumeratedValueBuilder :=
  { name := some e.name, description := e.description, value := e.value, isDefault := e.isDefault }

/-- svd-rs/src/enumeratedvalue.rs:90-101 `build`. -/
def EnumeratedValueBuilder.build (b : EnumeratedValueBuilder) (lvl : ValidateLevel) :
    M EnumeratedValue := do
  let name ← need b.name "name"
  let ev : EnumeratedValue :=
    { name := name, description := emptyToNone b.description, value := b.value,
      isDefault := b.isDefault }
  ev.validate lvl
  .ok ev

/-- svd-rs/src/enumeratedvalue.rs:114-132: the assignments of `modify_from`. -/
def EnumeratedValue.modified (s : EnumeratedValue) (b : EnumeratedValueBuilder) : EnumeratedValue :=
  { s with
    name := setIf b.name s.name
    description := setIfSomeE b.description s.description
    value := setIfSome b.value s.value
    isDefault := setIfSome b.isDefault s.isDefault }

/-- svd-rs/src/enumeratedvalue.rs:114-132 `modify_from`. -/
def EnumeratedValue.modifyFrom (s : EnumeratedValue) (b : EnumeratedValueBuilder)
    (lvl : ValidateLevel) : EnumeratedValue × M Unit :=
  (s.modified b, (s.modified b).validate lvl)

/-! ## EnumeratedValues -/

/-- svd-rs/src/enumeratedvalues.rs:48-53. -/
structure EnumeratedValuesBuilder where
  name : Option Str := none
  usage : Option Usage := none
  derivedFrom : Option Str := none
  values : Option (List EnumeratedValue) := none

/-- svd-rs/src/enumeratedvalues.rs:55-64. -/
def EnumeratedValues.toBuilder (e : EnumeratedValues) : EnumeratedValuesBuilder :=
  { name := e.name, usage := e.usage, derivedFrom := e.derivedFrom, values := some e.values }

/-- svd-rs/src/enumeratedvalues.rs:88-97 `build`. -/
def EnumeratedValuesBuilder.build (b : EnumeratedValuesBuilder) (lvl : ValidateLevel) :
    M EnumeratedValues := do
  let evs : EnumeratedValues :=
    { name := emptyToNone b.name, usage := b.usage, derivedFrom := b.derivedFrom,
      values := b.values.getD [] }
  evs.validate lvl
  .ok evs

/-- svd-rs/src/enumeratedvalues.rs:111-132: the assignments of `modify_from`.  In the derived case
the attribute itself is not stored. -/
def EnumeratedValues.modified (s : EnumeratedValues) (b : EnumeratedValuesBuilder) :
    EnumeratedValues :=
  if b.derivedFrom.isSome then { s with name := none, usage := none, values := [] }
  else
    { s with
      name := setIfSomeE b.name s.name
      usage := setIfSome b.usage s.usage
      values := setIf b.values s.values }

/-- svd-rs/src/enumeratedvalues.rs:111-132 `modify_from`. -/
def EnumeratedValues.modifyFrom (s : EnumeratedValues) (b : EnumeratedValuesBuilder)
    (lvl : ValidateLevel) : EnumeratedValues × M Unit :=
  (s.modified b, (s.modified b).validate lvl)

/-! ## DimElement -/

/-- svd-rs/src/dimelement.rs:73-79. -/
structure DimElementBuilder where
  dim : Option U32 := none
  dimIncrement : Option U32 := none
  dimIndex : Option (List Str) := none
  dimName : Option Str := none
  dimArrayIndex : Option DimArrayIndex := none

/-- svd-rs/src/dimelement.rs:81-91. -/
def DimElement.toBuilder (d : DimElement) : DimElementBuilder :=
  { dim := some d.dim, dimIncrement := some d.dimIncrement, dimIndex := d.dimIndex,
    dimName := d.dimName, dimArrayIndex := d.dimArrayIndex }

/-- svd-rs/src/dimelement.rs:120-133 `build`. -/
def DimElementBuilder.build (b : DimElementBuilder) (lvl : ValidateLevel) : M DimElement := do
  let dim ← need b.dim "dim"
  let dimIncrement ← need b.dimIncrement "dim_increment"
  let de : DimElement :=
    { dim := dim, dimIncrement := dimIncrement, dimIndex := emptyToNone b.dimIndex,
      dimName := emptyToNone b.dimName, dimArrayIndex := b.dimArrayIndex }
  de.validate lvl
  .ok de

/-- svd-rs/src/dimelement.rs:192-213: the assignments of `modify_from`. -/
def DimElement.modified (s : DimElement) (b : DimElementBuilder) : DimElement :=
  { s with
    dim := setIf b.dim s.dim
    dimIncrement := setIf b.dimIncrement s.dimIncrement
    dimIndex := setIfSomeE b.dimIndex s.dimIndex
    dimName := setIfSomeE b.dimName s.dimName
    dimArrayIndex := setIfSome b.dimArrayIndex s.dimArrayIndex }

/-- svd-rs/src/dimelement.rs:192-213 `modify_from`. -/
def DimElement.modifyFrom (s : DimElement) (b : DimElementBuilder) (lvl : ValidateLevel) :
    DimElement × M Unit :=
  (s.modified b, (s.modified b).validate lvl)

/-! ## AddressBlock and Interrupt -/

/-- svd-rs/src/addressblock.rs:67-72. -/
structure AddressBlockBuilder where
  offset : Option U32 := none
  size : Option U32 := none
  usage : Option AddressBlockUsage := none
  protection : Option Protection := none

/-- svd-rs/src/addressblock.rs:74-83. -/
def AddressBlock.toBuilder (d : AddressBlock) : AddressBlockBuilder :=
  { offset := some d.offset, size := some d.size, usage := some d.usage, protection := d.protection }

/-- svd-rs/src/addressblock.rs:107-122 `build`. -/
def AddressBlockBuilder.build (b : AddressBlockBuilder) (lvl : ValidateLevel) : M AddressBlock := do
  let offset ← need b.offset "offset"
  let size ← need b.size "size"
  let usage ← need b.usage "usage"
  let de : AddressBlock :=
    { offset := offset, size := size, usage := usage, protection := b.protection }
  de.validate lvl
  .ok de

/-- svd-rs/src/addressblock.rs:131-149: the assignments of `modify_from`. -/
def AddressBlock.modified (s : AddressBlock) (b : AddressBlockBuilder) : AddressBlock :=
  { s with
    offset := setIf b.offset s.offset
    size := setIf b.size s.size
    usage := setIf b.usage s.usage
    protection := setIfSome b.protection s.protection }

/-- svd-rs/src/addressblock.rs:131-149 `modify_from`. -/
def AddressBlock.modifyFrom (s : AddressBlock) (b : AddressBlockBuilder) (lvl : ValidateLevel) :
    AddressBlock × M Unit :=
  (s.modified b, (s.modified b).validate lvl)

/-- svd-rs/src/interrupt.rs:24-28. -/
structure InterruptBuilder where
  name : Option Str := none
  description : Option Str := none
  value : Option U32 := none

/-- svd-rs/src/interrupt.rs:30-38. -/
def Interrupt.toBuilder (d : Interrupt) : InterruptBuilder :=
  { name := some d.name, description := d.description, value := some d.value }

/-- svd-rs/src/interrupt.rs:57-69 `build`. -/
def InterruptBuilder.build (b : InterruptBuilder) (lvl : ValidateLevel) : M Interrupt := do
  let name ← need b.name "name"
  let value ← need b.value "value"
  let de : Interrupt := { name := name, description := b.description, value := value }
  de.validate lvl
  .ok de

/-- svd-rs/src/interrupt.rs:78-93: the assignments of `modify_from`. -/
def Interrupt.modified (s : Interrupt) (b : InterruptBuilder) : Interrupt :=
  { s with
    name := setIf b.name s.name
    description := setIfSome b.description s.description
    value := setIf b.value s.value }

/-- svd-rs/src/interrupt.rs:78-93 `modify_from`. -/
def Interrupt.modifyFrom (s : Interrupt) (b : InterruptBuilder) (lvl : ValidateLevel) :
    Interrupt × M Unit :=
  (s.modified b, (s.modified b).validate lvl)

/-! ## Field -/

/-- svd-rs/src/field.rs:112-124. -/
structure FieldInfoBuilder where
  name : Option Str := none
  description : Option Str := none
  bitRange : Option BitRange := none
  bitOffset : Option U32 := none
  bitWidth : Option U32 := none
  access : Option Access := none
  modifiedWriteValues : Option ModifiedWriteValues := none
  writeConstraint : Option WriteConstraint := none
  readAction : Option ReadAction := none
  enumeratedValues : Option (List EnumeratedValues) := none
  derivedFrom : Option Str := none

/-- svd-rs/src/field.rs:126-142. -/
def FieldInfo.toBuilder (f : FieldInfo) : FieldInfoBuilder :=
  { name := some f.name, description := f.description, bitRange := some f.bitRange,
    access := f.access, modifiedWriteValues := f.modifiedWriteValues,
    writeConstraint := f.writeConstraint, readAction := f.readAction,
    enumeratedValues := some f.enumeratedValues, derivedFrom := f.derivedFrom }

namespace FieldInfoBuilder

/-- svd-rs/src/field.rs:156-161 `bit_range`. -/
def setBitRange (b : FieldInfoBuilder) (value : BitRange) : FieldInfoBuilder :=
  { b with bitRange := some value, bitOffset := none, bitWidth := none }

/-- svd-rs/src/field.rs:163-173 `bit_offset`: the second branch reads `self.bit_offset`. -/
def setBitOffset (b : FieldInfoBuilder) (value : U32) : FieldInfoBuilder :=
  match b.bitRange with
  | some r => { b with bitRange := some { r with offset := value } }
  | none =>
    match b.bitOffset with
    | some width => { b with bitRange := some (.fromOffsetWidth value width), bitWidth := none }
    | none => { b with bitOffset := some value }

/-- svd-rs/src/field.rs:175-185 `bit_width`. -/
def setBitWidth (b : FieldInfoBuilder) (value : U32) : FieldInfoBuilder :=
  match b.bitRange with
  | some r => { b with bitRange := some { r with width := value } }
  | none =>
    match b.bitOffset with
    | some offset => { b with bitRange := some (.fromOffsetWidth offset value), bitOffset := none }
    | none => { b with bitWidth := some value }

/-- svd-rs/src/field.rs:217-236 `build`. -/
def build (b : FieldInfoBuilder) (lvl : ValidateLevel) : M FieldInfo := do
  let name ← need b.name "name"
  let bitRange ← need b.bitRange "bit_range"
  let field : FieldInfo :=
    { name := name, description := emptyToNone b.description, bitRange := bitRange,
      access := b.access, modifiedWriteValues := b.modifiedWriteValues,
      writeConstraint := b.writeConstraint, readAction := b.readAction,
      enumeratedValues := b.enumeratedValues.getD [], derivedFrom := b.derivedFrom }
  field.validate lvl
  .ok field

end FieldInfoBuilder

/-- svd-rs/src/field.rs:260-302: the assignments of `modify_from`. -/
def FieldInfo.modified (s : FieldInfo) (b : FieldInfoBuilder) : FieldInfo :=
  let br := setIf b.bitRange s.bitRange
  let br := { br with offset := setIf b.bitOffset br.offset }
  let br := { br with width := setIf b.bitWidth br.width }
  let s := { s with
    name := setIf b.name s.name
    description := setIfSomeE b.description s.description
    bitRange := br
    access := setIfSome b.access s.access }
  if b.derivedFrom.isSome then
    { s with derivedFrom := b.derivedFrom, modifiedWriteValues := none, writeConstraint := none,
             enumeratedValues := [] }
  else
    { s with
      modifiedWriteValues := setIfSome b.modifiedWriteValues s.modifiedWriteValues
      writeConstraint := setIfSome b.writeConstraint s.writeConstraint
      readAction := setIfSome b.readAction s.readAction
      enumeratedValues := setIf b.enumeratedValues s.enumeratedValues }

/-- svd-rs/src/field.rs:260-303 `modify_from`. -/
def FieldInfo.modifyFrom (s : FieldInfo) (b : FieldInfoBuilder) (lvl : ValidateLevel) :
    FieldInfo × M Unit :=
  (s.modified b, (s.modified b).validate lvl)

/-! ## Register -/

/-- svd-rs/src/register.rs:145-159. -/
structure RegisterInfoBuilder where
  name : Option Str := none
  displayName : Option Str := none
  description : Option Str := none
  alternateGroup : Option Str := none
  alternateRegister : Option Str := none
  addressOffset : Option U32 := none
  properties : RegisterProperties := {}
  datatype : Option DataType := none
  modifiedWriteValues : Option ModifiedWriteValues := none
  writeConstraint : Option WriteConstraint := none
  readAction : Option ReadAction := none
  fields : Option (List Field) := none
  derivedFrom : Option Str := none

/-- svd-rs/src/register.rs:161-179. -/
def RegisterInfo.toBuilder (r : RegisterInfo) : RegisterInfoBuilder :=
  { name := some r.name, displayName := r.displayName, description := r.description,
    alternateGroup := r.alternateGroup, alternateRegister := r.alternateRegister,
    addressOffset := some r.addressOffset, properties := r.properties, datatype := r.datatype,
    modifiedWriteValues := r.modifiedWriteValues, writeConstraint := r.writeConstraint,
    readAction := r.readAction, fields := r.fields, derivedFrom := r.derivedFrom }

/-- svd-rs/src/register.rs:267-290 `build`. -/
def RegisterInfoBuilder.build (b : RegisterInfoBuilder) (lvl : ValidateLevel) :
    M RegisterInfo := do
  let name ← need b.name "name"
  let addressOffset ← need b.addressOffset "address_offset"
  let properties ← b.properties.build lvl
  let reg : RegisterInfo :=
    { name := name, displayName := b.displayName, description := b.description,
      alternateGroup := b.alternateGroup, alternateRegister := b.alternateRegister,
      addressOffset := addressOffset, properties := properties, datatype := b.datatype,
      modifiedWriteValues := b.modifiedWriteValues, writeConstraint := b.writeConstraint,
      readAction := b.readAction, fields := b.fields, derivedFrom := b.derivedFrom }
  reg.validate lvl
  .ok reg

/-- svd-rs/src/register.rs:315-364 `modify_from`: when the register properties fail their own
validation the function returns before the remaining assignments. -/
def RegisterInfo.modifyFrom (s : RegisterInfo) (b : RegisterInfoBuilder) (lvl : ValidateLevel) :
    RegisterInfo × M Unit :=
  let s := { s with
    name := setIf b.name s.name
    displayName := setIfSomeE b.displayName s.displayName
    description := setIfSomeE b.description s.description
    alternateGroup := setIfSomeE b.alternateGroup s.alternateGroup
    alternateRegister := setIfSomeE b.alternateRegister s.alternateRegister
    addressOffset := setIf b.addressOffset s.addressOffset }
  if b.derivedFrom.isSome then
    let s := { s with
      derivedFrom := b.derivedFrom, fields := none, properties := {}, datatype := none,
      modifiedWriteValues := none, writeConstraint := none }
    (s, s.validate lvl)
  else
    let s := { s with properties := s.properties.modified b.properties }
    match s.properties.validate lvl with
    | .error e => (s, .error e)
    | .ok () =>
      let s := { s with
        datatype := setIfSome b.datatype s.datatype
        modifiedWriteValues := setIfSome b.modifiedWriteValues s.modifiedWriteValues
        writeConstraint := setIfSome b.writeConstraint s.writeConstraint
        readAction := setIfSome b.readAction s.readAction
        fields := setIfSomeE b.fields s.fields }
      (s, s.validate lvl)

/-! ## Cluster -/

/-- svd-rs/src/cluster.rs:103-112. -/
structure ClusterInfoBuilder where
  name : Option Str := none
  description : Option Str := none
  alternateCluster : Option Str := none
  headerStructName : Option Str := none
  addressOffset : Option U32 := none
  defaultRegisterProperties : RegisterProperties := {}
  children : Option (List RegisterCluster) := none
  derivedFrom : Option Str := none

/-- svd-rs/src/cluster.rs:114-127. -/
def ClusterInfo.toBuilder (c : ClusterInfo) : ClusterInfoBuilder :=
  { name := some c.name, description := c.description, alternateCluster := c.alternateCluster,
    headerStructName := c.headerStructName, addressOffset := some c.addressOffset,
    defaultRegisterProperties := c.defaultRegisterProperties, children := some c.children,
    derivedFrom := c.derivedFrom }

/-- svd-rs/src/cluster.rs:171-190 `build`. -/
def ClusterInfoBuilder.build (b : ClusterInfoBuilder) (lvl : ValidateLevel) : M ClusterInfo := do
  let name ← need b.name "name"
  let addressOffset ← need b.addressOffset "address_offset"
  let props ← b.defaultRegisterProperties.build lvl
  let children ← need b.children "children"
  let cluster : ClusterInfo :=
    { name := name, description := emptyToNone b.description,
      alternateCluster := emptyToNone b.alternateCluster,
      headerStructName := emptyToNone b.headerStructName, addressOffset := addressOffset,
      defaultRegisterProperties := props, children := children, derivedFrom := b.derivedFrom }
  cluster.validate lvl
  .ok cluster

/-- svd-rs/src/cluster.rs:215-247 `modify_from`. -/
def ClusterInfo.modifyFrom (s : ClusterInfo) (b : ClusterInfoBuilder) (lvl : ValidateLevel) :
    ClusterInfo × M Unit :=
  let s := { s with
    name := setIf b.name s.name
    description := setIfSomeE b.description s.description
    alternateCluster := setIfSomeE b.alternateCluster s.alternateCluster
    headerStructName := setIfSomeE b.headerStructName s.headerStructName
    addressOffset := setIf b.addressOffset s.addressOffset }
  if b.derivedFrom.isSome then
    let s := { s with
      derivedFrom := b.derivedFrom, children := [], defaultRegisterProperties := {} }
    (s, s.validate lvl)
  else
    let s := { s with
      defaultRegisterProperties := s.defaultRegisterProperties.modified b.defaultRegisterProperties }
    match s.defaultRegisterProperties.validate lvl with
    | .error e => (s, .error e)
    | .ok () =>
      let s := { s with children := setIf b.children s.children }
      (s, s.validate lvl)

/-! ## Peripheral -/

/-- svd-rs/src/peripheral.rs:159-175. -/
structure PeripheralInfoBuilder where
  name : Option Str := none
  displayName : Option Str := none
  version : Option Str := none
  description : Option Str := none
  alternatePeripheral : Option Str := none
  groupName : Option Str := none
  prependToName : Option Str := none
  appendToName : Option Str := none
  headerStructName : Option Str := none
  baseAddress : Option U64 := none
  defaultRegisterProperties : RegisterProperties := {}
  addressBlock : Option (List AddressBlock) := none
  interrupt : Option (List Interrupt) := none
  registers : Option (List RegisterCluster) := none
  derivedFrom : Option Str := none

/-- svd-rs/src/peripheral.rs:177-197. -/
def PeripheralInfo.toBuilder (p : PeripheralInfo) : PeripheralInfoBuilder :=
  { name := some p.name, displayName := p.displayName, version := p.version,
    description := p.description, alternatePeripheral := p.alternatePeripheral,
    groupName := p.groupName, prependToName := p.prependToName, appendToName := p.appendToName,
    headerStructName := p.headerStructName, baseAddress := some p.baseAddress,
    defaultRegisterProperties := p.defaultRegisterProperties, addressBlock := p.addressBlock,
    interrupt := some p.interrupt, registers := p.registers, derivedFrom := p.derivedFrom }

/-- svd-rs/src/peripheral.rs:276-301 `build`. -/
def PeripheralInfoBuilder.build (b : PeripheralInfoBuilder) (lvl : ValidateLevel) :
    M PeripheralInfo := do
  let name ← need b.name "name"
  let baseAddress ← need b.baseAddress "base_address"
  let props ← b.defaultRegisterProperties.build lvl
  let per : PeripheralInfo :=
    { name := name, displayName := emptyToNone b.displayName, version := emptyToNone b.version,
      description := emptyToNone b.description,
      alternatePeripheral := emptyToNone b.alternatePeripheral,
      groupName := emptyToNone b.groupName, prependToName := emptyToNone b.prependToName,
      appendToName := emptyToNone b.appendToName,
      headerStructName := emptyToNone b.headerStructName, baseAddress := baseAddress,
      defaultRegisterProperties := props, addressBlock := b.addressBlock,
      interrupt := b.interrupt.getD [], registers := b.registers, derivedFrom := b.derivedFrom }
  per.validate lvl
  .ok per

/-- svd-rs/src/peripheral.rs:325-379 `modify_from`. -/
def PeripheralInfo.modifyFrom (s : PeripheralInfo) (b : PeripheralInfoBuilder)
    (lvl : ValidateLevel) : PeripheralInfo × M Unit :=
  let s := { s with
    name := setIf b.name s.name
    displayName := setIfSomeE b.displayName s.displayName
    version := setIfSomeE b.version s.version
    description := setIfSomeE b.description s.description
    alternatePeripheral := setIfSomeE b.alternatePeripheral s.alternatePeripheral
    groupName := setIfSomeE b.groupName s.groupName
    prependToName := setIfSomeE b.prependToName s.prependToName
    appendToName := setIfSomeE b.appendToName s.appendToName
    headerStructName := setIfSomeE b.headerStructName s.headerStructName
    baseAddress := setIf b.baseAddress s.baseAddress
    interrupt := setIf b.interrupt s.interrupt }
  if b.derivedFrom.isSome then
    let s := { s with
      derivedFrom := b.derivedFrom, registers := none, addressBlock := none,
      defaultRegisterProperties := {} }
    (s, s.validate lvl)
  else
    let s := { s with
      addressBlock := setIfSome b.addressBlock s.addressBlock
      defaultRegisterProperties := s.defaultRegisterProperties.modified b.defaultRegisterProperties }
    match s.defaultRegisterProperties.validate lvl with
    | .error e => (s, .error e)
    | .ok () =>
      let s := { s with registers := setIfSomeE b.registers s.registers }
      (s, s.validate lvl)

/-! ## Cpu -/

/-- svd-rs/src/cpu.rs:102-120. -/
structure CpuBuilder where
  name : Option Str := none
  revision : Option Str := none
  endian : Option Endian := none
  mpuPresent : Option Bool := none
  fpuPresent : Option Bool := none
  fpuDoublePrecision : Option Bool := none
  dspPresent : Option Bool := none
  icachePresent : Option Bool := none
  dcachePresent : Option Bool := none
  itcmPresent : Option Bool := none
  dtcmPresent : Option Bool := none
  vtorPresent : Option Bool := none
  nvicPriorityBits : Option U32 := none
  hasVendorSystick : Option Bool := none
  deviceNumInterrupts : Option U32 := none
  sauNumRegions : Option U32 := none

/-- svd-rs/src/cpu.rs:122-143. -/
def Cpu.toBuilder (c : Cpu) : CpuBuilder :=
  { name := some c.name, revision := some c.revision, endian := some c.endian,
    mpuPresent := some c.mpuPresent, fpuPresent := some c.fpuPresent,
    fpuDoublePrecision := c.fpuDoublePrecision, dspPresent := c.dspPresent,
    icachePresent := c.icachePresent, dcachePresent := c.dcachePresent,
    itcmPresent := c.itcmPresent, dtcmPresent := c.dtcmPresent, vtorPresent := c.vtorPresent,
    nvicPriorityBits := some c.nvicPriorityBits, hasVendorSystick := some c.hasVendorSystick,
    deviceNumInterrupts := c.deviceNumInterrupts, sauNumRegions := c.sauNumRegions }

/-- svd-rs/src/cpu.rs:227-262 `build`. -/
def CpuBuilder.build (b : CpuBuilder) (lvl : ValidateLevel) : M Cpu := do
  let name ← need b.name "name"
  let revision ← need b.revision "revision"
  let endian ← need b.endian "endian"
  let mpuPresent ← need b.mpuPresent "mpu_present"
  let fpuPresent ← need b.fpuPresent "fpu_present"
  let nvicPriorityBits ← need b.nvicPriorityBits "nvic_priority_bits"
  let hasVendorSystick ← need b.hasVendorSystick "has_vendor_systick"
  let cpu : Cpu :=
    { name := name, revision := revision, endian := endian, mpuPresent := mpuPresent,
      fpuPresent := fpuPresent, fpuDoublePrecision := b.fpuDoublePrecision,
      dspPresent := b.dspPresent, icachePresent := b.icachePresent,
      dcachePresent := b.dcachePresent, itcmPresent := b.itcmPresent,
      dtcmPresent := b.dtcmPresent, vtorPresent := b.vtorPresent,
      nvicPriorityBits := nvicPriorityBits, hasVendorSystick := hasVendorSystick,
      deviceNumInterrupts := b.deviceNumInterrupts, sauNumRegions := b.sauNumRegions }
  cpu.validate lvl
  .ok cpu

/-- svd-rs/src/cpu.rs:271-320: the assignments of `modify_from`. -/
def Cpu.modified (s : Cpu) (b : CpuBuilder) : Cpu :=
  { s with
    name := setIf b.name s.name
    revision := setIf b.revision s.revision
    endian := setIf b.endian s.endian
    mpuPresent := setIf b.mpuPresent s.mpuPresent
    fpuPresent := setIf b.fpuPresent s.fpuPresent
    fpuDoublePrecision := setIfSome b.fpuDoublePrecision s.fpuDoublePrecision
    dspPresent := setIfSome b.dspPresent s.dspPresent
    icachePresent := setIfSome b.icachePresent s.icachePresent
    dcachePresent := setIfSome b.dcachePresent s.dcachePresent
    itcmPresent := setIfSome b.itcmPresent s.itcmPresent
    dtcmPresent := setIfSome b.dtcmPresent s.dtcmPresent
    vtorPresent := setIfSome b.vtorPresent s.vtorPresent
    nvicPriorityBits := setIf b.nvicPriorityBits s.nvicPriorityBits
    hasVendorSystick := setIf b.hasVendorSystick s.hasVendorSystick
    deviceNumInterrupts := setIfSome b.deviceNumInterrupts s.deviceNumInterrupts
    sauNumRegions := setIfSome b.sauNumRegions s.sauNumRegions }

/-- svd-rs/src/cpu.rs:271-321 `modify_from`. -/
def Cpu.modifyFrom (s : Cpu) (b : CpuBuilder) (lvl : ValidateLevel) : Cpu × M Unit :=
  (s.modified b, (s.modified b).validate lvl)

/-! ## Device -/

/-- svd-rs/src/device.rs:125-143. -/
structure DeviceBuilder where
  vendor : Option Str := none
  vendorId : Option Str := none
  name : Option Str := none
  series : Option Str := none
  version : Option Str := none
  description : Option Str := none
  licenseText : Option Str := none
  cpu : Option Cpu := none
  headerSystemFilename : Option Str := none
  headerDefinitionsPrefix : Option Str := none
  addressUnitBits : Option U32 := none
  width : Option U32 := none
  defaultRegisterProperties : RegisterProperties := {}
  peripherals : Option (List Peripheral) := none
  xmlnsXs : Option Str := none
  noNamespaceSchemaLocation : Option Str := none
  schemaVersion : Option Str := none

/-- svd-rs/src/device.rs:110-112. -/
def defaultXmlnsXs : Str := "http://www.w3.org/2001/XMLSchema-instance".toList
/-- svd-rs/src/device.rs:119-121. -/
def defaultSchemaVersion : Str := "1.1".toList
/-- svd-rs/src/device.rs:113-118 (`"1.1".replace('.', "_")` written out). -/
def defaultNoNamespaceSchemaLocation : Str :=
  "CMSIS-SVD_Schema_".toList ++ replaceStr ".".toList "_".toList defaultSchemaVersion ++
    ".xsd".toList

/-- svd-rs/src/device.rs:145-167. -/
def Device.toBuilder (d : Device) : DeviceBuilder :=
  { vendor := d.vendor, vendorId := d.vendorId, name := some d.name, series := d.series,
    version := some d.version, description := some d.description, licenseText := d.licenseText,
    cpu := d.cpu, headerSystemFilename := d.headerSystemFilename,
    headerDefinitionsPrefix := d.headerDefinitionsPrefix,
    addressUnitBits := some d.addressUnitBits, width := some d.width,
    defaultRegisterProperties := d.defaultRegisterProperties, peripherals := some d.peripherals,
    xmlnsXs := some d.xmlnsXs, noNamespaceSchemaLocation := some d.noNamespaceSchemaLocation,
    schemaVersion := some d.schemaVersion }

/-- `self.x.or_else(|| if !lvl.is_strict() { Some(dflt) } else { None })`
(svd-rs/src/device.rs:266-298). -/
def orDefault {α} (o : Option α) (lvl : ValidateLevel) (dflt : α) : Option α :=
  match o with
  | some a => some a
  | none => if !lvl.isStrict then some dflt else none

/-- svd-rs/src/device.rs:256-309 `build`. -/
def DeviceBuilder.build (b : DeviceBuilder) (lvl : ValidateLevel) : M Device := do
  let name ← need b.name "name"
  let version ← need (orDefault b.version lvl "1.0".toList) "version"
  let description ← need (orDefault b.description lvl []) "description"
  let addressUnitBits ← need (orDefault b.addressUnitBits lvl 8) "addressUnitBits"
  let width ← need (orDefault b.width lvl 32) "width"
  let props ← b.defaultRegisterProperties.build lvl
  let peripherals ← need b.peripherals "peripherals"
  let device : Device :=
    { vendor := b.vendor, vendorId := b.vendorId, name := name, series := b.series,
      version := version, description := description, licenseText := b.licenseText, cpu := b.cpu,
      headerSystemFilename := b.headerSystemFilename,
      headerDefinitionsPrefix := b.headerDefinitionsPrefix, addressUnitBits := addressUnitBits,
      width := width, defaultRegisterProperties := props, peripherals := peripherals,
      xmlnsXs := b.xmlnsXs.getD defaultXmlnsXs,
      noNamespaceSchemaLocation :=
        b.noNamespaceSchemaLocation.getD defaultNoNamespaceSchemaLocation,
      schemaVersion := b.schemaVersion.getD defaultSchemaVersion }
  device.validate lvl
  .ok device

/-- svd-rs/src/device.rs:318-374 `modify_from`. -/
def Device.modifyFrom (s : Device) (b : DeviceBuilder) (lvl : ValidateLevel) : Device × M Unit :=
  let s := { s with
    vendor := setIfSomeE b.vendor s.vendor
    vendorId := setIfSomeE b.vendorId s.vendorId
    name := setIf b.name s.name
    series := setIfSomeE b.series s.series
    version := setIf b.version s.version
    description := setIf b.description s.description
    licenseText := setIfSomeE b.licenseText s.licenseText
    cpu := setIfSome b.cpu s.cpu
    headerSystemFilename := setIfSomeE b.headerSystemFilename s.headerSystemFilename
    headerDefinitionsPrefix := setIfSomeE b.headerDefinitionsPrefix s.headerDefinitionsPrefix
    addressUnitBits := setIf b.addressUnitBits s.addressUnitBits
    width := setIf b.width s.width
    defaultRegisterProperties := s.defaultRegisterProperties.modified b.defaultRegisterProperties }
  match s.defaultRegisterProperties.validate lvl with
  | .error e => (s, .error e)
  | .ok () =>
    let s := { s with
      peripherals := setIf b.peripherals s.peripherals
      xmlnsXs := setIf b.xmlnsXs s.xmlnsXs
      noNamespaceSchemaLocation := setIf b.noNamespaceSchemaLocation s.noNamespaceSchemaLocation
      schemaVersion := setIf b.schemaVersion s.schemaVersion }
    (s, s.validate lvl)

end Svd
