import Verif.Model.Regex

/-!
# Validation (svd-rs `validate`, `validate_all`)
-/

namespace Svd

/-- `if cond { body }`. -/
def whenM (b : Bool) (m : M Unit) : M Unit := if b then m else .ok ()

/-- `if let Some(x) = o { body }`. -/
def forOpt {α} (o : Option α) (f : α → M Unit) : M Unit :=
  match o with
  | some a => f a
  | none => .ok ()

/-- `u64::MAX.count_ones() - value.leading_zeros()`: the number of bits of a `u64`
(svd-rs/src/registerproperties.rs:136-139). -/
def bitLen (v : U64) : Nat := 64 - (if v.toNat = 0 then 64 else 63 - v.toNat.log2)

/-- svd-rs/src/registerproperties.rs:130-157 `check_reset_value`. -/
def checkResetValue (size : Option U32) (value mask : Option U64) (lvl : ValidateLevel) :
    M Unit := do
  (match size, value with
   | some sz, some v => if bitLen v > sz.toNat then fail (.resetValueTooLarge v sz) else .ok ()
   | _, _ => .ok ())
  whenM lvl.isStrict do
    (match size, mask with
     | some sz, some m => if bitLen m > sz.toNat then fail (.resetMaskTooLarge m sz) else .ok ()
     | _, _ => .ok ())
    (match value, mask with
     | some v, some m => if v &&& m ≠ v then fail (.resetMaskConflict v m) else .ok ()
     | _, _ => .ok ())

/-- svd-rs/src/registerproperties.rs:92-97. -/
def RegisterProperties.validate (p : RegisterProperties) (lvl : ValidateLevel) : M Unit :=
  whenM (!lvl.isDisabled) (checkResetValue p.size p.resetValue p.resetMask lvl)

/-- svd-rs/src/enumeratedvalue.rs:106-108. -/
def EnumeratedValue.isDefaultB (e : EnumeratedValue) : Bool := e.isDefault == some true

/-- svd-rs/src/enumeratedvalue.rs:134-147. -/
def EnumeratedValue.validate (e : EnumeratedValue) (lvl : ValidateLevel) : M Unit :=
  if !lvl.isDisabled then do
    whenM lvl.isStrict (checkName e.name "name")
    match e.value.isSome, e.isDefaultB with
    | false, false => fail .enumAbsentValue
    | true, true => if lvl.isStrict then fail (.enumValueAndDefault e.value) else .ok ()
    | _, _ => .ok ()
  else .ok ()

/-- svd-rs/src/enumeratedvalue.rs:148-153 `check_range` for the range `0..hi`. -/
def EnumeratedValue.checkRange (e : EnumeratedValue) (hi : U64) : M Unit :=
  match e.value with
  | some x => if !(x.toNat < hi.toNat) then fail (.enumOutOfRange x 0 hi) else .ok ()
  | none => .ok ()

/-- svd-rs/src/enumeratedvalues.rs:134-154. -/
def EnumeratedValues.validate (e : EnumeratedValues) (lvl : ValidateLevel) : M Unit :=
  if !lvl.isDisabled then do
    whenM lvl.isStrict (forOpt e.name fun n => checkName n "name")
    match e.derivedFrom with
    | some d => whenM lvl.isStrict (checkDerivedName d "derivedFrom")
    | none => if e.values.isEmpty then fail .enumEmpty else .ok ()
  else .ok ()

/-- svd-rs/src/enumeratedvalues.rs:156-161. -/
def EnumeratedValues.validateAll (e : EnumeratedValues) (lvl : ValidateLevel) : M Unit := do
  e.values.forM fun v => v.validate lvl
  e.validate lvl

/-- svd-rs/src/enumeratedvalues.rs:162-167. -/
def EnumeratedValues.checkRange (e : EnumeratedValues) (hi : U64) : M Unit :=
  e.values.forM fun v => v.checkRange hi

/-- svd-rs/src/enumeratedvalues.rs:169-175. -/
def EnumeratedValues.usageOf (e : EnumeratedValues) : Option Usage :=
  if e.derivedFrom.isSome then none else some (e.usage.getD .readWrite)

/-- svd-rs/src/enumeratedvalues.rs:178-180. -/
def EnumeratedValues.getValue (e : EnumeratedValues) (name : Str) : Option EnumeratedValue :=
  e.values.find? fun v => v.name == name

/-- svd-rs/src/enumeratedvalues.rs:102-104. -/
def EnumeratedValues.defaultValue (e : EnumeratedValues) : Option EnumeratedValue :=
  e.values.find? fun v => v.isDefaultB

/-- svd-rs/src/writeconstraint.rs:43-53 `check_range` for the range `0..hi`. -/
def WriteConstraintRange.checkRange (r : WriteConstraintRange) (hi : U64) : M Unit :=
  if r.min.toNat > r.max.toNat then fail (.wcReversedRange r.min r.max)
  else [r.min, r.max].forM fun v =>
    if !(v.toNat < hi.toNat) then fail (.wcOutOfRange v 0 hi) else .ok ()

/-- `matches!(u, None | Some(Usage::Read))` (svd-rs/src/field.rs:330). -/
def noneOrRead : Option Usage → Bool
  | none | some .read => true
  | _ => false

/-- `matches!(u, None | Some(Usage::Write))` (svd-rs/src/field.rs:331). -/
def noneOrWrite : Option Usage → Bool
  | none | some .write => true
  | _ => false

/-- svd-rs/src/field.rs:326-337: which pairs of enumerated values are compatible. -/
def compatibleEnums : List EnumeratedValues → Bool
  | [] => true
  | [_] => true
  | [a, b] => (noneOrRead a.usageOf && noneOrWrite b.usageOf) ||
      (noneOrRead b.usageOf && noneOrWrite a.usageOf)
  | _ => false

/-- svd-rs/src/field.rs:305-350. -/
def FieldInfo.validate (f : FieldInfo) (lvl : ValidateLevel) : M Unit :=
  whenM (!lvl.isDisabled) do
    whenM lvl.isStrict do
      checkDimableName f.name "name"
      forOpt f.derivedFrom fun n => checkDerivedName n "derivedFrom"
    if f.bitRange.width = 0 then fail .zeroWidth else .ok ()
    whenM (f.bitRange.width.toNat < 64)
      (f.enumeratedValues.forM fun ev => ev.checkRange (BitVec.ofNat 64 (2 ^ f.bitRange.width.toNat)))
    whenM lvl.isStrict
      (if compatibleEnums f.enumeratedValues then .ok () else fail .incompatibleEnumeratedValues)
    match f.writeConstraint with
    | some (.range r) =>
      whenM (f.bitRange.width.toNat < 64) (r.checkRange (BitVec.ofNat 64 (2 ^ f.bitRange.width.toNat)))
    | _ => .ok ()

/-- svd-rs/src/field.rs:352-357. -/
def FieldInfo.validateAll (f : FieldInfo) (lvl : ValidateLevel) : M Unit := do
  f.enumeratedValues.forM fun e => e.validateAll lvl
  f.validate lvl

/-- svd-rs/src/dimelement.rs:219-222: does nothing. -/
def DimElement.validate (_ : DimElement) (_ : ValidateLevel) : M Unit := .ok ()

/-- svd-rs/src/field.rs:409-414. -/
def Field.validateAll (f : Field) (lvl : ValidateLevel) : M Unit := do
  forOpt f.dim? fun d => d.validate lvl
  f.info.validateAll lvl

/-- svd-rs/src/register.rs:366-388. -/
def RegisterInfo.validate (r : RegisterInfo) (lvl : ValidateLevel) : M Unit :=
  whenM (!lvl.isDisabled) do
    whenM lvl.isStrict do
      checkDimableName r.name "name"
      forOpt r.alternateGroup fun n => checkName n "alternateGroup"
      forOpt r.alternateRegister fun n => checkDimableName n "alternateRegister"
    match r.derivedFrom with
    | some n => whenM lvl.isStrict (checkDerivedName n "derivedFrom")
    | none =>
      forOpt r.fields fun fs => if fs.isEmpty && lvl.isStrict then fail .emptyFields else .ok ()

/-- svd-rs/src/register.rs:399-404 `fields`. -/
def RegisterInfo.fieldList (r : RegisterInfo) : List Field := r.fields.getD []

/-- svd-rs/src/register.rs:415-417 `get_field`. -/
def RegisterInfo.getField (r : RegisterInfo) (name : Str) : Option Field :=
  r.fieldList.find? fun f => f.info.name == name

/-- svd-rs/src/register.rs:390-396. -/
def RegisterInfo.validateAll (r : RegisterInfo) (lvl : ValidateLevel) : M Unit := do
  r.properties.validate lvl
  r.fieldList.forM fun f => Field.validateAll f lvl
  r.validate lvl

/-- svd-rs/src/register.rs:432-437. -/
def Register.validateAll (r : Register) (lvl : ValidateLevel) : M Unit := do
  forOpt r.dim? fun d => d.validate lvl
  r.info.validateAll lvl

/-- svd-rs/src/cluster.rs:250-264, on the parts of a cluster. -/
def validateClusterParts (h : ClusterHead) (children : List RegisterCluster) (lvl : ValidateLevel) :
    M Unit :=
  whenM (!lvl.isDisabled) do
    whenM lvl.isStrict (checkDimableName h.name "name")
    match h.derivedFrom with
    | some n => whenM lvl.isStrict (checkDerivedName n "derivedFrom")
    | none => if children.isEmpty && lvl.isStrict then fail .emptyCluster else .ok ()

/-- svd-rs/src/cluster.rs:250-264. -/
def ClusterInfo.validate (c : ClusterInfo) (lvl : ValidateLevel) : M Unit :=
  validateClusterParts c.toClusterHead c.children lvl

/-- `for r in self.registers() { r.validate_all(lvl)? }` (svd-rs/src/cluster.rs:268-270,
peripheral.rs:411-413). -/
def validateRegisters (lvl : ValidateLevel) : List RegisterCluster → M Unit
  | [] => .ok ()
  | .register r :: cs => do
    Register.validateAll r lvl
    validateRegisters lvl cs
  | .cluster .. :: cs => validateRegisters lvl cs

mutual
/-- svd-rs/src/cluster.rs:266-275 and 353-358 `Cluster::validate_all`; on a register,
svd-rs/src/register.rs:432-437. -/
def RegisterCluster.validateAll (lvl : ValidateLevel) : RegisterCluster → M Unit
  | .register r => Register.validateAll r lvl
  | .cluster h d cs => do
    forOpt d fun d => d.validate lvl
    h.defaultRegisterProperties.validate lvl
    validateRegisters lvl cs
    validateClusters lvl cs
    validateClusterParts h cs lvl
/-- `for c in self.clusters() { c.validate_all(lvl)? }` (svd-rs/src/cluster.rs:271-273,
peripheral.rs:414-416). -/
def validateClusters (lvl : ValidateLevel) : List RegisterCluster → M Unit
  | [] => .ok ()
  | .register _ :: cs => validateClusters lvl cs
  | .cluster h d ch :: cs => do
    RegisterCluster.validateAll lvl (.cluster h d ch)
    validateClusters lvl cs
end

/-- svd-rs/src/addressblock.rs:155-157: does nothing. -/
def AddressBlock.validate (_ : AddressBlock) (_ : ValidateLevel) : M Unit := .ok ()
/-- svd-rs/src/interrupt.rs:99-101: does nothing. -/
def Interrupt.validate (_ : Interrupt) (_ : ValidateLevel) : M Unit := .ok ()
/-- svd-rs/src/cpu.rs:323-326: does nothing. -/
def Cpu.validate (_ : Cpu) (_ : ValidateLevel) : M Unit := .ok ()

/-- svd-rs/src/peripheral.rs:382-399. -/
def PeripheralInfo.validate (p : PeripheralInfo) (lvl : ValidateLevel) : M Unit :=
  whenM (!lvl.isDisabled) do
    whenM lvl.isStrict (checkDimableName p.name "name")
    match p.derivedFrom with
    | some n => whenM lvl.isStrict (checkDimableName n "derivedFrom")
    | none =>
      forOpt p.registers fun rs => if rs.isEmpty && lvl.isStrict then fail .emptyRegisters else .ok ()

/-- The children a peripheral's iterators walk over (svd-rs/src/peripheral.rs:421-469:
`match &self.registers { Some(regs) => .., None => empty }`). -/
def PeripheralInfo.children (p : PeripheralInfo) : List RegisterCluster := p.registers.getD []

/-- svd-rs/src/peripheral.rs:401-418. -/
def PeripheralInfo.validateAll (p : PeripheralInfo) (lvl : ValidateLevel) : M Unit := do
  forOpt p.addressBlock fun abs => abs.forM fun ab => ab.validate lvl
  p.interrupt.forM fun i => i.validate lvl
  p.defaultRegisterProperties.validate lvl
  validateRegisters lvl p.children
  validateClusters lvl p.children
  p.validate lvl

/-- svd-rs/src/peripheral.rs:525-530 `Peripheral::validate_all`. -/
def Peripheral.validateAll (p : Peripheral) (lvl : ValidateLevel) : M Unit := do
  forOpt p.dim? fun d => d.validate lvl
  p.info.validateAll lvl

/-- svd-rs/src/device.rs:377-385. -/
def Device.validate (d : Device) (lvl : ValidateLevel) : M Unit :=
  whenM (!lvl.isDisabled) (if d.peripherals.isEmpty then fail .emptyDevice else .ok ())

/-- svd-rs/src/device.rs:387-396. -/
def Device.validateAll (d : Device) (lvl : ValidateLevel) : M Unit := do
  forOpt d.cpu fun c => c.validate lvl
  d.defaultRegisterProperties.validate lvl
  d.peripherals.forM fun p => Peripheral.validateAll p lvl
  d.validate lvl

end Svd
