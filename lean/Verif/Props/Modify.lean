import Verif.Props.Build
import Verif.Props.Validation

/-!
# C80: modifying again, modifying with nothing, and modifications that fail

`modify_from` changes the element in place and validates afterwards.
-/

namespace Svd

open Spec

@[simp] theorem setIf_none {α : Type} (s : α) : setIf none s = s := rfl

theorem setIf_some {α : Type} (a s : α) : setIf (some a) s = a := rfl

@[simp] theorem setIfSome_none {α : Type} (s : Option α) : setIfSome none s = s := rfl

@[simp] theorem setIfSomeE_none {α : Type} (s : Option (List α)) : setIfSomeE none s = s := rfl

@[simp] theorem setIf_again {α : Type} (b : Option α) (s : α) : setIf b (setIf b s) = setIf b s := by
  cases b <;> rfl

@[simp] theorem setIfSome_again {α : Type} (b s : Option α) : setIfSome b (setIfSome b s) = setIfSome b s := by
  cases b <;> rfl

@[simp] theorem setIfSomeE_again {α : Type} (b s : Option (List α)) :
    setIfSomeE b (setIfSomeE b s) = setIfSomeE b s := by
  cases b <;> rfl

@[simp] theorem props_again (s b : RegisterProperties) : (s.modified b).modified b = s.modified b := by
  simp [RegisterProperties.modified]

@[simp] theorem props_nothing (s : RegisterProperties) : s.modified {} = s := rfl

/-! ## Modifying again -/

/-- **C80.** Modifying the elements without children again changes nothing and gives the same result. -/
theorem C80_again_small (lvl : ValidateLevel) :
    (∀ s b : RegisterProperties, (s.modifyFrom b lvl).1.modifyFrom b lvl = s.modifyFrom b lvl) ∧
    (∀ (s : EnumeratedValue) b, (s.modifyFrom b lvl).1.modifyFrom b lvl = s.modifyFrom b lvl) ∧
    (∀ (s : EnumeratedValues) b, (s.modifyFrom b lvl).1.modifyFrom b lvl = s.modifyFrom b lvl) ∧
    (∀ (s : DimElement) b, (s.modifyFrom b lvl).1.modifyFrom b lvl = s.modifyFrom b lvl) ∧
    (∀ (s : AddressBlock) b, (s.modifyFrom b lvl).1.modifyFrom b lvl = s.modifyFrom b lvl) ∧
    (∀ (s : Interrupt) b, (s.modifyFrom b lvl).1.modifyFrom b lvl = s.modifyFrom b lvl) ∧
    (∀ (s : Cpu) b, (s.modifyFrom b lvl).1.modifyFrom b lvl = s.modifyFrom b lvl) := by
  refine ⟨fun s b => ?_, fun s b => ?_, fun s b => ?_, fun s b => ?_, fun s b => ?_, fun s b => ?_,
    fun s b => ?_⟩
  · simp [RegisterProperties.modifyFrom]
  · simp [EnumeratedValue.modifyFrom, EnumeratedValue.modified]
  · unfold EnumeratedValues.modifyFrom EnumeratedValues.modified
    by_cases h : b.derivedFrom.isSome = true
    · simp only [h, if_true]
    · simp only [h, if_false, setIfSomeE_again, setIfSome_again, setIf_again, Bool.false_eq_true]
  · simp [DimElement.modifyFrom, DimElement.modified]
  · simp [AddressBlock.modifyFrom, AddressBlock.modified]
  · simp [Interrupt.modifyFrom, Interrupt.modified]
  · simp [Cpu.modifyFrom, Cpu.modified]

theorem C80_again_field (s : FieldInfo) (b : FieldInfoBuilder) (lvl : ValidateLevel) :
    (s.modifyFrom b lvl).1.modifyFrom b lvl = s.modifyFrom b lvl := by
  obtain ⟨_, _, _, _, _, _, _, _, df⟩ := s
  unfold FieldInfo.modifyFrom FieldInfo.modified
  cases hr : b.bitRange <;> cases h : b.derivedFrom <;>
    simp [setIf_some]

theorem C80_again_register (s : RegisterInfo) (b : RegisterInfoBuilder) (lvl : ValidateLevel) :
    (s.modifyFrom b lvl).1.modifyFrom b lvl = s.modifyFrom b lvl := by
  unfold RegisterInfo.modifyFrom
  cases h : b.derivedFrom with
  | some d => simp
  | none =>
    simp only [Option.isSome_none, Bool.false_eq_true, if_false]
    cases hv : RegisterProperties.validate (s.properties.modified b.properties) lvl <;> simp [hv]

theorem C80_again_cluster (s : ClusterInfo) (b : ClusterInfoBuilder) (lvl : ValidateLevel) :
    (s.modifyFrom b lvl).1.modifyFrom b lvl = s.modifyFrom b lvl := by
  unfold ClusterInfo.modifyFrom
  cases h : b.derivedFrom with
  | some d => simp
  | none =>
    simp only [Option.isSome_none, Bool.false_eq_true, if_false]
    cases hv : RegisterProperties.validate
      (s.defaultRegisterProperties.modified b.defaultRegisterProperties) lvl <;> simp [hv]

theorem C80_again_peripheral (s : PeripheralInfo) (b : PeripheralInfoBuilder) (lvl : ValidateLevel) :
    (s.modifyFrom b lvl).1.modifyFrom b lvl = s.modifyFrom b lvl := by
  unfold PeripheralInfo.modifyFrom
  cases h : b.derivedFrom with
  | some d => simp
  | none =>
    simp only [Option.isSome_none, Bool.false_eq_true, if_false]
    cases hv : RegisterProperties.validate
      (s.defaultRegisterProperties.modified b.defaultRegisterProperties) lvl <;> simp [hv]

theorem C80_again_device (s : Device) (b : DeviceBuilder) (lvl : ValidateLevel) :
    (s.modifyFrom b lvl).1.modifyFrom b lvl = s.modifyFrom b lvl := by
  unfold Device.modifyFrom
  dsimp only
  cases hv : RegisterProperties.validate
    (s.defaultRegisterProperties.modified b.defaultRegisterProperties) lvl <;> simp [hv]

/-! ## Modifying with nothing -/

/-- **C80.** A builder that gives nothing changes nothing; the result tells whether the element is valid. -/
theorem C80_nothing (lvl : ValidateLevel) :
    (∀ s : RegisterProperties, s.modifyFrom {} lvl = (s, s.validate lvl)) ∧
    (∀ s : EnumeratedValue, s.modifyFrom {} lvl = (s, s.validate lvl)) ∧
    (∀ s : EnumeratedValues, s.modifyFrom {} lvl = (s, s.validate lvl)) ∧
    (∀ s : DimElement, s.modifyFrom {} lvl = (s, .ok ())) ∧
    (∀ s : AddressBlock, s.modifyFrom {} lvl = (s, .ok ())) ∧
    (∀ s : Interrupt, s.modifyFrom {} lvl = (s, .ok ())) ∧
    (∀ s : Cpu, s.modifyFrom {} lvl = (s, .ok ())) ∧
    (∀ s : FieldInfo, s.modifyFrom {} lvl = (s, s.validate lvl)) ∧
    (∀ s : RegisterInfo, s.modifyFrom {} lvl = (s, do s.properties.validate lvl; s.validate lvl)) ∧
    (∀ s : ClusterInfo, s.modifyFrom {} lvl =
      (s, do s.defaultRegisterProperties.validate lvl; s.validate lvl)) ∧
    (∀ s : PeripheralInfo, s.modifyFrom {} lvl =
      (s, do s.defaultRegisterProperties.validate lvl; s.validate lvl)) ∧
    (∀ s : Device, s.modifyFrom {} lvl =
      (s, do s.defaultRegisterProperties.validate lvl; s.validate lvl)) := by
  refine ⟨fun s => rfl, fun s => rfl, fun s => rfl, fun s => rfl, fun s => rfl, fun s => rfl, fun s => rfl,
    fun s => rfl, fun s => ?_, fun s => ?_, fun s => ?_, fun s => ?_⟩
  · unfold RegisterInfo.modifyFrom
    cases h : s.properties.validate lvl <;> simp [h]
  · unfold ClusterInfo.modifyFrom
    cases h : s.defaultRegisterProperties.validate lvl <;> simp [h]
  · unfold PeripheralInfo.modifyFrom
    cases h : s.defaultRegisterProperties.validate lvl <;> simp [h]
  · unfold Device.modifyFrom
    cases h : s.defaultRegisterProperties.validate lvl <;> simp [h]

/-! ## Modifications that fail -/

/-- **C80.** A modification that fails is not undone.  If the register properties turn out wrong, the
identity and the properties have been changed, the members after them have not; if something else is
wrong, everything has been changed. -/
theorem C80_failed_register (s : RegisterInfo) (b : RegisterInfoBuilder) (lvl : ValidateLevel)
    (h : b.derivedFrom = none) :
    ∃ t, RegisterUpdated s b t ∧
      (PropsValid t.properties lvl → s.modifyFrom b lvl = (t, t.validate lvl)) ∧
      (¬ PropsValid t.properties lvl → ∃ e, t.properties.validate lvl = .error e ∧
        s.modifyFrom b lvl = ({ t with
          datatype := s.datatype, modifiedWriteValues := s.modifiedWriteValues,
          writeConstraint := s.writeConstraint, readAction := s.readAction, fields := s.fields }, .error e)) := by
  unfold RegisterInfo.modifyFrom
  rw [h]
  simp only [Option.isSome_none, Bool.false_eq_true, if_false]
  refine ⟨{ s with
    name := setIf b.name s.name
    displayName := setIfSomeE b.displayName s.displayName
    description := setIfSomeE b.description s.description
    alternateGroup := setIfSomeE b.alternateGroup s.alternateGroup
    alternateRegister := setIfSomeE b.alternateRegister s.alternateRegister
    addressOffset := setIf b.addressOffset s.addressOffset
    properties := s.properties.modified b.properties
    datatype := setIfSome b.datatype s.datatype
    modifiedWriteValues := setIfSome b.modifiedWriteValues s.modifiedWriteValues
    writeConstraint := setIfSome b.writeConstraint s.writeConstraint
    readAction := setIfSome b.readAction s.readAction
    fields := setIfSomeE b.fields s.fields }, ?_, fun hv => ?_, fun hv => ?_⟩
  · exact ⟨⟨upd_setIf .., upd_setIfSomeE .., upd_setIfSomeE .., upd_setIfSomeE ..,
      upd_setIfSomeE .., upd_setIf ..⟩, propsUpdated .., upd_setIfSome .., upd_setIfSome ..,
      upd_setIfSome .., upd_setIfSome .., upd_setIfSomeE .., rfl⟩
  · simp only [(C12_reset_value_check _ _).mpr hv]
  · cases hx : RegisterProperties.validate (s.properties.modified b.properties) lvl with
    | ok _ => exact absurd ((C12_reset_value_check _ _).mp hx) hv
    | error e => exact ⟨e, rfl, rfl⟩

theorem C80_failed_cluster (s : ClusterInfo) (b : ClusterInfoBuilder) (lvl : ValidateLevel)
    (h : b.derivedFrom = none) :
    ∃ t, ClusterUpdated s b t ∧
      (PropsValid t.defaultRegisterProperties lvl → s.modifyFrom b lvl = (t, t.validate lvl)) ∧
      (¬ PropsValid t.defaultRegisterProperties lvl → ∃ e, t.defaultRegisterProperties.validate lvl = .error e ∧
        s.modifyFrom b lvl = ({ t with children := s.children }, .error e)) := by
  unfold ClusterInfo.modifyFrom
  rw [h]
  simp only [Option.isSome_none, Bool.false_eq_true, if_false]
  refine ⟨{ s with
    name := setIf b.name s.name
    description := setIfSomeE b.description s.description
    alternateCluster := setIfSomeE b.alternateCluster s.alternateCluster
    headerStructName := setIfSomeE b.headerStructName s.headerStructName
    addressOffset := setIf b.addressOffset s.addressOffset
    defaultRegisterProperties := s.defaultRegisterProperties.modified b.defaultRegisterProperties
    children := setIf b.children s.children }, ?_, fun hv => ?_, fun hv => ?_⟩
  · exact ⟨⟨upd_setIf .., upd_setIfSomeE .., upd_setIfSomeE .., upd_setIfSomeE .., upd_setIf ..⟩,
      propsUpdated .., upd_setIf .., rfl⟩
  · simp only [(C12_reset_value_check _ _).mpr hv]
  · cases hx : RegisterProperties.validate
        (s.defaultRegisterProperties.modified b.defaultRegisterProperties) lvl with
    | ok _ => exact absurd ((C12_reset_value_check _ _).mp hx) hv
    | error e => exact ⟨e, rfl, rfl⟩

theorem C80_failed_peripheral (s : PeripheralInfo) (b : PeripheralInfoBuilder) (lvl : ValidateLevel)
    (h : b.derivedFrom = none) :
    ∃ t, PeripheralUpdated s b t ∧
      (PropsValid t.defaultRegisterProperties lvl → s.modifyFrom b lvl = (t, t.validate lvl)) ∧
      (¬ PropsValid t.defaultRegisterProperties lvl → ∃ e, t.defaultRegisterProperties.validate lvl = .error e ∧
        s.modifyFrom b lvl = ({ t with registers := s.registers }, .error e)) := by
  unfold PeripheralInfo.modifyFrom
  rw [h]
  simp only [Option.isSome_none, Bool.false_eq_true, if_false]
  refine ⟨{ s with
    name := setIf b.name s.name
    displayName := setIfSomeE b.displayName s.displayName
    version := setIfSomeE b.version s.version
    description := setIfSomeE b.description s.description
    alternatePeripheral := setIfSomeE b.alternatePeripheral s.alternatePeripheral
    groupName := setIfSomeE b.groupName s.groupName
    prependToName := setIfSomeE b.prependToName s.prependToName
    appendToName := setIfSomeE b.appendToName s.appendToName
    headerStructName := setIfSomeE b.headerStructName s.headerStructName
    baseAddress := setIf b.baseAddress s.baseAddress
    interrupt := setIf b.interrupt s.interrupt
    addressBlock := setIfSome b.addressBlock s.addressBlock
    defaultRegisterProperties := s.defaultRegisterProperties.modified b.defaultRegisterProperties
    registers := setIfSomeE b.registers s.registers }, ?_, fun hv => ?_, fun hv => ?_⟩
  · exact ⟨⟨upd_setIf .., upd_setIfSomeE .., upd_setIfSomeE .., upd_setIfSomeE ..,
      upd_setIfSomeE .., upd_setIfSomeE .., upd_setIfSomeE .., upd_setIfSomeE ..,
      upd_setIfSomeE .., upd_setIf .., upd_setIf ..⟩,
      propsUpdated .., upd_setIfSome .., upd_setIfSomeE .., rfl⟩
  · simp only [(C12_reset_value_check _ _).mpr hv]
  · cases hx : RegisterProperties.validate
        (s.defaultRegisterProperties.modified b.defaultRegisterProperties) lvl with
    | ok _ => exact absurd ((C12_reset_value_check _ _).mp hx) hv
    | error e => exact ⟨e, rfl, rfl⟩

theorem C80_failed_device (s : Device) (b : DeviceBuilder) (lvl : ValidateLevel) :
    ∃ t, DeviceUpdated s b t ∧
      (PropsValid t.defaultRegisterProperties lvl → s.modifyFrom b lvl = (t, t.validate lvl)) ∧
      (¬ PropsValid t.defaultRegisterProperties lvl → ∃ e, t.defaultRegisterProperties.validate lvl = .error e ∧
        s.modifyFrom b lvl = ({ t with
          peripherals := s.peripherals, xmlnsXs := s.xmlnsXs,
          noNamespaceSchemaLocation := s.noNamespaceSchemaLocation, schemaVersion := s.schemaVersion },
          .error e)) := by
  unfold Device.modifyFrom
  dsimp only
  refine ⟨{ s with
    vendor := setIfSomeE b.vendor s.vendor
    vendorId := setIfSomeE b.vendorId s.vendorId
    name := setIf b.name s.name
    series := setIfSomeE b.series s.series
    version := setIf b.version s.version
    description := setIf b.description s.description
    licenseText := setIfSomeE b.licenseText s.licenseText
    cpu := setIfSome b.cpu s.cpu
    headerSystemFilename := setIfSomeE b.headerSystemFilename s.headerSystemFilename
    headerDefinitionsPrefix := setIfSomeE b.headerDefinitionsPrefix s.headerDefinitionsPrefix
    addressUnitBits := setIf b.addressUnitBits s.addressUnitBits
    width := setIf b.width s.width
    defaultRegisterProperties := s.defaultRegisterProperties.modified b.defaultRegisterProperties
    peripherals := setIf b.peripherals s.peripherals
    xmlnsXs := setIf b.xmlnsXs s.xmlnsXs
    noNamespaceSchemaLocation := setIf b.noNamespaceSchemaLocation s.noNamespaceSchemaLocation
    schemaVersion := setIf b.schemaVersion s.schemaVersion }, ?_, fun hv => ?_, fun hv => ?_⟩
  · exact ⟨upd_setIfSomeE .., upd_setIfSomeE .., upd_setIf .., upd_setIfSomeE .., upd_setIf ..,
      upd_setIf .., upd_setIfSomeE .., upd_setIfSome .., upd_setIfSomeE .., upd_setIfSomeE ..,
      upd_setIf .., upd_setIf .., propsUpdated .., upd_setIf .., upd_setIf .., upd_setIf ..,
      upd_setIf ..⟩
  · simp only [(C12_reset_value_check _ _).mpr hv]
  · cases hx : RegisterProperties.validate
        (s.defaultRegisterProperties.modified b.defaultRegisterProperties) lvl with
    | ok _ => exact absurd ((C12_reset_value_check _ _).mp hx) hv
    | error e => exact ⟨e, rfl, rfl⟩

/-! ## Examples -/

/-- A register of eight bits and a builder with a new name, a reset value that does not fit and a data type. -/
def halfModified : RegisterInfo × M Unit :=
  RegisterInfo.modifyFrom { Sample.registerInfo "R" 4 with properties := { size := some 8 } }
    { name := some "S".toList, properties := { resetValue := some 256 }, datatype := some .u8 } .weak

example : halfModified =
    ({ Sample.registerInfo "S" 4 with properties := { size := some 8, resetValue := some 256 } },
      .error (.err (.resetValueTooLarge 256 8))) := by decide +kernel

/-- The same modification again: the same register and the same error. -/
example : halfModified.1.modifyFrom
    { name := some "S".toList, properties := { resetValue := some 256 }, datatype := some .u8 } .weak =
      halfModified := C80_again_register ..

/-- With a bad name instead of a bad reset value all members have been changed. -/
example : RegisterInfo.modifyFrom (Sample.registerInfo "R" 4)
    { name := some "a b".toList, datatype := some .u8 } .strict =
    ({ Sample.registerInfo "a b" 4 with datatype := some .u8 },
      .error (.err (.invalidName "a b".toList "name"))) := by decide +kernel

/-- A cluster of eight bits, and a builder with a new name, a reset value that does not fit and a child. -/
def narrowCluster : ClusterInfo := ⟨{ Sample.clusterHead "C" 4 with defaultRegisterProperties := { size := some 8 } }, []⟩
def wideCluster : ClusterInfoBuilder :=
  { name := some "D".toList, defaultRegisterProperties := { resetValue := some 256 },
    children := some [.register (.single (Sample.registerInfo "R" 0))] }

-- The second case of `C80_failed_cluster`: the name has changed, the children have not.
example : ∃ t e, ClusterUpdated narrowCluster wideCluster t ∧
    narrowCluster.modifyFrom wideCluster .weak = ({ t with children := [] }, .error e) := by
  obtain ⟨t, h, h1, h2⟩ := C80_failed_cluster narrowCluster wideCluster .weak rfl
  by_cases hv : PropsValid t.defaultRegisterProperties .weak
  · have h3 : (narrowCluster.modifyFrom wideCluster .weak).1 = t := congrArg Prod.fst (h1 hv)
    rw [← h3, ← C12_reset_value_check] at hv
    exact absurd hv (by decide +kernel)
  · obtain ⟨e, _, h3⟩ := h2 hv
    exact ⟨t, e, h, h3⟩

-- The same for `C80_failed_peripheral` and `C80_failed_device`, computed.
example : PeripheralInfo.modifyFrom
    { Sample.peripheralInfo "P" 4 with defaultRegisterProperties := { size := some 8 } }
    { name := some "Q".toList, defaultRegisterProperties := { resetValue := some 256 }, registers := some [] } .weak =
    ({ Sample.peripheralInfo "Q" 4 with defaultRegisterProperties := { size := some 8, resetValue := some 256 } },
      .error (.err (.resetValueTooLarge 256 8))) := by decide +kernel
example : Device.modifyFrom
    { Sample.device [] with defaultRegisterProperties := { size := some 8 } }
    { name := some "Q".toList, defaultRegisterProperties := { resetValue := some 256 },
      peripherals := some [.single (Sample.peripheralInfo "P" 4)] } .weak =
    ({ Sample.device [] with name := "Q".toList, defaultRegisterProperties := { size := some 8, resetValue := some 256 } },
      .error (.err (.resetValueTooLarge 256 8))) := by decide +kernel
-- With a reset value that fits the device is modified completely, and refused if it has no peripherals then.
example : Device.modifyFrom
    { Sample.device [.single (Sample.peripheralInfo "P" 4)] with defaultRegisterProperties := { size := some 8 } }
    { name := some "Q".toList, peripherals := some [] } .weak =
    ({ Sample.device [] with name := "Q".toList, defaultRegisterProperties := { size := some 8 } },
      .error (.err .emptyDevice)) := by decide +kernel

end Svd
