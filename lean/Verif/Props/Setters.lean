import Verif.Spec.Sample
import Verif.Model.Setters
import Verif.Props.Build
import Verif.Spec.Calls

/-!
# C51: building with setters

Calling every setter once, in any order, on a builder in any state (so after any earlier calls), builds
the element with these values if it validates: the last call of each setter decides, and setters do not
affect each other.  The right-hand sides are those of C17.
-/

namespace Svd

open Spec

theorem applyAll_perm {β : Type} {l l' : List (β → β)} (h : l.Perm l')
    (hc : l'.Pairwise fun f g => ∀ b, g (f b) = f (g b)) (b : β) : applyAll l b = applyAll l' b := by
  induction h generalizing b with
  | nil => rfl
  | cons f _ ih => exact ih (List.Pairwise.of_cons hc) _
  | swap f g l =>
    have := (List.pairwise_cons.mp hc).1 g (by simp) b
    simp only [applyAll, List.foldl_cons]
    rw [this]
  | trans h1 h2 ih1 ih2 =>
    rw [← ih2 hc]
    exact ih1 (hc.perm h2.symm fun h b => (h b).symm) b

/-- Proves that the calls of a list do not affect each other. -/
macro "commuting" : tactic => `(tactic| (
  simp only [List.pairwise_cons, List.forall_mem_cons, List.Pairwise.nil, List.not_mem_nil,
    false_implies, implies_true, and_true]
  repeat' first | apply And.intro | exact fun _ => rfl))

theorem C51_properties (p b : RegisterProperties) (l : List (RegisterProperties → RegisterProperties))
    (h : l.Perm [(·.withSize p.size), (·.withAccess p.access), (·.withProtection p.protection),
      (·.withResetValue p.resetValue), (·.withResetMask p.resetMask)]) :
    applyAll l b = p := by
  rw [applyAll_perm h (by commuting)]
  rfl

theorem C51_enumValue (p : EnumeratedValue) (lvl : ValidateLevel) (b : EnumeratedValueBuilder)
    (l : List (EnumeratedValueBuilder → EnumeratedValueBuilder))
    (h : l.Perm [(·.withName p.name), (·.withDescription p.description), (·.withValue p.value),
      (·.withIsDefault p.isDefault)]) :
    (applyAll l b).build lvl =
      (p.validate lvl).map fun _ => { p with description := dropEmpty p.description } := by
  rw [applyAll_perm h (by commuting)]
  exact C17_enumValue p lvl

theorem C51_enums (p : EnumeratedValues) (lvl : ValidateLevel) (b : EnumeratedValuesBuilder)
    (l : List (EnumeratedValuesBuilder → EnumeratedValuesBuilder))
    (h : l.Perm [(·.withName p.name), (·.withUsage p.usage), (·.withDerivedFrom p.derivedFrom),
      (·.withValues p.values)]) :
    (applyAll l b).build lvl =
      (p.validate lvl).map fun _ => { p with name := dropEmpty p.name } := by
  rw [applyAll_perm h (by commuting)]
  exact C17_enums p lvl

theorem C51_dim (p : DimElement) (lvl : ValidateLevel) (b : DimElementBuilder)
    (l : List (DimElementBuilder → DimElementBuilder))
    (h : l.Perm [(·.withDim p.dim), (·.withDimIncrement p.dimIncrement), (·.withDimIndex p.dimIndex),
      (·.withDimName p.dimName), (·.withDimArrayIndex p.dimArrayIndex)]) :
    (applyAll l b).build lvl =
      .ok { p with dimIndex := dropEmpty p.dimIndex, dimName := dropEmpty p.dimName } := by
  rw [applyAll_perm h (by commuting)]
  exact C17_dim p lvl

theorem C51_addressBlock (p : AddressBlock) (lvl : ValidateLevel) (b : AddressBlockBuilder)
    (l : List (AddressBlockBuilder → AddressBlockBuilder))
    (h : l.Perm [(·.withOffset p.offset), (·.withSize p.size), (·.withUsage p.usage),
      (·.withProtection p.protection)]) :
    (applyAll l b).build lvl =
      .ok p := by
  rw [applyAll_perm h (by commuting)]
  exact C17_addressBlock p lvl

theorem C51_interrupt (p : Interrupt) (lvl : ValidateLevel) (b : InterruptBuilder)
    (l : List (InterruptBuilder → InterruptBuilder))
    (h : l.Perm [(·.withName p.name), (·.withDescription p.description), (·.withValue p.value)]) :
    (applyAll l b).build lvl =
      .ok p := by
  rw [applyAll_perm h (by commuting)]
  exact C17_interrupt p lvl

theorem C51_field (p : FieldInfo) (lvl : ValidateLevel) (b : FieldInfoBuilder)
    (l : List (FieldInfoBuilder → FieldInfoBuilder))
    (h : l.Perm [(·.withName p.name), (·.withDescription p.description), (·.setBitRange p.bitRange),
      (·.withAccess p.access), (·.withModifiedWriteValues p.modifiedWriteValues),
      (·.withWriteConstraint p.writeConstraint), (·.withReadAction p.readAction),
      (·.withEnumeratedValues p.enumeratedValues), (·.withDerivedFrom p.derivedFrom)]) :
    (applyAll l b).build lvl =
      (p.validate lvl).map fun _ => { p with description := dropEmpty p.description } := by
  rw [applyAll_perm h (by commuting)]
  exact C17_field p lvl

theorem C51_register (p : RegisterInfo) (lvl : ValidateLevel) (b : RegisterInfoBuilder)
    (l : List (RegisterInfoBuilder → RegisterInfoBuilder))
    (h : l.Perm [(·.withName p.name), (·.withDisplayName p.displayName), (·.withDescription p.description),
      (·.withAlternateGroup p.alternateGroup), (·.withAlternateRegister p.alternateRegister),
      (·.withAddressOffset p.addressOffset), (·.withProperties p.properties),
      (·.withDatatype p.datatype), (·.withModifiedWriteValues p.modifiedWriteValues),
      (·.withWriteConstraint p.writeConstraint), (·.withReadAction p.readAction),
      (·.withFields p.fields), (·.withDerivedFrom p.derivedFrom)]) :
    (applyAll l b).build lvl =
      (do p.properties.validate lvl; p.validate lvl).map fun _ => p := by
  rw [applyAll_perm h (by commuting)]
  exact C17_register p lvl

theorem C51_cluster (p : ClusterInfo) (lvl : ValidateLevel) (b : ClusterInfoBuilder)
    (l : List (ClusterInfoBuilder → ClusterInfoBuilder))
    (h : l.Perm [(·.withName p.name), (·.withDescription p.description),
      (·.withAlternateCluster p.alternateCluster), (·.withHeaderStructName p.headerStructName),
      (·.withAddressOffset p.addressOffset),
      (·.withDefaultRegisterProperties p.defaultRegisterProperties), (·.withChildren p.children),
      (·.withDerivedFrom p.derivedFrom)]) :
    (applyAll l b).build lvl =
      (do p.defaultRegisterProperties.validate lvl; p.validate lvl).map fun _ =>
        { p with
        description := dropEmpty p.description
        alternateCluster := dropEmpty p.alternateCluster
        headerStructName := dropEmpty p.headerStructName } := by
  rw [applyAll_perm h (by commuting)]
  exact C17_cluster p lvl

theorem C51_peripheral (p : PeripheralInfo) (lvl : ValidateLevel) (b : PeripheralInfoBuilder)
    (l : List (PeripheralInfoBuilder → PeripheralInfoBuilder))
    (h : l.Perm [(·.withName p.name), (·.withDisplayName p.displayName), (·.withVersion p.version),
      (·.withDescription p.description), (·.withAlternatePeripheral p.alternatePeripheral),
      (·.withGroupName p.groupName), (·.withPrependToName p.prependToName),
      (·.withAppendToName p.appendToName), (·.withHeaderStructName p.headerStructName),
      (·.withBaseAddress p.baseAddress),
      (·.withDefaultRegisterProperties p.defaultRegisterProperties),
      (·.withAddressBlock p.addressBlock), (·.withInterrupt p.interrupt),
      (·.withRegisters p.registers), (·.withDerivedFrom p.derivedFrom)]) :
    (applyAll l b).build lvl =
      (do p.defaultRegisterProperties.validate lvl; p.validate lvl).map fun _ =>
        { p with
        displayName := dropEmpty p.displayName
        version := dropEmpty p.version
        description := dropEmpty p.description
        alternatePeripheral := dropEmpty p.alternatePeripheral
        groupName := dropEmpty p.groupName
        prependToName := dropEmpty p.prependToName
        appendToName := dropEmpty p.appendToName
        headerStructName := dropEmpty p.headerStructName } := by
  rw [applyAll_perm h (by commuting)]
  exact C17_peripheral p lvl

theorem C51_cpu (p : Cpu) (lvl : ValidateLevel) (b : CpuBuilder)
    (l : List (CpuBuilder → CpuBuilder))
    (h : l.Perm [(·.withName p.name), (·.withRevision p.revision), (·.withEndian p.endian),
      (·.withMpuPresent p.mpuPresent), (·.withFpuPresent p.fpuPresent),
      (·.withFpuDoublePrecision p.fpuDoublePrecision), (·.withDspPresent p.dspPresent),
      (·.withIcachePresent p.icachePresent), (·.withDcachePresent p.dcachePresent),
      (·.withItcmPresent p.itcmPresent), (·.withDtcmPresent p.dtcmPresent),
      (·.withVtorPresent p.vtorPresent), (·.withNvicPriorityBits p.nvicPriorityBits),
      (·.withHasVendorSystick p.hasVendorSystick),
      (·.withDeviceNumInterrupts p.deviceNumInterrupts), (·.withSauNumRegions p.sauNumRegions)]) :
    (applyAll l b).build lvl =
      .ok p := by
  rw [applyAll_perm h (by commuting)]
  exact C17_cpu p lvl

theorem C51_device (p : Device) (lvl : ValidateLevel) (b : DeviceBuilder)
    (l : List (DeviceBuilder → DeviceBuilder))
    (h : l.Perm [(·.withVendor p.vendor), (·.withVendorId p.vendorId), (·.withName p.name),
      (·.withSeries p.series), (·.withVersion p.version), (·.withDescription p.description),
      (·.withLicenseText p.licenseText), (·.withCpu p.cpu),
      (·.withHeaderSystemFilename p.headerSystemFilename),
      (·.withHeaderDefinitionsPrefix p.headerDefinitionsPrefix),
      (·.withAddressUnitBits p.addressUnitBits), (·.withWidth p.width),
      (·.withDefaultRegisterProperties p.defaultRegisterProperties),
      (·.withPeripherals p.peripherals), (·.withXmlnsXs p.xmlnsXs),
      (·.withNoNamespaceSchemaLocation p.noNamespaceSchemaLocation),
      (·.withSchemaVersion p.schemaVersion)]) :
    (applyAll l b).build lvl =
      (do p.defaultRegisterProperties.validate lvl; p.validate lvl).map fun _ => p := by
  rw [applyAll_perm h (by commuting)]
  exact C17_device p lvl

/-- The properties of a register set one by one; there is no setter for the protection, which stays. -/
theorem C51_register_properties (p : RegisterInfo) (lvl : ValidateLevel) (b : RegisterInfoBuilder)
    (l : List (RegisterInfoBuilder → RegisterInfoBuilder))
    (hb : b.properties.protection = p.properties.protection)
    (h : l.Perm [(·.withName p.name), (·.withDisplayName p.displayName), (·.withDescription p.description),
      (·.withAlternateGroup p.alternateGroup), (·.withAlternateRegister p.alternateRegister),
      (·.withAddressOffset p.addressOffset), (·.withDatatype p.datatype),
      (·.withSize p.properties.size), (·.withAccess p.properties.access),
      (·.withResetValue p.properties.resetValue), (·.withResetMask p.properties.resetMask),
      (·.withModifiedWriteValues p.modifiedWriteValues), (·.withWriteConstraint p.writeConstraint),
      (·.withReadAction p.readAction), (·.withFields p.fields), (·.withDerivedFrom p.derivedFrom)]) :
    (applyAll l b).build lvl =
      (do p.properties.validate lvl; p.validate lvl).map fun _ => p := by
  rw [applyAll_perm h (by commuting), ← C17_register p lvl]
  congr 1
  obtain ⟨_, _, _, _, _, _, ⟨_, _, _, _, _⟩, _, _, _, _, _, _⟩ := b
  subst hb
  rfl

/-- The encoder configuration; there is no setter for the format of header enum names, which stays. -/
theorem C51_encoder_config (c b : EncConfig) (l : List (EncConfig → EncConfig))
    (h : l.Perm [(·.withPeripheralName c.peripheralName),
      (·.withPeripheralBaseAddress c.peripheralBaseAddress),
      (·.withPeripheralSorting c.peripheralSorting),
      (·.withAddressBlockOffset c.addressBlockOffset), (·.withAddressBlockSize c.addressBlockSize),
      (·.withInterruptName c.interruptName), (·.withClusterName c.clusterName),
      (·.withClusterAddressOffset c.clusterAddressOffset),
      (·.withRegisterClusterSorting c.registerClusterSorting), (·.withRegisterName c.registerName),
      (·.withRegisterAddressOffset c.registerAddressOffset), (·.withRegisterSize c.registerSize),
      (·.withRegisterResetValue c.registerResetValue),
      (·.withRegisterResetMask c.registerResetMask), (·.withFieldName c.fieldName),
      (·.withFieldBitRange c.fieldBitRange), (·.withFieldSorting c.fieldSorting),
      (·.withEnumeratedValuesName c.enumeratedValuesName),
      (·.withEnumeratedValueName c.enumeratedValueName),
      (·.withEnumeratedValueValue c.enumeratedValueValue), (·.withDimDim c.dimDim),
      (·.withDimIncrement c.dimIncrement)]) :
    applyAll l b = { c with dimArrayIndexHeaderEnumName := b.dimArrayIndexHeaderEnumName } := by
  rw [applyAll_perm h (by commuting)]
  cases b
  cases c
  rfl

/-- The parser configuration. -/
theorem C51_parser_config (c b : ParseConfig) (l : List (ParseConfig → ParseConfig))
    (h : l.Perm [(·.withValidateLevel c.validateLevel), (·.withExpand c.expand),
      (·.withExpandProperties c.expandProperties), (·.withIgnoreEnums c.ignoreEnums)]) :
    applyAll l b = c := by
  rw [applyAll_perm h (by commuting)]
  rfl

/-! ## Examples -/

/-- The setters of an interrupt in another order, after a call that is overridden. -/
example (lvl : ValidateLevel) :
    (((((({} : InterruptBuilder).withName "A".toList).withValue 3).withDescription none).withName
      "B".toList).build lvl) = .ok { name := "B".toList, description := none, value := 3 } :=
  C51_interrupt { name := "B".toList, description := none, value := 3 } lvl
    (({} : InterruptBuilder).withName "A".toList)
    [(·.withValue 3), (·.withDescription none), (·.withName "B".toList)]
    ((List.Perm.swap _ _ _).trans (.trans (.cons _ (.swap _ _ _)) (.swap _ _ _)))

/-- The same calls in the order of the list, for a field. -/
example (lvl : ValidateLevel) (f : FieldInfo) (h : f.validate lvl = .ok ()) (hd : f.description ≠ some []) :
    ((((((((((({} : FieldInfoBuilder).withName f.name).withDescription f.description).setBitRange
      f.bitRange).withAccess f.access).withModifiedWriteValues f.modifiedWriteValues).withWriteConstraint
      f.writeConstraint).withReadAction f.readAction).withEnumeratedValues f.enumeratedValues).withDerivedFrom
      f.derivedFrom).build lvl) = .ok f := by
  have := C51_field f lvl {} _ (List.Perm.refl _)
  rw [h] at this
  refine this.trans ?_
  obtain ⟨_, d, _, _, _, _, _, _, _⟩ := f
  rcases d with _ | _ | ⟨_, _⟩
  · rfl
  · exact absurd rfl hd
  · rfl

-- The calls in reverse order: `C51_properties`, `C51_enumValue`, `C51_enums`, `C51_dim`, `C51_addressBlock`,
-- `C51_register`, `C51_register_properties`, `C51_cluster`, `C51_peripheral`, `C51_cpu`, `C51_device` and
-- `C51_encoder_config`.
example : ∃ l : List (RegisterProperties → RegisterProperties), l.length = 5 ∧
    ∀ b, applyAll l b = ⟨some 8, some .readOnly, none, some 5, none⟩ := by
  refine ⟨_, ?_, fun b => C51_properties _ b _ (List.reverse_perm _)⟩; rfl
example : ∃ l : List (EnumeratedValueBuilder → EnumeratedValueBuilder), l.length = 4 ∧
    ∀ b, (applyAll l b).build .weak = .ok ⟨"on".toList, none, some 1, none⟩ := by
  refine ⟨_, ?_, fun b => (C51_enumValue ⟨"on".toList, none, some 1, none⟩ .weak b _ (List.reverse_perm _)).trans (by decide)⟩; rfl
example : ∃ l : List (EnumeratedValuesBuilder → EnumeratedValuesBuilder), l.length = 4 ∧
    ∀ b, (applyAll l b).build .weak = .ok (Sample.evs (some "E") none [⟨"on".toList, none, some 1, none⟩]) := by
  refine ⟨_, ?_, fun b => (C51_enums (Sample.evs (some "E") none [⟨"on".toList, none, some 1, none⟩]) .weak b _
    (List.reverse_perm _)).trans (by decide)⟩; rfl
example : ∃ l : List (DimElementBuilder → DimElementBuilder), l.length = 5 ∧
    ∀ b, (applyAll l b).build .weak = .ok (Sample.dim 2 4 (some ["A", "B"])) := by
  refine ⟨_, ?_, fun b => (C51_dim (Sample.dim 2 4 (some ["A", "B"])) .weak b _ (List.reverse_perm _)).trans (by decide)⟩; rfl
example : ∃ l : List (AddressBlockBuilder → AddressBlockBuilder), l.length = 4 ∧
    ∀ b, (applyAll l b).build .weak = .ok ⟨0, 0x100, .registers, none⟩ := by
  refine ⟨_, ?_, fun b => C51_addressBlock ⟨0, 0x100, .registers, none⟩ .weak b _ (List.reverse_perm _)⟩; rfl
example : ∃ l : List (RegisterInfoBuilder → RegisterInfoBuilder), l.length = 13 ∧
    ∀ b, (applyAll l b).build .weak = .ok (Sample.registerInfo "R" 4) := by
  refine ⟨_, ?_, fun b => (C51_register (Sample.registerInfo "R" 4) .weak b _ (List.reverse_perm _)).trans (by decide)⟩; rfl
example : ∃ l : List (RegisterInfoBuilder → RegisterInfoBuilder), l.length = 16 ∧
    (applyAll l { name := some "Q".toList, properties := { size := some 8 } }).build .weak = .ok (Sample.registerInfo "R" 4) := by
  refine ⟨_, ?_, (C51_register_properties (Sample.registerInfo "R" 4) .weak
    { name := some "Q".toList, properties := { size := some 8 } } _ rfl (List.reverse_perm _)).trans (by decide)⟩; rfl
example : ∃ l : List (ClusterInfoBuilder → ClusterInfoBuilder), l.length = 8 ∧
    ∀ b, (applyAll l b).build .weak =
      .ok ⟨Sample.clusterHead "C" 4, [.register (.single (Sample.registerInfo "R" 0))]⟩ := by
  refine ⟨_, ?_, fun b => (C51_cluster ⟨Sample.clusterHead "C" 4, [.register (.single (Sample.registerInfo "R" 0))]⟩ .weak b _
    (List.reverse_perm _)).trans (by decide)⟩; rfl
example : ∃ l : List (PeripheralInfoBuilder → PeripheralInfoBuilder), l.length = 15 ∧
    ∀ b, (applyAll l b).build .weak = .ok (Sample.peripheralInfo "P" 0x1000) := by
  refine ⟨_, ?_, fun b => (C51_peripheral (Sample.peripheralInfo "P" 0x1000) .weak b _ (List.reverse_perm _)).trans (by decide)⟩; rfl
example (c : Cpu) : ∃ l : List (CpuBuilder → CpuBuilder), l.length = 16 ∧ ∀ b, (applyAll l b).build .weak = .ok c := by
  refine ⟨_, ?_, fun b => C51_cpu c .weak b _ (List.reverse_perm _)⟩; rfl
example : ∃ l : List (DeviceBuilder → DeviceBuilder), l.length = 17 ∧
    ∀ b, (applyAll l b).build .weak = .ok Sample.nested := by
  refine ⟨_, ?_, fun b => (C51_device Sample.nested .weak b _ (List.reverse_perm _)).trans (by decide +kernel)⟩; rfl
example : ∃ l : List (EncConfig → EncConfig), l.length = 22 ∧ ∀ b, (applyAll l b).fieldBitRange = some .msbLsb := by
  refine ⟨_, ?_, fun b => (congrArg EncConfig.fieldBitRange
    (C51_encoder_config { fieldBitRange := some .msbLsb } b _ (List.reverse_perm _))).trans rfl⟩; rfl

end Svd
