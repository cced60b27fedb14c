import Verif.Spec.Sample
import Verif.Spec.Build
import Verif.Lemmas.Validate

/-!
# C17, C18, C44, C45: builders and modification
-/

namespace Svd

open Spec

theorem upd_setIf {α : Type} (b : Option α) (s : α) : Upd b s (setIf b s) := by
  cases b <;> simp [Upd, setIf]

theorem upd_setIfSome {α : Type} (b s : Option α) : UpdOpt b s (setIfSome b s) := by
  cases b <;> simp [UpdOpt, setIfSome]

theorem upd_setIfSomeE {α : Type} (b s : Option (List α)) : UpdText b s (setIfSomeE b s) := by
  rcases b with _ | _ | ⟨_, _⟩ <;> simp [UpdText, setIfSomeE, emptyToNone]

theorem emptyToNone_eq {α : Type} (o : Option (List α)) : emptyToNone o = dropEmpty o := by
  rcases o with _ | _ | ⟨_, _⟩ <;> simp [emptyToNone, dropEmpty]

theorem validate_map {x : M Unit} {α : Type} {a : α} :
    (x >>= fun _ => .ok a) = x.map fun _ => a := by
  cases x <;> rfl

@[simp] theorem need_some {α : Type} (a : α) (what : String) : need (some a) what = .ok a := rfl

/-! ## C17 -/

/-- **C17.** Building from an unchanged builder: the same object if it validates, else the
validation error. -/
theorem C17_properties (p : RegisterProperties) (lvl : ValidateLevel) :
    p.build lvl = (p.validate lvl).map fun _ => p := by
  unfold RegisterProperties.build; exact validate_map

example : RegisterProperties.build ⟨some 8, none, none, some 5, none⟩ .weak = .ok ⟨some 8, none, none, some 5, none⟩ :=
  (C17_properties _ _).trans (by decide)

theorem C17_enumValue (e : EnumeratedValue) (lvl : ValidateLevel) :
    e.toBuilder.build lvl =
      (e.validate lvl).map fun _ => { e with description := dropEmpty e.description } := by
  simp only [EnumeratedValueBuilder.build, EnumeratedValue.toBuilder, need_some, ok_bind,
    emptyToNone_eq]
  exact validate_map

example : (EnumeratedValue.toBuilder ⟨"on".toList, some [], some 1, none⟩).build .strict =
    .ok ⟨"on".toList, none, some 1, none⟩ := (C17_enumValue _ _).trans (by decide)

theorem checkName_nil (tag : String) : checkName [] tag = .ok () := rfl

theorem C17_enums (e : EnumeratedValues) (lvl : ValidateLevel) :
    e.toBuilder.build lvl =
      (e.validate lvl).map fun _ => { e with name := dropEmpty e.name } := by
  have hv : EnumeratedValues.validate { e with name := dropEmpty e.name } lvl = e.validate lvl := by
    obtain ⟨name, usage, derivedFrom, values⟩ := e
    rcases name with _ | _ | ⟨_, _⟩ <;>
      simp [EnumeratedValues.validate, dropEmpty, forOpt, checkName_nil]
  rw [← hv]
  simp only [EnumeratedValuesBuilder.build, EnumeratedValues.toBuilder, emptyToNone_eq,
    Option.getD_some]
  exact validate_map

example : (Sample.evs (some "E") none [⟨"on".toList, none, some 1, none⟩]).toBuilder.build .strict =
    .ok (Sample.evs (some "E") none [⟨"on".toList, none, some 1, none⟩]) := (C17_enums _ _).trans (by decide)

theorem C17_dim (d : DimElement) (lvl : ValidateLevel) :
    d.toBuilder.build lvl =
      .ok { d with dimIndex := dropEmpty d.dimIndex, dimName := dropEmpty d.dimName } := by
  simp only [DimElementBuilder.build, DimElement.toBuilder, need_some, ok_bind, emptyToNone_eq,
    DimElement.validate]

example : (Sample.dim 2 4 (some [])).toBuilder.build .strict = .ok (Sample.dim 2 4) := (C17_dim _ _).trans (by decide)

theorem C17_addressBlock (d : AddressBlock) (lvl : ValidateLevel) : d.toBuilder.build lvl = .ok d := rfl

theorem C17_interrupt (d : Interrupt) (lvl : ValidateLevel) : d.toBuilder.build lvl = .ok d := rfl

theorem C17_cpu (d : Cpu) (lvl : ValidateLevel) : d.toBuilder.build lvl = .ok d := rfl

theorem C17_field (f : FieldInfo) (lvl : ValidateLevel) :
    f.toBuilder.build lvl =
      (f.validate lvl).map fun _ => { f with description := dropEmpty f.description } := by
  simp only [FieldInfoBuilder.build, FieldInfo.toBuilder, need_some, ok_bind, emptyToNone_eq,
    Option.getD_some]
  exact validate_map

example : (Sample.fieldInfo "F" 3).toBuilder.build .strict = .ok (Sample.fieldInfo "F" 3) ∧
    (Sample.fieldInfo "1 F" 3).toBuilder.build .strict = .error (.err (.invalidName "1 F".toList "name")) :=
  ⟨(C17_field _ _).trans (by decide), (C17_field _ _).trans (by decide)⟩

theorem C17_register (r : RegisterInfo) (lvl : ValidateLevel) :
    r.toBuilder.build lvl = (do r.properties.validate lvl; r.validate lvl).map fun _ => r := by
  simp only [RegisterInfoBuilder.build, RegisterInfo.toBuilder, need_some, ok_bind,
    RegisterProperties.build]
  cases h : r.properties.validate lvl with
  | error e => simp [Except.map]
  | ok _ => simp only [ok_bind]; exact validate_map

example : (Sample.registerInfo "R" 4 (some "S")).toBuilder.build .strict = .ok (Sample.registerInfo "R" 4 (some "S")) :=
  (C17_register _ _).trans (by decide +kernel)

theorem C17_cluster (c : ClusterInfo) (lvl : ValidateLevel) :
    c.toBuilder.build lvl =
      (do c.defaultRegisterProperties.validate lvl; c.validate lvl).map fun _ =>
        { c with
          description := dropEmpty c.description
          alternateCluster := dropEmpty c.alternateCluster
          headerStructName := dropEmpty c.headerStructName } := by
  simp only [ClusterInfoBuilder.build, ClusterInfo.toBuilder, need_some, ok_bind,
    RegisterProperties.build, emptyToNone_eq]
  cases h : c.defaultRegisterProperties.validate lvl with
  | error e => simp [Except.map]
  | ok _ => simp only [ok_bind]; exact validate_map

example : ClusterInfo.toBuilder ⟨Sample.clusterHead "C" 4, []⟩ |>.build .weak |>.isOk := by
  rw [C17_cluster]; decide +kernel

theorem C17_peripheral (p : PeripheralInfo) (lvl : ValidateLevel) :
    p.toBuilder.build lvl =
      (do p.defaultRegisterProperties.validate lvl; p.validate lvl).map fun _ =>
        { p with
          displayName := dropEmpty p.displayName
          version := dropEmpty p.version
          description := dropEmpty p.description
          alternatePeripheral := dropEmpty p.alternatePeripheral
          groupName := dropEmpty p.groupName
          prependToName := dropEmpty p.prependToName
          appendToName := dropEmpty p.appendToName
          headerStructName := dropEmpty p.headerStructName } := by
  simp only [PeripheralInfoBuilder.build, PeripheralInfo.toBuilder, need_some, ok_bind,
    RegisterProperties.build, emptyToNone_eq, Option.getD_some]
  cases h : p.defaultRegisterProperties.validate lvl with
  | error e => simp [Except.map]
  | ok _ => simp only [ok_bind]; exact validate_map

example : (Sample.peripheralInfo "P" 0x1000).toBuilder.build .weak = .ok (Sample.peripheralInfo "P" 0x1000) :=
  (C17_peripheral _ _).trans (by decide +kernel)

theorem C17_device (d : Device) (lvl : ValidateLevel) :
    d.toBuilder.build lvl =
      (do d.defaultRegisterProperties.validate lvl; d.validate lvl).map fun _ => d := by
  simp only [DeviceBuilder.build, Device.toBuilder, need_some, ok_bind, orDefault,
    RegisterProperties.build, Option.getD_some]
  cases h : d.defaultRegisterProperties.validate lvl with
  | error e => simp [Except.map]
  | ok _ => simp only [ok_bind]; exact validate_map

example : Sample.nested.toBuilder.build .weak = .ok Sample.nested ∧
    (Sample.device []).toBuilder.build .weak = .error (.err .emptyDevice) :=
  ⟨(C17_device _ _).trans (by decide +kernel), (C17_device _ _).trans (by decide +kernel)⟩

/-- Below level Strict four properties of a device have a default value; at Strict they have to be given. -/
theorem C17_device_defaults {b : DeviceBuilder} {lvl : ValidateLevel} {d : Device} (h : b.build lvl = .ok d) :
    d.version = b.version.getD "1.0".toList ∧ d.description = b.description.getD "".toList ∧
    d.addressUnitBits = b.addressUnitBits.getD 8 ∧ d.width = b.width.getD 32 ∧
    d.schemaVersion = b.schemaVersion.getD "1.1".toList ∧
    d.noNamespaceSchemaLocation = b.noNamespaceSchemaLocation.getD "CMSIS-SVD_Schema_1_1.xsd".toList ∧
    d.xmlnsXs = b.xmlnsXs.getD "http://www.w3.org/2001/XMLSchema-instance".toList ∧
    (lvl = .strict → b.version ≠ none ∧ b.description ≠ none ∧ b.addressUnitBits ≠ none ∧ b.width ≠ none) := by
  have key : ∀ {α : Type} {o : Option α} {dflt a : α} {k : String}, need (orDefault o lvl dflt) k = .ok a →
      a = o.getD dflt ∧ (lvl = .strict → o ≠ none) := by
    intro α o dflt a k h
    cases o with
    | some v => cases h; exact ⟨rfl, fun _ => by simp⟩
    | none =>
      cases lvl with
      | strict => cases h
      | weak => cases h; exact ⟨rfl, fun h => by cases h⟩
      | disabled => cases h; exact ⟨rfl, fun h => by cases h⟩
  unfold DeviceBuilder.build at h
  obtain ⟨_, _, h⟩ := bind_ok.mp h
  obtain ⟨_, h1, h⟩ := bind_ok.mp h
  obtain ⟨_, h2, h⟩ := bind_ok.mp h
  obtain ⟨_, h3, h⟩ := bind_ok.mp h
  obtain ⟨_, h4, h⟩ := bind_ok.mp h
  obtain ⟨_, _, h⟩ := bind_ok.mp h
  obtain ⟨_, _, h⟩ := bind_ok.mp h
  obtain ⟨_, _, h⟩ := bind_ok.mp h
  cases h
  exact ⟨(key h1).1, (key h2).1, (key h3).1, (key h4).1, rfl, rfl, rfl,
    fun hs => ⟨(key h1).2 hs, (key h2).2 hs, (key h3).2 hs, (key h4).2 hs⟩⟩

example : ∃ d, DeviceBuilder.build { name := some "DEV".toList, peripherals := some [] } .disabled = .ok d ∧
    d.version = "1.0".toList ∧ d.addressUnitBits = 8 ∧ d.width = 32 :=
  ⟨_, rfl, rfl, rfl, rfl⟩

/-! ## C18 -/

theorem C18_properties (s b : RegisterProperties) (lvl : ValidateLevel) :
    PropsUpdated s b (s.modifyFrom b lvl).1 ∧
      (s.modifyFrom b lvl).2 = (s.modifyFrom b lvl).1.validate lvl :=
  ⟨⟨upd_setIfSome .., upd_setIfSome .., upd_setIfSome .., upd_setIfSome .., upd_setIfSome ..⟩, rfl⟩

theorem C18_enumValue (s : EnumeratedValue) (b : EnumeratedValueBuilder) (lvl : ValidateLevel) :
    EnumValueUpdated s b (s.modifyFrom b lvl).1 ∧
      (s.modifyFrom b lvl).2 = (s.modifyFrom b lvl).1.validate lvl :=
  ⟨⟨upd_setIf .., upd_setIfSomeE .., upd_setIfSome .., upd_setIfSome ..⟩, rfl⟩

example : EnumValueUpdated ⟨"on".toList, none, some 1, none⟩ { value := some 2 } ⟨"on".toList, none, some 2, none⟩ :=
  (C18_enumValue ⟨"on".toList, none, some 1, none⟩ { value := some 2 } .weak).1

/-- Without a reference in the builder; see C45 for the other case. -/
theorem C18_enums (s : EnumeratedValues) (b : EnumeratedValuesBuilder) (lvl : ValidateLevel)
    (h : b.derivedFrom = none) :
    EnumsUpdated s b (s.modifyFrom b lvl).1 ∧
      (s.modifyFrom b lvl).2 = (s.modifyFrom b lvl).1.validate lvl := by
  refine ⟨?_, rfl⟩
  have e : (s.modifyFrom b lvl).1 = s.modified b := rfl
  rw [e]; unfold EnumeratedValues.modified
  rw [h, if_neg (by simp)]
  exact ⟨upd_setIfSomeE .., upd_setIfSome .., upd_setIf .., rfl⟩

example : EnumsUpdated (Sample.evs (some "E") none [⟨"on".toList, none, some 1, none⟩]) { usage := some .read }
    { Sample.evs (some "E") none [⟨"on".toList, none, some 1, none⟩] with usage := some .read } :=
  (C18_enums _ { usage := some .read } .weak rfl).1

theorem C18_dim (s : DimElement) (b : DimElementBuilder) (lvl : ValidateLevel) :
    DimUpdated s b (s.modifyFrom b lvl).1 ∧ (s.modifyFrom b lvl).2 = .ok () :=
  ⟨⟨upd_setIf .., upd_setIf .., upd_setIfSomeE .., upd_setIfSomeE .., upd_setIfSome ..⟩, rfl⟩

example : DimUpdated (Sample.dim 2 4) { dim := some 3 } (Sample.dim 3 4) := (C18_dim (Sample.dim 2 4) { dim := some 3 } .weak).1

theorem C18_addressBlock (s : AddressBlock) (b : AddressBlockBuilder) (lvl : ValidateLevel) :
    BlockUpdated s b (s.modifyFrom b lvl).1 ∧ (s.modifyFrom b lvl).2 = .ok () :=
  ⟨⟨upd_setIf .., upd_setIf .., upd_setIf .., upd_setIfSome ..⟩, rfl⟩

theorem C18_interrupt (s : Interrupt) (b : InterruptBuilder) (lvl : ValidateLevel) :
    InterruptUpdated s b (s.modifyFrom b lvl).1 ∧ (s.modifyFrom b lvl).2 = .ok () :=
  ⟨⟨upd_setIf .., upd_setIfSome .., upd_setIf ..⟩, rfl⟩

theorem C18_cpu (s : Cpu) (b : CpuBuilder) (lvl : ValidateLevel) :
    CpuUpdated s b (s.modifyFrom b lvl).1 ∧ (s.modifyFrom b lvl).2 = .ok () :=
  ⟨⟨upd_setIf .., upd_setIf .., upd_setIf .., upd_setIf .., upd_setIf .., upd_setIfSome ..,
    upd_setIfSome .., upd_setIfSome .., upd_setIfSome .., upd_setIfSome .., upd_setIfSome ..,
    upd_setIfSome .., upd_setIf .., upd_setIf .., upd_setIfSome .., upd_setIfSome ..⟩, rfl⟩

theorem fieldIdentity (s : FieldInfo) (b : FieldInfoBuilder) :
    FieldIdentityUpdated s b (s.modified b) := by
  have hr : RangeUpdated s.bitRange b
      { setIf b.bitRange s.bitRange with
        offset := setIf b.bitOffset (setIf b.bitRange s.bitRange).offset
        width := setIf b.bitWidth (setIf b.bitRange s.bitRange).width } := by
    constructor <;> cases b.bitRange <;> cases b.bitOffset <;> cases b.bitWidth <;> simp [Upd, setIf]
  unfold FieldInfo.modified
  cases b.derivedFrom with
  | none => exact ⟨upd_setIf .., upd_setIfSomeE .., hr, upd_setIfSome ..⟩
  | some _ => exact ⟨upd_setIf .., upd_setIfSomeE .., hr, upd_setIfSome ..⟩

/-- **C18.** Fields; `derivedFrom` in the builder means that inherited members are dropped. -/
theorem C18_field (s : FieldInfo) (b : FieldInfoBuilder) (lvl : ValidateLevel) :
    (b.derivedFrom = none → FieldUpdated s b (s.modifyFrom b lvl).1) ∧
      (b.derivedFrom ≠ none → FieldRederived s b (s.modifyFrom b lvl).1) ∧
      (s.modifyFrom b lvl).2 = (s.modifyFrom b lvl).1.validate lvl := by
  have e : (s.modifyFrom b lvl).1 = s.modified b := rfl
  rw [e]
  refine ⟨fun h => ⟨fieldIdentity s b, ?_, ?_, ?_, ?_, ?_⟩,
    fun h => ⟨fieldIdentity s b, ?_, ?_, ?_, ?_, ?_⟩, rfl⟩
  · unfold FieldInfo.modified; rw [h]; exact upd_setIfSome ..
  · unfold FieldInfo.modified; rw [h]; exact upd_setIfSome ..
  · unfold FieldInfo.modified; rw [h]; exact upd_setIfSome ..
  · unfold FieldInfo.modified; rw [h]; exact upd_setIf ..
  · unfold FieldInfo.modified; rw [h]; rfl
  all_goals
    obtain ⟨d, hd⟩ := Option.ne_none_iff_exists'.mp h
    unfold FieldInfo.modified; rw [hd]; rfl

example : FieldUpdated (Sample.fieldInfo "F" 3) { bitOffset := some 5 } (Sample.fieldInfo "F" 5) ∧
    FieldRederived (Sample.fieldInfo "F" 3 none [Sample.evs none]) { derivedFrom := some "G".toList }
      (Sample.fieldInfo "F" 3 (some "G")) :=
  ⟨(C18_field (Sample.fieldInfo "F" 3) { bitOffset := some 5 } .weak).1 rfl,
    (C18_field (Sample.fieldInfo "F" 3 none [Sample.evs none]) { derivedFrom := some "G".toList } .weak).2.1 (by decide)⟩

theorem propsUpdated (s b : RegisterProperties) : PropsUpdated s b (s.modified b) :=
  (C18_properties s b .disabled).1

/-- **C18.** Registers: the update `t` is determined by the members given, the result says whether
`t` validates, and if so the register has become `t`. -/
theorem C18_register (s : RegisterInfo) (b : RegisterInfoBuilder) (lvl : ValidateLevel)
    (h : b.derivedFrom = none) :
    ∃ t, RegisterUpdated s b t ∧
      (s.modifyFrom b lvl).2 = (do t.properties.validate lvl; t.validate lvl) ∧
      ((s.modifyFrom b lvl).2 = .ok () → (s.modifyFrom b lvl).1 = t) := by
  unfold RegisterInfo.modifyFrom
  rw [h]
  simp only [Option.isSome_none, Bool.false_eq_true, if_false]
  refine ⟨{ s with
    name := setIf b.name s.name
    displayName := setIfSomeE b.displayName s.displayName
    description := setIfSomeE b.description s.description
    alternateGroup := setIfSomeE b.alternateGroup s.alternateGroup
    alternateRegister := setIfSomeE b.alternateRegister s.alternateRegister
    addressOffset := setIf b.addressOffset s.addressOffset
    properties := s.properties.modified b.properties
    datatype := setIfSome b.datatype s.datatype
    modifiedWriteValues := setIfSome b.modifiedWriteValues s.modifiedWriteValues
    writeConstraint := setIfSome b.writeConstraint s.writeConstraint
    readAction := setIfSome b.readAction s.readAction
    fields := setIfSomeE b.fields s.fields }, ?_, ?_, ?_⟩
  · exact ⟨⟨upd_setIf .., upd_setIfSomeE .., upd_setIfSomeE .., upd_setIfSomeE ..,
      upd_setIfSomeE .., upd_setIf ..⟩, propsUpdated .., upd_setIfSome .., upd_setIfSome ..,
      upd_setIfSome .., upd_setIfSome .., upd_setIfSomeE .., rfl⟩
  · cases h : RegisterProperties.validate (s.properties.modified b.properties) lvl <;> rfl
  · cases h : RegisterProperties.validate (s.properties.modified b.properties) lvl <;> simp

example : RegisterUpdated (Sample.registerInfo "R" 4) { addressOffset := some 8 } (Sample.registerInfo "R" 8) := by
  obtain ⟨t, h, _, h2⟩ := C18_register (Sample.registerInfo "R" 4) { addressOffset := some 8 } .weak rfl
  have : t = Sample.registerInfo "R" 8 := (h2 (by decide +kernel)).symm.trans (by decide +kernel)
  exact this ▸ h

theorem C18_register_derived (s : RegisterInfo) (b : RegisterInfoBuilder) (lvl : ValidateLevel)
    (h : b.derivedFrom ≠ none) :
    RegisterRederived s b (s.modifyFrom b lvl).1 ∧
      (s.modifyFrom b lvl).2 = (s.modifyFrom b lvl).1.validate lvl := by
  obtain ⟨d, hd⟩ := Option.ne_none_iff_exists'.mp h
  unfold RegisterInfo.modifyFrom
  simp only [hd, Option.isSome_some, if_true]
  exact ⟨⟨⟨upd_setIf .., upd_setIfSomeE .., upd_setIfSomeE .., upd_setIfSomeE ..,
    upd_setIfSomeE .., upd_setIf ..⟩, hd.symm, rfl, rfl, rfl, rfl, rfl, rfl⟩, trivial⟩

example : RegisterRederived (Sample.registerInfo "R" 4 none (some [.single (Sample.fieldInfo "F" 0)]))
    { derivedFrom := some "S".toList } (Sample.registerInfo "R" 4 (some "S")) :=
  (C18_register_derived (Sample.registerInfo "R" 4 none (some [.single (Sample.fieldInfo "F" 0)]))
    { derivedFrom := some "S".toList } .weak (by decide)).1

theorem C18_cluster (s : ClusterInfo) (b : ClusterInfoBuilder) (lvl : ValidateLevel)
    (h : b.derivedFrom = none) :
    ∃ t, ClusterUpdated s b t ∧
      (s.modifyFrom b lvl).2 = (do t.defaultRegisterProperties.validate lvl; t.validate lvl) ∧
      ((s.modifyFrom b lvl).2 = .ok () → (s.modifyFrom b lvl).1 = t) := by
  unfold ClusterInfo.modifyFrom
  rw [h]
  simp only [Option.isSome_none, Bool.false_eq_true, if_false]
  refine ⟨{ s with
    name := setIf b.name s.name
    description := setIfSomeE b.description s.description
    alternateCluster := setIfSomeE b.alternateCluster s.alternateCluster
    headerStructName := setIfSomeE b.headerStructName s.headerStructName
    addressOffset := setIf b.addressOffset s.addressOffset
    defaultRegisterProperties := s.defaultRegisterProperties.modified b.defaultRegisterProperties
    children := setIf b.children s.children }, ?_, ?_, ?_⟩
  · exact ⟨⟨upd_setIf .., upd_setIfSomeE .., upd_setIfSomeE .., upd_setIfSomeE .., upd_setIf ..⟩,
      propsUpdated .., upd_setIf .., rfl⟩
  · cases h : RegisterProperties.validate
      (s.defaultRegisterProperties.modified b.defaultRegisterProperties) lvl <;> rfl
  · cases h : RegisterProperties.validate
      (s.defaultRegisterProperties.modified b.defaultRegisterProperties) lvl <;> simp

example : ∃ t, ClusterUpdated ⟨Sample.clusterHead "C" 4, [.register (.single (Sample.registerInfo "R" 0))]⟩
    { addressOffset := some 8 } t ∧ t.addressOffset = 8 := by
  obtain ⟨t, h, _, h2⟩ := C18_cluster ⟨Sample.clusterHead "C" 4, [.register (.single (Sample.registerInfo "R" 0))]⟩
    { addressOffset := some 8 } .weak rfl
  exact ⟨t, h, by rw [← h2 (by decide +kernel)]; rfl⟩

theorem C18_cluster_derived (s : ClusterInfo) (b : ClusterInfoBuilder) (lvl : ValidateLevel)
    (h : b.derivedFrom ≠ none) :
    ClusterRederived s b (s.modifyFrom b lvl).1 ∧
      (s.modifyFrom b lvl).2 = (s.modifyFrom b lvl).1.validate lvl := by
  obtain ⟨d, hd⟩ := Option.ne_none_iff_exists'.mp h
  unfold ClusterInfo.modifyFrom
  simp only [hd, Option.isSome_some, if_true]
  exact ⟨⟨⟨upd_setIf .., upd_setIfSomeE .., upd_setIfSomeE .., upd_setIfSomeE .., upd_setIf ..⟩,
    hd.symm, rfl, rfl⟩, trivial⟩

example : ClusterRederived ⟨Sample.clusterHead "C" 4, [.register (.single (Sample.registerInfo "R" 0))]⟩
    { derivedFrom := some "D".toList } ⟨Sample.clusterHead "C" 4 (some "D"), []⟩ :=
  (C18_cluster_derived ⟨Sample.clusterHead "C" 4, [.register (.single (Sample.registerInfo "R" 0))]⟩
    { derivedFrom := some "D".toList } .weak (by decide)).1

theorem C18_peripheral (s : PeripheralInfo) (b : PeripheralInfoBuilder) (lvl : ValidateLevel)
    (h : b.derivedFrom = none) :
    ∃ t, PeripheralUpdated s b t ∧
      (s.modifyFrom b lvl).2 = (do t.defaultRegisterProperties.validate lvl; t.validate lvl) ∧
      ((s.modifyFrom b lvl).2 = .ok () → (s.modifyFrom b lvl).1 = t) := by
  unfold PeripheralInfo.modifyFrom
  rw [h]
  simp only [Option.isSome_none, Bool.false_eq_true, if_false]
  refine ⟨{ s with
    name := setIf b.name s.name
    displayName := setIfSomeE b.displayName s.displayName
    version := setIfSomeE b.version s.version
    description := setIfSomeE b.description s.description
    alternatePeripheral := setIfSomeE b.alternatePeripheral s.alternatePeripheral
    groupName := setIfSomeE b.groupName s.groupName
    prependToName := setIfSomeE b.prependToName s.prependToName
    appendToName := setIfSomeE b.appendToName s.appendToName
    headerStructName := setIfSomeE b.headerStructName s.headerStructName
    baseAddress := setIf b.baseAddress s.baseAddress
    interrupt := setIf b.interrupt s.interrupt
    addressBlock := setIfSome b.addressBlock s.addressBlock
    defaultRegisterProperties := s.defaultRegisterProperties.modified b.defaultRegisterProperties
    registers := setIfSomeE b.registers s.registers }, ?_, ?_, ?_⟩
  · exact ⟨⟨upd_setIf .., upd_setIfSomeE .., upd_setIfSomeE .., upd_setIfSomeE ..,
      upd_setIfSomeE .., upd_setIfSomeE .., upd_setIfSomeE .., upd_setIfSomeE ..,
      upd_setIfSomeE .., upd_setIf .., upd_setIf ..⟩,
      propsUpdated .., upd_setIfSome .., upd_setIfSomeE .., rfl⟩
  · cases h : RegisterProperties.validate
      (s.defaultRegisterProperties.modified b.defaultRegisterProperties) lvl <;> rfl
  · cases h : RegisterProperties.validate
      (s.defaultRegisterProperties.modified b.defaultRegisterProperties) lvl <;> simp

example : PeripheralUpdated (Sample.peripheralInfo "P" 0x1000) { baseAddress := some 0x2000 }
    (Sample.peripheralInfo "P" 0x2000) := by
  obtain ⟨t, h, _, h2⟩ := C18_peripheral (Sample.peripheralInfo "P" 0x1000) { baseAddress := some 0x2000 } .weak rfl
  have : t = Sample.peripheralInfo "P" 0x2000 := (h2 (by decide +kernel)).symm.trans (by decide +kernel)
  exact this ▸ h

theorem C18_peripheral_derived (s : PeripheralInfo) (b : PeripheralInfoBuilder)
    (lvl : ValidateLevel) (h : b.derivedFrom ≠ none) :
    PeripheralRederived s b (s.modifyFrom b lvl).1 ∧
      (s.modifyFrom b lvl).2 = (s.modifyFrom b lvl).1.validate lvl := by
  obtain ⟨d, hd⟩ := Option.ne_none_iff_exists'.mp h
  unfold PeripheralInfo.modifyFrom
  simp only [hd, Option.isSome_some, if_true]
  exact ⟨⟨⟨upd_setIf .., upd_setIfSomeE .., upd_setIfSomeE .., upd_setIfSomeE ..,
    upd_setIfSomeE .., upd_setIfSomeE .., upd_setIfSomeE .., upd_setIfSomeE ..,
    upd_setIfSomeE .., upd_setIf .., upd_setIf ..⟩, hd.symm, rfl, rfl, rfl⟩, trivial⟩

example : PeripheralRederived (Sample.peripheralInfo "P" 0x1000 none (some [])) { derivedFrom := some "Q".toList }
    (Sample.peripheralInfo "P" 0x1000 (some "Q")) :=
  (C18_peripheral_derived (Sample.peripheralInfo "P" 0x1000 none (some [])) { derivedFrom := some "Q".toList }
    .weak (by decide)).1

theorem C18_device (s : Device) (b : DeviceBuilder) (lvl : ValidateLevel) :
    ∃ t, DeviceUpdated s b t ∧
      (s.modifyFrom b lvl).2 = (do t.defaultRegisterProperties.validate lvl; t.validate lvl) ∧
      ((s.modifyFrom b lvl).2 = .ok () → (s.modifyFrom b lvl).1 = t) := by
  unfold Device.modifyFrom
  dsimp only
  refine ⟨{ s with
    vendor := setIfSomeE b.vendor s.vendor
    vendorId := setIfSomeE b.vendorId s.vendorId
    name := setIf b.name s.name
    series := setIfSomeE b.series s.series
    version := setIf b.version s.version
    description := setIf b.description s.description
    licenseText := setIfSomeE b.licenseText s.licenseText
    cpu := setIfSome b.cpu s.cpu
    headerSystemFilename := setIfSomeE b.headerSystemFilename s.headerSystemFilename
    headerDefinitionsPrefix := setIfSomeE b.headerDefinitionsPrefix s.headerDefinitionsPrefix
    addressUnitBits := setIf b.addressUnitBits s.addressUnitBits
    width := setIf b.width s.width
    defaultRegisterProperties := s.defaultRegisterProperties.modified b.defaultRegisterProperties
    peripherals := setIf b.peripherals s.peripherals
    xmlnsXs := setIf b.xmlnsXs s.xmlnsXs
    noNamespaceSchemaLocation := setIf b.noNamespaceSchemaLocation s.noNamespaceSchemaLocation
    schemaVersion := setIf b.schemaVersion s.schemaVersion }, ?_, ?_, ?_⟩
  · exact ⟨upd_setIfSomeE .., upd_setIfSomeE .., upd_setIf .., upd_setIfSomeE .., upd_setIf ..,
      upd_setIf .., upd_setIfSomeE .., upd_setIfSome .., upd_setIfSomeE .., upd_setIfSomeE ..,
      upd_setIf .., upd_setIf .., propsUpdated .., upd_setIf .., upd_setIf .., upd_setIf ..,
      upd_setIf ..⟩
  · cases h : RegisterProperties.validate
      (s.defaultRegisterProperties.modified b.defaultRegisterProperties) lvl <;> rfl
  · cases h : RegisterProperties.validate
      (s.defaultRegisterProperties.modified b.defaultRegisterProperties) lvl <;> simp

example : (RegisterProperties.modifyFrom ⟨some 8, none, none, some 5, none⟩
      { resetValue := some 7 } .weak) =
    (⟨some 8, none, none, some 7, none⟩, .ok ()) := by decide
/-- On a failed check the object has nevertheless been changed. -/
example : (RegisterProperties.modifyFrom ⟨some 8, none, none, some 5, none⟩
      { resetValue := some 256 } .weak) =
    (⟨some 8, none, none, some 256, none⟩, .error (.err (.resetValueTooLarge 256 8))) := by decide

/-! ## C44 -/

/-- **C44.** Setting first the offset and then the width gives the range. -/
theorem C44_offset_then_width_partial (b : FieldInfoBuilder) (o w : U32)
    (h : b.bitRange = none) (ho : b.bitOffset = none) :
    ((b.setBitOffset o).setBitWidth w).bitRange = some ⟨o, w, .offsetWidth⟩ := by
  unfold FieldInfoBuilder.setBitOffset FieldInfoBuilder.setBitWidth
  simp only [h, ho]
  rfl

example : ((({ name := some ['F'] } : FieldInfoBuilder).setBitOffset 2).setBitWidth 3).bitRange =
    some ⟨2, 3, .offsetWidth⟩ := C44_offset_then_width_partial _ 2 3 rfl rfl

/-- **C44 (violated).** Setting first the width and then the offset leaves the range unset, for all
builders without a range, so building fails. -/
theorem C44_width_then_offset_lost (b : FieldInfoBuilder) (o w : U32)
    (h : b.bitRange = none) (ho : b.bitOffset = none) (lvl : ValidateLevel) (name : Str)
    (hn : b.name = some name) :
    ((b.setBitWidth w).setBitOffset o).build lvl = .error (.err (.uninitialized "bit_range")) := by
  unfold FieldInfoBuilder.setBitOffset FieldInfoBuilder.setBitWidth FieldInfoBuilder.build
  simp only [h, ho, hn]
  rfl

example : ((({ name := some ['F'] } : FieldInfoBuilder).setBitWidth 3).setBitOffset 2).build .weak =
    .error (.err (.uninitialized "bit_range")) := C44_width_then_offset_lost _ 2 3 rfl rfl .weak ['F'] rfl

/-- **C44 (violated).** Setting the offset twice turns the first offset into a width. -/
theorem C44_offset_twice (b : FieldInfoBuilder) (o o' : U32)
    (h : b.bitRange = none) (ho : b.bitOffset = none) :
    ((b.setBitOffset o).setBitOffset o').bitRange = some ⟨o', o, .offsetWidth⟩ := by
  unfold FieldInfoBuilder.setBitOffset
  simp only [h, ho]
  rfl

example : ((({ name := some ['F'] } : FieldInfoBuilder).setBitOffset 2).setBitOffset 9).bitRange =
    some ⟨9, 2, .offsetWidth⟩ := C44_offset_twice _ 2 9 rfl rfl

/-- **C44.** On a builder that has a range the setters change the offset or width, in any order. -/
theorem C44_with_range_partial (b : FieldInfoBuilder) (r : BitRange) (o w : U32)
    (h : b.bitRange = some r) :
    ((b.setBitWidth w).setBitOffset o).bitRange = some { r with offset := o, width := w } ∧
      ((b.setBitOffset o).setBitWidth w).bitRange = some { r with offset := o, width := w } := by
  unfold FieldInfoBuilder.setBitOffset FieldInfoBuilder.setBitWidth
  simp only [h, and_self]

example : (({} : FieldInfoBuilder).setBitWidth 3).bitOffset = none := rfl
example : ((({ name := some ['F'] } : FieldInfoBuilder).setBitOffset 2).setBitWidth 3).build .strict =
    .ok ⟨['F'], none, ⟨2, 3, .offsetWidth⟩, none, none, none, none, [], none⟩ := by decide

/-! ## C45 -/

/-- **C45 (violated).** Modifying enumerated values from a builder with a reference never stores the
reference: whatever the reference, the object keeps its old one and loses everything else. -/
theorem C45_reference_lost (s : EnumeratedValues) (b : EnumeratedValuesBuilder) (r : Str)
    (h : b.derivedFrom = some r) (lvl : ValidateLevel) :
    (s.modifyFrom b lvl).1 = ⟨none, none, s.derivedFrom, []⟩ := by
  have e : (s.modifyFrom b lvl).1 = s.modified b := rfl
  rw [e]; unfold EnumeratedValues.modified; rw [h]; rfl

example : ((Sample.evs (some "E") none [⟨['A'], none, some 1, none⟩]).modifyFrom
    { derivedFrom := some ['X'] } .disabled).1 = ⟨none, none, none, []⟩ := C45_reference_lost _ _ ['X'] rfl .disabled

/-- **C45 (violated).** As a consequence modifying a group that is not already derived is rejected
at level Weak and Strict. -/
theorem C45_rejected (s : EnumeratedValues) (b : EnumeratedValuesBuilder) (r : Str)
    (h : b.derivedFrom = some r) (hs : s.derivedFrom = none) (lvl : ValidateLevel)
    (hl : lvl ≠ .disabled) :
    (s.modifyFrom b lvl).2 = .error (.err .enumEmpty) := by
  have e : (s.modifyFrom b lvl).2 = (s.modifyFrom b lvl).1.validate lvl := rfl
  rw [e, C45_reference_lost s b r h, hs]
  cases lvl
  · exact absurd rfl hl
  · rfl
  · rfl

example : ((Sample.evs (some "E") none [⟨['A'], none, some 1, none⟩]).modifyFrom
    { derivedFrom := some ['X'] } .strict).2 = .error (.err .enumEmpty) :=
  C45_rejected _ _ ['X'] rfl rfl .strict (by decide)

/-- **C45.** What does hold: members to inherit are removed (the reference is missing). -/
theorem C45_cleared_partial (s : EnumeratedValues) (b : EnumeratedValuesBuilder) (r : Str)
    (h : b.derivedFrom = some r) (lvl : ValidateLevel) :
    (s.modifyFrom b lvl).1.name = none ∧ (s.modifyFrom b lvl).1.usage = none ∧
      (s.modifyFrom b lvl).1.values = [] := by
  rw [C45_reference_lost s b r h]; exact ⟨rfl, rfl, rfl⟩

example : (EnumeratedValues.modifyFrom ⟨none, none, none, [⟨['A'], none, some 1, none⟩]⟩
    { derivedFrom := some ['X'] } .weak) =
    (⟨none, none, none, []⟩, .error (.err .enumEmpty)) := by decide

end Svd
