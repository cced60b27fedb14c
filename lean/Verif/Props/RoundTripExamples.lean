import Verif.Props.RoundTripAll
import Verif.Spec.Sample

/-!
# Devices for C26 and C27

The conditions are decidable, so concrete devices can be checked; then examples and what goes wrong
without the conditions.
-/

namespace Svd

open Spec Xml

instance (s : Str) : Decidable (Text s) :=
  decidable_of_iff (s ≠ [] ∧ trim s = s) (and_congr_right fun _ => trim_iff)

instance {α : Type} (o : Option α) (P : α → Prop) [DecidablePred P] : Decidable (∀ v, o = some v → P v) :=
  match o with
  | none => .isTrue nofun
  | some v => decidable_of_iff (P v) ⟨fun h _ e => Option.some.inj e ▸ h, fun h => h v rfl⟩

instance (o : Option Str) : Decidable (OptText o) := inferInstanceAs (Decidable (∀ s, o = some s → Text s))

instance (e : EnumeratedValue) : Decidable (EnumValueFits e) :=
  inferInstanceAs (Decidable (Text e.name ∧ OptText e.description))

instance (e : EnumeratedValues) : Decidable (EnumsFits e) :=
  inferInstanceAs (Decidable (OptText e.name ∧ ∀ v ∈ e.values, EnumValueFits v))

instance (b : BitRange) : Decidable (WritableRange b) :=
  inferInstanceAs (Decidable (1 ≤ b.width.toNat ∧ b.offset.toNat + b.width.toNat < 2 ^ 32))

instance (d : DimElement) : Decidable (NotBothEnds d) :=
  inferInstanceAs (Decidable (∀ l, d.dimIndex = some l → ¬ ("0".toList ∈ l ∧ "4294967295".toList ∈ l)))

instance (e : EnumeratedValue) (lvl : ValidateLevel) : Decidable (EnumValueValid e lvl) :=
  decidable_of_iff _ (enumValue_validate e lvl)

instance (l : List Str) : Decidable (OuterClean l) :=
  inferInstanceAs (Decidable
    ((∀ p, l.head? = some p → ∀ c, p.head? = some c → isWhitespace c = false) ∧
      (∀ p, l.getLast? = some p → ∀ c, p.getLast? = some c → isWhitespace c = false)))

instance (lvl : ValidateLevel) (d : DimElement) : Decidable (DimFits lvl d) :=
  decidable_of_iff
    ((∀ l, d.dimIndex = some l → l ≠ [] ∧ l ≠ [[]] ∧ l.length = d.dim.toNat ∧
      (∀ p ∈ l, '-' ∉ p ∧ ',' ∉ p) ∧ OuterClean l) ∧
      NotBothEnds d ∧ OptText d.dimName ∧
      (∀ a, d.dimArrayIndex = some a → OptText a.headerEnumName ∧
        ∀ v ∈ a.values, EnumValueFits v ∧ EnumValueValid v lvl))
    ⟨fun ⟨a, b, c, e⟩ => ⟨a, b, c, e⟩, fun ⟨a, b, c, e⟩ => ⟨a, b, c, e⟩⟩

instance (name : Str) : Decidable (∃ a b, name = a ++ "%s".toList ++ b) :=
  decidable_of_iff _ (containsSub_iff _ _)

instance (lvl : ValidateLevel) (name : Str) (d : Option DimElement) : Decidable (ArrayFits lvl name d) :=
  inferInstanceAs (Decidable (∀ x, d = some x → (∃ a b, name = a ++ "%s".toList ++ b) ∧ DimFits lvl x))

instance (lvl : ValidateLevel) (f : Field) : Decidable (FieldFits lvl f) :=
  decidable_of_iff (Text f.info.name ∧ OptText f.info.description ∧ WritableRange f.info.bitRange ∧
      (∀ e ∈ f.info.enumeratedValues, EnumsFits e) ∧ ArrayFits lvl f.info.name f.dim?)
    ⟨fun ⟨a, b, c, e, g⟩ => ⟨a, b, c, e, g⟩, fun ⟨a, b, c, e, g⟩ => ⟨a, b, c, e, g⟩⟩

instance (lvl : ValidateLevel) (r : Register) : Decidable (RegisterFits lvl r) :=
  decidable_of_iff (Text r.info.name ∧ OptText r.info.displayName ∧ OptText r.info.description ∧
      OptText r.info.alternateGroup ∧ OptText r.info.alternateRegister ∧ r.info.fields ≠ some [] ∧
      (∀ l, r.info.fields = some l → ∀ f ∈ l, FieldFits lvl f) ∧ ArrayFits lvl r.info.name r.dim?)
    ⟨fun ⟨a, b, c, d, e, f, g, h⟩ => ⟨a, b, c, d, e, f, g, h⟩,
     fun ⟨a, b, c, d, e, f, g, h⟩ => ⟨a, b, c, d, e, f, g, h⟩⟩

instance (h : ClusterHead) : Decidable (ClusterHeadFits h) :=
  decidable_of_iff (Text h.name ∧ OptText h.description ∧ OptText h.alternateCluster ∧
      OptText h.headerStructName)
    ⟨fun ⟨a, b, c, d⟩ => ⟨a, b, c, d⟩, fun ⟨a, b, c, d⟩ => ⟨a, b, c, d⟩⟩

mutual
/-- Decides `RcFits`. -/
def decRc (lvl : ValidateLevel) : (c : RegisterCluster) → Decidable (RcFits lvl c)
  | .register r => decidable_of_iff (RegisterFits lvl r) (by rw [RcFits])
  | .cluster h d cs =>
    have := decRcs lvl cs
    decidable_of_iff (ClusterHeadFits h ∧ ArrayFits lvl h.name d ∧ RcsFits lvl cs) (by rw [RcFits])
/-- Decides `RcsFits`. -/
def decRcs (lvl : ValidateLevel) : (cs : List RegisterCluster) → Decidable (RcsFits lvl cs)
  | [] => .isTrue (by rw [RcsFits]; trivial)
  | c :: cs =>
    have := decRc lvl c
    have := decRcs lvl cs
    decidable_of_iff (RcFits lvl c ∧ RcsFits lvl cs) (by rw [RcsFits])
end

instance (lvl : ValidateLevel) (cs : List RegisterCluster) : Decidable (RcsFits lvl cs) := decRcs lvl cs

instance (lvl : ValidateLevel) (p : Peripheral) : Decidable (PeripheralFits lvl p) :=
  decidable_of_iff (Text p.info.name ∧ OptText p.info.displayName ∧ OptText p.info.version ∧
      OptText p.info.description ∧ OptText p.info.alternatePeripheral ∧ OptText p.info.groupName ∧
      OptText p.info.prependToName ∧ OptText p.info.appendToName ∧ OptText p.info.headerStructName ∧
      p.info.addressBlock ≠ some [] ∧
      (∀ i ∈ p.info.interrupt, Text i.name ∧ OptText i.description) ∧
      (∀ l, p.info.registers = some l → RcsFits lvl l) ∧ ArrayFits lvl p.info.name p.dim?)
    ⟨fun ⟨a, b, c, d, e, f, g, h, i, j, k, l, m⟩ => ⟨a, b, c, d, e, f, g, h, i, j, k, l, m⟩,
     fun ⟨a, b, c, d, e, f, g, h, i, j, k, l, m⟩ => ⟨a, b, c, d, e, f, g, h, i, j, k, l, m⟩⟩

instance (lvl : ValidateLevel) (d : Device) : Decidable (Expressible lvl d) :=
  decidable_of_iff (OptText d.vendor ∧ OptText d.vendorId ∧ Text d.name ∧ OptText d.series ∧
      Text d.version ∧ (Text d.description ∨ (d.description = [] ∧ lvl ≠ .strict)) ∧ OptText d.licenseText ∧
      (∀ c, d.cpu = some c → Text c.name ∧ Text c.revision) ∧ OptText d.headerSystemFilename ∧
      OptText d.headerDefinitionsPrefix ∧ (∀ p ∈ d.peripherals, PeripheralFits lvl p) ∧
      d.validateAll lvl = .ok ())
    ⟨fun ⟨a, b, c, e, f, g, h, i, j, k, l, m⟩ =>
        ⟨a, b, c, e, f, g, h, i, j, k, l, (C16_validate_all d lvl).mp m⟩,
     fun ⟨a, b, c, e, f, g, h, i, j, k, l, m⟩ =>
        ⟨a, b, c, e, f, g, h, i, j, k, l, (C16_validate_all d lvl).mpr m⟩⟩

/-! ## C26 -/

namespace Sample

/-- A device with a bit of everything: CPU, interrupts, address blocks, nested clusters, arrays with and
without index lists, an array index with names, enumerated values, a derived peripheral. -/
def rich : Device :=
  { device
      [.single
        { peripheralInfo "UART" 0x40001000 none (some
            [.cluster { clusterHead "CH%s" 0x10 with description := some "a channel".toList }
                (some (dim 2 0x8 (some ["A", "B"])))
              [.cluster (clusterHead "SUB" 0x4) none
                [.register (.single { registerInfo "DATA" 0x1 with readAction := some .modify })],
               .register (.array (registerInfo "W%s" 0x0) (dim 2 1))],
             .register (.array
              { registerInfo "CTRL[%s]" 0x0 none (some
                  [.single { fieldInfo "HI" 4 with bitRange := ⟨4, 2, .bitRange⟩ },
                   .single { fieldInfo "EN" 0 none
                      [{ evs (some "MODE") none
                          [⟨"OFF".toList, some "not on".toList, some 0, none⟩,
                           ⟨"ON".toList, none, some 1, none⟩,
                           ⟨"ANY".toList, none, none, some true⟩] with usage := some .read }]
                     with access := some .readWrite, bitRange := ⟨0, 1, .msbLsb⟩ }]) with
                properties := { size := some 32, resetValue := some 0x10, resetMask := some 0xFF }
                writeConstraint := some (.range ⟨0, 255⟩) }
              { dim 2 4 with
                dimName := some "CTRLS".toList
                dimArrayIndex := some ⟨some "Idx".toList, [⟨"X".toList, none, some 0, none⟩]⟩ })])
          with
          description := some "serial port".toList
          addressBlock := some [⟨0, 0x100, .registers, some .secure⟩]
          interrupt := [⟨"TX".toList, none, 3⟩, ⟨"RX".toList, some "received".toList, 4⟩] },
       .single (peripheralInfo "AUX" 0x40000000 (some "UART"))] with
    vendor := some "Someone".toList
    cpu := some
      { name := "CM4".toList, revision := "r0p1".toList, endian := .little, mpuPresent := true,
        fpuPresent := true, fpuDoublePrecision := some false, dspPresent := none, icachePresent := none,
        dcachePresent := none, itcmPresent := none, dtcmPresent := none, vtorPresent := some true,
        nvicPriorityBits := 4, hasVendorSystick := false, deviceNumInterrupts := some 80,
        sauNumRegions := none } }

end Sample

theorem rich_expressible : Expressible .strict Sample.rich := by decide +kernel

/-- The theorem applies to a device with a bit of everything. -/
example : ∃ x, encodeDevice true (fun _ s => s) {} Sample.rich = .ok x ∧
    ∀ y, Reread x y → parseDevice true { validateLevel := .strict } y = .ok Sample.rich :=
  C26_lossless true (fun _ s => s) { validateLevel := .strict } rfl _ rich_expressible

/-- Write and read, at level Disabled. -/
def rewritten (cfg : EncConfig) (d : Device) : M Device := do
  let x ← encodeDevice true (fun _ s => s) cfg d
  parseDevice true { validateLevel := .disabled } (asRead x)

/-- The same, computed. -/
example : rewritten {} Sample.rich = .ok Sample.rich := by decide +kernel

/-- An empty description below level Strict. -/
example : Expressible .weak { Sample.rich with description := [] } := by decide +kernel

open Sample in
/-- **C26**, what the format cannot express: whitespace around a text, an empty text, an empty list of
fields or address blocks, whitespace around an index list.  Separators in index entries make the file unreadable.  (An array whose name has no place for the index and an index list with a single empty
entry are rejected.) -/
theorem C26_conditions_needed :
    (∃ d d', rewritten {} d = .ok d' ∧ d' ≠ d ∧ d.vendor = some " X".toList) ∧
    (∃ d d', rewritten {} d = .ok d' ∧ d' ≠ d ∧ d.vendor = some []) ∧
    (∃ d d', rewritten {} d = .ok d' ∧ d' ≠ d ∧
      d.peripherals = [.single (peripheralInfo "P" 0 none (some
        [.register (.single (registerInfo "R" 0 none (some [])))]))]) ∧
    (∃ d d', rewritten {} d = .ok d' ∧ d' ≠ d ∧
      d.peripherals = [.single { peripheralInfo "P" 0 with addressBlock := some [] }]) ∧
    (∃ d d', rewritten {} d = .ok d' ∧ d' ≠ d ∧
      d.peripherals = [.array (peripheralInfo "P%s" 0) (dim 2 4 (some ["a", "b "]))]) ∧
    (∃ d, (∀ d', rewritten {} d ≠ .ok d') ∧
      d.peripherals = [.array (peripheralInfo "P%s" 0) (dim 2 4 (some ["a,b", "c"]))]) ∧
    (∃ d, (∀ d', rewritten {} d ≠ .ok d') ∧
      d.peripherals = [.array (peripheralInfo "P" 0) (dim 2 4)]) ∧
    (∃ d, (∀ d', rewritten {} d ≠ .ok d') ∧
      d.peripherals = [.array (peripheralInfo "P%s" 0) (dim 1 4 (some [""]))]) := by
  refine ⟨⟨{ device [] with vendor := some " X".toList }, { device [] with vendor := some "X".toList },
      by decide +kernel, by decide +kernel, rfl⟩,
    ⟨{ device [] with vendor := some [] }, device [], by decide +kernel, by decide +kernel, rfl⟩,
    ⟨device _, device [.single (peripheralInfo "P" 0 none (some [.register (.single (registerInfo "R" 0))]))],
      by decide +kernel, by decide +kernel, rfl⟩,
    ⟨device _, device [.single (peripheralInfo "P" 0)], by decide +kernel, by decide +kernel, rfl⟩,
    ⟨device _, device [.array (peripheralInfo "P%s" 0) (dim 2 4 (some ["a", "b"]))],
      by decide +kernel, by decide +kernel, rfl⟩,
    ⟨device _, fun d' => ?_, rfl⟩, ⟨device _, fun d' => ?_, rfl⟩, ⟨device _, fun d' => ?_, rfl⟩⟩
  all_goals
    intro h
    have h := congrArg Except.toOption h
    rw [show Except.toOption (rewritten _ _) = none by decide +kernel] at h
    cases h

/-! ## C27 -/

/-- Everything in another order and notation. -/
def otherConfig : EncConfig :=
  { peripheralSorting := .unchanged (some .offset), peripheralBaseAddress := .dec,
    registerClusterSorting := .registersFirst (.unchanged none), fieldSorting := .unchanged (some .name),
    fieldBitRange := some .offsetWidth, registerResetValue := .bin, registerSize := .lowerHex16,
    dimDim := .upperHex8, enumeratedValueValue := .bin }

/-- The theorem applies to it and the device with a bit of everything. -/
example : ∃ x d', encodeDevice true (fun _ s => s) otherConfig Sample.rich = .ok x ∧
    Presented otherConfig Sample.rich d' ∧
    ∀ y, Reread x y → parseDevice true { validateLevel := .strict } y = .ok d' := by
  obtain ⟨x, hx⟩ := C27_written true (fun _ s => s) otherConfig .strict Sample.rich rich_expressible
    nofun nofun nofun
  obtain ⟨d', h⟩ := C27_presentation_only true (fun _ s => s) otherConfig { validateLevel := .strict } rfl
    ⟨rfl, rfl, rfl, rfl, rfl, rfl, rfl, rfl⟩ _ rich_expressible x hx
  exact ⟨x, d', hx, h⟩

/-- The names of the registers and clusters of all peripherals in order. -/
def registerNames (d : Device) : List Str := d.peripherals.flatMap fun p =>
  (p.info.registers.getD []).map RegisterCluster.name

/-- The ranges of all fields of registers outside clusters, in order. -/
def fieldRanges (d : Device) : List BitRange := d.peripherals.flatMap fun p =>
  (p.info.registers.getD []).flatMap fun
    | .register r => (r.info.fields.getD []).map (·.info.bitRange)
    | .cluster .. => []

/-- Computed, without sorting by a key: the register comes before the cluster and all ranges are in the
notation with offset and width. -/
example : (rewritten { otherConfig with peripheralSorting := .unchanged none, fieldSorting := .unchanged none }
      Sample.rich).toOption.map (fun d' => (registerNames d', fieldRanges d')) =
    some (["CTRL[%s]".toList, "CH%s".toList], [⟨4, 2, .offsetWidth⟩, ⟨0, 1, .offsetWidth⟩]) ∧
    registerNames Sample.rich = ["CH%s".toList, "CTRL[%s]".toList] ∧
    fieldRanges Sample.rich = [⟨4, 2, .bitRange⟩, ⟨0, 1, .msbLsb⟩] := by decide +kernel

end Svd
