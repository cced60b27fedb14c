import Verif.Props.Recase
import Verif.Props.RoundTripExamples
import Verif.Model.Expand

/-! # C75: examples, and what becomes of references -/

namespace Svd

open Spec Sample

/-- A conversion that changes letters one by one; like the real one it does not spare the placeholder. -/
def letters : IdentifierFormat → Str → Str
  | .constant, s => s.map Char.toUpper
  | _, s => s.map Char.toLower

/-- Three kinds of identifiers in other cases, the peripherals by name, the bits as a range. -/
def caseConfig : EncConfig :=
  { peripheralName := some .constant, registerName := some .snake, enumeratedValueName := some .constant,
    fieldBitRange := some .bitRange }

/-- The renaming it asks for. -/
def caseRenaming : Renaming :=
  { peripheral := fun s => replaceStr ['%', 'S'] ['%', 's'] (s.map Char.toUpper)
    register := fun s => replaceStr ['%', 'S'] ['%', 's'] (s.map Char.toLower)
    value := fun s => replaceStr ['%', 'S'] ['%', 's'] (s.map Char.toUpper) }

theorem caseRenaming_converts : Converts letters caseConfig caseRenaming where
  peripheral _ := (Written.renamed_iff ..).mpr rfl
  interrupt _ := rfl
  cluster _ := rfl
  register _ := (Written.renamed_iff ..).mpr rfl
  field _ := rfl
  enums _ := rfl
  value _ := (Written.renamed_iff ..).mpr rfl
  headerEnum _ := rfl

/-- The theorem applies to the device with a bit of everything, which does change. -/
example : ∃ x d', encodeDevice true letters caseConfig Sample.rich = .ok x ∧ Presented caseConfig Sample.rich d' ∧
    (∀ y, Reread x y → parseDevice true { validateLevel := .strict } y = .ok (caseRenaming.onDevice d')) ∧
    caseRenaming.onDevice Sample.rich ≠ Sample.rich := by
  obtain ⟨x, hx⟩ := C27_written true letters caseConfig .strict Sample.rich rich_expressible nofun nofun nofun
  obtain ⟨d', h1, h2⟩ := C75_renamed true letters caseConfig { validateLevel := .strict } rfl caseRenaming
    caseRenaming_converts Sample.rich (by decide +kernel) x hx
  exact ⟨x, d', hx, h1, h2, by decide +kernel⟩

/-- Write with converted names, and read. -/
def recased (cfg : EncConfig) (d : Device) : M Device := do
  let x ← encodeDevice true letters cfg d
  parseDevice true { validateLevel := .strict } (asRead x)

/-- A register derived from one of another peripheral. -/
def elsewhere : Device := device
  [.single (peripheralInfo "UART" 0x1000 none (some [.register (.single (registerInfo "CR" 0))])),
   .single (peripheralInfo "SPI" 0x2000 none (some [.register (.single (registerInfo "SR" 0 (some "UART.CR")))]))]

/-- A field whose values are those of another field of the register. -/
def valuesElsewhere : Device := device
  [.single (peripheralInfo "UART" 0x1000 none (some [.register (.single (registerInfo "CR" 0 none (some
    [.single (fieldInfo "RX" 0 none [evs (some "Mode") none
       [{ name := "On".toList, description := none, value := some 1, isDefault := none }]]),
     .single (fieldInfo "TX" 1 none [evs none (some "RX.Mode")])])))]))]

/-- **C75**, references (finding): a reference with a path is converted as a whole in the format of the kind of element
it stands at, although the names on the path have formats of their own.  A valid device that can be expanded is
written so that the reference leads nowhere. -/
theorem C75_references_lost :
    (Expressible .strict elsewhere ∧ (expand true 10 elsewhere).toOption.isSome ∧
      (recased { registerName := some .snake } elsewhere).toOption.isSome ∧
      recased { registerName := some .snake } elsewhere >>= expand true 10 =
        .error (.err (.notFound "register" "uart.cr".toList))) ∧
    (Expressible .strict valuesElsewhere ∧ (expand true 10 valuesElsewhere).toOption.isSome ∧
      (recased { enumeratedValuesName := some .snake } valuesElsewhere).toOption.isSome ∧
      recased { enumeratedValuesName := some .snake } valuesElsewhere >>= expand true 10 =
        .error (.err (.enumsNotFound "rx.mode".toList "UART".toList [] "CR".toList "TX".toList))) := by
  decide +kernel

/-- With the same conversion for all kinds of identifiers the references are found again. -/
example : (recased { peripheralName := some .snake, registerName := some .snake } elsewhere >>= expand true 10).toOption.isSome ∧
    (recased { fieldName := some .snake, enumeratedValuesName := some .snake } valuesElsewhere >>=
      expand true 10).toOption.isSome := by decide +kernel

end Svd
