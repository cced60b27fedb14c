import Verif.Model.Types

/-! # Small devices for the examples beside the theorems -/

namespace Svd.Sample

/-- A field at bit `off`. -/
def fieldInfo (name : String) (off : U32) (der : Option String := none)
    (evs : List EnumeratedValues := []) : FieldInfo :=
  { name := name.toList, description := none, bitRange := ⟨off, 1, .offsetWidth⟩, access := none,
    modifiedWriteValues := none, writeConstraint := none, readAction := none, enumeratedValues := evs,
    derivedFrom := der.map String.toList }

/-- A register at `off`. -/
def registerInfo (name : String) (off : U32) (der : Option String := none)
    (fields : Option (List Field) := none) : RegisterInfo :=
  { name := name.toList, displayName := none, description := none, alternateGroup := none,
    alternateRegister := none, addressOffset := off, properties := {}, datatype := none,
    modifiedWriteValues := none, writeConstraint := none, readAction := none, fields := fields,
    derivedFrom := der.map String.toList }

/-- A cluster at `off`. -/
def clusterHead (name : String) (off : U32) (der : Option String := none) : ClusterHead :=
  { name := name.toList, description := none, alternateCluster := none, headerStructName := none,
    addressOffset := off, defaultRegisterProperties := {}, derivedFrom := der.map String.toList }

/-- A peripheral at `base`. -/
def peripheralInfo (name : String) (base : U64) (der : Option String := none)
    (registers : Option (List RegisterCluster) := none) : PeripheralInfo :=
  { name := name.toList, displayName := none, version := none, description := none,
    alternatePeripheral := none, groupName := none, prependToName := none, appendToName := none,
    headerStructName := none, baseAddress := base, defaultRegisterProperties := {},
    addressBlock := none, interrupt := [], registers := registers,
    derivedFrom := der.map String.toList }

/-- An array of `n` elements at distance `inc`. -/
def dim (n inc : U32) (idx : Option (List String) := none) : DimElement :=
  { dim := n, dimIncrement := inc, dimIndex := idx.map (·.map String.toList), dimName := none,
    dimArrayIndex := none }

/-- Enumerated values without entries. -/
def evs (name : Option String) (der : Option String := none) (values : List EnumeratedValue := []) :
    EnumeratedValues :=
  { name := name.map String.toList, usage := none, derivedFrom := der.map String.toList, values := values }

/-- A device with the given peripherals. -/
def device (ps : List Peripheral) : Device :=
  { vendor := none, vendorId := none, name := "D".toList, series := none, version := "1".toList,
    description := "d".toList, licenseText := none, cpu := none, headerSystemFilename := none,
    headerDefinitionsPrefix := none, addressUnitBits := 8, width := 32,
    defaultRegisterProperties := {}, peripherals := ps,
    xmlnsXs := "".toList, noNamespaceSchemaLocation := "".toList, schemaVersion := "".toList }

/-- Two cluster levels, an array at each level, a field with named enumerated values. -/
def nested : Device := device [.array (peripheralInfo "P%s" 0x1000 none (some
  [.cluster (clusterHead "C" 0x10) none
    [.cluster (clusterHead "S%s" 0x4) (some (dim 2 0x8))
      [.register (.array (registerInfo "R%s" 0x1 none
          (some [.single (fieldInfo "F" 0 none [evs (some "E")])])) (dim 2 2 (some ["A", "B"])))]],
   .register (.single (registerInfo "T" 0x40))])) (dim 2 0x100)]

end Svd.Sample
