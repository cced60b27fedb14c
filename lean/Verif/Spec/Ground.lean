import Verif.Model.Types

/-! # A device with all positions set to zero

Base addresses, address offsets, bit offsets and increments of arrays become 0; everything else stays. -/

namespace Svd.Spec

/-- The dimensions of an array. -/
def groundDim (d : DimElement) : DimElement := { d with dimIncrement := 0 }

/-- An element, given what becomes of its description. -/
def groundArray {α : Type} (f : α → α) : MaybeArray α → MaybeArray α
  | .single i => .single (f i)
  | .array i d => .array (f i) (groundDim d)

/-- A field. -/
def groundField : Field → Field := groundArray fun i => { i with bitRange := { i.bitRange with offset := 0 } }

/-- A register. -/
def groundRegister : Register → Register :=
  groundArray fun i => { i with addressOffset := 0, fields := i.fields.map fun l => l.map groundField }

mutual
/-- A register or a cluster. -/
def groundRc : RegisterCluster → RegisterCluster
  | .register r => .register (groundRegister r)
  | .cluster h d cs => .cluster { h with addressOffset := 0 } (d.map groundDim) (groundRcs cs)
/-- A list of them. -/
def groundRcs : List RegisterCluster → List RegisterCluster
  | [] => []
  | c :: cs => groundRc c :: groundRcs cs
end

/-- A peripheral. -/
def groundPeripheral : Peripheral → Peripheral :=
  groundArray fun i => { i with baseAddress := 0, registers := i.registers.map groundRcs }

/-- A device. -/
def ground (d : Device) : Device := { d with peripherals := d.peripherals.map groundPeripheral }

end Svd.Spec
