import Verif.Model.Types

/-! # Devices without the enumerations of their fields -/

namespace Svd.Spec

/-- The field without enumerated values and write constraint. -/
def plainField (f : FieldInfo) : FieldInfo := { f with enumeratedValues := [], writeConstraint := none }

/-- The same for every field of a register. -/
def plainRegister (r : RegisterInfo) : RegisterInfo :=
  { r with fields := r.fields.map fun l => l.map fun f => f.mapInfo plainField }

mutual
/-- The same for every register of a cluster. -/
def plainRc : RegisterCluster → RegisterCluster
  | .register r => .register (r.mapInfo plainRegister)
  | .cluster h d cs => .cluster h d (plainRcs cs)
/-- The same for every register and cluster of a list. -/
def plainRcs : List RegisterCluster → List RegisterCluster
  | [] => []
  | c :: cs => plainRc c :: plainRcs cs
end

/-- The same for every register of a peripheral. -/
def plainPeripheral (p : PeripheralInfo) : PeripheralInfo := { p with registers := p.registers.map plainRcs }

/-- The same for every peripheral of a device. -/
def plainDevice (d : Device) : Device :=
  { d with peripherals := d.peripherals.map fun p => p.mapInfo plainPeripheral }

end Svd.Spec
