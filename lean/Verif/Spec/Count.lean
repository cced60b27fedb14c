import Verif.Model.Types

/-! # How many registers and fields a description stands for -/

namespace Svd.Spec

/-- An element stands for one, an array for as many as its description says. -/
def copies : Option DimElement → Nat
  | none => 1
  | some d => d.dim.toNat

/-- The fields of a register. -/
def fieldCount : Option (List Field) → Nat
  | none => 0
  | some fs => (fs.map fun f => copies f.dim?).sum

mutual
/-- The registers a register or cluster stands for, where a register with the description `i` counts as
`w i`. -/
def registerCount (w : RegisterInfo → Nat) : RegisterCluster → Nat
  | .register r => copies r.dim? * w r.info
  | .cluster _ d cs => copies d * registerCounts w cs
/-- The same for a list. -/
def registerCounts (w : RegisterInfo → Nat) : List RegisterCluster → Nat
  | [] => 0
  | c :: cs => registerCount w c + registerCounts w cs
end

/-- The number of registers of a list of registers and clusters. -/
def hardwareRegisters (cs : List RegisterCluster) : Nat := registerCounts (fun _ => 1) cs

/-- The number of their fields. -/
def hardwareFields (cs : List RegisterCluster) : Nat := registerCounts (fun i => fieldCount i.fields) cs

/-- The number of peripherals of a device. -/
def devicePeripherals (d : Device) : Nat := (d.peripherals.map fun p => copies p.dim?).sum

/-- The number of registers of a device. -/
def deviceRegisters (d : Device) : Nat :=
  (d.peripherals.map fun p => copies p.dim? * hardwareRegisters (p.info.registers.getD [])).sum

/-- The number of fields of a device. -/
def deviceFields (d : Device) : Nat :=
  (d.peripherals.map fun p => copies p.dim? * hardwareFields (p.info.registers.getD [])).sum

end Svd.Spec
