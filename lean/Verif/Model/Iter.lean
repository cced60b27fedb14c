import Verif.Model.Validate

/-!
# Iterators, lookups and bit masks
-/

namespace Svd

/-- svd-rs/src/registercluster.rs:62-75 `RegisterIter`, collected. -/
def registersOf : List RegisterCluster → List Register
  | [] => []
  | .register r :: cs => r :: registersOf cs
  | .cluster .. :: cs => registersOf cs

/-- svd-rs/src/registercluster.rs:94-107 `ClusterIter`, collected. -/
def clustersOf : List RegisterCluster → List Cluster
  | [] => []
  | .register _ :: cs => clustersOf cs
  | .cluster h d ch :: cs => MaybeArray.mk' { h with children := ch } d :: clustersOf cs

/-- svd-rs/src/cluster.rs:332-334, peripheral.rs:493-495 `get_register`. -/
def getRegister (cs : List RegisterCluster) (name : Str) : Option Register :=
  (registersOf cs).find? fun r => r.info.name == name

/-- svd-rs/src/cluster.rs:342-344, peripheral.rs:503-505 `get_cluster`. -/
def getCluster (cs : List RegisterCluster) (name : Str) : Option Cluster :=
  (clustersOf cs).find? fun c => c.info.name == name

/-- svd-rs/src/peripheral.rs:513-515 `get_interrupt`. -/
def PeripheralInfo.getInterrupt (p : PeripheralInfo) (name : Str) : Option Interrupt :=
  p.interrupt.find? fun i => i.name == name

/-- svd-rs/src/device.rs:399-401 `get_peripheral`. -/
def Device.getPeripheral (d : Device) (name : Str) : Option Peripheral :=
  d.peripherals.find? fun p => p.info.name == name

mutual
/-- Number of nodes of a tree, for termination of `AllRegistersIter`. -/
def RegisterCluster.nodes : RegisterCluster → Nat
  | .register _ => 1
  | .cluster _ _ cs => 1 + nodesList cs
/-- Number of nodes of a list of trees. -/
def nodesList : List RegisterCluster → Nat
  | [] => 0
  | c :: cs => c.nodes + nodesList cs
end

theorem nodesList_append (a b : List RegisterCluster) :
    nodesList (a ++ b) = nodesList a + nodesList b := by
  induction a with
  | nil => simp [nodesList]
  | cons x xs ih => simp [nodesList, ih]; omega

/-- svd-rs/src/registercluster.rs:130-147 `AllRegistersIter::next`.  The stack `rem` is kept with
its top (the end of the Rust `Vec`, where `pop` and `push` act) at the head, so pushing the children
in reverse order puts them in order in front. -/
def allRegistersNext : List RegisterCluster → Option (Register × List RegisterCluster)
  | [] => none
  | .register r :: rem => some (r, rem)
  | .cluster _ _ cs :: rem => allRegistersNext (cs ++ rem)
termination_by s => nodesList s
decreasing_by
  simp only [nodesList, nodesList_append, RegisterCluster.nodes]; omega

/-- `next` returns a smaller stack. -/
theorem allRegistersNext_lt (s : List RegisterCluster) (r : Register) (s' : List RegisterCluster)
    (h : allRegistersNext s = some (r, s')) : nodesList s' < nodesList s := by
  fun_induction allRegistersNext s with
  | case1 => simp at h
  | case2 r0 rem =>
    simp only [Option.some.injEq, Prod.mk.injEq] at h
    obtain ⟨_, rfl⟩ := h
    simp only [nodesList, RegisterCluster.nodes]; omega
  | case3 h0 d0 cs rem ih =>
    have := ih h
    simp only [nodesList, nodesList_append, RegisterCluster.nodes] at this ⊢; omega

/-- Collecting the iterator: `next` until `None`. -/
def allRegistersRun (s : List RegisterCluster) : List Register :=
  match _h : allRegistersNext s with
  | none => []
  | some (r, s') => r :: allRegistersRun s'
termination_by nodesList s
decreasing_by exact allRegistersNext_lt _ _ _ _h

/-- svd-rs/src/cluster.rs:284-288, peripheral.rs:468-475 `all_registers`: the stack starts as the
reversed children, i.e. first child on top. -/
def allRegisters (children : List RegisterCluster) : List Register := allRegistersRun children

/-- svd-rs/src/field.rs:379-382 `FieldInfo::bitmask`. -/
def FieldInfo.bitmask (oc : Bool) (f : FieldInfo) : M U64 := do
  let s ← subC oc (64 : U32) f.bitRange.width
  let m ← shrC oc (BitVec.allOnes 64) s
  shlC oc m f.bitRange.offset

/-- svd-rs/src/field.rs:421-427: the loop `for i in 0..d.dim { bits |= mask << (i * inc) }`. -/
def maskLoop (oc : Bool) (mask : U64) (inc : U32) : U64 → List Nat → M U64
  | bits, [] => .ok bits
  | bits, i :: is => do
    let k ← mulC oc (BitVec.ofNat 32 i) inc
    let m ← shlC oc mask k
    maskLoop oc mask inc (bits ||| m) is

/-- svd-rs/src/field.rs:417-429 `Field::bitmask`. -/
def Field.bitmask (oc : Bool) : Field → M U64
  | .single f => f.bitmask oc
  | .array f d => do
    let mask ← f.bitmask oc
    maskLoop oc mask d.dimIncrement 0 (List.range d.dim.toNat)

/-- svd-rs/src/register.rs:425-427 `RegisterInfo::bitmask`. -/
def RegisterInfo.bitmask (oc : Bool) (r : RegisterInfo) : M U64 :=
  r.fieldList.foldlM (fun mask f => do let m ← Field.bitmask oc f; .ok (mask ||| m)) 0

/-- svd-rs/src/field.rs:385-393 `get_enumerated_values`. -/
def FieldInfo.getEnumeratedValues (f : FieldInfo) (usage : Usage) : Option EnumeratedValues :=
  if f.enumeratedValues.length = 1 ∨ f.enumeratedValues.length = 2 then
    f.enumeratedValues.find? fun ev => ev.usageOf == some usage
  else none

/-- svd-rs/src/cpu.rs:328-330 `is_cortex_m`. -/
def Cpu.isCortexM (c : Cpu) : Bool := "CM".toList.isPrefixOf c.name

end Svd
