import Verif.Spec.Instance
import Verif.Spec.Lists

/-! # What a device without references expands to -/

namespace Svd.Spec

/-! ## No references -/

/-- No `derivedFrom` in the field. -/
def FieldNoRef (f : Field) : Prop :=
  f.info.derivedFrom = none ∧ ∀ e ∈ f.info.enumeratedValues, e.derivedFrom = none

/-- No `derivedFrom` in the register. -/
def RegisterNoRef (r : Register) : Prop :=
  r.info.derivedFrom = none ∧ ∀ l, r.info.fields = some l → ∀ f ∈ l, FieldNoRef f

mutual
/-- No `derivedFrom` in the register or cluster. -/
def RcNoRef : RegisterCluster → Prop
  | .register r => RegisterNoRef r
  | .cluster h _ cs => h.derivedFrom = none ∧ RcsNoRef cs
/-- No `derivedFrom` in the list. -/
def RcsNoRef : List RegisterCluster → Prop
  | [] => True
  | c :: cs => RcNoRef c ∧ RcsNoRef cs
end

/-- No `derivedFrom` in the peripheral. -/
def PeripheralNoRef (p : Peripheral) : Prop :=
  p.info.derivedFrom = none ∧ ∀ l, p.info.registers = some l → RcsNoRef l

/-- No `derivedFrom` in the device. -/
def DeviceNoRef (d : Device) : Prop := ∀ p ∈ d.peripherals, PeripheralNoRef p

/-! ## The expansion, level by level -/

/-- A field stays; an array of fields becomes its instances. -/
inductive FieldExpanded : Field → List Field → Prop where
  | single {i} : FieldExpanded (.single i) [.single i]
  | array {i d l} : Instances (FieldInstance i d) d l → FieldExpanded (.array i d) (l.map .single)

/-- The fields of a register, one after the other. -/
inductive FieldsExpanded : Option (List Field) → Option (List Field) → Prop where
  | none : FieldsExpanded none none
  | some {fs ls} : Pairs FieldExpanded fs ls → FieldsExpanded (some fs) (some ls.flatten)

/-- A register gets its fields expanded; an array of registers becomes its instances. -/
inductive RegisterExpanded : Register → List RegisterInfo → Prop where
  | single {i fs} : FieldsExpanded i.fields fs → RegisterExpanded (.single i) [{ i with fields := fs }]
  | array {i d fs l} : FieldsExpanded i.fields fs →
      Instances (RegisterInstance { i with fields := fs } d) d l → RegisterExpanded (.array i d) l

/-- The register `r'` is `r` seen from outside a cluster called `name` at `off`. -/
def Placed (name : Str) (off : Nat) (r r' : RegisterInfo) : Prop :=
  r'.name = name ++ "_".toList ++ r.name ∧ r'.addressOffset.toNat = off + r.addressOffset.toNat ∧
    r' = { r with name := r'.name, addressOffset := r'.addressOffset }

/-- Instance `k` of a cluster array is called `name` and is at `off`. -/
def ClusterPlace (h : ClusterHead) (d : DimElement) (k : Nat) (name : Str) (off : Nat) : Prop :=
  (∃ idx, (indexList d)[k]? = some idx ∧ InstanceName d idx h.name name) ∧
    off = h.addressOffset.toNat + k * d.dimIncrement.toNat ∧ off < 2 ^ 32

mutual
/-- A cluster becomes its expanded content, placed; an array of clusters does so once per instance. -/
inductive RcExpanded : RegisterCluster → List RegisterInfo → Prop where
  | register {r l} : RegisterExpanded r l → RcExpanded (.register r) l
  | cluster {h cs l l'} : RcsExpanded cs l → Pairs (Placed h.name h.addressOffset.toNat) l l' →
      RcExpanded (.cluster h none cs) l'
  | clusters {h d cs l ls} : RcsExpanded cs l →
      Instances (fun k l' => ∃ name off, ClusterPlace h d k name off ∧ Pairs (Placed name off) l l') d ls →
      RcExpanded (.cluster h (some d) cs) ls.flatten
/-- One after the other. -/
inductive RcsExpanded : List RegisterCluster → List RegisterInfo → Prop where
  | nil : RcsExpanded [] []
  | cons {c cs l l'} : RcExpanded c l → RcsExpanded cs l' → RcsExpanded (c :: cs) (l ++ l')
end

/-- The registers of a peripheral. -/
inductive RegistersExpanded : Option (List RegisterCluster) → Option (List RegisterCluster) → Prop where
  | none : RegistersExpanded none none
  | some {cs l} : RcsExpanded cs l →
      RegistersExpanded (some cs) (some (l.map fun r => .register (.single r)))

/-- A peripheral gets its registers expanded; an array of peripherals becomes its instances. -/
inductive PeripheralExpanded : Peripheral → List Peripheral → Prop where
  | single {i rs} : RegistersExpanded i.registers rs →
      PeripheralExpanded (.single i) [.single { i with registers := rs }]
  | array {i d rs l} : RegistersExpanded i.registers rs →
      Instances (PeripheralInstance { i with registers := rs } d) d l →
      PeripheralExpanded (.array i d) (l.map .single)

/-- The peripherals one after the other; the rest of the device stays. -/
def DeviceExpanded (d d' : Device) : Prop :=
  ∃ ls, Pairs PeripheralExpanded d.peripherals ls ∧ d' = { d with peripherals := ls.flatten }

/-! ## The expansion, register by register -/

/-- A way from a list of registers and clusters down to one hardware register: the names and offsets of
the instances passed, and the register instance reached. -/
inductive Leaf : List RegisterCluster → List (Str × Nat) → RegisterInfo → Prop where
  | register {cs r l i} : .register r ∈ cs → RegisterExpanded r l → i ∈ l →
      Leaf cs [(i.name, i.addressOffset.toNat)] i
  | cluster {cs h sub way i} : .cluster h none sub ∈ cs → Leaf sub way i →
      Leaf cs ((h.name, h.addressOffset.toNat) :: way) i
  | clusters {cs h d sub k name off way i} : .cluster h (some d) sub ∈ cs → k < d.dim.toNat →
      ClusterPlace h d k name off → Leaf sub way i → Leaf cs ((name, off) :: way) i

end Svd.Spec
