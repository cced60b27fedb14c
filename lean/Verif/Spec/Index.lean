import Verif.Model.Path
import Verif.Spec.Instance

/-! # The elements of a device and their paths

An element is found under its own name (for an array: the template name) and, if it is an array, under
the name of each instance. -/

namespace Svd.Spec

/-- A name of an element. -/
def Named (name : Str) (dim : Option DimElement) (n : Str) : Prop :=
  n = name ∨ ∃ d k idx, dim = some d ∧ k < d.dim.toNat ∧ (indexList d)[k]? = some idx ∧
    InstanceName d idx name n

/-- A peripheral of the device under one of its names. -/
def PeripheralAt (d : Device) (b : BlockPath) (p : Peripheral) : Prop :=
  p ∈ d.peripherals ∧ b.path = [] ∧ Named p.info.name p.dim? b.peripheral

/-- The registers and clusters directly in a block (a peripheral or a cluster). -/
inductive BlockAt (d : Device) : BlockPath → List RegisterCluster → Prop where
  | peripheral {b p cs} : PeripheralAt d b p → p.info.registers = some cs → BlockAt d b cs
  | cluster {b cs h dim sub n} : BlockAt d b cs → .cluster h dim sub ∈ cs → Named h.name dim n →
      BlockAt d ⟨b.peripheral, b.path ++ [n]⟩ sub

/-- A cluster of the device. -/
def ClusterAt (d : Device) (b : BlockPath) (c : Cluster) : Prop :=
  ∃ b0 n cs, BlockAt d b0 cs ∧ .cluster c.info.toClusterHead c.dim? c.info.children ∈ cs ∧
    Named c.info.name c.dim? n ∧ b = ⟨b0.peripheral, b0.path ++ [n]⟩

/-- A register of the device. -/
def RegisterAt (d : Device) (q : RegisterPath) (r : Register) : Prop :=
  ∃ cs, BlockAt d q.block cs ∧ .register r ∈ cs ∧ Named r.info.name r.dim? q.name

/-- A field of the device. -/
def FieldAt (d : Device) (q : FieldPath) (f : Field) : Prop :=
  ∃ r l, RegisterAt d q.register r ∧ r.info.fields = some l ∧ f ∈ l ∧ Named f.info.name f.dim? q.name

/-- A named group of enumerated values of the device. -/
def EnumAt (d : Device) (q : EnumPath) (e : EnumeratedValues) : Prop :=
  ∃ f, FieldAt d q.field f ∧ e ∈ f.info.enumeratedValues ∧ e.name = some q.name

/-! ## The same in the order of the document

`names` lists the names of an element. -/

section
variable (names : Str → Option DimElement → List Str)

/-- The registers directly in a block. -/
def ownRegisters (b : BlockPath) (cs : List RegisterCluster) : List (RegisterPath × Register) :=
  cs.flatMap fun
    | .register r => (names r.info.name r.dim?).map fun n => (⟨b, n⟩, r)
    | .cluster .. => []

mutual
/-- The registers in a cluster and the clusters in it. -/
def registersWithin (b : BlockPath) : RegisterCluster → List (RegisterPath × Register)
  | .register _ => []
  | .cluster h d cs => (names h.name d).flatMap fun n =>
      ownRegisters names ⟨b.peripheral, b.path ++ [n]⟩ cs ++
        registersWithinAll ⟨b.peripheral, b.path ++ [n]⟩ cs
/-- The registers in the clusters of a block. -/
def registersWithinAll (b : BlockPath) : List RegisterCluster → List (RegisterPath × Register)
  | [] => []
  | c :: cs => registersWithin b c ++ registersWithinAll b cs
end

mutual
/-- The clusters in a cluster, then the cluster itself. -/
def clustersIn (b : BlockPath) : RegisterCluster → List (BlockPath × Cluster)
  | .register _ => []
  | .cluster h d cs => (names h.name d).flatMap fun n =>
      clustersInAll ⟨b.peripheral, b.path ++ [n]⟩ cs ++
        [(⟨b.peripheral, b.path ++ [n]⟩, MaybeArray.mk' { h with children := cs } d)]
/-- The clusters in a block. -/
def clustersInAll (b : BlockPath) : List RegisterCluster → List (BlockPath × Cluster)
  | [] => []
  | c :: cs => clustersIn b c ++ clustersInAll b cs
end

/-- All peripherals. -/
def allPeripherals (d : Device) : List (BlockPath × Peripheral) :=
  d.peripherals.flatMap fun p => (names p.info.name p.dim?).map fun n => (⟨n, []⟩, p)

/-- All clusters. -/
def allClusters (d : Device) : List (BlockPath × Cluster) :=
  d.peripherals.flatMap fun p => (names p.info.name p.dim?).flatMap fun n =>
    clustersInAll names ⟨n, []⟩ (p.info.registers.getD [])

/-- All registers. -/
def allRegisterPaths (d : Device) : List (RegisterPath × Register) :=
  d.peripherals.flatMap fun p => (names p.info.name p.dim?).flatMap fun n =>
    ownRegisters names ⟨n, []⟩ (p.info.registers.getD []) ++
      registersWithinAll names ⟨n, []⟩ (p.info.registers.getD [])

/-- The fields of a register. -/
def fieldsOf (q : RegisterPath) (r : Register) : List (FieldPath × Field) :=
  (r.info.fields.getD []).flatMap fun f => (names f.info.name f.dim?).map fun n => (⟨q, n⟩, f)

/-- All fields. -/
def allFields (d : Device) : List (FieldPath × Field) :=
  (allRegisterPaths names d).flatMap fun q => fieldsOf names q.1 q.2

/-- The named groups of enumerated values of a field. -/
def enumsOf (q : FieldPath) (f : Field) : List (EnumPath × EnumeratedValues) :=
  f.info.enumeratedValues.filterMap fun e => e.name.map fun n => (⟨q, n⟩, e)

/-- All named groups of enumerated values. -/
def allEnums (d : Device) : List (EnumPath × EnumeratedValues) :=
  (allFields names d).flatMap fun q => enumsOf q.1 q.2

end

/-- The last entry under a key. -/
def LastAt {κ α : Type} (l : List (κ × α)) (k : κ) (a : α) : Prop :=
  ∃ pre post, l = pre ++ (k, a) :: post ∧ ∀ x ∈ post, x.1 ≠ k

end Svd.Spec
