import Verif.Spec.Chain
import Verif.Spec.Expanded

/-! # What a device with references at any level expands to

Every element is resolved first (it inherits along its chain of references), then its children are
expanded, then an array is replaced by its instances.  Relative references of the children are read at
the *home* of the children. -/

namespace Svd.Spec

/-! ## Resolving, with the home of the children -/

/-- Following references from `a`, starting with reference `s` written at `k`.  If `a` has no children
of its own when it meets the last element, the children are at home at the path of the last element;
otherwise they have no home but that of `a` itself. -/
inductive Inherits {κ α π : Type} (base : κ → Str → κ → π → α → Prop) (ref : α → Option Str)
    (inherited : α → α → α → Prop) (childless : α → Prop) : κ → Str → α → α → Option π → Prop where
  | last {k s k' q o a b} : base k s k' q o → ref o = none → inherited a o b → childless a →
      Inherits base ref inherited childless k s a b (some q)
  | lastOwn {k s k' q o a b} : base k s k' q o → ref o = none → inherited a o b → ¬ childless a →
      Inherits base ref inherited childless k s a b none
  | next {k s k' q o s' a b c home} : base k s k' q o → ref o = some s' → inherited a o b →
      Inherits base ref inherited childless k' s' b c home →
      Inherits base ref inherited childless k s a c home

section
variable (names : Str → Option DimElement → List Str)

/-- `o`, at `q`, is the peripheral that reference `s` points to. -/
def PeripheralBase (d : Device) (self : Str) (_ : Unit) (s : Str) (_ : Unit) (q : BlockPath)
    (o : Peripheral) : Prop :=
  PeripheralLink (allPeripherals names d) self s o ∧ q = ⟨s, []⟩

/-- The same for clusters, with the block `b` of the cluster found. -/
def ClusterBase (d : Device) (self : Str) (path : BlockPath) (s : Str) (b q : BlockPath)
    (o : Cluster) : Prop :=
  ∃ n, BlockRef path s b n ∧ ¬ (b = path ∧ n = self) ∧ q = ⟨b.peripheral, b.path ++ [n]⟩ ∧
    LastAt (allClusters names d) q o

/-- The same for registers. -/
def RegisterBase (d : Device) (self : Str) (path : BlockPath) (s : Str) (b : BlockPath)
    (q : RegisterPath) (o : Register) : Prop :=
  ∃ n, BlockRef path s b n ∧ ¬ (b = path ∧ n = self) ∧ q = ⟨b, n⟩ ∧
    LastAt (allRegisterPaths names d) q o

/-- The same for fields. -/
def FieldBase (d : Device) (self : Str) (path : RegisterPath) (s : Str) (b : RegisterPath)
    (q : FieldPath) (o : Field) : Prop :=
  ∃ n, FieldRef path s b n ∧ ¬ (b = path ∧ n = self) ∧ q = ⟨b, n⟩ ∧ LastAt (allFields names d) q o

/-- The peripheral resolved, and the home of its children. -/
inductive PeripheralResolved (d : Device) : Peripheral → Peripheral → BlockPath → Prop where
  | own {p} : p.info.derivedFrom = none → PeripheralResolved d p p ⟨p.info.name, []⟩
  | derived {p q s home} : p.info.derivedFrom = some s →
      Inherits (PeripheralBase names d p.info.name) (fun p => p.info.derivedFrom) PeripheralFrom
        (fun p => p.info.registers = none) () s (p.mapInfo fun i => { i with derivedFrom := none }) q home →
      PeripheralResolved d p q (home.getD ⟨p.info.name, []⟩)

/-- The cluster in block `b` resolved, and the home of its children. -/
inductive ClusterResolved (d : Device) (b : BlockPath) : Cluster → Cluster → BlockPath → Prop where
  | own {c} : c.info.derivedFrom = none →
      ClusterResolved d b c c ⟨b.peripheral, b.path ++ [c.info.name]⟩
  | derived {c q s home} : c.info.derivedFrom = some s →
      Inherits (ClusterBase names d c.info.name) (fun c => c.info.derivedFrom) ClusterFrom
        (fun c => c.info.children = []) b s (c.mapInfo fun i => { i with derivedFrom := none }) q home →
      ClusterResolved d b c q (home.getD ⟨b.peripheral, b.path ++ [c.info.name]⟩)

/-- The register in block `b` resolved, and the home of its fields. -/
inductive RegisterResolved (d : Device) (b : BlockPath) : Register → Register → RegisterPath → Prop where
  | own {r} : r.info.derivedFrom = none → RegisterResolved d b r r ⟨b, r.info.name⟩
  | derived {r q s home} : r.info.derivedFrom = some s →
      Inherits (RegisterBase names d r.info.name) (fun r => r.info.derivedFrom) RegisterFrom
        (fun r => r.info.fields = none) b s (r.mapInfo fun i => { i with derivedFrom := none }) q home →
      RegisterResolved d b r q (home.getD ⟨b, r.info.name⟩)

/-- The field in register `b` resolved, and the home of its enumerated values. -/
inductive FieldResolved (d : Device) (b : RegisterPath) : Field → Field → FieldPath → Prop where
  | own {f} : f.info.derivedFrom = none → FieldResolved d b f f ⟨b, f.info.name⟩
  | derived {f q s home} : f.info.derivedFrom = some s →
      Inherits (FieldBase names d f.info.name) (fun f => f.info.derivedFrom) FieldFrom
        (fun f => f.info.enumeratedValues = []) b s
        (f.mapInfo fun i => { i with derivedFrom := none }) q home →
      FieldResolved d b f q (home.getD ⟨b, f.info.name⟩)

/-- The enumerated values at home in field `b` resolved. -/
inductive EnumsResolved (d : Device) (b : FieldPath) : EnumeratedValues → EnumeratedValues → Prop where
  | own {e} : e.derivedFrom = none → EnumsResolved d b e e
  | derived {e q s es} : e.derivedFrom = some s →
      Chain (EnumLink (allRegisterPaths names d) (allEnums names d) e.name) (fun e => e.derivedFrom)
        b s es →
      Successive EnumsInherited { e with derivedFrom := none } es q → EnumsResolved d b e q

/-! ## The expansion, level by level -/

/-- A field in register `b`. -/
def FieldFull (d : Device) (b : RegisterPath) (f : Field) (l : List Field) : Prop :=
  ∃ f' home evs, FieldResolved names d b f f' home ∧
    Pairs (EnumsResolved names d home) f'.info.enumeratedValues evs ∧
    FieldExpanded (f'.mapInfo fun i => { i with enumeratedValues := evs }) l

/-- The fields at home in register `b`. -/
inductive FieldsFull (d : Device) (b : RegisterPath) :
    Option (List Field) → Option (List Field) → Prop where
  | none : FieldsFull d b none none
  | some {fs ls} : Pairs (FieldFull names d b) fs ls → FieldsFull d b (some fs) (some ls.flatten)

/-- A register stays; an array of registers becomes its instances. -/
inductive RegisterInstances : Register → List RegisterInfo → Prop where
  | single {i} : RegisterInstances (.single i) [i]
  | array {i d l} : Instances (RegisterInstance i d) d l → RegisterInstances (.array i d) l

/-- A register in block `b`. -/
def RegisterFull (d : Device) (b : BlockPath) (r : Register) (l : List RegisterInfo) : Prop :=
  ∃ r' home fs, RegisterResolved names d b r r' home ∧ FieldsFull names d home r'.info.fields fs ∧
    RegisterInstances (r'.mapInfo fun i => { i with fields := fs }) l

/-- The registers `l` of a cluster seen from outside the cluster. -/
inductive ClusterInstances (l : List RegisterInfo) : Cluster → List RegisterInfo → Prop where
  | single {i l'} : Pairs (Placed i.name i.addressOffset.toNat) l l' → ClusterInstances l (.single i) l'
  | array {i d ls} :
      Instances (fun k l' => ∃ name off, ClusterPlace i.toClusterHead d k name off ∧
        Pairs (Placed name off) l l') d ls →
      ClusterInstances l (.array i d) ls.flatten

mutual
/-- A register or cluster in block `b`. -/
inductive RcFull (d : Device) : BlockPath → RegisterCluster → List RegisterInfo → Prop where
  | register {b r l} : RegisterFull names d b r l → RcFull d b (.register r) l
  | cluster {b h dim cs c home l l'} :
      ClusterResolved names d b (MaybeArray.mk' { h with children := cs } dim) c home →
      RcsFull d home c.info.children l → ClusterInstances l c l' → RcFull d b (.cluster h dim cs) l'
/-- One after the other. -/
inductive RcsFull (d : Device) : BlockPath → List RegisterCluster → List RegisterInfo → Prop where
  | nil {b} : RcsFull d b [] []
  | cons {b c cs l l'} : RcFull d b c l → RcsFull d b cs l' → RcsFull d b (c :: cs) (l ++ l')
end

/-- The registers at home in block `b`. -/
inductive RegistersFull (d : Device) (b : BlockPath) :
    Option (List RegisterCluster) → Option (List RegisterCluster) → Prop where
  | none : RegistersFull d b none none
  | some {cs l} : RcsFull names d b cs l →
      RegistersFull d b (some cs) (some (l.map fun r => .register (.single r)))

/-- A peripheral stays; an array of peripherals becomes its instances. -/
inductive PeripheralInstances : Peripheral → List Peripheral → Prop where
  | single {i} : PeripheralInstances (.single i) [.single i]
  | array {i d l} : Instances (PeripheralInstance i d) d l →
      PeripheralInstances (.array i d) (l.map .single)

/-- A peripheral. -/
def PeripheralFull (d : Device) (p : Peripheral) (l : List Peripheral) : Prop :=
  ∃ p' home rs, PeripheralResolved names d p p' home ∧
    RegistersFull names d home p'.info.registers rs ∧
    PeripheralInstances (p'.mapInfo fun i => { i with registers := rs }) l

/-- The peripherals one after the other; the rest of the device stays. -/
def DeviceFull (d d' : Device) : Prop :=
  ∃ ls, Pairs (PeripheralFull names d) d.peripherals ls ∧ d' = { d with peripherals := ls.flatten }

end

end Svd.Spec
