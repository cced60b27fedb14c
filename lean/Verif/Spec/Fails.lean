import Verif.Spec.Full
import Verif.Spec.Parts
import Verif.Spec.Path

/-! # How the expansion of a device fails

The expansion of a device that has no result ends with a fault: a reported error, a panic, or an endless
recursion (`diverge`).  The relations of this file name the fault.  They are about the first fault in
the order in which the elements are expanded: everything before it succeeds. -/

namespace Svd.Spec

/-! ## References that cannot be followed -/

/-- The references never end: reference `s`, written at `k`, leads to an element with a reference, and so
on. -/
def EndlessRefs {κ α : Type} (link : κ → Str → κ → α → Prop) (ref : α → Option Str) (k : κ) (s : Str) :
    Prop :=
  ∃ (places : Nat → κ) (refs : Nat → Str), places 0 = k ∧ refs 0 = s ∧
    ∀ i, ∃ a, link (places i) (refs i) (places (i + 1)) a ∧ ref a = some (refs (i + 1))

/-- Following the references that start with `s`, written at `k`, ends with the fault `e`. -/
inductive RefsFail {κ α : Type} (link : κ → Str → κ → α → Prop) (ref : α → Option Str)
    (problem : κ → Str → Fault → Prop) : κ → Str → Fault → Prop where
  | here {k s e} : problem k s e → RefsFail link ref problem k s e
  | next {k s k' a s' e} : link k s k' a → ref a = some s' → RefsFail link ref problem k' s' e →
      RefsFail link ref problem k s e
  | endless {k s} : EndlessRefs link ref k s → RefsFail link ref problem k s .diverge

/-- What is wrong with a single reference of a peripheral with name `self`: it is the peripheral itself,
or there is none of this name. -/
inductive PeripheralProblem (all : List (BlockPath × Peripheral)) (self : Str) : Str → Fault → Prop where
  | self : PeripheralProblem all self self (.err (.selfDerived "peripheral" self))
  | missing {s} : s ≠ self → (∀ p, ¬ LastAt all ⟨s, []⟩ p) →
      PeripheralProblem all self s (.err (.notFound "peripheral" s))

/-- The same for a cluster in block `path`. -/
inductive ClusterProblem (all : List (BlockPath × Cluster)) (self : Str) (path : BlockPath) :
    Str → Fault → Prop where
  | self {s} : BlockRef path s path self → ClusterProblem all self path s
      (.err (.selfDerived "cluster" (dotted (blockComponents path ++ [self]))))
  | missing {s b n} : BlockRef path s b n → ¬ (b = path ∧ n = self) →
      (∀ c, ¬ LastAt all ⟨b.peripheral, b.path ++ [n]⟩ c) →
      ClusterProblem all self path s (.err (.notFound "cluster" s))

/-- The same for a register in block `path`. -/
inductive RegisterProblem (all : List (RegisterPath × Register)) (self : Str) (path : BlockPath) :
    Str → Fault → Prop where
  | self {s} : BlockRef path s path self → RegisterProblem all self path s
      (.err (.selfDerived "register" (dotted (blockComponents path ++ [self]))))
  | missing {s b n} : BlockRef path s b n → ¬ (b = path ∧ n = self) → (∀ r, ¬ LastAt all ⟨b, n⟩ r) →
      RegisterProblem all self path s (.err (.notFound "register" s))

/-- The same for a field in register `path`; a reference of exactly two components panics. -/
inductive FieldProblem (all : List (FieldPath × Field)) (self : Str) (path : RegisterPath) :
    Str → Fault → Prop where
  | components {s} : s.count '.' = 1 → FieldProblem all self path s (.panic .unwrap)
  | self {s} : FieldRef path s path self → FieldProblem all self path s (.err (.selfDerived "field"
      (dotted (registerComponents path ++ [self]))))
  | missing {s q n} : FieldRef path s q n → ¬ (q = path ∧ n = self) → (∀ f, ¬ LastAt all ⟨q, n⟩ f) →
      FieldProblem all self path s (.err (.notFound "field" s))

/-- The same for enumerated values in field `path`.  A bare name equal to the own one, or a dotted
reference to itself, is refused; otherwise there may be nothing to link to. -/
inductive EnumProblem (regs : List (RegisterPath × Register)) (all : List (EnumPath × EnumeratedValues))
    (self : Option Str) (path : FieldPath) : Str → Fault → Prop where
  | name {s} : some s = self → EnumProblem regs all self path s (.err (.selfDerived "enumeratedValues"
      (dotted (fieldComponents path ++ [s]))))
  | self {s n} : some s ≠ self → EnumRef path s path n → some n = self →
      EnumProblem regs all self path s (.err (.selfDerived "enumeratedValues"
        (dotted (fieldComponents path ++ [n]))))
  | missing {s} : some s ≠ self → (∀ n, EnumRef path s path n → some n ≠ self) →
      (∀ q e, ¬ EnumLink regs all self path s q e) →
      EnumProblem regs all self path s (.err (.enumsNotFound s
        path.register.block.peripheral path.register.block.path path.register.name path.name))

/-! ## Arrays that do not fit -/

/-- The position of some instance does not fit into `w` bits. -/
def TooFar (w base : Nat) (d : DimElement) : Prop :=
  ∃ k < d.dim.toNat, 2 ^ w ≤ base + k * d.dimIncrement.toNat

/-- The instances of a cluster whose registers are `l`: some instance, or some register of an instance,
does not fit into 32 bits. -/
inductive ClusterTooFar (l : List RegisterInfo) : Cluster → Prop where
  | single {i r} : r ∈ l → 2 ^ 32 ≤ i.addressOffset.toNat + r.addressOffset.toNat →
      ClusterTooFar l (.single i)
  | base {i d} : TooFar 32 i.addressOffset.toNat d → ClusterTooFar l (.array i d)
  | array {i d k r} : k < d.dim.toNat → r ∈ l →
      2 ^ 32 ≤ i.addressOffset.toNat + k * d.dimIncrement.toNat + r.addressOffset.toNat →
      ClusterTooFar l (.array i d)

/-! ## Level by level -/

/-- Some element of the list is bad and all elements before it are fine. -/
inductive AtFirst {α : Type} (fine bad : α → Prop) : List α → Prop where
  | here {a l} : bad a → AtFirst fine bad (a :: l)
  | later {a l} : fine a → AtFirst fine bad l → AtFirst fine bad (a :: l)

section
variable (names : Str → Option DimElement → List Str)

/-- Enumerated values at home in field `b`. -/
def EnumsFail (d : Device) (b : FieldPath) (x : EnumeratedValues) (e : Fault) : Prop :=
  ∃ s, x.derivedFrom = some s ∧
    RefsFail (EnumLink (allRegisterPaths names d) (allEnums names d) x.name) (fun x => x.derivedFrom)
      (EnumProblem (allRegisterPaths names d) (allEnums names d) x.name) b s e

/-- A field in register `b`. -/
inductive FieldFails (d : Device) (b : RegisterPath) (f : Field) : Fault → Prop where
  | reference {s e} : f.info.derivedFrom = some s →
      RefsFail (FieldLink (allFields names d) f.info.name) (fun f => f.info.derivedFrom)
        (FieldProblem (allFields names d) f.info.name) b s e → FieldFails d b f e
  | inside {f' home e} : FieldResolved names d b f f' home →
      AtFirst (fun x => ∃ y, EnumsResolved names d home x y) (fun x => EnumsFail names d home x e)
        f'.info.enumeratedValues → FieldFails d b f e
  | instances {f' home evs dim} : FieldResolved names d b f f' home →
      Pairs (EnumsResolved names d home) f'.info.enumeratedValues evs →
      f'.dim? = some dim → TooFar 32 f'.info.bitRange.offset.toNat dim →
      FieldFails d b f (.panic .overflow)

/-- A register in block `b`. -/
inductive RegisterFails (d : Device) (b : BlockPath) (r : Register) : Fault → Prop where
  | reference {s e} : r.info.derivedFrom = some s →
      RefsFail (RegisterLink (allRegisterPaths names d) r.info.name) (fun r => r.info.derivedFrom)
        (RegisterProblem (allRegisterPaths names d) r.info.name) b s e → RegisterFails d b r e
  | inside {r' home fs e} : RegisterResolved names d b r r' home → r'.info.fields = some fs →
      AtFirst (fun f => ∃ l, FieldFull names d home f l) (fun f => FieldFails names d home f e) fs →
      RegisterFails d b r e
  | instances {r' home fs dim} : RegisterResolved names d b r r' home →
      FieldsFull names d home r'.info.fields fs →
      r'.dim? = some dim → TooFar 32 r'.info.addressOffset.toNat dim →
      RegisterFails d b r (.panic .overflow)

/-- Expanding the cluster `c` in block `b` asks for the expansion of a cluster below it, and so on
without end. -/
def EndlessDescent (d : Device) (b : BlockPath) (c : RegisterCluster) : Prop :=
  ∃ (blocks : Nat → BlockPath) (rcs : Nat → RegisterCluster), blocks 0 = b ∧ rcs 0 = c ∧
    ∀ i, ∃ h dim sub c' pre post l, rcs i = .cluster h dim sub ∧
      ClusterResolved names d (blocks i) (MaybeArray.mk' { h with children := sub } dim) c'
        (blocks (i + 1)) ∧
      c'.info.children = pre ++ rcs (i + 1) :: post ∧ RcsFull names d (blocks (i + 1)) pre l

mutual
/-- A register or cluster in block `b`. -/
inductive RcFails (d : Device) : BlockPath → RegisterCluster → Fault → Prop where
  | register {b r e} : RegisterFails names d b r e → RcFails d b (.register r) e
  | reference {b h dim cs s e} : h.derivedFrom = some s →
      RefsFail (ClusterLink (allClusters names d) h.name) (fun c => c.info.derivedFrom)
        (ClusterProblem (allClusters names d) h.name) b s e → RcFails d b (.cluster h dim cs) e
  | inside {b h dim cs c home e} :
      ClusterResolved names d b (MaybeArray.mk' { h with children := cs } dim) c home →
      RcsFail d home c.info.children e → RcFails d b (.cluster h dim cs) e
  | instances {b h dim cs c home l} :
      ClusterResolved names d b (MaybeArray.mk' { h with children := cs } dim) c home →
      RcsFull names d home c.info.children l → ClusterTooFar l c →
      RcFails d b (.cluster h dim cs) (.panic .overflow)
  | endless {b c} : EndlessDescent names d b c → RcFails d b c .diverge
/-- The first fault of a list. -/
inductive RcsFail (d : Device) : BlockPath → List RegisterCluster → Fault → Prop where
  | here {b c cs e} : RcFails d b c e → RcsFail d b (c :: cs) e
  | later {b c cs l e} : RcFull names d b c l → RcsFail d b cs e → RcsFail d b (c :: cs) e
end

/-- A peripheral. -/
inductive PeripheralFails (d : Device) (p : Peripheral) : Fault → Prop where
  | reference {s e} : p.info.derivedFrom = some s →
      RefsFail (fun (_ : Unit) s _ => PeripheralLink (allPeripherals names d) p.info.name s)
        (fun p => p.info.derivedFrom) (fun _ => PeripheralProblem (allPeripherals names d) p.info.name)
        () s e → PeripheralFails d p e
  | inside {p' home cs e} : PeripheralResolved names d p p' home → p'.info.registers = some cs →
      RcsFail names d home cs e → PeripheralFails d p e
  | instances {p' home rs dim} : PeripheralResolved names d p p' home →
      RegistersFull names d home p'.info.registers rs →
      p'.dim? = some dim → TooFar 64 p'.info.baseAddress.toNat dim →
      PeripheralFails d p (.panic .overflow)

/-- A device: some index list is too short, or some peripheral fails. -/
inductive DeviceFails (d : Device) : Fault → Prop where
  | indexes : ¬ DeviceParts (fun _ => True) EnoughIndexes d → DeviceFails d (.panic .indexOutOfBounds)
  | inside {e} : DeviceParts (fun _ => True) EnoughIndexes d →
      AtFirst (fun p => ∃ l, PeripheralFull names d p l) (fun p => PeripheralFails names d p e)
        d.peripherals → DeviceFails d e

end

end Svd.Spec
