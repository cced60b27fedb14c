import Verif.Spec.Derive
import Verif.Spec.Index
import Verif.Spec.Path

/-! # References and chains of references

Elements are looked up in the list of all elements of the device in document order, together with
their paths; the last one under a path counts. -/

namespace Svd.Spec

/-! ## What a reference points to -/

/-- The reference `s`, written in block `path`, points to `n` in block `b`: either a bare name in the
same block, or a full path. -/
def BlockRef (path : BlockPath) (s : Str) (b : BlockPath) (n : Str) : Prop :=
  ('.' ∉ s ∧ b = path ∧ n = s) ∨ (s = dotted (blockComponents b ++ [n]) ∧ NoDots (blockComponents b ++ [n]))

/-- The same for references to fields, written in register `path`. -/
def FieldRef (path : RegisterPath) (s : Str) (q : RegisterPath) (n : Str) : Prop :=
  ('.' ∉ s ∧ q = path ∧ n = s) ∨
    (s = dotted (registerComponents q ++ [n]) ∧ NoDots (registerComponents q ++ [n]))

/-- The dotted references to enumerated values, written in field `path`: a field of the same register,
a field of a register of the same block, or a full path. -/
def EnumRef (path : FieldPath) (s : Str) (q : FieldPath) (n : Str) : Prop :=
  ∃ v, s = dotted (v ++ [n]) ∧ NoDots (v ++ [n]) ∧
    ((q.register = path.register ∧ v = [q.name]) ∨
     (q.register.block = path.register.block ∧ v = [q.register.name, q.name]) ∨
     v = fieldComponents q)

/-! ## One link of a chain

`self` is the name of the element that inherits; a reference to it is refused. -/

/-- To a peripheral. -/
def PeripheralLink (all : List (BlockPath × Peripheral)) (self : Str) (s : Str) (p : Peripheral) : Prop :=
  s ≠ self ∧ LastAt all ⟨s, []⟩ p

/-- To a cluster. References of the cluster found are relative to block `b`. -/
def ClusterLink (all : List (BlockPath × Cluster)) (self : Str) (path : BlockPath) (s : Str)
    (b : BlockPath) (c : Cluster) : Prop :=
  ∃ n, BlockRef path s b n ∧ ¬ (b = path ∧ n = self) ∧ LastAt all ⟨b.peripheral, b.path ++ [n]⟩ c

/-- To a register. -/
def RegisterLink (all : List (RegisterPath × Register)) (self : Str) (path : BlockPath) (s : Str)
    (b : BlockPath) (r : Register) : Prop :=
  ∃ n, BlockRef path s b n ∧ ¬ (b = path ∧ n = self) ∧ LastAt all ⟨b, n⟩ r

/-- To a field. -/
def FieldLink (all : List (FieldPath × Field)) (self : Str) (path : RegisterPath) (s : Str)
    (q : RegisterPath) (f : Field) : Prop :=
  ∃ n, FieldRef path s q n ∧ ¬ (q = path ∧ n = self) ∧ LastAt all ⟨q, n⟩ f

/-- To enumerated values: a bare name is looked for in the fields of the same register, in order. -/
def EnumLink (regs : List (RegisterPath × Register)) (all : List (EnumPath × EnumeratedValues))
    (self : Option Str) (path : FieldPath) (s : Str) (q : FieldPath) (e : EnumeratedValues) : Prop :=
  some s ≠ self ∧
    (('.' ∉ s ∧ ∃ r fs pre f post, LastAt regs path.register r ∧ r.info.fields = some fs ∧
        fs = pre ++ f :: post ∧ q = ⟨path.register, f.info.name⟩ ∧ LastAt all ⟨q, s⟩ e ∧
        ∀ g ∈ pre, ¬ ∃ x, LastAt all ⟨⟨path.register, g.info.name⟩, s⟩ x) ∨
     ∃ n, EnumRef path s q n ∧ ¬ (q = path ∧ some n = self) ∧ LastAt all ⟨q, n⟩ e)

/-! ## Chains -/

/-- The elements met by following references, starting with reference `s` written at `k`. -/
inductive Chain {κ α : Type} (link : κ → Str → κ → α → Prop) (ref : α → Option Str) :
    κ → Str → List α → Prop where
  | last {k s k' a} : link k s k' a → ref a = none → Chain link ref k s [a]
  | next {k s k' a s' as} : link k s k' a → ref a = some s' → Chain link ref k' s' as →
      Chain link ref k s (a :: as)

/-- Inheriting from each element of the list in turn. -/
inductive Successive {α : Type} (inherited : α → α → α → Prop) : α → List α → α → Prop where
  | nil {a} : Successive inherited a [] a
  | cons {a o b os c} : inherited a o b → Successive inherited b os c →
      Successive inherited a (o :: os) c

/-- Inheritance including the array description. -/
def PeripheralFrom (s o t : Peripheral) : Prop :=
  PeripheralInherited s.info o.info t.info ∧ DimInherited s.info.name s.dim? o.dim? t.dim?

/-- The same for clusters. -/
def ClusterFrom (s o t : Cluster) : Prop :=
  ClusterInherited s.info o.info t.info ∧ DimInherited s.info.name s.dim? o.dim? t.dim?

/-- The same for registers. -/
def RegisterFrom (s o t : Register) : Prop :=
  RegisterInherited s.info o.info t.info ∧ DimInherited s.info.name s.dim? o.dim? t.dim?

/-- The same for fields. -/
def FieldFrom (s o t : Field) : Prop :=
  FieldInherited s.info o.info t.info ∧ DimInherited s.info.name s.dim? o.dim? t.dim?

/-- The peripheral `q` is `p` with its chain of references, if any, resolved. -/
def Resolved (all : List (BlockPath × Peripheral)) (p q : Peripheral) : Prop :=
  (p.info.derivedFrom = none ∧ q = p) ∨
    ∃ s ps, p.info.derivedFrom = some s ∧
      Chain (fun (_ : Unit) s _ => PeripheralLink all p.info.name s) (fun p => p.info.derivedFrom) () s ps ∧
      Successive PeripheralFrom (p.mapInfo fun i => { i with derivedFrom := none }) ps q

end Svd.Spec
