import Verif.Model.Types

/-! # Contents of registers and register trees -/

namespace Svd.Spec

/-- The field has its bits in a 64-bit word: shifts stay below 64. -/
def InWord : Field → Prop
  | .single f => 1 ≤ f.bitRange.width.toNat ∧ f.bitRange.width.toNat ≤ 64 ∧
      f.bitRange.offset.toNat < 64
  | .array f d => (1 ≤ f.bitRange.width.toNat ∧ f.bitRange.width.toNat ≤ 64 ∧
      f.bitRange.offset.toNat < 64) ∧ ∀ k < d.dim.toNat, k * d.dimIncrement.toNat < 64

/-- The field (for an array: one of its instances) covers bit `i`: it lies between its lowest and its
highest bit. -/
def Covers : Field → Nat → Prop
  | .single f, i => f.bitRange.offset.toNat ≤ i ∧
      i < f.bitRange.offset.toNat + f.bitRange.width.toNat
  | .array f d, i => ∃ k < d.dim.toNat,
      f.bitRange.offset.toNat + k * d.dimIncrement.toNat ≤ i ∧
      i < f.bitRange.offset.toNat + k * d.dimIncrement.toNat + f.bitRange.width.toNat

mutual
/-- The registers of a tree in document order. -/
def registersIn : RegisterCluster → List Register
  | .register r => [r]
  | .cluster _ _ cs => registersInAll cs
/-- The registers of a list of trees in document order. -/
def registersInAll : List RegisterCluster → List Register
  | [] => []
  | c :: cs => registersIn c ++ registersInAll cs
end

/-- The children separated, in order, into registers and clusters. -/
inductive Separated : List RegisterCluster → List Register → List Cluster → Prop where
  | nil : Separated [] [] []
  | register {cs rs ks r} : Separated cs rs ks → Separated (.register r :: cs) (r :: rs) ks
  | cluster {cs rs ks k} : Separated cs rs ks → Separated (.ofCluster k :: cs) rs (k :: ks)

/-- `x` is the first element of the list with that name. -/
def FirstNamed {α : Type} (nm : α → Str) (l : List α) (n : Str) (x : α) : Prop :=
  nm x = n ∧ ∃ pre post, l = pre ++ x :: post ∧ ∀ y ∈ pre, nm y ≠ n

/-- `x` is the first element of the list with the property, `none` if there is none. -/
def FirstWith {α : Type} (p : α → Prop) (l : List α) : Option α → Prop
  | none => ∀ y ∈ l, ¬ p y
  | some x => p x ∧ ∃ pre post, l = pre ++ x :: post ∧ ∀ y ∈ pre, ¬ p y

end Svd.Spec
