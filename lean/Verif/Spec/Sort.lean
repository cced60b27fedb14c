import Verif.Model.Config

/-! # Orders in which elements can be written -/

namespace Svd.Spec

/-- Dictionary order by code points: a beginning comes before its continuations, otherwise the first
difference decides. -/
def TextLe (s t : Str) : Prop :=
  (∃ r, t = s ++ r) ∨ ∃ p a b s' t', s = p ++ a :: s' ∧ t = p ++ b :: t' ∧ a.toNat < b.toNat

/-- `l'` is `l` in the order `le` of the keys; elements with the same key stay in order. -/
structure StableSorted {α κ : Type} (le : κ → κ → Prop) (key : α → κ) (l l' : List α) : Prop where
  perm : l'.Perm l
  ordered : l'.Pairwise fun a b => le (key a) (key b)
  stable : ∀ [DecidableEq κ] k, l'.filter (fun a => key a = k) = l.filter (fun a => key a = k)

/-- The order asked for: none, by offset, by descending offset, by name. -/
def Ordered {α : Type} (off : α → Nat) (nm : α → Str) : Option Sorting → List α → List α → Prop
  | none, l, l' => l' = l
  | some .offset, l, l' => StableSorted (· ≤ ·) off l l'
  | some .offsetReversed, l, l' => StableSorted (· ≥ ·) off l l'
  | some .name, l, l' => StableSorted TextLe nm l l'

/-- Two groups in sequence, each arranged by `arr`. -/
def InGroups {α : Type} (arr : List α → List α → Prop) (first : α → Bool) (l l' : List α) : Prop :=
  ∃ a b, l' = a ++ b ∧ arr (l.filter first) a ∧ arr (l.filter fun x => !first x) b

/-- Derived elements last, if asked for. -/
def OrderedDerivable {α : Type} (off : α → Nat) (nm : α → Str) (der : α → Bool) :
    DerivableSorting → List α → List α → Prop
  | .unchanged s => Ordered off nm s
  | .deriveLast s => InGroups (Ordered off nm s) fun a => !der a

/-- Is it a register? -/
def isReg : RegisterCluster → Bool
  | .register _ => true
  | .cluster .. => false

/-- Registers or clusters first, if asked for. -/
def OrderedRc (off : RegisterCluster → Nat) (nm : RegisterCluster → Str)
    (der : RegisterCluster → Bool) : RcSorting → List RegisterCluster → List RegisterCluster → Prop
  | .unchanged s => OrderedDerivable off nm der s
  | .registersFirst s => InGroups (OrderedDerivable off nm der s) isReg
  | .clustersFirst s => InGroups (OrderedDerivable off nm der s) fun c => !isReg c

/-- The key asked for by a sorting option. -/
def sortingOf : DerivableSorting → Option Sorting
  | .unchanged s => s
  | .deriveLast s => s

/-- The key asked for by a sorting option of registers and clusters. -/
def rcSortingOf : RcSorting → Option Sorting
  | .unchanged s => sortingOf s
  | .registersFirst s => sortingOf s
  | .clustersFirst s => sortingOf s

end Svd.Spec
