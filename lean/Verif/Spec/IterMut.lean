import Verif.Spec.Iter

/-! # Changing registers in place -/

namespace Svd.Spec

mutual
/-- Every register of the tree replaced, in document order, everything else kept. -/
def updated {σ : Type} (f : Register → σ → Register × σ) : RegisterCluster → σ → RegisterCluster × σ
  | .register r, s => (.register (f r s).1, (f r s).2)
  | .cluster h d cs, s => (.cluster h d (updatedAll f cs s).1, (updatedAll f cs s).2)
/-- The same for a list of trees. -/
def updatedAll {σ : Type} (f : Register → σ → Register × σ) :
    List RegisterCluster → σ → List RegisterCluster × σ
  | [], s => ([], s)
  | c :: cs, s =>
    ((updated f c s).1 :: (updatedAll f cs (updated f c s).2).1, (updatedAll f cs (updated f c s).2).2)
end

/-- Each element of a list replaced, from the first to the last. -/
def replacedAll {α σ : Type} (f : α → σ → α × σ) : List α → σ → List α × σ
  | [], s => ([], s)
  | a :: l, s => ((f a s).1 :: (replacedAll f l (f a s).2).1, (replacedAll f l (f a s).2).2)

/-- Whether an element is a register. -/
def isRegister : RegisterCluster → Bool
  | .register _ => true
  | .cluster .. => false

/-- The first element with a replacement by `R` is replaced and nothing else; `none` if there is no such
element. -/
def ReplacedFirst {α : Type} (R : α → α → Prop) (l : List α) : Option (List α) → Prop
  | none => ∀ y ∈ l, ∀ z, ¬ R y z
  | some l' => ∃ pre x x' post, l = pre ++ x :: post ∧ (∀ y ∈ pre, ∀ z, ¬ R y z) ∧ R x x' ∧
      l' = pre ++ x' :: post

/-- `x` has that name and `x'` is what `f` makes of it. -/
def ReplacedNamed {α : Type} (nm : α → Str) (n : Str) (f : α → α) (x x' : α) : Prop := nm x = n ∧ x' = f x

/-- `x` is a register of that name and `x'` is what `f` makes of it. -/
def RegisterNamed (n : Str) (f : Register → Register) (x x' : RegisterCluster) : Prop :=
  ∃ r, x = .register r ∧ r.info.name = n ∧ x' = .register (f r)

/-- `x` is a cluster of that name and `x'` is what `f` makes of it. -/
def ClusterNamed (n : Str) (f : Cluster → Cluster) (x x' : RegisterCluster) : Prop :=
  ∃ k, x = .ofCluster k ∧ k.info.name = n ∧ x' = .ofCluster (f k)

end Svd.Spec
