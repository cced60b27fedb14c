import Verif.Lemmas.Except
import Verif.Model.Xml

/-! # Computations that succeed with a given result whenever another does -/

namespace Svd

/-- Whenever `m` returns a value, `n` returns the same value. -/
def Refines {α : Type} (m n : M α) : Prop := ∀ a, m = .ok a → n = .ok a

namespace Refines

theorem refl {α : Type} (m : M α) : Refines m m := fun _ h => h

theorem of_eq {α : Type} {m n : M α} (h : m = n) : Refines m n := h ▸ refl m

theorem trans {α : Type} {m n o : M α} (h : Refines m n) (h' : Refines n o) : Refines m o :=
  fun a ha => h' a (h a ha)

theorem bind {α β : Type} {m n : M α} {f g : α → M β} (h : Refines m n)
    (h' : ∀ a, m = .ok a → Refines (f a) (g a)) : Refines (m >>= f) (n >>= g) := by
  intro b hb
  obtain ⟨a, h1, h2⟩ := bind_ok.mp hb
  exact bind_ok.mpr ⟨a, h a h1, h' a h1 b h2⟩

theorem mapM {α β : Type} {f g : α → M β} {l : List α} (h : ∀ a ∈ l, Refines (f a) (g a)) :
    Refines (l.mapM f) (l.mapM g) := by
  induction l with
  | nil => exact refl _
  | cons a l ih =>
    rw [mapM_cons, mapM_cons]
    exact bind (h a (by simp)) fun _ _ => bind (ih fun b hb => h b (by simp [hb])) fun _ _ => refl _

theorem optional {α : Type} {n : String} {t : Xml} {f g : Xml → M α} (h : ∀ c, Refines (f c) (g c)) :
    Refines (Xml.optional n t f) (Xml.optional n t g) := by
  unfold Xml.optional
  split
  · exact refl _
  · exact bind (h _) fun _ _ => refl _

theorem ite {α : Type} {c : Prop} [Decidable c] {m n m' n' : M α} (h : c → Refines m n)
    (h' : ¬ c → Refines m' n') : Refines (if c then m else m') (if c then n else n') := by
  split
  · exact h ‹_›
  · exact h' ‹_›

end Refines
end Svd
