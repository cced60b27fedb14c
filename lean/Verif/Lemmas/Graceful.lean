import Verif.Lemmas.Except
import Verif.Model.Parse

/-! # Computations that return or report an error, unless `P` -/

namespace Svd

open Xml

/-- The computation returns a value or an error; anything else only if `P`. -/
def Graceful {α : Type} (P : Prop) (m : M α) : Prop := ∀ f, m = .error f → (∃ e, f = .err e) ∨ P

namespace Graceful

variable {α β : Type} {P : Prop}

theorem ok (a : α) : Graceful P (.ok a : M α) := fun _ h => (by cases h)

theorem fail (e : Err) : Graceful P (Svd.fail e : M α) := fun f h => by
  injection h with h; exact .inl ⟨e, h.symm⟩

theorem bad {m : M α} (h : P) : Graceful P m := fun _ _ => .inr h

theorem bind {m : M α} {f : α → M β} (h : Graceful P m) (h' : ∀ a, m = .ok a → Graceful P (f a)) :
    Graceful P (m >>= f) := by
  intro e he
  rcases bind_error.mp he with he | ⟨a, ha, he⟩
  · exact h e he
  · exact h' a ha e he

theorem mono {Q : Prop} {m : M α} (hm : Graceful P m) (h : P → Q) : Graceful Q m :=
  fun f hf => (hm f hf).imp_right h

theorem ite {c : Prop} [Decidable c] {m n : M α} (h : c → Graceful P m) (h' : ¬ c → Graceful P n) :
    Graceful P (if c then m else n) := by
  split
  · exact h ‹_›
  · exact h' ‹_›

theorem mapM {f : α → M β} {l : List α} (h : ∀ a ∈ l, Graceful P (f a)) : Graceful P (l.mapM f) := by
  induction l with
  | nil => exact ok _
  | cons a l ih =>
    rw [mapM_cons]
    exact bind (h a (by simp)) fun _ _ => bind (ih fun b hb => h b (by simp [hb])) fun _ _ => ok _

theorem forM {f : α → M Unit} {l : List α} (h : ∀ a ∈ l, Graceful P (f a)) : Graceful P (l.forM f) := by
  induction l with
  | nil => exact ok _
  | cons a l ih =>
    exact bind (h a (by simp)) fun _ _ => ih fun b hb => h b (by simp [hb])

theorem okOr (o : Option α) (e : Err) : Graceful P (Svd.okOr o e) := by
  cases o
  · exact fail e
  · exact ok _

theorem need (o : Option α) (n : String) : Graceful P (Svd.need o n) := by
  cases o
  · exact fail _
  · exact ok _

theorem whenM {b : Bool} {m : M Unit} (h : Graceful P m) : Graceful P (Svd.whenM b m) := by
  unfold Svd.whenM; exact ite (fun _ => h) fun _ => ok _

theorem forOpt {o : Option α} {f : α → M Unit} (h : ∀ a, Graceful P (f a)) :
    Graceful P (Svd.forOpt o f) := by
  cases o
  · exact ok _
  · exact h _

theorem mapErr {m : M α} (h : Graceful P m) (e : Err) : Graceful P (Svd.mapErr m e) := by
  unfold Svd.mapErr
  split
  · exact ok _
  · exact fail _
  · exact h

theorem okOnly {m : M α} (h : Graceful P m) : Graceful P (Svd.okOnly m) := by
  unfold Svd.okOnly
  split
  · exact ok _
  · exact ok _
  · rename_i e he
    intro f hf
    rcases h e rfl with ⟨x, hx⟩ | hp
    · exact absurd hx (he x)
    · exact .inr hp

theorem optional {n : String} {t : Xml} {f : Xml → M α}
    (h : ∀ c, t.getChild n = some c → Graceful P (f c)) : Graceful P (Xml.optional n t f) := by
  unfold Xml.optional
  split
  · exact ok _
  · exact bind (h _ ‹_›) fun _ _ => ok _

theorem getText (t : Xml) : Graceful P t.getText := by
  unfold Xml.getText; split
  · exact ok _
  · exact fail _

theorem getChildTextOpt (t : Xml) (k : String) : Graceful P (t.getChildTextOpt k) := by
  unfold Xml.getChildTextOpt
  split
  · rename_i c _
    have := getText (P := P) c
    split
    · exact ok _
    · exact ok _
    · rename_i e _ he
      intro f hf
      injection hf with hf; subst hf
      exact this _ he
  · exact ok _

theorem getChildText (t : Xml) (k : String) : Graceful P (t.getChildText k) :=
  bind (getChildTextOpt t k) fun _ _ => okOr _ _

theorem getChildElem (t : Xml) (k : String) : Graceful P (t.getChildElem k) := okOr _ _

theorem parseInt (w : Nat) (t : Xml) : Graceful P (Xml.parseInt w t) := by
  refine bind (getText t) fun s _ => ?_
  split
  · exact ok _
  · exact fail _

theorem parseBool (t : Xml) : Graceful P (Xml.parseBool t) := bind (getText t) fun _ _ => okOr _ _

theorem getChildInt (w : Nat) (t : Xml) (n : String) : Graceful P (Xml.getChildInt w t n) :=
  bind (getChildElem t n) fun _ _ => parseInt w _

theorem getChildBool (t : Xml) (n : String) : Graceful P (Xml.getChildBool t n) :=
  bind (getChildElem t n) fun _ _ => parseBool _

theorem parseKeyword (ps : Str → Option α) (e : Str → Err) (t : Xml) :
    Graceful P (Xml.parseKeyword ps e t) := bind (getText t) fun _ _ => okOr _ _

theorem checkName (n : Str) (s : String) : Graceful P (Svd.checkName n s) := by
  unfold Svd.checkName; exact ite (fun _ => ok _) fun _ => fail _

theorem checkDimableName (n : Str) (s : String) : Graceful P (Svd.checkDimableName n s) := by
  unfold Svd.checkDimableName; exact ite (fun _ => ok _) fun _ => fail _

theorem checkDerivedName (n : Str) (s : String) : Graceful P (Svd.checkDerivedName n s) := by
  unfold Svd.checkDerivedName; exact forM fun _ _ => checkDimableName _ _

end Graceful

/-- Decomposes computations built from the combinators above. -/
macro "graceful" : tactic => `(tactic| repeat' (first
  | with_reducible exact Graceful.ok _ | with_reducible exact Graceful.fail _
  | with_reducible exact Graceful.okOr _ _ | with_reducible exact Graceful.need _ _
  | with_reducible exact Graceful.checkName _ _ | with_reducible exact Graceful.checkDimableName _ _
  | with_reducible exact Graceful.checkDerivedName _ _ | with_reducible exact Graceful.getText _
  | with_reducible exact Graceful.getChildTextOpt _ _ | with_reducible exact Graceful.getChildText _ _
  | with_reducible exact Graceful.getChildElem _ _ | with_reducible exact Graceful.parseInt _ _
  | with_reducible exact Graceful.parseBool _ | with_reducible exact Graceful.getChildInt _ _ _
  | with_reducible exact Graceful.getChildBool _ _ | with_reducible exact Graceful.parseKeyword _ _ _
  | with_reducible assumption
  | with_reducible refine Graceful.whenM ?_ | with_reducible refine Graceful.forOpt fun _ => ?_
  | with_reducible refine Graceful.okOnly ?_ | with_reducible refine Graceful.mapErr ?_ _
  | with_reducible refine Graceful.ite (fun _ => ?_) fun _ => ?_
  | with_reducible refine Graceful.bind ?_ fun _ _ => ?_
  | with_reducible refine Graceful.forM fun _ _ => ?_
  | with_reducible refine Graceful.optional fun _ _ => ?_
  | split))

end Svd
