import Verif.Lemmas.Except
import Verif.Model.Expand

/-! # More recursion depth does not change an outcome -/

namespace Svd

/-- The second computation has the outcome of the first, unless the first ran out of depth. -/
structure Extends {α : Type} (m n : M α) : Prop where
  out : m ≠ .error .diverge → n = m

namespace Extends

variable {α β : Type}

theorem refl (m : M α) : Extends m m := ⟨fun _ => rfl⟩

theorem diverge (n : M α) : Extends (.error .diverge) n := ⟨fun h => absurd rfl h⟩

theorem trans {m n o : M α} (h : Extends m n) (h' : Extends n o) : Extends m o :=
  ⟨fun hm => by
    have := h.out hm
    rw [← this] at hm
    rw [h'.out hm, this]⟩

theorem bind {m m' : M α} {f f' : α → M β} (h : Extends m m') (h' : ∀ a, Extends (f a) (f' a)) :
    Extends (m >>= f) (m' >>= f') := by
  constructor
  intro hm
  cases m with
  | error e =>
    have : (.error e : M α) ≠ .error .diverge := fun he => hm (by rw [he]; rfl)
    rw [h.out this]; rfl
  | ok a =>
    rw [h.out (by simp)]
    exact (h' a).out hm

theorem mapM {f f' : α → M β} {l : List α} (h : ∀ a ∈ l, Extends (f a) (f' a)) :
    Extends (l.mapM f) (l.mapM f') := by
  induction l with
  | nil => exact refl _
  | cons a l ih =>
    rw [mapM_cons, mapM_cons]
    exact bind (h a (by simp)) fun _ => bind (ih fun a ha => h a (by simp [ha])) fun _ => refl _

theorem ok {m n : M α} {a : α} (h : Extends m n) (hm : m = .ok a) : n = .ok a := by
  rw [h.out (by rw [hm]; simp), hm]

end Extends

theorem derivePeripheral_extends (ix : Index) (n : Nat) (p : Peripheral) (s : Str) :
    Extends (derivePeripheral ix n p s) (derivePeripheral ix (n + 1) p s) := by
  induction n generalizing p s with
  | zero => exact .diverge _
  | succ n ih =>
    rw [derivePeripheral, derivePeripheral]
    split
    · exact .refl _
    · refine .bind (.refl _) fun d => ?_
      dsimp only
      cases d.info.derivedFrom
      · exact .refl _
      · exact ih _ _

theorem deriveCluster_extends (ix : Index) (n : Nat) (c : Cluster) (s : Str) (b : BlockPath) :
    Extends (deriveCluster ix n c s b) (deriveCluster ix (n + 1) c s b) := by
  induction n generalizing c s b with
  | zero => exact .diverge _
  | succ n ih =>
    rw [deriveCluster, deriveCluster]
    refine .bind (.refl _) fun pd => ?_
    dsimp only
    by_cases hs : pd.1.getD b = b ∧ pd.2 = c.info.name
    · rw [if_pos hs, if_pos hs]; exact .refl _
    · rw [if_neg hs, if_neg hs]
      refine .bind (.refl _) fun d => ?_
      cases d.info.derivedFrom
      · exact .refl _
      · exact ih _ _ _

theorem deriveRegister_extends (ix : Index) (n : Nat) (c : Register) (s : Str) (b : BlockPath) :
    Extends (deriveRegister ix n c s b) (deriveRegister ix (n + 1) c s b) := by
  induction n generalizing c s b with
  | zero => exact .diverge _
  | succ n ih =>
    rw [deriveRegister, deriveRegister]
    refine .bind (.refl _) fun pd => ?_
    dsimp only
    by_cases hs : pd.1.getD b = b ∧ pd.2 = c.info.name
    · rw [if_pos hs, if_pos hs]; exact .refl _
    · rw [if_neg hs, if_neg hs]
      refine .bind (.refl _) fun d => ?_
      cases d.info.derivedFrom
      · exact .refl _
      · exact ih _ _ _

theorem deriveField_extends (ix : Index) (n : Nat) (c : Field) (s : Str) (b : RegisterPath) :
    Extends (deriveField ix n c s b) (deriveField ix (n + 1) c s b) := by
  induction n generalizing c s b with
  | zero => exact .diverge _
  | succ n ih =>
    rw [deriveField, deriveField]
    refine .bind (.refl _) fun pd => ?_
    dsimp only
    by_cases hs : pd.1.getD b = b ∧ pd.2 = c.info.name
    · rw [if_pos hs, if_pos hs]; exact .refl _
    · rw [if_neg hs, if_neg hs]
      refine .bind (.refl _) fun d => ?_
      cases d.info.derivedFrom
      · exact .refl _
      · exact ih _ _ _

theorem deriveEnum_extends (ix : Index) (n : Nat) (ev : EnumeratedValues) (s : Str) (b : FieldPath) :
    Extends (deriveEnumeratedValues ix n ev s b) (deriveEnumeratedValues ix (n + 1) ev s b) := by
  induction n generalizing ev s b with
  | zero => exact .diverge _
  | succ n ih =>
    rw [deriveEnumeratedValues, deriveEnumeratedValues]
    split
    · exact .refl _
    · refine .bind (.refl _) fun r => ?_
      cases r with
      | none => exact .refl _
      | some de =>
        obtain ⟨d, e⟩ := de
        dsimp only
        cases d.derivedFrom
        · exact .refl _
        · exact ih _ _ _

theorem expandField_extends (oc : Bool) (ix : Index) (n : Nat) (b : RegisterPath) (f : Field) :
    Extends (expandField oc ix n b f) (expandField oc ix (n + 1) b f) := by
  unfold expandField
  refine .bind ?_ fun ff => .bind (.mapM fun ev _ => ?_) fun _ => .refl _
  · cases f.info.derivedFrom
    · exact .refl _
    · exact deriveField_extends ..
  · unfold expandEv
    cases ev.derivedFrom
    · exact .refl _
    · exact .bind (deriveEnum_extends ..) fun _ => .refl _

theorem expandRegisterArray_extends (oc : Bool) (ix : Index) (n : Nat) (b : BlockPath) (r : Register) :
    Extends (expandRegisterArray oc ix n b r) (expandRegisterArray oc ix (n + 1) b r) := by
  unfold expandRegisterArray
  refine .bind ?_ fun rr => .bind ?_ fun _ => .refl _
  · cases r.info.derivedFrom
    · exact .refl _
    · exact deriveRegister_extends ..
  · cases rr.1.info.fields
    · exact .refl _
    · exact .bind (.mapM fun _ _ => expandField_extends ..) fun _ => .refl _

theorem expandRC_extends (oc : Bool) (ix : Index) (n : Nat) (b : BlockPath) (c : RegisterCluster) :
    Extends (expandRC oc ix n b c) (expandRC oc ix (n + 1) b c) := by
  induction n generalizing b c with
  | zero => cases c <;> exact .diverge _
  | succ n ih =>
    cases c with
    | register r => exact expandRegisterArray_extends ..
    | cluster h d cs =>
      rw [expandRC, expandRC]
      refine .bind ?_ fun cc => .bind (.mapM fun c _ => ih _ c) fun _ => .refl _
      cases h.derivedFrom
      · exact .refl _
      · exact deriveCluster_extends ..

theorem expandPeripheral_extends (oc : Bool) (ix : Index) (n : Nat) (p : Peripheral) :
    Extends (expandPeripheral oc ix n p) (expandPeripheral oc ix (n + 1) p) := by
  unfold expandPeripheral
  refine .bind ?_ fun pp => .bind ?_ fun _ => .refl _
  · cases p.info.derivedFrom
    · exact .refl _
    · exact derivePeripheral_extends ..
  · cases pp.1.info.registers
    · exact .refl _
    · exact .bind (.mapM fun _ _ => expandRC_extends ..) fun _ => .refl _

theorem expand_extends_succ (oc : Bool) (n : Nat) (d : Device) :
    Extends (expand oc n d) (expand oc (n + 1) d) :=
  .bind (.refl _) fun _ => .bind (.mapM fun _ _ => expandPeripheral_extends ..) fun _ => .refl _

theorem extends_le {α : Type} {f : Nat → M α} (h : ∀ n, Extends (f n) (f (n + 1))) {m n : Nat}
    (hmn : m ≤ n) : Extends (f m) (f n) := by
  induction hmn with
  | refl => exact .refl _
  | step _ ih => exact ih.trans (h _)

/-- More depth does not change the outcome of an expansion. -/
theorem expand_extends (oc : Bool) {m n : Nat} (h : m ≤ n) (d : Device) :
    Extends (expand oc m d) (expand oc n d) :=
  extends_le (fun n => expand_extends_succ oc n d) h

/-- The outcome does not depend on the depth. -/
theorem expand_outcome (oc : Bool) (m n : Nat) (d : Device) (hm : expand oc m d ≠ .error .diverge)
    (hn : expand oc n d ≠ .error .diverge) : expand oc m d = expand oc n d := by
  rcases Nat.le_total m n with h | h
  · exact ((expand_extends oc h d).out hm).symm
  · exact (expand_extends oc h d).out hn

end Svd
