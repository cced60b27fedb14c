import Verif.Spec.Sample
import Verif.Props.Both
import Verif.Props.BadRefs
import Verif.Props.Termination
import Verif.Props.EncodeTotal
import Verif.Spec.Fails

/-!
# C63: how expansion fails, exactly
-/

namespace Svd

open Spec

namespace Fails

/-! ## The outcome with enough depth -/

/-- From some depth on the outcome is `r`. -/
def Finally {α : Type} (f : Nat → M α) (r : M α) : Prop := ∃ N, ∀ n, N ≤ n → f n = r

section
variable {α β : Type}

theorem Finally.unique {f : Nat → M α} {r r' : M α} (h : Finally f r) (h' : Finally f r') : r = r' := by
  obtain ⟨N, h⟩ := h
  obtain ⟨N', h'⟩ := h'
  rw [← h (max N N') (Nat.le_max_left _ _), h' _ (Nat.le_max_right _ _)]

theorem finally_const (m : M α) : Finally (fun _ => m) m := ⟨0, fun _ _ => rfl⟩

theorem steady_finally {f : Nat → M α} (hs : Steady f) {n : Nat} (h : f n ≠ .error .diverge) :
    Finally f (f n) := ⟨n, fun _ hm => (extends_le hs hm).out h⟩

theorem finally_exists {f : Nat → M α} (hs : Steady f) : ∃ r, Finally f r := by
  by_cases h : ∃ n, f n ≠ .error .diverge
  · obtain ⟨n, h⟩ := h
    exact ⟨_, steady_finally hs h⟩
  · exact ⟨.error .diverge, 0, fun n _ => Classical.byContradiction fun hn => h ⟨n, hn⟩⟩

theorem finally_ok {f : Nat → M α} (hs : Steady f) {a : α} : Finally f (.ok a) ↔ ∃ n, f n = .ok a := by
  constructor
  · rintro ⟨N, h⟩; exact ⟨N, h N (Nat.le_refl _)⟩
  · rintro ⟨n, h⟩
    have := steady_finally hs (n := n) (by rw [h]; simp)
    rwa [h] at this

theorem finally_error {f : Nat → M α} (hs : Steady f) {e : Fault} {n : Nat} (h : f n = .error e)
    (he : e ≠ .diverge) : Finally f (.error e) := by
  have := steady_finally hs (n := n) (by rw [h]; simpa using he)
  rwa [h] at this

theorem finally_succ {f : Nat → M α} {r : M α} : Finally (fun n => f (n + 1)) r ↔ Finally f r := by
  constructor
  · rintro ⟨N, h⟩
    refine ⟨N + 1, fun n hn => ?_⟩
    have := h (n - 1) (by omega)
    dsimp only at this
    rwa [show n - 1 + 1 = n by omega] at this
  · rintro ⟨N, h⟩; exact ⟨N, fun n hn => h _ (by omega)⟩

theorem Finally.bind_error {f : Nat → M α} {g : Nat → α → M β} {e : Fault} (h : Finally f (.error e)) :
    Finally (fun n => f n >>= g n) (.error e) := by
  obtain ⟨N, h⟩ := h
  exact ⟨N, fun n hn => by dsimp only; rw [h n hn]; rfl⟩

theorem Finally.bind_ok {f : Nat → M α} {g : Nat → α → M β} {a : α} {r : M β} (h : Finally f (.ok a))
    (h' : Finally (fun n => g n a) r) : Finally (fun n => f n >>= g n) r := by
  obtain ⟨N, h⟩ := h
  obtain ⟨N', h'⟩ := h'
  exact ⟨max N N', fun n hn => by dsimp only; rw [h n (by omega)]; exact h' n (by omega)⟩

theorem finally_bind {f : Nat → M α} {g : Nat → α → M β} (hs : Steady f) {e : Fault} :
    Finally (fun n => f n >>= g n) (.error e) ↔
      Finally f (.error e) ∨ ∃ a, (∃ n, f n = .ok a) ∧ Finally (fun n => g n a) (.error e) := by
  constructor
  · intro h
    obtain ⟨r, hr⟩ := finally_exists hs
    cases r with
    | error e' =>
      have := h.unique (hr.bind_error)
      injection this with this
      subst this
      exact .inl hr
    | ok a =>
      refine .inr ⟨a, (finally_ok hs).mp hr, ?_⟩
      obtain ⟨N, h⟩ := h
      obtain ⟨N', hr⟩ := hr
      refine ⟨max N N', fun n hn => ?_⟩
      have := h n (by omega)
      dsimp only at this
      rwa [hr n (by omega)] at this
  · rintro (h | ⟨a, h1, h2⟩)
    · exact h.bind_error
    · exact ((finally_ok hs).mpr h1).bind_ok h2

theorem finally_mapM {f : Nat → α → M β} (hs : ∀ a, Steady fun n => f n a) {l : List α} {e : Fault} :
    Finally (fun n => l.mapM (f n)) (.error e) ↔
      AtFirst (fun a => ∃ b, ∃ n, f n a = .ok b) (fun a => Finally (fun n => f n a) (.error e)) l := by
  induction l with
  | nil =>
    constructor
    · rintro ⟨N, h⟩; have := h N (Nat.le_refl _); cases this
    · intro h; cases h
  | cons a l ih =>
    simp only [mapM_cons]
    rw [finally_bind (hs a) (g := fun n b => do let bs ← l.mapM (f n); .ok (b :: bs))]
    have hl : Steady fun n => l.mapM (f n) := fun n => .mapM fun a _ => hs a n
    constructor
    · rintro (h | ⟨b, h1, h2⟩)
      · exact .here h
      · rcases (finally_bind hl (g := fun _ bs => .ok (b :: bs))).mp h2 with h2 | ⟨bs, _, N, h2⟩
        · exact .later ⟨b, h1⟩ (ih.mp h2)
        · have := h2 N (Nat.le_refl _); cases this
    · intro h
      cases h with
      | here h => exact .inl h
      | later h1 h2 =>
        obtain ⟨b, h1⟩ := h1
        exact .inr ⟨b, h1, (ih.mpr h2).bind_error⟩

end

theorem atFirst_congr {α : Type} {P P' Q Q' : α → Prop} {l : List α} (h : ∀ a ∈ l, P a ↔ P' a)
    (h' : ∀ a ∈ l, Q a ↔ Q' a) : AtFirst P Q l ↔ AtFirst P' Q' l := by
  induction l with
  | nil => constructor <;> (intro h; cases h)
  | cons a l ih =>
    have ih := ih (fun a ha => h a (by simp [ha])) (fun a ha => h' a (by simp [ha]))
    constructor
    · intro hp
      cases hp with
      | here hq => exact .here ((h' a (by simp)).mp hq)
      | later h1 h2 => exact .later ((h a (by simp)).mp h1) (ih.mp h2)
    · intro hp
      cases hp with
      | here hq => exact .here ((h' a (by simp)).mpr hq)
      | later h1 h2 => exact .later ((h a (by simp)).mpr h1) (ih.mpr h2)

/-! ## Following references -/

/-- A state from which a step is always possible starts an infinite sequence of steps. -/
theorem endless_of {σ : Type} {P : σ → Prop} {R : σ → σ → Prop} (h : ∀ x, P x → ∃ y, P y ∧ R x y)
    (x : σ) (hx : P x) : ∃ g : Nat → σ, g 0 = x ∧ ∀ i, R (g i) (g (i + 1)) := by
  let nxt : {x // P x} → {x // P x} := fun x => ⟨(h x.1 x.2).choose, (h x.1 x.2).choose_spec.1⟩
  have hn : ∀ x, R x.1 (nxt x).1 := fun x => (h x.1 x.2).choose_spec.2
  let g : Nat → {x // P x} := fun n => Nat.rec ⟨x, hx⟩ (fun _ y => nxt y) n
  exact ⟨fun n => (g n).1, rfl, fun i => hn (g i)⟩

theorem refsFail_iff {κ α β σ : Type} {f : Nat → α → Str → κ → M β} {name : α → σ}
    {link : σ → κ → Str → κ → α → Prop} {ref : α → Option Str} {problem : σ → κ → Str → Fault → Prop}
    {der : α → α → α} (hname : ∀ a o, name (der a o) = name a)
    (h0 : ∀ a s k, f 0 a s k = .error .diverge)
    (hlink : ∀ n a s k k' o s', link (name a) k s k' o → ref o = some s' →
      f (n + 1) a s k = f n (der a o) s' k')
    (hlast : ∀ a s k k' o, link (name a) k s k' o → ref o = none → ∀ n, ∃ x, f (n + 1) a s k = .ok x)
    (hprob : ∀ a s k e, problem (name a) k s e → e ≠ .diverge ∧ ∀ n, f (n + 1) a s k = .error e)
    (hcase : ∀ a s k, (∃ k' o, link (name a) k s k' o) ∨ ∃ e, problem (name a) k s e)
    (a : α) (s : Str) (k : κ) (e : Fault) :
    Finally (fun n => f n a s k) (.error e) ↔ RefsFail (link (name a)) ref (problem (name a)) k s e := by
  constructor
  · by_cases he : e = .diverge
    · subst he
      intro h
      refine .endless ?_
      have step : ∀ x : κ × Str,
          (∃ a', name a' = name a ∧ Finally (fun n => f n a' x.2 x.1) (.error .diverge)) →
          ∃ y : κ × Str,
            (∃ a', name a' = name a ∧ Finally (fun n => f n a' y.2 y.1) (.error .diverge)) ∧
            ∃ o, link (name a) x.1 x.2 y.1 o ∧ ref o = some y.2 := by
        rintro ⟨k, s⟩ ⟨a', ha, h⟩
        have h' := finally_succ.mpr h
        rcases hcase a' s k with ⟨k', o, hl⟩ | ⟨e, hp⟩
        · cases hr : ref o with
          | none =>
            obtain ⟨N, h'⟩ := h'
            obtain ⟨x, hx⟩ := hlast _ _ _ _ _ hl hr N
            have := hx.symm.trans (h' N (Nat.le_refl _))
            cases this
          | some s' =>
            simp only [fun n => hlink n _ _ _ _ _ _ hl hr] at h'
            exact ⟨(k', s'), ⟨der a' o, (hname _ _).trans ha, h'⟩, o, ha ▸ hl, hr⟩
        · obtain ⟨hne, hx⟩ := hprob _ _ _ _ hp
          simp only [hx] at h'
          have := h'.unique (finally_const _)
          injection this with this
          exact absurd this.symm hne
      obtain ⟨g, hg, hR⟩ := endless_of step (k, s) ⟨a, rfl, h⟩
      exact ⟨fun i => (g i).1, fun i => (g i).2, congrArg Prod.fst hg, congrArg Prod.snd hg, hR⟩
    · rintro ⟨N, hN⟩
      have h := hN N (Nat.le_refl _)
      dsimp only at h
      clear hN
      induction N generalizing a s k with
      | zero => rw [h0] at h; injection h with h; exact absurd h.symm he
      | succ n ih =>
        rcases hcase a s k with ⟨k', o, hl⟩ | ⟨e', hp⟩
        · cases hr : ref o with
          | none => obtain ⟨x, hx⟩ := hlast _ _ _ _ _ hl hr n; rw [hx] at h; cases h
          | some s' =>
            rw [hlink _ _ _ _ _ _ _ hl hr] at h
            have := ih _ _ _ h
            rw [hname] at this
            exact .next hl hr this
        · rw [(hprob _ _ _ _ hp).2] at h
          injection h with h
          exact .here (h ▸ hp)
  · intro h
    generalize hn : name a = self at h
    induction h generalizing a with
    | here h =>
      subst hn
      refine finally_succ.mp ?_
      simp only [(hprob _ _ _ _ h).2]
      exact finally_const _
    | next h1 h2 _ ih =>
      subst hn
      refine finally_succ.mp ?_
      simp only [fun n => hlink n _ _ _ _ _ _ h1 h2]
      exact ih _ (hname _ _)
    | endless h =>
      subst hn
      obtain ⟨places, refs, rfl, rfl, h⟩ := h
      have : ∀ n i a', name a' = name a → f n a' (refs i) (places i) = .error .diverge := by
        intro n
        induction n with
        | zero => intros; exact h0 _ _ _
        | succ n ih =>
          intro i a' ha
          obtain ⟨o, h1, h2⟩ := h i
          rw [hlink _ _ _ _ _ _ _ (ha ▸ h1) h2]
          exact ih _ _ ((hname _ _).trans ha)
      exact ⟨0, fun n _ => this n 0 a rfl⟩

section
variable {d : Device} {ix : Index} (hix : Index.create d = .ok ix)
include hix

omit hix in
theorem lookup_none {κ α : Type} [DecidableEq κ] {m : List (κ × α)} {l : List (κ × α)}
    (h : ∀ k a, mapGet m k = some a ↔ LastAt l k a) (k : κ) : mapGet m k = none ↔ ∀ a, ¬ LastAt l k a := by
  simp only [← h]
  cases mapGet m k <;> simp

theorem derivePeripheral_fails (a : Peripheral) (s : Str) (e : Fault) :
    Finally (fun n => derivePeripheral ix n a s) (.error e) ↔
      RefsFail (fun (_ : Unit) s _ => PeripheralLink (allPeripherals namesOf d) a.info.name s)
        (fun p => p.info.derivedFrom) (fun _ => PeripheralProblem (allPeripherals namesOf d) a.info.name)
        () s e := by
  have hl := (C43_last d ix hix).1
  refine refsFail_iff (f := fun n p s (_ : Unit) => derivePeripheral ix n p s)
    (name := fun p => p.info.name)
    (link := fun self _ s _ => PeripheralLink (allPeripherals namesOf d) self s)
    (problem := fun self _ => PeripheralProblem (allPeripherals namesOf d) self)
    (der := Peripheral.deriveFrom) peripheral_name (fun _ _ _ => rfl) ?_ ?_ ?_ ?_ a s () e
  · rintro n a s _ _ o s' ⟨h1, h2⟩ hr
    have h2 := (hl ⟨s, []⟩ o).mpr h2
    simp only [derivePeripheral, if_neg h1, BlockPath.new, h2, okOr, ok_bind, hr]
  · rintro a s _ _ o ⟨h1, h2⟩ hr
    have h2 := (hl ⟨s, []⟩ o).mpr h2
    exact fun n => ⟨_, derivePeripheral_step.mpr ⟨o, h1, h2, by rw [hr]⟩⟩
  · rintro a s _ e h
    cases h with
    | self => exact ⟨by simp, fun n => by simp [derivePeripheral, fail]⟩
    | missing h1 h2 =>
      have h2 := (lookup_none hl ⟨s, []⟩).mpr h2
      exact ⟨by simp, fun n => by simp [derivePeripheral, if_neg h1, BlockPath.new, h2, okOr, fail]⟩
  · intro a s _
    by_cases hs : s = a.info.name
    · subst hs; exact .inr ⟨_, .self⟩
    · by_cases h : ∃ p, LastAt (allPeripherals namesOf d) ⟨s, []⟩ p
      · obtain ⟨p, h⟩ := h
        exact .inl ⟨(), p, hs, h⟩
      · exact .inr ⟨_, .missing hs fun p hp => h ⟨p, hp⟩⟩

omit hix in
theorem blockRef_exists (path : BlockPath) (s : Str) : ∃ b n, BlockRef path s b n := by
  obtain ⟨b, n, h, _⟩ := C41_parse_text s
  exact ⟨_, _, blockRef_iff.mpr ⟨_, h, rfl, rfl⟩⟩

theorem deriveCluster_fails (a : Cluster) (s : Str) (k : BlockPath) (e : Fault) :
    Finally (fun n => deriveCluster ix n a s k) (.error e) ↔
      RefsFail (ClusterLink (allClusters namesOf d) a.info.name)
        (fun p => p.info.derivedFrom) (ClusterProblem (allClusters namesOf d) a.info.name) k s e := by
  have hl := (C43_last d ix hix).2.1
  refine refsFail_iff (f := fun n p s k => deriveCluster ix n p s k)
    (name := fun p => p.info.name) (link := fun self => ClusterLink (allClusters namesOf d) self)
    (problem := fun self => ClusterProblem (allClusters namesOf d) self)
    (der := Cluster.deriveFrom) cluster_name (fun _ _ _ => rfl) ?_ ?_ ?_ ?_ a s k e
  · rintro n a s k k' o s' ⟨m, h0, h1, h2⟩ hr
    obtain ⟨pd, hp, rfl, rfl⟩ := blockRef_iff.mp h0
    have h2 := (hl _ o).mpr h2
    simp only [deriveCluster, hp, ok_bind, if_neg h1, BlockPath.newCluster, h2, okOr, hr]
  · rintro a s k k' o ⟨m, h0, h1, h2⟩ hr
    obtain ⟨pd, hp, rfl, rfl⟩ := blockRef_iff.mp h0
    have h2 := (hl _ o).mpr h2
    exact fun n => ⟨_, deriveCluster_step.mpr ⟨pd, o, hp, h1, h2, by rw [hr]⟩⟩
  · rintro a s k e h
    cases h with
    | self h0 =>
      obtain ⟨pd, hp, h1, h2⟩ := blockRef_iff.mp h0
      exact ⟨by simp, fun n => by
        simp [deriveCluster, hp, ← h1, ← h2, fail, block_display, blockComponents, BlockPath.newCluster]⟩
    | missing h0 h1 h2 =>
      obtain ⟨pd, hp, rfl, rfl⟩ := blockRef_iff.mp h0
      have h2 := (lookup_none hl _).mpr h2
      exact ⟨by simp, fun n => by
        simp only [deriveCluster, hp, ok_bind, if_neg h1, BlockPath.newCluster, h2, okOr, fail]; rfl⟩
  · intro a s k
    obtain ⟨b, n, h0⟩ := blockRef_exists k s
    by_cases hs : b = k ∧ n = a.info.name
    · obtain ⟨rfl, rfl⟩ := hs; exact .inr ⟨_, .self h0⟩
    · by_cases h : ∃ p, LastAt (allClusters namesOf d) ⟨b.peripheral, b.path ++ [n]⟩ p
      · obtain ⟨p, h⟩ := h
        exact .inl ⟨b, p, n, h0, hs, h⟩
      · exact .inr ⟨_, .missing h0 hs fun p hp => h ⟨p, hp⟩⟩

theorem deriveRegister_fails (a : Register) (s : Str) (k : BlockPath) (e : Fault) :
    Finally (fun n => deriveRegister ix n a s k) (.error e) ↔
      RefsFail (RegisterLink (allRegisterPaths namesOf d) a.info.name)
        (fun p => p.info.derivedFrom) (RegisterProblem (allRegisterPaths namesOf d) a.info.name) k s e := by
  have hl := (C43_last d ix hix).2.2.1
  refine refsFail_iff (f := fun n p s k => deriveRegister ix n p s k)
    (name := fun p => p.info.name) (link := fun self => RegisterLink (allRegisterPaths namesOf d) self)
    (problem := fun self => RegisterProblem (allRegisterPaths namesOf d) self)
    (der := Register.deriveFrom) register_name (fun _ _ _ => rfl) ?_ ?_ ?_ ?_ a s k e
  · rintro n a s k k' o s' ⟨m, h0, h1, h2⟩ hr
    obtain ⟨pd, hp, rfl, rfl⟩ := blockRef_iff.mp h0
    have hp : RegisterPath.parseStr s = .ok pd := hp
    have h2 := (hl _ o).mpr h2
    simp only [deriveRegister, hp, ok_bind, if_neg h1, BlockPath.newRegister, h2, okOr, hr]
  · rintro a s k k' o ⟨m, h0, h1, h2⟩ hr
    obtain ⟨pd, hp, rfl, rfl⟩ := blockRef_iff.mp h0
    have hp : RegisterPath.parseStr s = .ok pd := hp
    have h2 := (hl _ o).mpr h2
    exact fun n => ⟨_, deriveRegister_step.mpr ⟨pd, o, hp, h1, h2, by rw [hr]⟩⟩
  · rintro a s k e h
    cases h with
    | self h0 =>
      obtain ⟨pd, hp, h1, h2⟩ := blockRef_iff.mp h0
      have hp : RegisterPath.parseStr s = .ok pd := hp
      exact ⟨by simp, fun n => by
        simp [deriveRegister, hp, ← h1, ← h2, fail, register_display, registerComponents, BlockPath.newRegister]⟩
    | missing h0 h1 h2 =>
      obtain ⟨pd, hp, rfl, rfl⟩ := blockRef_iff.mp h0
      have hp : RegisterPath.parseStr s = .ok pd := hp
      have h2 := (lookup_none hl _).mpr h2
      exact ⟨by simp, fun n => by
        simp only [deriveRegister, hp, ok_bind, if_neg h1, BlockPath.newRegister, h2, okOr, fail]; rfl⟩
  · intro a s k
    obtain ⟨b, n, h0⟩ := blockRef_exists k s
    by_cases hs : b = k ∧ n = a.info.name
    · obtain ⟨rfl, rfl⟩ := hs; exact .inr ⟨_, .self h0⟩
    · by_cases h : ∃ p, LastAt (allRegisterPaths namesOf d) ⟨b, n⟩ p
      · obtain ⟨p, h⟩ := h
        exact .inl ⟨b, p, n, h0, hs, h⟩
      · exact .inr ⟨_, .missing h0 hs fun p hp => h ⟨p, hp⟩⟩

omit hix in
theorem fieldParse_cases (s : Str) :
    (s.count '.' = 1 ∧ FieldPath.parseStr s = .error (.panic .unwrap)) ∨
      (s.count '.' ≠ 1 ∧ ∃ pd, FieldPath.parseStr s = .ok pd) := by
  by_cases h : s.count '.' = 1
  · exact .inl ⟨h, (C42_exact s).1.mpr h⟩
  · exact .inr ⟨h, C42_returns_partial s h⟩

theorem deriveField_fails (a : Field) (s : Str) (k : RegisterPath) (e : Fault) :
    Finally (fun n => deriveField ix n a s k) (.error e) ↔
      RefsFail (FieldLink (allFields namesOf d) a.info.name)
        (fun p => p.info.derivedFrom) (FieldProblem (allFields namesOf d) a.info.name) k s e := by
  have hl := (C43_last d ix hix).2.2.2.1
  refine refsFail_iff (f := fun n p s k => deriveField ix n p s k)
    (name := fun p => p.info.name) (link := fun self => FieldLink (allFields namesOf d) self)
    (problem := fun self => FieldProblem (allFields namesOf d) self)
    (der := Field.deriveFrom) field_name (fun _ _ _ => rfl) ?_ ?_ ?_ ?_ a s k e
  · rintro n a s k k' o s' ⟨m, h0, h1, h2⟩ hr
    obtain ⟨pd, hp, rfl, rfl⟩ := fieldRef_iff.mp h0
    have h2 := (hl _ o).mpr h2
    simp only [deriveField, hp, ok_bind, if_neg h1, RegisterPath.newField, h2, okOr, hr]
  · rintro a s k k' o ⟨m, h0, h1, h2⟩ hr
    obtain ⟨pd, hp, rfl, rfl⟩ := fieldRef_iff.mp h0
    have h2 := (hl _ o).mpr h2
    exact fun n => ⟨_, deriveField_step.mpr ⟨pd, o, hp, h1, h2, by rw [hr]⟩⟩
  · rintro a s k e h
    cases h with
    | components hc =>
      rcases fieldParse_cases s with ⟨_, hp⟩ | ⟨h, _⟩
      · exact ⟨by simp, fun n => by simp only [deriveField, hp, error_bind]⟩
      · exact absurd hc h
    | self h0 =>
      obtain ⟨pd, hp, h1, h2⟩ := fieldRef_iff.mp h0
      exact ⟨by simp, fun n => by
        simp [deriveField, hp, ← h1, ← h2, fail, field_display, fieldComponents, RegisterPath.newField]⟩
    | missing h0 h1 h2 =>
      obtain ⟨pd, hp, rfl, rfl⟩ := fieldRef_iff.mp h0
      have h2 := (lookup_none hl _).mpr h2
      exact ⟨by simp, fun n => by
        simp only [deriveField, hp, ok_bind, if_neg h1, RegisterPath.newField, h2, okOr, fail]; rfl⟩
  · intro a s k
    rcases fieldParse_cases s with ⟨h, _⟩ | ⟨_, pd, hp⟩
    · exact .inr ⟨_, .components h⟩
    · have h0 : FieldRef k s (pd.1.getD k) pd.2 := fieldRef_iff.mpr ⟨pd, hp, rfl, rfl⟩
      revert h0
      generalize pd.1.getD k = b
      generalize pd.2 = n
      intro h0
      by_cases hs : b = k ∧ n = a.info.name
      · obtain ⟨rfl, rfl⟩ := hs; exact .inr ⟨_, .self h0⟩
      · by_cases h : ∃ p, LastAt (allFields namesOf d) ⟨b, n⟩ p
        · obtain ⟨p, h⟩ := h
          exact .inl ⟨b, p, n, h0, hs, h⟩
        · exact .inr ⟨_, .missing h0 hs fun p hp => h ⟨p, hp⟩⟩

omit hix in
theorem enumFieldPath_total (path : FieldPath) {v : List Str} (hv : v ≠ []) :
    ∃ q, enumFieldPath path v = .ok q := by
  rcases List.eq_nil_or_concat v with rfl | ⟨i, x, rfl⟩
  · exact absurd rfl hv
  · simp only [List.concat_eq_append]
    unfold enumFieldPath
    rw [List.getLast?_concat, List.dropLast_concat]
    dsimp only
    rcases List.eq_nil_or_concat i with rfl | ⟨j, y, rfl⟩
    · exact ⟨_, rfl⟩
    · simp only [List.concat_eq_append]
      have e : (j ++ [y]).isEmpty = false := by simp
      simp only [e, Bool.false_eq_true, ↓reduceIte, RegisterPath.parseVec, blockParse_concat, ok_bind]
      cases j with
      | nil => exact ⟨_, rfl⟩
      | cons p ps => exact ⟨_, rfl⟩

omit hix in
theorem enumRef_iff {path q : FieldPath} {s n : Str} :
    EnumRef path s q n ↔ ∃ v, splitOn '.' s = v ++ [n] ∧ v ≠ [] ∧ enumFieldPath path v = .ok q := by
  unfold EnumRef
  constructor
  · rintro ⟨v, h1, h2, h3⟩
    have hv : v ≠ [] := by
      rintro rfl
      rcases h3 with ⟨_, h⟩ | ⟨_, h⟩ | h
      · cases h
      · cases h
      · have := congrArg List.length h
        simp [fieldComponents, registerComponents, blockComponents] at this
    exact ⟨v, split_dotted_iff.mpr ⟨by simp, h1, h2⟩, hv, (enumFieldPath_iff hv).mpr h3⟩
  · rintro ⟨v, h1, h2, h3⟩
    have := split_dotted_iff.mp h1
    exact ⟨v, this.2.1, this.2.2, (enumFieldPath_iff h2).mp h3⟩

omit hix in
theorem resolveEnum_cases (ev : EnumeratedValues) (s : Str) (path : FieldPath) :
    (∃ n, EnumRef path s path n ∧ some n = ev.name ∧ resolveEnum ix ev s path =
        .error (.err (.selfDerived "enumeratedValues" (dotted (fieldComponents path ++ [n]))))) ∨
      ((∀ n, EnumRef path s path n → some n ≠ ev.name) ∧ ∃ o, resolveEnum ix ev s path = .ok o) := by
  unfold resolveEnum
  simp only [enumRef_iff]
  generalize hv : splitOn '.' s = v
  rcases List.eq_nil_or_concat v with rfl | ⟨i, x, rfl⟩
  · exact absurd hv (splitOn_ne_nil '.' s)
  simp only [List.concat_eq_append]
  rw [List.getLast?_concat, List.dropLast_concat]
  dsimp only
  by_cases hi : i = []
  · subst hi
    refine .inr ⟨?_, _, rfl⟩
    rintro n ⟨v, h1, h2, _⟩
    have hlen := congrArg List.length h1
    simp only [List.nil_append, List.length_append, List.length_cons, List.length_nil] at hlen
    exact absurd (List.eq_nil_of_length_eq_zero (by omega)) h2
  · have e0 : i.isEmpty = false := by simpa using hi
    obtain ⟨q, hq⟩ := enumFieldPath_total path hi
    simp only [e0, Bool.false_eq_true, ↓reduceIte, hq, ok_bind]
    by_cases hs : q = path ∧ some x = ev.name
    · rw [if_pos hs]
      refine .inl ⟨x, ⟨i, rfl, hi, hs.1 ▸ hq⟩, hs.2, ?_⟩
      rw [dotted_concat (by simp [fieldComponents]), ← field_display]
      rfl
    · rw [if_neg hs]
      refine .inr ⟨?_, _, rfl⟩
      rintro n ⟨v, h1, _, h3⟩ hn
      obtain ⟨rfl, h⟩ := List.append_inj' h1 rfl
      injection h with h
      subst h
      rw [hq] at h3
      injection h3 with h3
      exact hs ⟨h3, hn⟩

theorem deriveEnum_fails (a : EnumeratedValues) (s : Str) (k : FieldPath) (e : Fault) :
    Finally (fun n => deriveEnumeratedValues ix n a s k) (.error e) ↔
      RefsFail (EnumLink (allRegisterPaths namesOf d) (allEnums namesOf d) a.name)
        (fun p => p.derivedFrom) (EnumProblem (allRegisterPaths namesOf d) (allEnums namesOf d) a.name)
        k s e := by
  refine refsFail_iff (f := fun n p s k => deriveEnumeratedValues ix n p s k)
    (name := fun p => p.name)
    (link := fun self => EnumLink (allRegisterPaths namesOf d) (allEnums namesOf d) self)
    (problem := fun self => EnumProblem (allRegisterPaths namesOf d) (allEnums namesOf d) self)
    (der := EnumeratedValues.deriveFrom) (fun _ _ => rfl) (fun _ _ _ => rfl) ?_ ?_ ?_ ?_ a s k e
  · intro n a s k k' o s' hlink hr
    have hs := hlink.1
    obtain ⟨m, hre⟩ := (resolveEnum_iff hix hs).mpr hlink
    simp only [deriveEnumeratedValues, if_neg hs, hre, ok_bind, hr]
  · intro a s k k' o hlink hr n
    have hs := hlink.1
    obtain ⟨m, hre⟩ := (resolveEnum_iff hix hs).mpr hlink
    simp only [deriveEnumeratedValues, if_neg hs, hre, ok_bind, hr]
    exact ⟨_, rfl⟩
  · intro a s k e h
    cases h with
    | name h =>
      refine ⟨by simp, fun n => ?_⟩
      simp only [deriveEnumeratedValues, if_pos h]
      rw [dotted_concat (by simp [fieldComponents]), ← field_display]
      rfl
    | self h0 h1 h2 =>
      refine ⟨by simp, fun n => ?_⟩
      rcases resolveEnum_cases (ix := ix) a s k with ⟨m, _, h', h⟩ | ⟨h, _⟩
      · rw [← h'] at h2
        injection h2 with h2
        subst h2
        simp only [deriveEnumeratedValues, if_neg h0, h, error_bind]
      · exact absurd h2 (h _ h1)
    | missing h1 h2 h3 =>
      refine ⟨by simp, fun n => ?_⟩
      rcases resolveEnum_cases (ix := ix) a s k with ⟨n, h, h', _⟩ | ⟨_, o, h⟩
      · exact absurd h' (h2 _ h)
      · rcases o with _ | ⟨x, ⟨q, m⟩⟩
        · simp only [deriveEnumeratedValues, if_neg h1, h, ok_bind]; rfl
        · exact absurd ((resolveEnum_iff hix h1).mp ⟨m, h⟩) (h3 q x)
  · intro a s k
    by_cases hs : some s = a.name
    · exact .inr ⟨_, .name hs⟩
    by_cases h : ∃ k' o, EnumLink (allRegisterPaths namesOf d) (allEnums namesOf d) a.name k s k' o
    · exact .inl h
    · right
      by_cases h' : ∃ n, EnumRef k s k n ∧ some n = a.name
      · obtain ⟨n, h1, h2⟩ := h'
        exact ⟨_, .self hs h1 h2⟩
      · exact ⟨_, .missing hs (fun n h1 h2 => h' ⟨n, h1, h2⟩) fun q e h2 => h ⟨q, e, h2⟩⟩

theorem expandEv_fails (b : FieldPath) (x : EnumeratedValues) (e : Fault) :
    Finally (fun n => expandEv ix n b x) (.error e) ↔ EnumsFail namesOf d b x e := by
  unfold expandEv EnumsFail
  cases hx : x.derivedFrom with
  | none =>
    constructor
    · rintro ⟨N, h⟩; have := h N (Nat.le_refl _); cases this
    · rintro ⟨s, h, _⟩; cases h
  | some s =>
    have key := deriveEnum_fails hix { x with derivedFrom := none } s b e
    have hst : Steady fun n => deriveEnumeratedValues ix n { x with derivedFrom := none } s b :=
      fun n => deriveEnum_extends ..
    constructor
    · intro h
      rcases (finally_bind hst (g := fun _ r => .ok r.1)).mp h with h | ⟨r, _, N, h⟩
      · exact ⟨s, rfl, key.mp h⟩
      · have := h N (Nat.le_refl _); cases this
    · rintro ⟨s', h, h'⟩
      injection h with h
      subst h
      exact (key.mpr h').bind_error

/-! ## Resolving -/

theorem resolveField_fails (b : RegisterPath) (f : Field) (e : Fault) :
    Finally (fun n => resolveField ix n b f) (.error e) ↔ ∃ s, f.info.derivedFrom = some s ∧
      RefsFail (FieldLink (allFields namesOf d) f.info.name) (fun f => f.info.derivedFrom)
        (FieldProblem (allFields namesOf d) f.info.name) b s e := by
  unfold resolveField
  cases hx : f.info.derivedFrom with
  | none =>
    constructor
    · rintro ⟨N, h⟩; have := h N (Nat.le_refl _); cases this
    · rintro ⟨s, h, _⟩; cases h
  | some s =>
    have key := deriveField_fails hix (f.mapInfo fun i => { i with derivedFrom := none }) s b e
    rw [mapInfo_info] at key
    simpa using key

theorem resolveRegister_fails (b : BlockPath) (f : Register) (e : Fault) :
    Finally (fun n => resolveRegister ix n b f) (.error e) ↔ ∃ s, f.info.derivedFrom = some s ∧
      RefsFail (RegisterLink (allRegisterPaths namesOf d) f.info.name) (fun f => f.info.derivedFrom)
        (RegisterProblem (allRegisterPaths namesOf d) f.info.name) b s e := by
  unfold resolveRegister
  cases hx : f.info.derivedFrom with
  | none =>
    constructor
    · rintro ⟨N, h⟩; have := h N (Nat.le_refl _); cases this
    · rintro ⟨s, h, _⟩; cases h
  | some s =>
    have key := deriveRegister_fails hix (f.mapInfo fun i => { i with derivedFrom := none }) s b e
    rw [mapInfo_info] at key
    simpa using key

theorem resolveCluster_fails (b : BlockPath) (f : Cluster) (e : Fault) :
    Finally (fun n => resolveCluster ix n b f) (.error e) ↔ ∃ s, f.info.derivedFrom = some s ∧
      RefsFail (ClusterLink (allClusters namesOf d) f.info.name) (fun f => f.info.derivedFrom)
        (ClusterProblem (allClusters namesOf d) f.info.name) b s e := by
  unfold resolveCluster
  cases hx : f.info.derivedFrom with
  | none =>
    constructor
    · rintro ⟨N, h⟩; have := h N (Nat.le_refl _); cases this
    · rintro ⟨s, h, _⟩; cases h
  | some s =>
    have key := deriveCluster_fails hix (f.mapInfo fun i => { i with derivedFrom := none }) s b e
    rw [mapInfo_info] at key
    simpa using key

theorem resolvePeripheral_fails (f : Peripheral) (e : Fault) :
    Finally (fun n => resolvePeripheral ix n f) (.error e) ↔ ∃ s, f.info.derivedFrom = some s ∧
      RefsFail (fun (_ : Unit) s _ => PeripheralLink (allPeripherals namesOf d) f.info.name s)
        (fun p => p.info.derivedFrom) (fun _ => PeripheralProblem (allPeripherals namesOf d) f.info.name)
        () s e := by
  unfold resolvePeripheral
  cases hx : f.info.derivedFrom with
  | none =>
    constructor
    · rintro ⟨N, h⟩; have := h N (Nat.le_refl _); cases this
    · rintro ⟨s, h, _⟩; cases h
  | some s =>
    have key := derivePeripheral_fails hix (f.mapInfo fun i => { i with derivedFrom := none }) s e
    rw [mapInfo_info] at key
    simpa using key

/-! ## Index lists stay long enough -/

omit hix in
theorem dim_enough {nm : Str} {o b n : Option DimElement} (h : DimInherited nm o b n)
    (ho : ∀ x, o = some x → EnoughIndexes x) (hb : ∀ x, b = some x → EnoughIndexes x) :
    ∀ x, n = some x → EnoughIndexes x := by
  intro x hx
  cases o with
  | some y => rw [h.1 y rfl] at hx; exact ho x hx
  | none =>
    by_cases hp : ∃ a b, nm = a ++ '%' :: 's' :: b
    · rw [h.2.1 rfl hp] at hx
      obtain ⟨y, hy, rfl⟩ := Option.map_eq_some_iff.mp hx
      exact hb y hy
    · rw [h.2.2 rfl hp] at hx; cases hx

omit hix in
theorem blockAt_parts (hd : Indexable d) {b : BlockPath} {cs : List RegisterCluster} (h : BlockAt d b cs) :
    RcsParts (fun _ => True) EnoughIndexes cs := by
  induction h with
  | peripheral h hr => exact (hd _ h.1).1 _ hr
  | cluster _ hm _ ih =>
    have := rcsParts_iff.mp ih _ hm
    unfold RcParts at this
    exact this.2

omit hix in
theorem registerAt_parts (hd : Indexable d) {q : RegisterPath} {r : Register} (h : RegisterAt d q r) :
    RegisterParts (fun _ => True) EnoughIndexes r := by
  obtain ⟨cs, hb, hm, _⟩ := h
  have := rcsParts_iff.mp (blockAt_parts hd hb) _ hm
  unfold RcParts at this
  exact this

omit hix in
theorem fieldResolved_parts (hd : Indexable d) {b : RegisterPath} {f f' : Field} {home : FieldPath}
    (h : FieldResolved namesOf d b f f' home) (hf : ∀ x, f.dim? = some x → EnoughIndexes x) :
    ∀ x, f'.dim? = some x → EnoughIndexes x := by
  cases h with
  | own => exact hf
  | derived _ hi =>
    refine Both.inherits_all (P := fun f : Field => ∀ x, f.dim? = some x → EnoughIndexes x) ?_ hi
      (by rw [mapInfo_dim]; exact hf)
    rintro k s k' q o a b ⟨n, _, _, _, hl⟩ h3 ha
    refine dim_enough h3.2 ha fun x hx => ?_
    obtain ⟨r, l, hr, hl, hm, _⟩ := mem_allFields.mp (lastAt_mem hl)
    exact dimPart_iff.mp ((registerAt_parts hd hr).1 l hl o hm).2 x hx

omit hix in
theorem registerResolved_parts (hd : Indexable d) {b : BlockPath} {r r' : Register} {home : RegisterPath}
    (h : RegisterResolved namesOf d b r r' home) (hr : RegisterParts (fun _ => True) EnoughIndexes r) :
    RegisterParts (fun _ => True) EnoughIndexes r' := by
  cases h with
  | own => exact hr
  | derived _ hi =>
    have start : RegisterParts (fun _ => True) EnoughIndexes
        (r.mapInfo fun i => { i with derivedFrom := none }) := by
      refine ⟨by rw [mapInfo_info]; exact hr.1, dimPart_iff.mpr ?_⟩
      rw [mapInfo_dim]; exact dimPart_iff.mp hr.2
    refine Both.inherits_all (P := fun r : Register => RegisterParts (fun _ => True) EnoughIndexes r) ?_ hi
      start
    rintro k s k' q o a t ⟨n, _, _, _, hl⟩ h3 ha
    have ho := registerAt_parts hd (mem_allRegisterPaths.mp (lastAt_mem hl))
    refine ⟨fun l hl => ?_, dimPart_iff.mpr (dim_enough h3.2 (dimPart_iff.mp ha.2) (dimPart_iff.mp ho.2))⟩
    cases hf : a.info.fields with
    | none => exact ho.1 l ((h3.1.fields.2 hf).symm.trans hl)
    | some m =>
      have := (h3.1.fields.1 m hf).symm.trans hl
      injection this with this
      exact ha.1 l (this ▸ hf)

/-- The cluster and everything in it. -/
def ClusterEnough (c : Cluster) : Prop :=
  (∀ x, c.dim? = some x → EnoughIndexes x) ∧ RcsParts (fun _ => True) EnoughIndexes c.info.children

omit hix in
theorem clusterResolved_parts (hd : Indexable d) {b : BlockPath} {c c' : Cluster} {home : BlockPath}
    (h : ClusterResolved namesOf d b c c' home) (hc : ClusterEnough c) : ClusterEnough c' := by
  cases h with
  | own => exact hc
  | derived _ hi =>
    have start : ClusterEnough (c.mapInfo fun i => { i with derivedFrom := none }) := by
      refine ⟨by rw [mapInfo_dim]; exact hc.1, ?_⟩
      rw [mapInfo_info]; exact hc.2
    refine Both.inherits_all (P := ClusterEnough) ?_ hi start
    rintro k s k' q o a t ⟨n, _, _, _, hl⟩ h3 ha
    obtain ⟨_, _, cs, hb, hm, _⟩ := mem_allClusters.mp (lastAt_mem hl)
    have ho := rcsParts_iff.mp (blockAt_parts hd hb) _ hm
    unfold RcParts at ho
    refine ⟨dim_enough h3.2 ha.1 ho.1, ?_⟩
    by_cases hn : a.info.children = []
    · rw [h3.1.children.2 hn]; exact ho.2
    · rw [h3.1.children.1 hn]; exact ha.2

omit hix in
theorem peripheralResolved_parts (hd : Indexable d) {p p' : Peripheral} {home : BlockPath}
    (h : PeripheralResolved namesOf d p p' home) (hp : PeripheralParts (fun _ => True) EnoughIndexes p) :
    PeripheralParts (fun _ => True) EnoughIndexes p' := by
  cases h with
  | own => exact hp
  | derived _ hi =>
    have start : PeripheralParts (fun _ => True) EnoughIndexes
        (p.mapInfo fun i => { i with derivedFrom := none }) := by
      refine ⟨by rw [mapInfo_info]; exact hp.1, dimPart_iff.mpr ?_⟩
      rw [mapInfo_dim]; exact dimPart_iff.mp hp.2
    refine Both.inherits_all
      (P := fun p : Peripheral => PeripheralParts (fun _ => True) EnoughIndexes p) ?_ hi start
    rintro k s k' q o a t ⟨⟨_, hl⟩, _⟩ h3 ha
    have ho := hd o (mem_allPeripherals.mp (lastAt_mem hl)).1
    refine ⟨fun l hl => ?_, dimPart_iff.mpr (dim_enough h3.2 (dimPart_iff.mp ha.2) (dimPart_iff.mp ho.2))⟩
    cases hf : a.info.registers with
    | none => exact ho.1 l ((h3.1.registers.2 hf).symm.trans hl)
    | some m =>
      have := (h3.1.registers.1 m hf).symm.trans hl
      injection this with this
      exact ha.1 l (this ▸ hf)

/-! ## Instances -/

omit hix in
theorem mapM_fails {α β : Type} {f : α → M β} {bad : α → Prop} {e0 e : Fault} {l : List α}
    (h : ∀ a ∈ l, (¬ bad a ∧ ∃ b, f a = .ok b) ∨ (bad a ∧ f a = .error e0)) :
    l.mapM f = .error e ↔ e = e0 ∧ ∃ a ∈ l, bad a := by
  induction l with
  | nil =>
    constructor
    · intro h; cases h
    · rintro ⟨_, _, h, _⟩; cases h
  | cons a l ih =>
    have ih := ih fun a ha => h a (by simp [ha])
    rw [mapM_cons]
    rcases h a (by simp) with ⟨hb, b, hf⟩ | ⟨hb, hf⟩
    · rw [hf, ok_bind]
      constructor
      · intro h
        rcases bind_error.mp h with h | ⟨_, _, h⟩
        · obtain ⟨h1, x, hx, h2⟩ := ih.mp h
          exact ⟨h1, x, by simp [hx], h2⟩
        · cases h
      · rintro ⟨h1, x, hx, h2⟩
        rcases List.mem_cons.mp hx with rfl | hx
        · exact absurd h2 hb
        · rw [ih.mpr ⟨h1, x, hx, h2⟩]; rfl
    · rw [hf, error_bind]
      constructor
      · intro h; injection h with h; exact ⟨h.symm, a, by simp, hb⟩
      · rintro ⟨rfl, _⟩; rfl

omit hix in
theorem index_enough {dim : DimElement} (h : EnoughIndexes dim) {k : Nat} (hk : k < dim.dim.toNat) :
    ∃ idx, dim.indexAt k = .ok idx := by
  rw [indexAt_eq dim hk]
  have : k < (indexList dim).length := by
    unfold indexList
    cases hi : dim.dimIndex with
    | none => simpa [decimalRange] using hk
    | some l => have := h l hi; simp only; omega
  rw [List.getElem?_eq_getElem this]
  exact ⟨_, rfl⟩

omit hix in
theorem offset_cases (base : U32) (dim : DimElement) {k : Nat} (hk : k < dim.dim.toNat) :
    (¬ 2 ^ 32 ≤ base.toNat + k * dim.dimIncrement.toNat ∧ ∃ b, offsetAt true base dim k = .ok b ∧
        b.toNat = base.toNat + k * dim.dimIncrement.toNat) ∨
      (2 ^ 32 ≤ base.toNat + k * dim.dimIncrement.toNat ∧
        offsetAt true base dim k = .error (.panic .overflow)) := by
  rw [offsetAt_true _ _ hk]
  by_cases h : base.toNat + k * dim.dimIncrement.toNat < 2 ^ 32
  · rw [if_pos h]
    exact .inl ⟨by omega, _, rfl, by rw [BitVec.toNat_ofNat]; exact Nat.mod_eq_of_lt h⟩
  · rw [if_neg h]; exact .inr ⟨by omega, rfl⟩

omit hix in
theorem base_cases (base : U64) (dim : DimElement) {k : Nat} (hk : k < dim.dim.toNat) :
    (¬ 2 ^ 64 ≤ base.toNat + k * dim.dimIncrement.toNat ∧ ∃ b, baseAddressAt true base dim k = .ok b) ∨
      (2 ^ 64 ≤ base.toNat + k * dim.dimIncrement.toNat ∧
        baseAddressAt true base dim k = .error (.panic .overflow)) := by
  rw [baseAddressAt_true _ _ hk]
  by_cases h : base.toNat + k * dim.dimIncrement.toNat < 2 ^ 64
  · rw [if_pos h]; exact .inl ⟨by omega, _, rfl⟩
  · rw [if_neg h]; exact .inr ⟨by omega, rfl⟩

omit hix in
theorem fieldExpand_fails (i : FieldInfo) {dim : DimElement} (h : EnoughIndexes dim) (e : Fault) :
    i.expand true dim = .error e ↔ e = .panic .overflow ∧ TooFar 32 i.bitRange.offset.toNat dim := by
  unfold FieldInfo.expand
  refine (mapM_fails (e0 := .panic .overflow)
    (bad := fun k => 2 ^ 32 ≤ i.bitRange.offset.toNat + k * dim.dimIncrement.toNat) fun k hk => ?_).trans ?_
  · have hk := List.mem_range.mp hk
    obtain ⟨idx, hidx⟩ := index_enough h hk
    simp only [FieldInfo.expandAt, nameAt_eq, descriptionAt_eq, hidx, ok_bind]
    rcases offset_cases i.bitRange.offset dim hk with ⟨h1, b, h2, _⟩ | ⟨h1, h2⟩
    · exact .inl ⟨h1, by rw [h2]; exact ⟨_, rfl⟩⟩
    · exact .inr ⟨h1, by rw [h2]; rfl⟩
  · simp [TooFar]

omit hix in
theorem registerExpand_fails (i : RegisterInfo) {dim : DimElement} (h : EnoughIndexes dim) (e : Fault) :
    i.expand true dim = .error e ↔ e = .panic .overflow ∧ TooFar 32 i.addressOffset.toNat dim := by
  unfold RegisterInfo.expand
  refine (mapM_fails (e0 := .panic .overflow)
    (bad := fun k => 2 ^ 32 ≤ i.addressOffset.toNat + k * dim.dimIncrement.toNat) fun k hk => ?_).trans ?_
  · have hk := List.mem_range.mp hk
    obtain ⟨idx, hidx⟩ := index_enough h hk
    simp only [RegisterInfo.expandAt, nameAt_eq, descriptionAt_eq, hidx, ok_bind]
    rcases offset_cases i.addressOffset dim hk with ⟨h1, b, h2, _⟩ | ⟨h1, h2⟩
    · exact .inl ⟨h1, by rw [h2]; exact ⟨_, rfl⟩⟩
    · exact .inr ⟨h1, by rw [h2]; rfl⟩
  · simp [TooFar]

omit hix in
theorem peripheralExpand_fails (i : PeripheralInfo) {dim : DimElement} (h : EnoughIndexes dim) (e : Fault) :
    i.expand true dim = .error e ↔ e = .panic .overflow ∧ TooFar 64 i.baseAddress.toNat dim := by
  unfold PeripheralInfo.expand
  refine (mapM_fails (e0 := .panic .overflow)
    (bad := fun k => 2 ^ 64 ≤ i.baseAddress.toNat + k * dim.dimIncrement.toNat) fun k hk => ?_).trans ?_
  · have hk := List.mem_range.mp hk
    obtain ⟨idx, hidx⟩ := index_enough h hk
    simp only [PeripheralInfo.expandAt, nameAt_eq, descriptionAt_eq, hidx, ok_bind]
    rcases base_cases i.baseAddress dim hk with ⟨h1, b, h2⟩ | ⟨h1, h2⟩
    · exact .inl ⟨h1, by rw [h2]; exact ⟨_, rfl⟩⟩
    · exact .inr ⟨h1, by rw [h2]; rfl⟩
  · simp [TooFar]

omit hix in
theorem expandCluster_cases {c : ClusterInfo} {l : List RegisterInfo}
    (hc : c.children = l.map fun i => .register (.single i)) (e : Fault) :
    expandCluster true c = .error e ↔
      e = .panic .overflow ∧ ∃ r ∈ l, 2 ^ 32 ≤ c.addressOffset.toNat + r.addressOffset.toNat := by
  unfold expandCluster
  rw [hc, List.mapM_map]
  refine mapM_fails (e0 := .panic .overflow)
    (bad := fun r : RegisterInfo => 2 ^ 32 ≤ c.addressOffset.toNat + r.addressOffset.toNat) fun r _ => ?_
  simp only [Function.comp, flattenChild, addC, arith, MaybeArray.info]
  by_cases h : r.addressOffset.toNat + c.addressOffset.toNat < 2 ^ 32
  · exact .inl ⟨by omega, by rw [if_pos h]; exact ⟨_, rfl⟩⟩
  · exact .inr ⟨by omega, by rw [if_neg h]; rfl⟩

omit hix in
theorem flattenCluster_fails {c : Cluster} (hc : ∀ x, c.dim? = some x → EnoughIndexes x)
    (l : List RegisterInfo) (e : Fault) :
    flattenCluster true (c.mapInfo fun i =>
        { i with children := l.map fun i => .register (.single i) }) = .error e ↔
      e = .panic .overflow ∧ ClusterTooFar l c := by
  cases c with
  | single i =>
    simp only [MaybeArray.mapInfo, flattenCluster]
    rw [expandCluster_cases (l := l) rfl]
    refine and_congr_right fun _ => ?_
    constructor
    · rintro ⟨r, h1, h2⟩; exact .single h1 h2
    · intro h
      cases h with
      | single h1 h2 => exact ⟨_, h1, h2⟩
  | array i dim =>
    simp only [MaybeArray.mapInfo, flattenCluster]
    have key := mapM_fails (l := List.range dim.dim.toNat) (e0 := .panic .overflow) (e := e)
      (f := fun k => do
        let ci ← ClusterInfo.expandAt true
          { i with children := l.map fun i => .register (.single i) } dim k
        expandCluster true ci)
      (bad := fun k => 2 ^ 32 ≤ i.addressOffset.toNat + k * dim.dimIncrement.toNat ∨
        ∃ r ∈ l, 2 ^ 32 ≤ i.addressOffset.toNat + k * dim.dimIncrement.toNat + r.addressOffset.toNat) ?_
    · constructor
      · intro h
        rcases bind_error.mp h with h | ⟨_, _, h⟩
        · obtain ⟨h1, k, hk, h2⟩ := key.mp h
          have hk := List.mem_range.mp hk
          refine ⟨h1, ?_⟩
          rcases h2 with h2 | ⟨r, hr, h2⟩
          · exact .base ⟨k, hk, h2⟩
          · exact .array hk hr h2
        · cases h
      · rintro ⟨h1, h⟩
        refine bind_error.mpr (.inl (key.mpr ⟨h1, ?_⟩))
        cases h with
        | base h =>
          obtain ⟨k, hk, h⟩ := h
          exact ⟨k, List.mem_range.mpr hk, .inl h⟩
        | array hk hr h => exact ⟨_, List.mem_range.mpr hk, .inr ⟨_, hr, h⟩⟩
    · intro k hk
      have hk := List.mem_range.mp hk
      obtain ⟨idx, hidx⟩ := index_enough (hc dim rfl) hk
      simp only [ClusterInfo.expandAt, nameAt_eq, descriptionAt_eq, hidx, ok_bind]
      rcases offset_cases i.addressOffset dim hk with ⟨h1, b, h2, h3⟩ | ⟨h1, h2⟩
      · rw [h2, ok_bind, ok_bind]
        have hx := fun e => expandCluster_cases (l := l) (c := { i with
            name := nameFor i.name dim idx, description := descriptionFor i.description dim idx
            addressOffset := b, children := l.map fun i => .register (.single i) }) rfl e
        rw [h3] at hx
        by_cases hr : ∃ r ∈ l, 2 ^ 32 ≤
            i.addressOffset.toNat + k * dim.dimIncrement.toNat + r.addressOffset.toNat
        · exact .inr ⟨.inr hr, (hx _).mpr ⟨rfl, hr⟩⟩
        · refine .inl ⟨fun h => h.elim h1 hr, ?_⟩
          cases hv : expandCluster true { i with
            name := nameFor i.name dim idx, description := descriptionFor i.description dim idx
            addressOffset := b, children := l.map fun i => .register (.single i) } with
          | ok y => exact ⟨y, rfl⟩
          | error e => exact absurd ((hx e).mp hv).2 hr
      · exact .inr ⟨.inl h1, by rw [h2]; rfl⟩

/-! ## Fields and registers -/

/-- The last step of expanding a field: a field array is replaced by its instances. -/
def fieldLast : Field → M (List Field)
  | .single i => .ok [.single i]
  | .array i d => do
    let l ← FieldInfo.expand true i d
    .ok (l.map .single)

omit hix in
theorem fieldLast_fails {f : Field} (hf : ∀ x, f.dim? = some x → EnoughIndexes x) (e : Fault) :
    fieldLast f = .error e ↔
      e = .panic .overflow ∧ ∃ dim, f.dim? = some dim ∧ TooFar 32 f.info.bitRange.offset.toNat dim := by
  cases f with
  | single i =>
    constructor
    · intro h; cases h
    · rintro ⟨_, _, h, _⟩; cases h
  | array i dim =>
    have key := fieldExpand_fails i (hf dim rfl) e
    constructor
    · intro h
      rcases bind_error.mp h with h | ⟨_, _, h⟩
      · obtain ⟨h1, h2⟩ := key.mp h
        exact ⟨h1, dim, rfl, h2⟩
      · cases h
    · rintro ⟨h1, dim', h2, h3⟩
      injection h2 with h2
      subst h2
      exact bind_error.mpr (.inl (key.mpr ⟨h1, h3⟩))

theorem expandField_fails (hd : Indexable d) (b : RegisterPath) {f : Field}
    (hf : FieldParts (fun _ => True) EnoughIndexes f) (e : Fault) :
    Finally (fun n => expandField true ix n b f) (.error e) ↔ FieldFails namesOf d b f e := by
  have step : ∀ n, expandField true ix n b f = (resolveField ix n b f >>= fun ff =>
      ff.1.info.enumeratedValues.mapM (expandEv ix n (ff.2.getD (b.newField ff.1.info.name))) >>=
        fun evs => fieldLast (ff.1.mapInfo fun i => { i with enumeratedValues := evs })) := fun _ => rfl
  simp only [step]
  have hdim := dimPart_iff.mp hf.2
  refine Iff.trans (finally_bind (resolveField_steady b f)) ?_
  have hmap : ∀ home (l : List EnumeratedValues), Steady fun n => l.mapM (expandEv ix n home) :=
    fun home l n => .mapM fun x _ => expandEv_steady home x n
  have hev : ∀ home (l : List EnumeratedValues), Finally (fun n => l.mapM (expandEv ix n home)) (.error e) ↔
      AtFirst (fun x => ∃ y, EnumsResolved namesOf d home x y) (fun x => EnumsFail namesOf d home x e) l :=
    fun home l => (finally_mapM fun x => expandEv_steady home x).trans (atFirst_congr
      (fun x _ => exists_congr fun y => expandEv_full hix home x y) fun x _ => expandEv_fails hix home x e)
  have hevs : ∀ home (l : List EnumeratedValues) evs, (∃ n, l.mapM (expandEv ix n home) = .ok evs) ↔
      Pairs (EnumsResolved namesOf d home) l evs :=
    fun home l evs => (some_mapM (fun x => expandEv_steady home x) l evs).trans
      (pairs_congr fun x _ y => expandEv_full hix home x y)
  constructor
  · rintro (h | ⟨⟨f', h⟩, h1, h2⟩)
    · obtain ⟨s, h1, h2⟩ := (resolveField_fails hix b f e).mp h
      exact .reference h1 h2
    · have hr := (resolveField_full hix b f f' _).mp ⟨h, h1, rfl⟩
      rcases (finally_bind (hmap _ _)).mp h2 with h4 | ⟨evs, h2', N, h3⟩
      · exact .inside hr ((hev _ _).mp h4)
      · have h3 := h3 N (Nat.le_refl _)
        obtain ⟨rfl, dim, h4, h5⟩ := (fieldLast_fails
          (by rw [mapInfo_dim]; exact fieldResolved_parts hd hr hdim) _).mp h3
        rw [mapInfo_dim] at h4
        rw [mapInfo_info] at h5
        exact .instances hr ((hevs _ _ _).mp h2') h4 h5
  · intro h
    cases h with
    | reference h1 h2 => exact .inl ((resolveField_fails hix b f e).mpr ⟨_, h1, h2⟩)
    | inside hr h2 =>
      obtain ⟨h, h1, rfl⟩ := (resolveField_full hix b f _ _).mpr hr
      exact .inr ⟨(_, h), h1, ((hev _ _).mpr h2).bind_error⟩
    | @instances f' _ evs dim hr h2 h3 h4 =>
      have hp := fieldResolved_parts hd hr hdim
      obtain ⟨h, h1, rfl⟩ := (resolveField_full hix b f _ _).mpr hr
      refine .inr ⟨(_, h), h1, ((finally_ok (hmap _ _)).mpr ((hevs _ _ _).mpr h2)).bind_ok ⟨0, fun n _ => ?_⟩⟩
      refine (fieldLast_fails (by rw [mapInfo_dim]; exact hp) _).mpr ⟨rfl, dim, ?_, ?_⟩
      · rw [mapInfo_dim]; exact h3
      · rw [mapInfo_info]; exact h4

/-- The last step of expanding a register: a register array is replaced by its instances. -/
def registerLast : Register → M (List RegisterCluster)
  | .single i => .ok [.register (.single i)]
  | .array i d => do
    let l ← RegisterInfo.expand true i d
    .ok (l.map fun i => .register (.single i))

omit hix in
theorem registerLast_fails {r : Register} (hr : ∀ x, r.dim? = some x → EnoughIndexes x) (e : Fault) :
    registerLast r = .error e ↔
      e = .panic .overflow ∧ ∃ dim, r.dim? = some dim ∧ TooFar 32 r.info.addressOffset.toNat dim := by
  cases r with
  | single i =>
    constructor
    · intro h; cases h
    · rintro ⟨_, _, h, _⟩; cases h
  | array i dim =>
    have key := registerExpand_fails i (hr dim rfl) e
    constructor
    · intro h
      rcases bind_error.mp h with h | ⟨_, _, h⟩
      · obtain ⟨h1, h2⟩ := key.mp h
        exact ⟨h1, dim, rfl, h2⟩
      · cases h
    · rintro ⟨h1, dim', h2, h3⟩
      injection h2 with h2
      subst h2
      exact bind_error.mpr (.inl (key.mpr ⟨h1, h3⟩))

theorem expandFields_fails (hd : Indexable d) (b : RegisterPath) {o : Option (List Field)}
    (ho : ∀ l, o = some l → ∀ f ∈ l, FieldParts (fun _ => True) EnoughIndexes f) (e : Fault) :
    Finally (fun n => expandFields ix n b o) (.error e) ↔ ∃ fs, o = some fs ∧
      AtFirst (fun f => ∃ l, FieldFull namesOf d b f l) (fun f => FieldFails namesOf d b f e) fs := by
  cases o with
  | none =>
    constructor
    · rintro ⟨N, h⟩; have := h N (Nat.le_refl _); cases this
    · rintro ⟨_, h, _⟩; cases h
  | some fs =>
    have key : Finally (fun n => fs.mapM (expandField true ix n b)) (.error e) ↔
        AtFirst (fun f => ∃ l, FieldFull namesOf d b f l) (fun f => FieldFails namesOf d b f e) fs :=
      (finally_mapM (f := fun n f => expandField true ix n b f)
        fun f n => expandField_extends true ix n b f).trans (atFirst_congr
          (fun f _ => exists_congr fun l => expandField_full hix b f l)
          fun f hf => expandField_fails hix hd b (ho fs rfl f hf) e)
    have hst : Steady fun n => fs.mapM (expandField true ix n b) :=
      fun n => .mapM fun f _ => expandField_extends ..
    have step : (fun n => expandFields ix n b (some fs)) = fun n =>
        (fs.mapM (expandField true ix n b) >>= fun l => .ok (some l.flatten)) := rfl
    rw [step]
    constructor
    · intro h
      rcases (finally_bind hst).mp h with h | ⟨_, _, N, h⟩
      · exact ⟨fs, rfl, key.mp h⟩
      · have := h N (Nat.le_refl _); cases this
    · rintro ⟨fs', h1, h2⟩
      injection h1 with h1
      subst h1
      exact (key.mpr h2).bind_error

theorem expandRegister_fails (hd : Indexable d) (b : BlockPath) {r : Register}
    (hr : RegisterParts (fun _ => True) EnoughIndexes r) (e : Fault) :
    Finally (fun n => expandRegisterArray true ix n b r) (.error e) ↔ RegisterFails namesOf d b r e := by
  have step : ∀ n, expandRegisterArray true ix n b r = (resolveRegister ix n b r >>= fun rr =>
      expandFields ix n (rr.2.getD (b.newRegister rr.1.info.name)) rr.1.info.fields >>=
        fun fs => registerLast (rr.1.mapInfo fun i => { i with fields := fs })) := fun _ => rfl
  simp only [step]
  refine Iff.trans (finally_bind (resolveRegister_steady b r)) ?_
  constructor
  · rintro (h | ⟨⟨r', h⟩, h1, h2⟩)
    · obtain ⟨s, h1, h2⟩ := (resolveRegister_fails hix b r e).mp h
      exact .reference h1 h2
    · have hres := (resolveRegister_full hix b r r' _).mp ⟨h, h1, rfl⟩
      have hp := registerResolved_parts hd hres hr
      rcases (finally_bind (expandFields_steady _ _)).mp h2 with h2' | ⟨fs, h2', N, h3⟩
      · obtain ⟨fs, h3, h4⟩ := (expandFields_fails hix hd _ hp.1 e).mp h2'
        exact .inside hres h3 h4
      · have h3 := h3 N (Nat.le_refl _)
        obtain ⟨rfl, dim, h4, h5⟩ := (registerLast_fails
          (by rw [mapInfo_dim]; exact dimPart_iff.mp hp.2) _).mp h3
        rw [mapInfo_dim] at h4
        rw [mapInfo_info] at h5
        exact .instances hres ((expandFields_full hix _ _ _).mp h2') h4 h5
  · intro h
    cases h with
    | reference h1 h2 => exact .inl ((resolveRegister_fails hix b r e).mpr ⟨_, h1, h2⟩)
    | inside hres h2 h3 =>
      have hp := registerResolved_parts hd hres hr
      obtain ⟨h, h1, rfl⟩ := (resolveRegister_full hix b r _ _).mpr hres
      exact .inr ⟨(_, h), h1, ((expandFields_fails hix hd _ hp.1 e).mpr ⟨_, h2, h3⟩).bind_error⟩
    | @instances r' _ fs dim hres h2 h3 h4 =>
      have hp := registerResolved_parts hd hres hr
      obtain ⟨h, h1, rfl⟩ := (resolveRegister_full hix b r _ _).mpr hres
      refine .inr ⟨(_, h), h1, ((finally_ok (expandFields_steady _ _)).mpr
        ((expandFields_full hix _ _ _).mpr h2)).bind_ok ⟨0, fun n _ => ?_⟩⟩
      refine (registerLast_fails (by rw [mapInfo_dim]; exact dimPart_iff.mp hp.2) _).mpr ⟨rfl, dim, ?_, ?_⟩
      · rw [mapInfo_dim]; exact h3
      · rw [mapInfo_info]; exact h4

/-! ## Clusters -/

omit hix in
theorem expandRC_register_finally {b : BlockPath} {r : Register} {m : M (List RegisterCluster)} :
    Finally (fun n => expandRC true ix n b (.register r)) m ↔
      Finally (fun n => expandRegisterArray true ix n b r) m := by
  rw [← finally_succ, ← finally_succ (f := fun n => expandRegisterArray true ix n b r)]
  simp only [expandRC]

omit hix in
theorem expandRC_steady (b : BlockPath) (c : RegisterCluster) :
    Steady fun n => expandRC true ix n b c := fun n => expandRC_extends true ix n b c

omit hix in
theorem mk'_info {α : Type} (i : α) (dim : Option DimElement) : (MaybeArray.mk' i dim).info = i := by
  cases dim <;> rfl

omit hix in
theorem mk'_dim {α : Type} (i : α) (dim : Option DimElement) : (MaybeArray.mk' i dim).dim? = dim := by
  cases dim <;> rfl

omit hix in
theorem rcEnough {h : ClusterHead} {dim : Option DimElement} {cs : List RegisterCluster}
    (hc : RcParts (fun _ => True) EnoughIndexes (.cluster h dim cs)) :
    ClusterEnough (MaybeArray.mk' { h with children := cs } dim) := by
  unfold RcParts at hc
  refine ⟨by rw [mk'_dim]; exact hc.1, by rw [mk'_info]; exact hc.2⟩

/-- The fault of a cluster is that of its reference, of its children, or of its instances. -/
theorem expandRC_cluster_fails (hd : Indexable d) (b : BlockPath) {h : ClusterHead}
    {dim : Option DimElement} {cs : List RegisterCluster}
    (hc : RcParts (fun _ => True) EnoughIndexes (.cluster h dim cs)) (e : Fault) :
    Finally (fun n => expandRC true ix n b (.cluster h dim cs)) (.error e) ↔
      (∃ s, h.derivedFrom = some s ∧
        RefsFail (ClusterLink (allClusters namesOf d) h.name) (fun c => c.info.derivedFrom)
          (ClusterProblem (allClusters namesOf d) h.name) b s e) ∨
      ∃ c home, ClusterResolved namesOf d b (MaybeArray.mk' { h with children := cs } dim) c home ∧
        (AtFirst (fun x => ∃ l, RcFull namesOf d home x l)
            (fun x => Finally (fun n => expandRC true ix n home x) (.error e)) c.info.children ∨
          ∃ l, RcsFull namesOf d home c.info.children l ∧ ClusterTooFar l c ∧ e = .panic .overflow) := by
  rw [← finally_succ]
  simp only [expandRC_cluster]
  have hst : Steady fun n => resolveCluster ix (n + 1) b (MaybeArray.mk' { h with children := cs } dim) :=
    fun n => resolveCluster_steady b _ (n + 1)
  have hres : ∀ q hm, (∃ n, resolveCluster ix (n + 1) b (MaybeArray.mk' { h with children := cs } dim) =
      .ok (q, hm)) ↔ ∃ n, resolveCluster ix n b (MaybeArray.mk' { h with children := cs } dim) = .ok (q, hm) := by
    intro q hm
    constructor
    · rintro ⟨n, h⟩; exact ⟨n + 1, h⟩
    · rintro ⟨n, h⟩; exact ⟨n, (resolveCluster_steady b _ n).ok h⟩
  have hmap : ∀ home (l : List RegisterCluster), Steady fun n => l.mapM (expandRC true ix n home) :=
    fun home l n => .mapM fun x _ => expandRC_extends true ix n home x
  have hfull : ∀ home (x : RegisterCluster), (∃ y, ∃ n, expandRC true ix n home x = .ok y) ↔
      ∃ l, RcFull namesOf d home x l := by
    intro home x
    constructor
    · rintro ⟨y, n, h⟩
      obtain ⟨l, h, _⟩ := expandRC_sound hix n home x y h
      exact ⟨l, h⟩
    · rintro ⟨l, h⟩
      exact ⟨_, expandRC_complete hix h⟩
  have hkids : ∀ home (l : List RegisterCluster), Finally (fun n => l.mapM (expandRC true ix n home)) (.error e) ↔
      AtFirst (fun x => ∃ l, RcFull namesOf d home x l)
        (fun x => Finally (fun n => expandRC true ix n home x) (.error e)) l :=
    fun home l => (finally_mapM (f := fun n x => expandRC true ix n home x)
      fun x => expandRC_steady home x).trans (atFirst_congr (fun x _ => hfull home x) fun _ _ => Iff.rfl)
  have hself : Finally (fun n => resolveCluster ix (n + 1) b (MaybeArray.mk' { h with children := cs } dim))
      (.error e) ↔ ∃ s, h.derivedFrom = some s ∧
        RefsFail (ClusterLink (allClusters namesOf d) h.name) (fun c => c.info.derivedFrom)
          (ClusterProblem (allClusters namesOf d) h.name) b s e := by
    refine (finally_succ (f := fun n => resolveCluster ix n b
      (MaybeArray.mk' { h with children := cs } dim))).trans ?_
    have := resolveCluster_fails hix b (MaybeArray.mk' { h with children := cs } dim) e
    rw [mk'_info] at this
    exact this
  refine Iff.trans (finally_bind hst) (or_congr hself ?_)
  constructor
  · rintro ⟨⟨c, hm⟩, h1, h2⟩
    have hr := (resolveCluster_full hix b _ c _).mp ⟨hm, (hres _ _).mp h1, rfl⟩
    refine ⟨c, _, hr, ?_⟩
    rcases (finally_bind (hmap _ _)).mp h2 with h2 | ⟨ys, ⟨n, h2⟩, N, h3⟩
    · exact .inl ((hkids _ _).mp h2)
    · have h3 := h3 N (Nat.le_refl _)
      dsimp only at h3
      obtain ⟨l, h4, h5⟩ := rcsFull_of (fun x _ y => expandRC_sound hix n _ x y) h2
      rw [h5] at h3
      obtain ⟨h6, h7⟩ := (flattenCluster_fails (clusterResolved_parts hd hr (rcEnough hc)).1 l e).mp h3
      exact .inr ⟨l, h4, h7, h6⟩
  · rintro ⟨c, home, hr, h2⟩
    have hp := (clusterResolved_parts hd hr (rcEnough hc)).1
    obtain ⟨hm, h1, rfl⟩ := (resolveCluster_full hix b _ c home).mpr hr
    refine ⟨(c, hm), (hres _ _).mpr h1, ?_⟩
    rcases h2 with h2 | ⟨l, h2, h3, rfl⟩
    · exact ((hkids _ _).mpr h2).bind_error
    · obtain ⟨n, ys, hn, hys⟩ := expandRCs_complete hix h2
      refine ((finally_ok (hmap _ _)).mpr ⟨n, hn⟩).bind_ok ⟨0, fun n _ => ?_⟩
      dsimp only
      rw [hys]
      exact (flattenCluster_fails hp l _).mpr ⟨rfl, h3⟩

omit hix in
theorem rcsFail_iff {b : BlockPath} {cs : List RegisterCluster} {e : Fault} :
    RcsFail namesOf d b cs e ↔
      AtFirst (fun x => ∃ l, RcFull namesOf d b x l) (fun x => RcFails namesOf d b x e) cs := by
  induction cs with
  | nil => constructor <;> (intro h; cases h)
  | cons c cs ih =>
    constructor
    · intro h
      cases h with
      | here h => exact .here h
      | later h h' => exact .later ⟨_, h⟩ (ih.mp h')
    · intro h
      cases h with
      | here h => exact .here h
      | later h h' => obtain ⟨l, h⟩ := h; exact .later h (ih.mpr h')

omit hix in
theorem atFirst_split {α : Type} {P Q : α → Prop} {l : List α} (h : AtFirst P Q l) :
    ∃ pre x post, l = pre ++ x :: post ∧ (∀ y ∈ pre, P y) ∧ Q x := by
  induction h with
  | here h => exact ⟨[], _, _, rfl, by simp, h⟩
  | later h _ ih =>
    obtain ⟨pre, x, post, rfl, h1, h2⟩ := ih
    exact ⟨_ :: pre, x, post, rfl, by
      intro y hy
      rcases List.mem_cons.mp hy with rfl | hy
      · exact h
      · exact h1 y hy, h2⟩

omit hix in
theorem rcsFull_exists {b : BlockPath} {cs : List RegisterCluster}
    (h : ∀ c ∈ cs, ∃ l, RcFull namesOf d b c l) : ∃ l, RcsFull namesOf d b cs l := by
  induction cs with
  | nil => exact ⟨[], .nil⟩
  | cons c cs ih =>
    obtain ⟨l, h1⟩ := h c (by simp)
    obtain ⟨l', h2⟩ := ih fun c hc => h c (by simp [hc])
    exact ⟨_, .cons h1 h2⟩

omit hix in
theorem children_parts (hd : Indexable d) {b : BlockPath} {h : ClusterHead} {dim : Option DimElement}
    {cs : List RegisterCluster} {c : Cluster} {home : BlockPath}
    (hc : RcParts (fun _ => True) EnoughIndexes (.cluster h dim cs))
    (hr : ClusterResolved namesOf d b (MaybeArray.mk' { h with children := cs } dim) c home) :
    ∀ x ∈ c.info.children, RcParts (fun _ => True) EnoughIndexes x :=
  rcsParts_iff.mp (clusterResolved_parts hd hr (rcEnough hc)).2

omit hix in
theorem AtFirst.imp {α : Type} {P Q P' Q' : α → Prop} {l : List α} (h : AtFirst P Q l)
    (hp : ∀ a ∈ l, P a → P' a) (hq : ∀ a ∈ l, Q a → Q' a) : AtFirst P' Q' l := by
  induction h with
  | here h => exact .here (hq _ (by simp) h)
  | later h _ ih =>
    exact .later (hp _ (by simp) h) (ih (fun a ha => hp a (by simp [ha])) fun a ha => hq a (by simp [ha]))

omit hix in
theorem atFirst_of_split {α : Type} {P Q : α → Prop} {pre post : List α} {x : α} (h : ∀ y ∈ pre, P y)
    (hx : Q x) : AtFirst P Q (pre ++ x :: post) := by
  induction pre with
  | nil => exact .here hx
  | cons a pre ih => exact .later (h a (by simp)) (ih fun y hy => h y (by simp [hy]))

omit hix in
theorem finally_const_iff {α : Type} {m r : M α} : Finally (fun _ => m) r ↔ m = r :=
  ⟨fun h => (finally_const m).unique h, fun h => h ▸ finally_const m⟩

omit hix in
theorem mapM_atFirst {α β : Type} {f : α → M β} {l : List α} {e : Fault} :
    l.mapM f = .error e ↔ AtFirst (fun a => ∃ b, f a = .ok b) (fun a => f a = .error e) l := by
  have h := finally_mapM (f := fun _ => f) (fun _ _ => .refl _) (l := l) (e := e)
  rw [finally_const_iff] at h
  refine h.trans (atFirst_congr (fun a _ => ?_) fun a _ => finally_const_iff)
  exact ⟨fun ⟨b, _, h⟩ => ⟨b, h⟩, fun ⟨b, h⟩ => ⟨b, 0, h⟩⟩

omit hix in
theorem mapM_diverge {α β : Type} {f : α → M β} {pre post : List α} {x : α}
    (h : ∀ y ∈ pre, f y = .error .diverge ∨ ∃ b, f y = .ok b) (hx : f x = .error .diverge) :
    (pre ++ x :: post).mapM f = .error .diverge := by
  refine mapM_atFirst.mpr ?_
  induction pre with
  | nil => exact .here hx
  | cons a pre ih =>
    rcases h a (by simp) with h1 | h1
    · exact .here h1
    · exact .later h1 (ih fun y hy => h y (by simp [hy]))

omit hix in
theorem steady_or {α : Type} {f : Nat → M α} (hs : Steady f) {a : α} (h : ∃ n, f n = .ok a) (n : Nat) :
    f n = .error .diverge ∨ f n = .ok a := by
  by_cases hn : f n = .error .diverge
  · exact .inl hn
  · exact .inr ((steady_finally hs hn).unique ((finally_ok hs).mpr h))

theorem expandRC_error (hd : Indexable d) {e : Fault} (he : e ≠ .diverge) (n : Nat) : ∀ (b : BlockPath)
    (c : RegisterCluster), RcParts (fun _ => True) EnoughIndexes c → expandRC true ix n b c = .error e →
      RcFails namesOf d b c e := by
  induction n with
  | zero => intro b c _ h; rw [expandRC] at h; injection h with h; exact absurd h.symm he
  | succ n ih =>
    intro b c hc h
    cases c with
    | register r =>
      rw [expandRC] at h
      unfold RcParts at hc
      refine .register ((expandRegister_fails hix hd b hc e).mp ?_)
      exact finally_error (f := fun n => expandRegisterArray true ix n b r) (n := n + 1)
        (fun n => expandRegisterArray_extends ..) h he
    | cluster hd' dim cs =>
      rw [expandRC_cluster] at h
      rcases bind_error.mp h with h | ⟨⟨c, hm⟩, h1, h2⟩
      · obtain ⟨s, h1, h2⟩ := (resolveCluster_fails hix b _ e).mp (finally_error (resolveCluster_steady b _) h he)
        rw [mk'_info] at h1 h2
        exact .reference h1 h2
      · have hr := (resolveCluster_full hix b _ c _).mp ⟨hm, ⟨_, h1⟩, rfl⟩
        rcases bind_error.mp h2 with h3 | ⟨ys, h3, h4⟩
        · refine .inside hr (rcsFail_iff.mpr (AtFirst.imp (mapM_atFirst.mp h3) ?_ ?_))
          · rintro x _ ⟨y, hy⟩
            obtain ⟨l, hl, _⟩ := expandRC_sound hix n _ x y hy
            exact ⟨l, hl⟩
          · intro x hx hxe
            exact ih _ x (children_parts hd hc hr x hx) hxe
        · obtain ⟨l, h5, h6⟩ := rcsFull_of (fun x _ y => expandRC_sound hix n _ x y) h3
          dsimp only at h4
          rw [h6] at h4
          obtain ⟨rfl, h7⟩ := (flattenCluster_fails (clusterResolved_parts hd hr (rcEnough hc)).1 l e).mp h4
          exact .instances hr h5 h7

theorem expandRC_diverge (hd : Indexable d) (b : BlockPath) (c : RegisterCluster)
    (hc : RcParts (fun _ => True) EnoughIndexes c)
    (h : Finally (fun n => expandRC true ix n b c) (.error .diverge)) :
    RcFails namesOf d b c .diverge := by
  refine Classical.byContradiction fun hno => ?_
  have step : ∀ x : BlockPath × RegisterCluster,
      (Finally (fun n => expandRC true ix n x.1 x.2) (.error .diverge) ∧
        RcParts (fun _ => True) EnoughIndexes x.2 ∧ ¬ RcFails namesOf d x.1 x.2 .diverge) →
      ∃ y : BlockPath × RegisterCluster,
        (Finally (fun n => expandRC true ix n y.1 y.2) (.error .diverge) ∧
          RcParts (fun _ => True) EnoughIndexes y.2 ∧ ¬ RcFails namesOf d y.1 y.2 .diverge) ∧
        ∃ h dim sub c' pre post l, x.2 = .cluster h dim sub ∧
          ClusterResolved namesOf d x.1 (MaybeArray.mk' { h with children := sub } dim) c' y.1 ∧
          c'.info.children = pre ++ y.2 :: post ∧ RcsFull namesOf d y.1 pre l := by
    rintro ⟨b, c⟩ ⟨h, hc, hno⟩
    dsimp only at h hc hno ⊢
    cases c with
    | register r =>
      refine absurd (.register ?_) hno
      unfold RcParts at hc
      exact (expandRegister_fails hix hd b hc _).mp (expandRC_register_finally.mp h)
    | cluster h' dim cs =>
      rcases (expandRC_cluster_fails hix hd b hc _).mp h with ⟨s, h1, h2⟩ | ⟨c, home, hr, h1 | ⟨_, _, _, h1⟩⟩
      · exact absurd (.reference h1 h2) hno
      · obtain ⟨pre, x, post, h2, h3, h4⟩ := atFirst_split h1
        obtain ⟨l, h5⟩ := rcsFull_exists h3
        refine ⟨(home, x), ⟨h4, children_parts hd hc hr x (by rw [h2]; simp), fun h6 => hno ?_⟩,
          h', dim, cs, c, pre, post, l, rfl, hr, h2, h5⟩
        refine .inside hr (rcsFail_iff.mpr ?_)
        rw [h2]
        exact atFirst_of_split h3 h6
      · cases h1
  obtain ⟨g, hg, hR⟩ := endless_of step (b, c) ⟨h, hc, hno⟩
  exact hno (.endless ⟨fun i => (g i).1, fun i => (g i).2, congrArg Prod.fst hg, congrArg Prod.snd hg, hR⟩)

omit hix in
theorem rcsFull_each {b : BlockPath} {cs : List RegisterCluster} {l : List RegisterInfo}
    (h : RcsFull namesOf d b cs l) : ∀ c ∈ cs, ∃ l, RcFull namesOf d b c l := by
  induction cs generalizing l with
  | nil => simp
  | cons c cs ih =>
    cases h with
    | cons h1 h2 =>
      intro x hx
      rcases List.mem_cons.mp hx with rfl | hx
      · exact ⟨_, h1⟩
      · exact ih h2 x hx

theorem endless_diverges {blocks : Nat → BlockPath} {rcs : Nat → RegisterCluster}
    (h : ∀ i, ∃ h dim sub c' pre post l, rcs i = .cluster h dim sub ∧
      ClusterResolved namesOf d (blocks i) (MaybeArray.mk' { h with children := sub } dim) c'
        (blocks (i + 1)) ∧
      c'.info.children = pre ++ rcs (i + 1) :: post ∧ RcsFull namesOf d (blocks (i + 1)) pre l) (n : Nat) :
    ∀ i, expandRC true ix n (blocks i) (rcs i) = .error .diverge := by
  induction n with
  | zero => intro i; rw [expandRC]
  | succ n ih =>
    intro i
    obtain ⟨hd, dim, sub, c, pre, post, l, h1, h2, h3, h4⟩ := h i
    rw [h1, expandRC_cluster]
    obtain ⟨hm, h5, h6⟩ := (resolveCluster_full hix _ _ c _).mpr h2
    rcases steady_or (resolveCluster_steady _ _) h5 (n + 1) with h7 | h7
    · rw [h7]; rfl
    · rw [h7]
      refine bind_error.mpr (.inr ⟨_, rfl, bind_error.mpr (.inl ?_)⟩)
      dsimp only
      rw [← h6, h3]
      refine mapM_diverge (fun y hy => ?_) (ih (i + 1))
      obtain ⟨l', hl⟩ := rcsFull_each h4 y hy
      rcases steady_or (expandRC_steady _ y) (expandRC_complete hix hl) n with h8 | h8
      · exact .inl h8
      · exact .inr ⟨_, h8⟩

set_option linter.unusedSectionVars false in
mutual
theorem rcFails_finally (hd : Indexable d) : ∀ {b : BlockPath} {c : RegisterCluster} {e : Fault},
    RcFails namesOf d b c e → RcParts (fun _ => True) EnoughIndexes c →
      Finally (fun n => expandRC true ix n b c) (.error e)
  | _, _, _, .register h, hc => by
    unfold RcParts at hc
    exact expandRC_register_finally.mpr ((expandRegister_fails hix hd _ hc _).mpr h)
  | _, _, _, .reference h1 h2, hc => (expandRC_cluster_fails hix hd _ hc _).mpr (.inl ⟨_, h1, h2⟩)
  | _, _, _, .inside hr h, hc =>
    (expandRC_cluster_fails hix hd _ hc _).mpr (.inr ⟨_, _, hr, .inl
      (rcsFail_atFirst hd h (children_parts hd hc hr))⟩)
  | _, _, _, .instances hr h1 h2, hc =>
    (expandRC_cluster_fails hix hd _ hc _).mpr (.inr ⟨_, _, hr, .inr ⟨_, h1, h2, rfl⟩⟩)
  | _, _, _, .endless h, _ => by
    obtain ⟨blocks, rcs, rfl, rfl, h⟩ := h
    exact ⟨0, fun n _ => endless_diverges hix h n 0⟩
theorem rcsFail_atFirst (hd : Indexable d) : ∀ {b : BlockPath} {cs : List RegisterCluster} {e : Fault},
    RcsFail namesOf d b cs e → (∀ c ∈ cs, RcParts (fun _ => True) EnoughIndexes c) →
      AtFirst (fun x => ∃ l, RcFull namesOf d b x l)
        (fun x => Finally (fun n => expandRC true ix n b x) (.error e)) cs
  | _, _, _, .here h, hc => .here (rcFails_finally hd h (hc _ (by simp)))
  | _, _, _, .later h h', hc => .later ⟨_, h⟩ (rcsFail_atFirst hd h' fun c h => hc c (by simp [h]))
end

theorem expandRC_fails (hd : Indexable d) (b : BlockPath) {c : RegisterCluster}
    (hc : RcParts (fun _ => True) EnoughIndexes c) (e : Fault) :
    Finally (fun n => expandRC true ix n b c) (.error e) ↔ RcFails namesOf d b c e := by
  constructor
  · intro h
    by_cases he : e = .diverge
    · subst he; exact expandRC_diverge hix hd b c hc h
    · obtain ⟨N, h⟩ := h
      exact expandRC_error hix hd he N b c hc (h N (Nat.le_refl _))
  · exact fun h => rcFails_finally hix hd h hc

/-! ## Peripherals -/

/-- The last step of expanding a peripheral: a peripheral array is replaced by its instances. -/
def peripheralLast : Peripheral → M (List Peripheral)
  | .single i => .ok [.single i]
  | .array i d => do
    let l ← PeripheralInfo.expand true i d
    .ok (l.map .single)

omit hix in
theorem peripheralLast_fails {p : Peripheral} (hp : ∀ x, p.dim? = some x → EnoughIndexes x) (e : Fault) :
    peripheralLast p = .error e ↔
      e = .panic .overflow ∧ ∃ dim, p.dim? = some dim ∧ TooFar 64 p.info.baseAddress.toNat dim := by
  cases p with
  | single i =>
    constructor
    · intro h; cases h
    · rintro ⟨_, _, h, _⟩; cases h
  | array i dim =>
    have key := peripheralExpand_fails i (hp dim rfl) e
    constructor
    · intro h
      rcases bind_error.mp h with h | ⟨_, _, h⟩
      · obtain ⟨h1, h2⟩ := key.mp h
        exact ⟨h1, dim, rfl, h2⟩
      · cases h
    · rintro ⟨h1, dim', h2, h3⟩
      injection h2 with h2
      subst h2
      exact bind_error.mpr (.inl (key.mpr ⟨h1, h3⟩))

theorem expandRegisters_fails (hd : Indexable d) (b : BlockPath) {o : Option (List RegisterCluster)}
    (ho : ∀ l, o = some l → RcsParts (fun _ => True) EnoughIndexes l) (e : Fault) :
    Finally (fun n => expandRegisters ix n b o) (.error e) ↔
      ∃ cs, o = some cs ∧ RcsFail namesOf d b cs e := by
  cases o with
  | none =>
    constructor
    · rintro ⟨N, h⟩; have := h N (Nat.le_refl _); cases this
    · rintro ⟨_, h, _⟩; cases h
  | some cs =>
    have hp := rcsParts_iff.mp (ho cs rfl)
    have key : Finally (fun n => cs.mapM (expandRC true ix n b)) (.error e) ↔ RcsFail namesOf d b cs e := by
      rw [rcsFail_iff]
      refine (finally_mapM (f := fun n x => expandRC true ix n b x) fun x => expandRC_steady b x).trans
        (atFirst_congr (fun c _ => ?_) fun c hc => expandRC_fails hix hd b (hp c hc) e)
      constructor
      · rintro ⟨y, n, h⟩
        obtain ⟨l, h, _⟩ := expandRC_sound hix n b c y h
        exact ⟨l, h⟩
      · rintro ⟨l, h⟩
        exact ⟨_, expandRC_complete hix h⟩
    have hst : Steady fun n => cs.mapM (expandRC true ix n b) :=
      fun n => .mapM fun x _ => expandRC_extends true ix n b x
    have step : (fun n => expandRegisters ix n b (some cs)) = fun n =>
        (cs.mapM (expandRC true ix n b) >>= fun l => .ok (some l.flatten)) := rfl
    rw [step]
    constructor
    · intro h
      rcases (finally_bind hst).mp h with h | ⟨_, _, N, h⟩
      · exact ⟨cs, rfl, key.mp h⟩
      · have := h N (Nat.le_refl _); cases this
    · rintro ⟨cs', h1, h2⟩
      injection h1 with h1
      subst h1
      exact (key.mpr h2).bind_error

theorem expandPeripheral_fails (hd : Indexable d) {p : Peripheral}
    (hp : PeripheralParts (fun _ => True) EnoughIndexes p) (e : Fault) :
    Finally (fun n => expandPeripheral true ix n p) (.error e) ↔ PeripheralFails namesOf d p e := by
  have step : ∀ n, expandPeripheral true ix n p = (resolvePeripheral ix n p >>= fun pp =>
      expandRegisters ix n (pp.2.getD (BlockPath.new pp.1.info.name)) pp.1.info.registers >>=
        fun rs => peripheralLast (pp.1.mapInfo fun i => { i with registers := rs })) := fun _ => rfl
  simp only [step]
  refine Iff.trans (finally_bind (resolvePeripheral_steady p)) ?_
  constructor
  · rintro (h | ⟨⟨p', h⟩, h1, h2⟩)
    · obtain ⟨s, h1, h2⟩ := (resolvePeripheral_fails hix p e).mp h
      exact .reference h1 h2
    · have hres := (resolvePeripheral_full hix p p' _).mp ⟨h, h1, rfl⟩
      have hq := peripheralResolved_parts hd hres hp
      rcases (finally_bind (expandRegisters_steady _ _)).mp h2 with h2' | ⟨rs, h2', N, h3⟩
      · obtain ⟨cs, h3, h4⟩ := (expandRegisters_fails hix hd _ hq.1 e).mp h2'
        exact .inside hres h3 h4
      · have h3 := h3 N (Nat.le_refl _)
        obtain ⟨rfl, dim, h4, h5⟩ := (peripheralLast_fails
          (by rw [mapInfo_dim]; exact dimPart_iff.mp hq.2) _).mp h3
        rw [mapInfo_dim] at h4
        rw [mapInfo_info] at h5
        exact .instances hres ((expandRegisters_full hix _ _ _).mp h2') h4 h5
  · intro h
    cases h with
    | reference h1 h2 => exact .inl ((resolvePeripheral_fails hix p e).mpr ⟨_, h1, h2⟩)
    | inside hres h2 h3 =>
      have hq := peripheralResolved_parts hd hres hp
      obtain ⟨h, h1, rfl⟩ := (resolvePeripheral_full hix p _ _).mpr hres
      exact .inr ⟨(_, h), h1, ((expandRegisters_fails hix hd _ hq.1 e).mpr ⟨_, h2, h3⟩).bind_error⟩
    | @instances p' _ rs dim hres h2 h3 h4 =>
      have hq := peripheralResolved_parts hd hres hp
      obtain ⟨h, h1, rfl⟩ := (resolvePeripheral_full hix p _ _).mpr hres
      refine .inr ⟨(_, h), h1, ((finally_ok (expandRegisters_steady _ _)).mpr
        ((expandRegisters_full hix _ _ _).mpr h2)).bind_ok ⟨0, fun n _ => ?_⟩⟩
      refine (peripheralLast_fails (by rw [mapInfo_dim]; exact dimPart_iff.mp hq.2) _).mpr ⟨rfl, dim, ?_, ?_⟩
      · rw [mapInfo_dim]; exact h3
      · rw [mapInfo_info]; exact h4

end

/-! ## The index -/

/-- What building the index can end with: some list of indexes is too short. -/
def ShortList (e : Fault) : Prop := e = .panic .indexOutOfBounds

theorem indexNames_short (s : Str) (d : Option DimElement) : Faults ShortList (Index.indexNames s d) := by
  unfold Index.indexNames
  split
  · refine .bind (.mapM fun k _ => ?_) fun _ _ => .ok _
    rw [nameAt_eq]
    refine .bind ?_ fun _ _ => .ok _
    unfold DimElement.indexAt
    split
    · split
      · exact .ok _
      · exact .error rfl
    · exact .ok _
  · exact .ok _

theorem addRegister_short (ix : Index) (b : BlockPath) (r : Register) :
    Faults ShortList (ix.addRegister b r) :=
  .bind (indexNames_short ..) fun _ _ => .foldlM (fun _ _ _ => .bind (.foldlM (fun _ _ _ =>
    .bind (indexNames_short ..) fun _ _ => .ok _) _) fun _ _ => .ok _) _

theorem addRegisters_short (ix : Index) (b : BlockPath) (cs : List RegisterCluster) :
    Faults ShortList (Index.addRegisters b ix cs) := by
  induction cs generalizing ix with
  | nil => exact .ok _
  | cons c cs ih =>
    cases c with
    | register r => exact .bind (addRegister_short ..) fun _ _ => ih _
    | cluster _ _ _ => exact ih _

mutual
theorem addCluster_short : ∀ (ix : Index) (b : BlockPath) (c : RegisterCluster),
    Faults ShortList (Index.addCluster b c ix)
  | ix, b, .register r => by unfold Index.addCluster; exact .ok _
  | ix, b, .cluster h d cs => by
    unfold Index.addCluster
    exact .bind (indexNames_short ..) fun _ _ => .foldlM (fun _ _ _ =>
      .bind (addRegisters_short ..) fun _ _ => .bind (addClusters_short _ _ cs) fun _ _ => .ok _) _
theorem addClusters_short : ∀ (ix : Index) (b : BlockPath) (cs : List RegisterCluster),
    Faults ShortList (Index.addClusters b cs ix)
  | ix, b, [] => by unfold Index.addClusters; exact .ok _
  | ix, b, c :: cs => by
    unfold Index.addClusters
    exact .bind (addCluster_short _ _ c) fun _ _ => addClusters_short _ _ cs
end

theorem create_short (d : Device) : Faults ShortList (Index.create d) :=
  .foldlM (fun _ _ _ => .bind (indexNames_short ..) fun _ _ => .foldlM (fun _ _ _ =>
    .bind (addRegisters_short ..) fun _ _ => .bind (addClusters_short ..) fun _ _ => .ok _) _) _

theorem expand_fails (d : Device) (e : Fault) :
    Finally (fun n => expand true n d) (.error e) ↔ DeviceFails namesOf d e := by
  unfold expand
  by_cases hd : Indexable d
  · obtain ⟨ix, hix⟩ := (C43_builds d).mpr hd
    simp only [hix, ok_bind]
    have hst : Steady fun n => d.peripherals.mapM (expandPeripheral true ix n) :=
      fun n => .mapM fun p _ => expandPeripheral_extends true ix n p
    have key : Finally (fun n => d.peripherals.mapM (expandPeripheral true ix n)) (.error e) ↔
        AtFirst (fun p => ∃ l, PeripheralFull namesOf d p l) (fun p => PeripheralFails namesOf d p e)
          d.peripherals :=
      (finally_mapM (f := fun n p => expandPeripheral true ix n p)
        fun p n => expandPeripheral_extends true ix n p).trans (atFirst_congr
          (fun p _ => exists_congr fun l => expandPeripheral_full hix p l)
          fun p hp => expandPeripheral_fails hix hd (hd p hp) e)
    refine (finally_bind hst).trans ?_
    rw [key]
    constructor
    · rintro (h | ⟨_, _, N, h⟩)
      · exact .inside hd h
      · have := h N (Nat.le_refl _); cases this
    · intro h
      cases h with
      | indexes h => exact absurd hd h
      | inside _ h => exact .inl h
  · have hno : Index.create d = .error (.panic .indexOutOfBounds) := by
      cases h : Index.create d with
      | ok ix => exact absurd ((C43_builds d).mp ⟨ix, h⟩) hd
      | error e => rw [(create_short d).out e h]
    simp only [hno, error_bind, finally_const_iff]
    constructor
    · intro h
      injection h with h
      subst h
      exact .indexes hd
    · intro h
      cases h with
      | indexes _ => rfl
      | inside h _ => exact absurd h hd

end Fails

open Fails

/-- **C63.** From some number of steps on expansion ends in a fault, exactly if the device has this
fault: the fault of the first peripheral that has any, where a peripheral has the fault of its
reference, or of the first of its registers and clusters that has any, or of its instances. -/
theorem C63_fails (d : Device) (e : Fault) :
    (∃ N, ∀ n, N ≤ n → expand true n d = .error e) ↔ DeviceFails namesOf d e :=
  expand_fails d e

/-- **C63.** Whatever a run with checks ends with, other than running out of steps, is the fault of the
device. -/
theorem C63_run (fuel : Nat) (d : Device) (e : Fault) (h : expand true fuel d = .error e) (he : e ≠ .diverge) :
    DeviceFails namesOf d e :=
  (expand_fails d e).mp (finally_error (f := fun n => expand true n d)
    (fun n => expand_extends true (Nat.le_succ n) d) h he)

/-- **C63.** A device has an expansion or a fault, -/
theorem C63_total (d : Device) : (∃ d', DeviceFull namesOf d d') ∨ ∃ e, DeviceFails namesOf d e := by
  have hst : Steady fun n => expand true n d := fun n => expand_extends true (Nat.le_succ n) d
  obtain ⟨r, hr⟩ := finally_exists hst
  cases r with
  | ok d' => exact .inl ⟨d', (C56_expansion d d').mp ((finally_ok hst).mp hr)⟩
  | error e => exact .inr ⟨e, (expand_fails d e).mp hr⟩

/-- **C63.** not both, -/
theorem C63_exclusive (d d' : Device) (e : Fault) (h : DeviceFull namesOf d d') :
    ¬ DeviceFails namesOf d e := fun h' => by
  have hst : Steady fun n => expand true n d := fun n => expand_extends true (Nat.le_succ n) d
  have := ((finally_ok hst).mpr ((C56_expansion d d').mpr h)).unique ((expand_fails d e).mpr h')
  cases this

-- `C63_total` and `C63_exclusive`
example : (∃ e, DeviceFails namesOf (Sample.device [.single (Sample.peripheralInfo "A" 0 (some "A"))]) e) ∧
    ¬ ∃ d', DeviceFull namesOf (Sample.device [.single (Sample.peripheralInfo "A" 0 (some "A"))]) d' := by
  have h := C63_run 5 (Sample.device [.single (Sample.peripheralInfo "A" 0 (some "A"))])
    (.err (.selfDerived "peripheral" "A".toList)) (by decide +kernel) (by decide)
  have hn : ¬ ∃ d', DeviceFull namesOf (Sample.device [.single (Sample.peripheralInfo "A" 0 (some "A"))]) d' :=
    fun ⟨d', hd⟩ => C63_exclusive _ d' _ hd h
  exact ⟨(C63_total _).resolve_left hn, hn⟩

example (e : Fault) : ¬ DeviceFails namesOf manyRefs e := by
  obtain ⟨d', h⟩ := ok_of_isOk (x := expand true 6 manyRefs) (by decide +kernel)
  exact C63_exclusive _ d' e ((C56_expansion _ _).mp ⟨6, h⟩)

/-- **C63.** and at most one fault. -/
theorem C63_one (d : Device) (e e' : Fault) (h : DeviceFails namesOf d e) (h' : DeviceFails namesOf d e') :
    e = e' := by
  have := ((expand_fails d e).mpr h).unique ((expand_fails d e').mpr h')
  injection this

example (e : Fault) (h : DeviceFails namesOf (Sample.device [.single (Sample.peripheralInfo "A" 0 (some "X"))]) e) :
    e = .err (.notFound "peripheral" "X".toList) :=
  C63_one _ _ _ h (C63_run 5 _ _ (by decide +kernel) (by decide))

/-- **C39, exactly.** Expansion with checks never returns, exactly if the first fault of the device is
an endless one: references that lead on forever, or a cluster that contains itself. -/
theorem C39_exact (d : Device) :
    (∀ fuel, expand true fuel d = .error .diverge) ↔ DeviceFails namesOf d .diverge := by
  rw [← C63_fails]
  constructor
  · exact fun h => ⟨0, fun n _ => h n⟩
  · rintro ⟨N, h⟩ n
    by_cases hn : expand true n d = .error .diverge
    · exact hn
    · rw [← (expand_extends true (Nat.le_max_left n N) d).out hn]
      exact h _ (Nat.le_max_right n N)

/-! ## Examples -/

-- From the description to the program: the second of three peripherals refers to one that is not there;
-- the third, which refers to itself, does not matter.
example : ∃ N, ∀ n, N ≤ n → expand true n (Sample.device [.single (Sample.peripheralInfo "A" 0),
    .single (Sample.peripheralInfo "B" 0 (some "X")), .single (Sample.peripheralInfo "C" 0 (some "C"))]) =
      .error (.err (.notFound "peripheral" "X".toList)) := by
  refine (C63_fails _ _).mpr (.inside ?_
    (.later ⟨[.single (Sample.peripheralInfo "A" 0)], ?_⟩ (.here (.reference rfl (.here (.missing ?_ ?_))))))
  · intro p hp
    simp only [Sample.device, List.mem_cons, List.not_mem_nil, or_false] at hp
    rcases hp with rfl | rfl | rfl <;> exact ⟨fun _ h => (by cases h), trivial⟩
  · exact ⟨_, _, _, .own rfl, .none, .single⟩
  · decide
  · rintro p h
    have h := lastAt_mem h
    simp [allPeripherals, Sample.device, namesOf, Sample.peripheralInfo, MaybeArray.info, MaybeArray.dim?] at h

-- From the program to the description: the faults of the examples of BadRefs, an array whose last
-- register does not fit, a list of indexes that is too short, and a reference of two components.
example : DeviceFails namesOf (Sample.device [.single (Sample.peripheralInfo "A" 0 none
    (some [.register (.single (Sample.registerInfo "R" 0 (some "A.R")))]))])
    (.err (.selfDerived "register" "A.R".toList)) := C63_run 5 _ _ (by decide +kernel) (by decide)
example : DeviceFails namesOf (Sample.device [.single (Sample.peripheralInfo "A" 0 none
    (some [.register (.array (Sample.registerInfo "R%s" 0xfffffff0) (Sample.dim 5 4))]))])
    (.panic .overflow) := C63_run 5 _ _ (by decide +kernel) (by decide)
example : ∃ d', DeviceFull namesOf (Sample.device [.single (Sample.peripheralInfo "A" 0 none
    (some [.register (.array (Sample.registerInfo "R%s" 0xfffffff0) (Sample.dim 4 4))]))]) d' := by
  have h : (expand true 5 (Sample.device [.single (Sample.peripheralInfo "A" 0 none
    (some [.register (.array (Sample.registerInfo "R%s" 0xfffffff0) (Sample.dim 4 4))]))])).isOk = true := by
    decide +kernel
  cases hx : expand true 5 (Sample.device [.single (Sample.peripheralInfo "A" 0 none
    (some [.register (.array (Sample.registerInfo "R%s" 0xfffffff0) (Sample.dim 4 4))]))]) with
  | ok d' => exact ⟨d', (C56_expansion _ _).mp ⟨5, hx⟩⟩
  | error e => rw [hx] at h; cases h
example : DeviceFails namesOf (Sample.device [.single (Sample.peripheralInfo "A" 0 none
    (some [.register (.array (Sample.registerInfo "R%s" 0)
      { Sample.dim 3 4 with dimIndex := some ["a".toList, "b".toList] })]))])
    (.panic .indexOutOfBounds) := C63_run 5 _ _ (by decide +kernel) (by decide)
example : DeviceFails namesOf (Sample.device [.single (Sample.peripheralInfo "A" 0 none
    (some [.register (.single (Sample.registerInfo "R" 0 none (some
      [.single (Sample.fieldInfo "F" 0 (some "R.G")), .single (Sample.fieldInfo "G" 1)])))]))])
    (.panic .unwrap) := C63_run 5 _ _ (by decide +kernel) (by decide)

-- Both kinds of endless expansion.
example : DeviceFails namesOf ancestorDevice .diverge := (C39_exact _).mp (C39_violated_ancestor true)
example (d : Device) (fuel : Nat) (hd : DeviceParts (fun _ => True) EnoughIndexes d) (p q : Peripheral)
    (hp : d.peripherals = [p, q]) (h1 : p.info.derivedFrom = some "q".toList)
    (h2 : q.info.derivedFrom = some "q".toList) (hn : p.info.name ≠ "q".toList)
    (hq : LastAt (allPeripherals namesOf d) ⟨"q".toList, []⟩ q) :
    expand true fuel d = .error .diverge := by
  refine (C39_exact d).mpr (.inside hd ?_) fuel
  rw [hp]
  refine .here (.reference h1 (.endless ⟨fun _ => (), fun _ => "q".toList, rfl, rfl, fun _ => ⟨q, ⟨?_, ?_⟩, h2⟩⟩))
  · exact fun h => hn h.symm
  · exact hq

end Svd
