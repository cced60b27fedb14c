import Verif.Model.Basic

/-! # Outcomes -/

namespace Svd

theorem bind_ok {ε α β : Type} {x : Except ε α} {f : α → Except ε β} {b : β} :
    (x >>= f) = .ok b ↔ ∃ a, x = .ok a ∧ f a = .ok b := by
  cases x <;> simp [bind, Except.bind]

theorem bind_error {ε α β : Type} {x : Except ε α} {f : α → Except ε β} {e : ε} :
    (x >>= f) = .error e ↔ x = .error e ∨ ∃ a, x = .ok a ∧ f a = .error e := by
  cases x <;> simp [bind, Except.bind]

@[simp] theorem ok_bind {ε α β : Type} {a : α} {f : α → Except ε β} :
    ((Except.ok a : Except ε α) >>= f) = f a := rfl

@[simp] theorem error_bind {ε α β : Type} {e : ε} {f : α → Except ε β} :
    ((Except.error e : Except ε α) >>= f) = .error e := rfl

theorem mapM_nil {ε α β : Type} {f : α → Except ε β} : [].mapM f = .ok [] := rfl

theorem mapM_cons {ε α β : Type} {f : α → Except ε β} {a : α} {l : List α} :
    (a :: l).mapM f = (do let b ← f a; let bs ← l.mapM f; .ok (b :: bs)) := by
  rw [List.mapM_cons]; rfl

theorem mapM_ok {ε α β : Type} {f : α → Except ε β} {l : List α} {r : List β} :
    l.mapM f = .ok r ↔ l.map f = r.map .ok := by
  induction l generalizing r with
  | nil => cases r <;> simp [pure, Except.pure]
  | cons a l ih =>
    rw [mapM_cons, bind_ok]
    constructor
    · rintro ⟨b, h1, h2⟩
      obtain ⟨bs, h3, h4⟩ := bind_ok.mp h2
      injection h4 with h4; subst h4
      simp [h1, ih.mp h3]
    · intro h
      cases r with
      | nil => simp at h
      | cons b bs =>
        simp only [List.map_cons, List.cons.injEq] at h
        exact ⟨b, h.1, bind_ok.mpr ⟨bs, ih.mpr h.2, rfl⟩⟩

theorem mapM_ok_length {ε α β : Type} {f : α → Except ε β} {l : List α} {r : List β}
    (h : l.mapM f = .ok r) : r.length = l.length := by
  simpa using (congrArg List.length (mapM_ok.mp h)).symm

theorem mapM_ok_get {ε α β : Type} {f : α → Except ε β} {l : List α} {r : List β}
    (h : l.mapM f = .ok r) (i : Nat) : l[i]?.map f = r[i]?.map .ok := by
  have := congrArg (·[i]?) (mapM_ok.mp h)
  simpa using this

theorem mapM_ok_mem {ε α β : Type} {f : α → Except ε β} {l : List α} {r : List β}
    (h : l.mapM f = .ok r) {a : α} (ha : a ∈ l) : ∃ b ∈ r, f a = .ok b := by
  have : f a ∈ l.map f := List.mem_map_of_mem ha
  rw [mapM_ok.mp h, List.mem_map] at this
  obtain ⟨b, hb, e⟩ := this
  exact ⟨b, hb, e.symm⟩

theorem mapM_ok_mem' {ε α β : Type} {f : α → Except ε β} {l : List α} {r : List β}
    (h : l.mapM f = .ok r) {b : β} (hb : b ∈ r) : ∃ a ∈ l, f a = .ok b := by
  have : Except.ok b ∈ (r.map Except.ok : List (Except ε β)) := List.mem_map_of_mem hb
  rw [← mapM_ok.mp h, List.mem_map] at this
  exact this

/-- A `mapM` succeeds if every step does. -/
theorem mapM_ok_of_forall {ε α β : Type} {f : α → Except ε β} {l : List α}
    (h : ∀ a ∈ l, ∃ b, f a = .ok b) : ∃ r, l.mapM f = .ok r := by
  induction l with
  | nil => exact ⟨[], rfl⟩
  | cons a l ih =>
    obtain ⟨b, hb⟩ := h a (by simp)
    obtain ⟨r, hr⟩ := ih (fun a ha => h a (by simp [ha]))
    exact ⟨b :: r, by rw [mapM_cons, hb, hr]; rfl⟩

theorem mapM_congr {ε α β : Type} {f g : α → Except ε β} {l : List α}
    (h : ∀ a ∈ l, f a = g a) : l.mapM f = l.mapM g := by
  induction l with
  | nil => rfl
  | cons a l ih =>
    rw [mapM_cons, mapM_cons, h a (by simp), ih (fun a ha => h a (by simp [ha]))]

/-- The error of a `mapM` is the error of one of the steps. -/
theorem mapM_error {ε α β : Type} {f : α → Except ε β} {l : List α} {e : ε}
    (h : l.mapM f = .error e) : ∃ a ∈ l, f a = .error e := by
  induction l with
  | nil => cases h
  | cons a l ih =>
    rw [mapM_cons, bind_error] at h
    rcases h with h | ⟨b, h1, h2⟩
    · exact ⟨a, by simp, h⟩
    · rcases bind_error.mp h2 with h | ⟨_, _, h⟩
      · obtain ⟨a, ha, h⟩ := ih h
        exact ⟨a, by simp [ha], h⟩
      · cases h

theorem mapM_append {ε α β : Type} {f : α → Except ε β} {l m : List α} :
    (l ++ m).mapM f = (do let a ← l.mapM f; let b ← m.mapM f; .ok (a ++ b)) := by
  induction l with
  | nil =>
    simp only [List.nil_append, mapM_nil, ok_bind]
    cases m.mapM f <;> rfl
  | cons a l ih =>
    simp only [List.cons_append]
    rw [mapM_cons, mapM_cons, ih]
    cases f a with
    | error e => rfl
    | ok b =>
      simp only [ok_bind]
      cases l.mapM f with
      | error e => rfl
      | ok r =>
        simp only [ok_bind]
        cases m.mapM f <;> rfl

theorem forM_ok {α : Type} {l : List α} {f : α → M Unit} :
    l.forM f = .ok () ↔ ∀ a ∈ l, f a = .ok () := by
  induction l with
  | nil => simp [List.forM, pure, Except.pure]
  | cons a l ih =>
    change (f a >>= fun _ => l.forM f) = .ok () ↔ _
    constructor
    · intro h
      obtain ⟨u, h1, h2⟩ := bind_ok.mp h
      intro b hb
      rcases List.mem_cons.mp hb with rfl | hb
      · exact h1
      · exact ih.mp h2 b hb
    · intro h
      exact bind_ok.mpr ⟨(), h a (by simp), ih.mpr fun b hb => h b (by simp [hb])⟩

theorem ok_of_isOk {ε α : Type} {x : Except ε α} (h : x.isOk = true) : ∃ a, x = .ok a := by
  cases x with
  | ok a => exact ⟨a, rfl⟩
  | error e => cases h

end Svd
