import Verif.Model.Str

/-! # Splitting and joining -/

namespace Svd

theorem splitOnce_some {c : Char} {s a b : Str} :
    splitOnce c s = some (a, b) ↔ s = a ++ c :: b ∧ c ∉ a := by
  induction s generalizing a with
  | nil => simp [splitOnce]
  | cons x xs ih =>
    unfold splitOnce
    split
    · rename_i h; subst h
      constructor
      · intro h; injection h with h; injection h with h1 h2; subst h1; subst h2; simp
      · rintro ⟨h1, h2⟩
        cases a with
        | nil => simp at h1; simp [h1]
        | cons y ys => simp at h1; exact absurd h1.1 (by intro e; simp [e] at h2)
    · rename_i hne
      constructor
      · intro h
        rw [Option.map_eq_some_iff] at h
        obtain ⟨⟨a', b'⟩, h1, h2⟩ := h
        injection h2 with h2 h3; subst h2; subst h3
        obtain ⟨rfl, h4⟩ := ih.mp h1
        exact ⟨rfl, by simp only [List.mem_cons, not_or]; exact ⟨Ne.symm hne, h4⟩⟩
      · rintro ⟨h1, h2⟩
        cases a with
        | nil => simp at h1; exact absurd h1.1 hne
        | cons y ys =>
          simp at h1 h2
          rw [Option.map_eq_some_iff]
          exact ⟨(ys, b), ih.mpr ⟨h1.2, h2.2⟩, by simp [h1.1]⟩

theorem splitOnce_none {c : Char} {s : Str} : splitOnce c s = none ↔ c ∉ s := by
  induction s with
  | nil => simp [splitOnce]
  | cons x xs ih =>
    unfold splitOnce
    split
    · rename_i h; subst h; simp
    · rename_i h
      rw [Option.map_eq_none_iff, ih]
      simp only [List.mem_cons, not_or]
      exact ⟨fun h' => ⟨Ne.symm h, h'⟩, fun h' => h'.2⟩

theorem rsplitOnce_none {c : Char} {s : Str} : rsplitOnce c s = none ↔ c ∉ s := by
  induction s with
  | nil => simp [rsplitOnce]
  | cons x xs ih =>
    unfold rsplitOnce
    split
    · rename_i a b h
      simp only [reduceCtorEq, List.mem_cons, false_iff, Classical.not_not]
      right
      refine Classical.byContradiction fun hc => ?_
      rw [ih.mpr hc] at h; cases h
    · rename_i h
      have := ih.mp h
      split
      · rename_i h; subst h; simp
      · rename_i h
        simp only [true_iff, List.mem_cons, not_or]
        exact ⟨Ne.symm h, this⟩

theorem rsplitOnce_some {c : Char} {s a b : Str} :
    rsplitOnce c s = some (a, b) ↔ s = a ++ c :: b ∧ c ∉ b := by
  induction s generalizing a with
  | nil => simp [rsplitOnce]
  | cons x xs ih =>
    unfold rsplitOnce
    split
    · rename_i a' b' h
      have h' := (show xs = a' ++ c :: b' ∧ c ∉ b' from by
        clear ih
        induction xs generalizing a' with
        | nil => simp [rsplitOnce] at h
        | cons y ys ih2 =>
          unfold rsplitOnce at h
          split at h
          · rename_i a2 b2 h2
            injection h with h; injection h with h3 h4; subst h3; subst h4
            obtain ⟨e, e'⟩ := ih2 _ h2
            exact ⟨by rw [e]; rfl, e'⟩
          · rename_i h2
            split at h
            · rename_i h3; injection h with h; injection h with h4 h5; subst h4; subst h5; subst h3
              exact ⟨rfl, rsplitOnce_none.mp h2⟩
            · cases h)
      constructor
      · intro e; injection e with e; injection e with e1 e2; subst e1; subst e2
        exact ⟨by rw [h'.1]; rfl, h'.2⟩
      · rintro ⟨e1, e2⟩
        cases a with
        | nil =>
          simp at e1
          exact absurd (e1.2 ▸ h'.1 ▸ (by simp : c ∈ a' ++ c :: b')) (by simpa [e1.2] using e2)
        | cons y ys =>
          simp at e1
          have := (ih (a := ys)).mpr ⟨e1.2, e2⟩
          rw [h] at this
          injection this with this; injection this with t1 t2
          simp [e1.1, t1, t2]
    · rename_i h
      have hn := rsplitOnce_none.mp h
      split
      · rename_i hx; subst hx
        constructor
        · intro e; injection e with e; injection e with e1 e2; subst e1; subst e2; exact ⟨rfl, hn⟩
        · rintro ⟨e1, e2⟩
          cases a with
          | nil => simp at e1; simp [e1]
          | cons y ys => simp at e1; exact absurd (by rw [e1.2]; simp) hn
      · rename_i hx
        constructor
        · intro e; cases e
        · rintro ⟨e1, e2⟩
          cases a with
          | nil => simp at e1; exact absurd e1.1 hx
          | cons y ys => simp at e1; exact absurd (by rw [e1.2]; simp) hn

theorem splitOn_ne_nil (c : Char) (s : Str) : splitOn c s ≠ [] := by
  cases s with
  | nil => simp [splitOn]
  | cons x xs => unfold splitOn; split <;> (try split) <;> simp

theorem splitOn_mem {c : Char} {s p : Str} (h : p ∈ splitOn c s) : c ∉ p := by
  induction s generalizing p with
  | nil => simp [splitOn] at h; simp [h]
  | cons x xs ih =>
    unfold splitOn at h
    split at h
    · rcases List.mem_cons.mp h with rfl | h
      · simp
      · exact ih h
    · rename_i hne
      split at h
      · exact absurd ‹_› (splitOn_ne_nil c xs)
      · rename_i q qs hq
        rcases List.mem_cons.mp h with rfl | h
        · have := ih (p := q) (by simp [hq])
          simp only [List.mem_cons, not_or]; exact ⟨Ne.symm hne, this⟩
        · exact ih (by simp [hq, h])

theorem joinWith_cons {sep p : Str} {l : List Str} (h : l ≠ []) :
    joinWith sep (p :: l) = p ++ sep ++ joinWith sep l := by
  cases l with
  | nil => exact absurd rfl h
  | cons a r => rfl

theorem join_splitOn (c : Char) (s : Str) : joinWith [c] (splitOn c s) = s := by
  induction s with
  | nil => rfl
  | cons x xs ih =>
    unfold splitOn
    split
    · rename_i h; subst h
      rw [joinWith_cons (splitOn_ne_nil x xs), ih]; rfl
    · split
      · exact absurd ‹_› (splitOn_ne_nil c xs)
      · rename_i q qs hq
        rw [hq] at ih
        cases qs with
        | nil => simp [joinWith] at ih ⊢; exact ih
        | cons a r =>
          rw [joinWith_cons (by simp)] at ih ⊢
          simp at ih ⊢; exact ih

theorem splitOn_noSep {c : Char} {s : Str} (h : c ∉ s) : splitOn c s = [s] := by
  induction s with
  | nil => rfl
  | cons x xs ih =>
    simp only [List.mem_cons, not_or] at h
    unfold splitOn
    rw [if_neg (Ne.symm h.1), ih h.2]

theorem splitOn_append {c : Char} {s : Str} (t : Str) (h : c ∉ s) :
    splitOn c (s ++ c :: t) = s :: splitOn c t := by
  induction s with
  | nil => simp [splitOn]
  | cons x xs ih =>
    simp only [List.mem_cons, not_or] at h
    simp only [List.cons_append]
    rw [splitOn, if_neg (Ne.symm h.1), ih h.2]

theorem splitOn_join {c : Char} {l : List Str} (hl : l ≠ []) (h : ∀ p ∈ l, c ∉ p) :
    splitOn c (joinWith [c] l) = l := by
  induction l with
  | nil => exact absurd rfl hl
  | cons p ps ih =>
    cases ps with
    | nil => exact splitOn_noSep (h p (by simp))
    | cons q qs =>
      rw [joinWith_cons (by simp)]
      simp only [List.append_assoc, List.singleton_append]
      rw [splitOn_append _ (h p (by simp)), ih (by simp) (fun p hp => h p (by simp [hp]))]

theorem splitOn_iff {c : Char} {s : Str} {l : List Str} :
    splitOn c s = l ↔ l ≠ [] ∧ joinWith [c] l = s ∧ ∀ p ∈ l, c ∉ p := by
  constructor
  · rintro rfl; exact ⟨splitOn_ne_nil c s, join_splitOn c s, fun p hp => splitOn_mem hp⟩
  · rintro ⟨h1, rfl, h2⟩; exact splitOn_join h1 h2

theorem mem_joinWith {sep : Str} {l : List Str} {c : Char} (h : c ∈ joinWith sep l) :
    c ∈ sep ∨ ∃ p ∈ l, c ∈ p := by
  induction l with
  | nil => simp [joinWith] at h
  | cons p ps ih =>
    cases ps with
    | nil => exact .inr ⟨p, by simp, h⟩
    | cons q qs =>
      rw [joinWith_cons (by simp)] at h
      simp only [List.mem_append] at h
      rcases h with (h | h) | h
      · exact .inr ⟨p, by simp, h⟩
      · exact .inl h
      · rcases ih h with h | ⟨p, hp, h⟩
        · exact .inl h
        · exact .inr ⟨p, by simp [hp], h⟩

theorem mem_joinWith_of_mem {sep : Str} {l : List Str} {c : Char} {p : Str} (hp : p ∈ l)
    (h : c ∈ p) : c ∈ joinWith sep l := by
  induction l with
  | nil => simp at hp
  | cons q qs ih =>
    cases qs with
    | nil => simp at hp; subst hp; exact h
    | cons r rs =>
      rw [joinWith_cons (by simp)]
      simp only [List.mem_append]
      rcases List.mem_cons.mp hp with rfl | hp
      · exact .inl (.inl h)
      · exact .inr (ih hp)

end Svd
