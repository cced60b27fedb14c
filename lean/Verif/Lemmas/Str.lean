import Verif.Model.Str
import Verif.Spec.Str

/-! # Lemmas about strings -/

namespace Svd

open Spec

theorem trimEnd_append_ws (s b : Str) (hb : ∀ c ∈ b, isWhitespace c = true) :
    trimEnd (s ++ b) = trimEnd s := by
  have hnil : ∀ b : Str, (∀ c ∈ b, isWhitespace c = true) → trimEnd b = [] := by
    intro b
    induction b with
    | nil => intro _; rfl
    | cons c cs ih =>
      intro h
      simp [trimEnd, ih (fun c hc => h c (by simp [hc])), h c (by simp)]
  induction s with
  | nil => simpa [trimEnd] using hnil b hb
  | cons c cs ih => simp [trimEnd, ih]

theorem trimEnd_of_last (s : Str) (h : ∀ c, s.getLast? = some c → isWhitespace c = false) :
    trimEnd s = s := by
  induction s with
  | nil => rfl
  | cons c cs ih =>
    cases cs with
    | nil => simp [trimEnd, h c (by simp)]
    | cons d ds =>
      have := ih (fun c hc => h c (by simpa using hc))
      rw [trimEnd, this]

theorem dropWhile_ws (a t : Str) (ha : ∀ c ∈ a, isWhitespace c = true)
    (ht : ∀ c, t.head? = some c → isWhitespace c = false) :
    (a ++ t).dropWhile isWhitespace = t := by
  induction a with
  | nil =>
    cases t with
    | nil => rfl
    | cons c cs => simp [ht c rfl]
  | cons c cs ih =>
    simp [ha c (by simp), ih (fun c hc => ha c (by simp [hc]))]

theorem trim_of_isTrimmed {s t : Str} (h : IsTrimmed s t) : trim s = t := by
  obtain ⟨a, b, rfl, ha, hb, h1, h2⟩ := h
  unfold trim
  by_cases ht : t = []
  · subst ht
    have : ∀ c ∈ a ++ b, isWhitespace c = true := by
      intro c hc; rw [List.mem_append] at hc; exact hc.elim (ha c) (hb c)
    have := dropWhile_ws (a ++ b) [] this (by simp)
    simp only [List.append_nil] at this ⊢
    rw [this]; rfl
  · rw [List.append_assoc, dropWhile_ws a (t ++ b) ha, trimEnd_append_ws t b hb,
      trimEnd_of_last t h2]
    intro c hc
    apply h1
    cases t with
    | nil => exact absurd rfl ht
    | cons x xs => simpa using hc

theorem trimEnd_spec (s : Str) : ∃ b, s = trimEnd s ++ b ∧ (∀ c ∈ b, isWhitespace c = true) ∧
    (∀ c, (trimEnd s).getLast? = some c → isWhitespace c = false) := by
  induction s with
  | nil => exact ⟨[], rfl, by simp, by simp [trimEnd]⟩
  | cons c cs ih =>
    obtain ⟨b, h1, h2, h3⟩ := ih
    unfold trimEnd
    split
    · rename_i he
      rw [he] at h1
      split
      · rename_i hc
        refine ⟨c :: cs, rfl, ?_, by simp⟩
        intro d hd
        rcases List.mem_cons.mp hd with rfl | hd
        · exact hc
        · exact h2 d (by simpa [h1] using hd)
      · rename_i hc
        refine ⟨cs, rfl, ?_, by simpa using hc⟩
        intro d hd
        exact h2 d (by simpa [h1] using hd)
    · rename_i ys he
      refine ⟨b, by rw [List.cons_append, ← h1], h2, ?_⟩
      intro d hd
      apply h3
      cases hy : trimEnd cs with
      | nil => exact absurd hy he
      | cons y ys => rw [hy] at hd; simpa using hd

theorem dropWhile_spec (s : Str) : ∃ a, s = a ++ s.dropWhile isWhitespace ∧
    (∀ c ∈ a, isWhitespace c = true) ∧
    (∀ c, (s.dropWhile isWhitespace).head? = some c → isWhitespace c = false) := by
  induction s with
  | nil => exact ⟨[], rfl, by simp, by simp⟩
  | cons c cs ih =>
    by_cases hc : isWhitespace c = true
    · obtain ⟨a, h1, h2, h3⟩ := ih
      refine ⟨c :: a, ?_, ?_, ?_⟩
      · simp only [List.dropWhile, hc, List.cons_append]; rw [← h1]
      · intro d hd
        rcases List.mem_cons.mp hd with rfl | hd
        · exact hc
        · exact h2 d hd
      · simpa [List.dropWhile, hc] using h3
    · simp only [Bool.not_eq_true] at hc
      exact ⟨[], by simp [List.dropWhile, hc], by simp, by simp [List.dropWhile, hc]⟩

/-- `trim` removes exactly the surrounding whitespace. -/
theorem isTrimmed_trim (s : Str) : IsTrimmed s (trim s) := by
  obtain ⟨a, h1, h2, h3⟩ := dropWhile_spec s
  obtain ⟨b, h4, h5, h6⟩ := trimEnd_spec (s.dropWhile isWhitespace)
  refine ⟨a, b, ?_, h2, h5, ?_, h6⟩
  · unfold trim; rw [List.append_assoc, ← h4, ← h1]
  · intro c hc
    apply h3
    rw [h4]
    unfold trim at hc
    cases ht : trimEnd (List.dropWhile isWhitespace s) with
    | nil => rw [ht] at hc; simp at hc
    | cons x xs => rw [ht] at hc; simpa using hc

theorem trim_iff {s t : Str} : trim s = t ↔ IsTrimmed s t :=
  ⟨fun h => h ▸ isTrimmed_trim s, trim_of_isTrimmed⟩

/-- A text is trimmed when its ends are not whitespace. -/
theorem trim_eq_self {s : Str} (h1 : ∀ c, s.head? = some c → isWhitespace c = false)
    (h2 : ∀ c, s.getLast? = some c → isWhitespace c = false) : trim s = s :=
  trim_of_isTrimmed ⟨[], [], by simp, by simp, by simp, h1, h2⟩

theorem trim_eq_self_iff {s : Str} : trim s = s ↔
    (∀ c, s.head? = some c → isWhitespace c = false) ∧
    (∀ c, s.getLast? = some c → isWhitespace c = false) := by
  constructor
  · intro h
    obtain ⟨a, b, _, _, _, h1, h2⟩ := isTrimmed_trim s
    rw [h] at h1 h2; exact ⟨h1, h2⟩
  · exact fun h => trim_eq_self h.1 h.2

theorem trim_eq_self_of_all {s : Str} (h : ∀ c ∈ s, isWhitespace c = false) : trim s = s :=
  trim_eq_self (fun c hc => h c (List.mem_of_mem_head? hc)) (fun c hc => h c (List.mem_of_getLast? hc))

theorem trim_trim (s : Str) : trim (trim s) = trim s := by
  obtain ⟨_, _, _, _, _, h1, h2⟩ := isTrimmed_trim s
  exact trim_eq_self h1 h2

end Svd
