import Verif.Model.Dim
import Verif.Spec.Instance

/-! # Substrings -/

namespace Svd

theorem containsSub_iff (pat s : Str) : containsSub pat s = true ↔ ∃ a b, s = a ++ pat ++ b := by
  induction s with
  | nil =>
    unfold containsSub
    rw [List.isEmpty_iff]
    constructor
    · rintro rfl; exact ⟨[], [], rfl⟩
    · rintro ⟨a, b, h⟩
      have := congrArg List.length h
      simp only [List.length_nil, List.length_append] at this
      exact List.eq_nil_of_length_eq_zero (by omega)
  | cons x xs ih =>
    unfold containsSub
    rw [Bool.or_eq_true, ih, List.isPrefixOf_iff_prefix]
    constructor
    · rintro (⟨b, hb⟩ | ⟨a, b, rfl⟩)
      · exact ⟨[], b, by simpa using hb.symm⟩
      · exact ⟨x :: a, b, by simp⟩
    · rintro ⟨a, b, h⟩
      cases a with
      | nil => exact .inl ⟨b, by simpa using h.symm⟩
      | cons y a =>
        simp only [List.cons_append, List.cons.injEq] at h
        exact .inr ⟨a, b, h.2⟩

open Spec

theorem replaceAux_skip (pat to s t : Str) : replaceAux pat to s.length (s ++ t) = replaceAux pat to 0 t := by
  induction s with
  | nil => rfl
  | cons c s ih => simp only [List.length_cons, List.cons_append, replaceAux, ih]

theorem replaceStr_nil (pat to : Str) : replaceStr pat to [] = [] := by simp [replaceStr, replaceAux]

theorem replaceStr_hit {pat : Str} (hp : pat ≠ []) (to s : Str) :
    replaceStr pat to (pat ++ s) = to ++ replaceStr pat to s := by
  cases pat with
  | nil => exact absurd rfl hp
  | cons p ps =>
    unfold replaceStr
    rw [List.cons_append, replaceAux, if_pos]
    · have := replaceAux_skip (p :: ps) to ps s
      simp only [List.length_cons, Nat.add_sub_cancel]
      rw [this]
    · rw [List.isPrefixOf_iff_prefix]; exact ⟨s, by simp⟩

theorem replaceStr_skip {pat : Str} {c : Char} {s : Str} (h : ¬ pat <+: (c :: s)) (to : Str) :
    replaceStr pat to (c :: s) = c :: replaceStr pat to s := by
  unfold replaceStr
  rw [replaceAux, if_neg]
  rwa [List.isPrefixOf_iff_prefix]

theorem replaceStr_iff {pat : Str} (hp : pat ≠ []) (to s t : Str) :
    replaceStr pat to s = t ↔ Replaced pat to s t := by
  constructor
  · rintro rfl
    induction hn : s.length using Nat.strongRecOn generalizing s with
    | ind n ih =>
      cases s with
      | nil => rw [replaceStr_nil]; exact .nil
      | cons c s =>
        by_cases h : pat <+: (c :: s)
        · obtain ⟨r, hr⟩ := h
          rw [← hr, replaceStr_hit hp]
          refine .hit (ih r.length ?_ r rfl)
          have := congrArg List.length hr
          have := List.length_pos_iff.mpr hp
          simp only [List.length_append] at *
          omega
        · rw [replaceStr_skip h]
          exact .skip h (ih s.length (by simp at hn; omega) s rfl)
  · intro h
    induction h with
    | nil => exact replaceStr_nil ..
    | hit _ ih => rw [replaceStr_hit hp, ih]
    | skip h _ ih => rw [replaceStr_skip h, ih]

theorem substIndex_iff (s idx t : Str) : substIndex s idx = t ↔ Substituted idx s t := by
  unfold substIndex Substituted
  constructor
  · rintro rfl
    exact ⟨_, (replaceStr_iff (by simp) ..).mp rfl, (replaceStr_iff (by simp) ..).mp rfl⟩
  · rintro ⟨m, h1, h2⟩
    have h1 := (replaceStr_iff (by simp) ..).mpr h1
    have h2 := (replaceStr_iff (by simp) ..).mpr h2
    subst h1; exact h2

end Svd
