import Verif.Model.Regex

/-! # The derivative matcher decides the language of a regular expression -/

namespace Svd

/-- Standard meaning of regular expressions. -/
inductive Rx.Matches : Rx → Str → Prop where
  | eps : Matches .eps []
  | cls {p c} : p c = true → Matches (.cls p) [c]
  | altL {a b s} : Matches a s → Matches (.alt a b) s
  | altR {a b s} : Matches b s → Matches (.alt a b) s
  | cat {a b s t} : Matches a s → Matches b t → Matches (.cat a b) (s ++ t)
  | starNil {a} : Matches (.star a) []
  | starCons {a s t} : Matches a s → Matches (.star a) t → Matches (.star a) (s ++ t)

namespace Rx

theorem nullable_iff {r : Rx} : r.nullable = true ↔ r.Matches [] := by
  induction r with
  | none => simp [nullable]; intro h; cases h
  | eps => simp [nullable]; exact .eps
  | cls p => simp [nullable]; intro h; cases h
  | alt a b iha ihb =>
    simp only [nullable, Bool.or_eq_true, iha, ihb]
    constructor
    · rintro (h | h)
      · exact .altL h
      · exact .altR h
    · intro h
      cases h with
      | altL h => exact .inl h
      | altR h => exact .inr h
  | cat a b iha ihb =>
    simp only [nullable, Bool.and_eq_true, iha, ihb]
    constructor
    · rintro ⟨h1, h2⟩; exact .cat h1 h2
    · intro h
      generalize hs : ([] : Str) = s at h
      cases h with
      | @cat _ _ x y h1 h2 =>
        obtain ⟨rfl, rfl⟩ := List.append_eq_nil_iff.mp hs.symm
        exact ⟨h1, h2⟩
  | star a => simp [nullable]; exact .starNil

theorem deriv_iff {r : Rx} {c : Char} {s : Str} : (r.deriv c).Matches s ↔ r.Matches (c :: s) := by
  induction r generalizing s with
  | none => simp only [deriv]; constructor <;> (intro h; cases h)
  | eps => simp only [deriv]; constructor <;> (intro h; cases h)
  | cls p =>
    simp only [deriv]
    constructor
    · intro h
      split at h
      · cases h; exact .cls ‹_›
      · cases h
    · intro h
      cases h with
      | cls h => rw [if_pos h]; exact .eps
  | alt a b iha ihb =>
    simp only [deriv]
    constructor
    · intro h
      cases h with
      | altL h => exact .altL (iha.mp h)
      | altR h => exact .altR (ihb.mp h)
    · intro h
      cases h with
      | altL h => exact .altL (iha.mpr h)
      | altR h => exact .altR (ihb.mpr h)
  | cat a b iha ihb =>
    simp only [deriv]
    constructor
    · intro h
      split at h
      · rename_i hn
        cases h with
        | altL h => cases h with | cat h1 h2 => exact .cat (iha.mp h1) h2
        | altR h => exact .cat (s := []) (nullable_iff.mp hn) (ihb.mp h)
      · cases h with | cat h1 h2 => exact .cat (iha.mp h1) h2
    · intro h
      generalize hs : c :: s = u at h
      cases h with
      | @cat _ _ x y h1 h2 =>
        cases x with
        | nil =>
          simp only [List.nil_append] at hs
          subst hs
          rw [if_pos (nullable_iff.mpr h1)]
          exact .altR (ihb.mpr h2)
        | cons d x =>
          simp only [List.cons_append, List.cons.injEq] at hs
          obtain ⟨rfl, rfl⟩ := hs
          split
          · exact .altL (.cat (iha.mpr h1) h2)
          · exact .cat (iha.mpr h1) h2
  | star a iha =>
    simp only [deriv]
    constructor
    · intro h
      cases h with | cat h1 h2 => exact .starCons (iha.mp h1) h2
    · intro h
      generalize hs : c :: s = u at h
      generalize hr : star a = r at h
      induction h with
      | starNil => cases hs
      | @starCons a' x y h1 h2 _ ih2 =>
        injection hr with hr; subst hr
        cases x with
        | nil => exact ih2 hs rfl
        | cons d x =>
          simp only [List.cons_append, List.cons.injEq] at hs
          obtain ⟨rfl, rfl⟩ := hs
          exact .cat (iha.mpr h1) h2
      | _ => cases hr

theorem isMatch_iff {r : Rx} {s : Str} : r.isMatch s = true ↔ r.Matches s := by
  induction s generalizing r with
  | nil => exact nullable_iff
  | cons c s ih => unfold isMatch; rw [ih, deriv_iff]

theorem matches_alt {a b : Rx} {s : Str} : (alt a b).Matches s ↔ a.Matches s ∨ b.Matches s := by
  constructor
  · intro h
    cases h with
    | altL h => exact .inl h
    | altR h => exact .inr h
  · rintro (h | h)
    · exact .altL h
    · exact .altR h

theorem matches_cat {a b : Rx} {s : Str} :
    (cat a b).Matches s ↔ ∃ x y, s = x ++ y ∧ a.Matches x ∧ b.Matches y := by
  constructor
  · intro h; cases h with | cat h1 h2 => exact ⟨_, _, rfl, h1, h2⟩
  · rintro ⟨x, y, rfl, h1, h2⟩; exact .cat h1 h2

theorem matches_cls {p : Char → Bool} {s : Str} : (cls p).Matches s ↔ ∃ c, s = [c] ∧ p c = true := by
  constructor
  · intro h; cases h with | cls h => exact ⟨_, rfl, h⟩
  · rintro ⟨c, rfl, h⟩; exact .cls h

theorem matches_eps {s : Str} : eps.Matches s ↔ s = [] := by
  constructor
  · intro h; cases h; rfl
  · rintro rfl; exact .eps

theorem matches_star_cls {p : Char → Bool} {s : Str} :
    (star (cls p)).Matches s ↔ ∀ c ∈ s, p c = true := by
  constructor
  · intro h
    generalize hr : star (cls p) = r at h
    induction h with
    | starNil => simp
    | starCons h1 _ _ ih2 =>
      injection hr with hr; subst hr
      cases h1 with
      | cls h => simpa [h] using ih2 rfl
    | _ => cases hr
  · intro h
    induction s with
    | nil => exact .starNil
    | cons c s ih =>
      exact .starCons (s := [c]) (.cls (h c (by simp))) (ih fun d hd => h d (by simp [hd]))

theorem matches_opt {a : Rx} {s : Str} : (opt a).Matches s ↔ a.Matches s ∨ s = [] := by
  unfold opt; rw [matches_alt, matches_eps]

theorem matches_lit {l s : Str} : (lit l).Matches s ↔ s = l := by
  induction l generalizing s with
  | nil => exact matches_eps
  | cons c l ih =>
    unfold lit
    rw [matches_cat]
    constructor
    · rintro ⟨x, y, rfl, h1, h2⟩
      obtain ⟨d, rfl, hd⟩ := matches_cls.mp h1
      rw [ih] at h2; subst h2
      simp only [beq_iff_eq] at hd; subst hd; rfl
    · rintro rfl
      exact ⟨[c], l, rfl, matches_cls.mpr ⟨c, rfl, by simp⟩, ih.mpr rfl⟩

end Rx
end Svd
