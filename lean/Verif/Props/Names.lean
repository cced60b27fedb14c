import Verif.Spec.Name
import Verif.Lemmas.Regex
import Verif.Lemmas.Split
import Verif.Lemmas.Num
import Verif.Lemmas.Except

/-!
# C10: name checks
-/

namespace Svd

open Spec Rx

theorem identStart_iff (c : Char) : isIdentStart c = true ↔ IdentStart c := by
  constructor
  · intro h
    simp only [isIdentStart, isAsciiUpper, isAsciiLower, Bool.or_eq_true, Bool.and_eq_true,
      decide_eq_true_eq, beq_iff_eq] at h
    have e1 : 'a'.toNat = 97 := rfl
    have e2 : 'z'.toNat = 122 := rfl
    have e3 : 'A'.toNat = 65 := rfl
    have e4 : 'Z'.toNat = 90 := rfl
    rcases h with (h | h) | h
    · subst h; unfold IdentStart; decide
    · have key : ∀ n, n ≤ 90 → 65 ≤ n → IdentStart (Char.ofNat n) := by unfold IdentStart; decide
      have := key c.toNat (by omega) (by omega)
      rwa [Char.ofNat_toNat] at this
    · have key : ∀ n, n ≤ 122 → 97 ≤ n → IdentStart (Char.ofNat n) := by unfold IdentStart; decide
      have := key c.toNat (by omega) (by omega)
      rwa [Char.ofNat_toNat] at this
  · have key : ∀ c ∈ "_abcdefghijklmnopqrstuvwxyzABCDEFGHIJKLMNOPQRSTUVWXYZ".toList,
        isIdentStart c = true := by decide
    exact key c

theorem identChar_iff (c : Char) : isIdentChar c = true ↔ IdentChar c := by
  have : isIdentChar c = (isIdentStart c || ('0'.toNat ≤ c.toNat && c.toNat ≤ '9'.toNat)) := rfl
  rw [this, Bool.or_eq_true, identStart_iff]
  unfold IdentChar
  refine or_congr Iff.rfl ?_
  constructor
  · intro h
    simp only [Bool.and_eq_true, decide_eq_true_eq] at h
    have e1 : '0'.toNat = 48 := rfl
    have e2 : '9'.toNat = 57 := rfl
    have key : ∀ n, n ≤ 57 → 48 ≤ n → Char.ofNat n ∈ "0123456789".toList := by decide
    have := key c.toNat (by omega) (by omega)
    rwa [Char.ofNat_toNat] at this
  · have key : ∀ c ∈ "0123456789".toList,
        (decide ('0'.toNat ≤ c.toNat) && decide (c.toNat ≤ '9'.toNat)) = true := by decide
    exact key c

theorem matches_plain (s : Str) : (star (cls isIdentChar)).Matches s ↔ PlainName s := by
  rw [matches_star_cls]
  exact forall_congr' fun c => forall_congr' fun _ => identChar_iff c

theorem matches_ident (s : Str) :
    (cat (cls isIdentStart) (star (cls isIdentChar))).Matches s ↔ Ident s := by
  rw [matches_cat]
  constructor
  · rintro ⟨x, y, rfl, h1, h2⟩
    obtain ⟨c, rfl, hc⟩ := matches_cls.mp h1
    exact ⟨c, y, rfl, (identStart_iff c).mp hc, (matches_plain y).mp h2⟩
  · rintro ⟨c, r, rfl, h1, h2⟩
    exact ⟨[c], r, rfl, matches_cls.mpr ⟨c, rfl, (identStart_iff c).mpr h1⟩, (matches_plain r).mpr h2⟩

/-- `[_A-Za-z]{1}[_A-Za-z0-9]*` followed by something. -/
theorem matches_ident_then (s : Str) (r : Rx) :
    (cat (cls isIdentStart) (cat (star (cls isIdentChar)) r)).Matches s ↔
      ∃ i t, s = i ++ t ∧ Ident i ∧ r.Matches t := by
  constructor
  · intro h
    obtain ⟨x, y, rfl, h1, h2⟩ := matches_cat.mp h
    obtain ⟨u, t, rfl, h3, h4⟩ := matches_cat.mp h2
    exact ⟨x ++ u, t, by simp, (matches_ident _).mp (.cat h1 h3), h4⟩
  · rintro ⟨i, t, rfl, h1, h2⟩
    obtain ⟨x, y, rfl, h3, h4⟩ := matches_cat.mp ((matches_ident i).mpr h1)
    rw [List.append_assoc]
    exact .cat h3 (.cat h4 h2)

theorem ident_append {i t : Str} (hi : Ident i) (ht : PlainName t) : Ident (i ++ t) := by
  obtain ⟨c, r, rfl, h1, h2⟩ := hi
  refine ⟨c, r ++ t, rfl, h1, ?_⟩
  intro x hx
  rcases List.mem_append.mp hx with h | h
  · exact h2 x h
  · exact ht x h

/-- **C10.** `check_name` accepts exactly the strings of letters, digits and underscores. -/
theorem C10_check_name (name : Str) (tag : String) :
    (checkName name tag = .ok () ↔ PlainName name) ∧
      (¬ PlainName name → checkName name tag = .error (.err (.invalidName name tag))) := by
  have h : nameRx.isMatch name = true ↔ PlainName name := by
    rw [isMatch_iff]; exact matches_plain name
  unfold checkName
  constructor
  · split <;> simp_all [fail]
  · intro hn; rw [if_neg (mt h.mp hn)]; rfl

example : checkName "A 1".toList "name" = .error (.err (.invalidName "A 1".toList "name")) ∧ PlainName "1A".toList := by
  refine ⟨(C10_check_name _ _).2 ?_, (C10_check_name _ "name").1.mp (by decide)⟩
  unfold PlainName IdentChar IdentStart; decide

theorem dimableRx_iff (s : Str) : dimableRx.isMatch s = true ↔ DimableName s := by
  rw [isMatch_iff]
  unfold dimableRx
  rw [matches_alt, matches_alt, matches_alt, matches_lit, matches_cat, matches_ident_then,
    matches_ident_then]
  constructor
  · rintro (((rfl | ⟨x, y, rfl, h1, h2⟩) | ⟨i, t, rfl, h1, h2⟩) | ⟨i, t, rfl, h1, h2⟩)
    · exact .placeholder
    · rw [matches_lit] at h1; subst h1
      exact .placeholderIdent ((matches_ident y).mp h2)
    · rw [matches_opt, matches_lit] at h2
      rcases h2 with rfl | rfl
      · exact .identBracket h1
      · rw [List.append_nil]; exact .ident h1
    · obtain ⟨x, y, rfl, h3, h4⟩ := matches_cat.mp h2
      rw [matches_opt, matches_lit] at h3
      rw [matches_plain] at h4
      rcases h3 with rfl | rfl
      · rw [← List.append_assoc]; exact .identPlaceholder h1 h4
      · exact .ident (ident_append h1 h4)
  · intro h
    cases h with
    | placeholder => exact .inl (.inl (.inl rfl))
    | placeholderIdent h =>
      exact .inl (.inl (.inr ⟨_, _, rfl, matches_lit.mpr rfl, (matches_ident _).mpr h⟩))
    | ident h =>
      exact .inl (.inr ⟨s, [], by simp, h, matches_opt.mpr (.inr rfl)⟩)
    | identBracket h =>
      exact .inl (.inr ⟨_, _, rfl, h, matches_opt.mpr (.inl (matches_lit.mpr rfl))⟩)
    | identPlaceholder h1 h2 =>
      exact .inr ⟨_, _, List.append_assoc .., h1,
        .cat (matches_opt.mpr (.inl (matches_lit.mpr rfl))) ((matches_plain _).mpr h2)⟩

/-- **C10.** `check_dimable_name` accepts exactly the documented names. -/
theorem C10_check_dimable_name (name : Str) (tag : String) :
    (checkDimableName name tag = .ok () ↔ DimableName name) ∧
      (¬ DimableName name → checkDimableName name tag = .error (.err (.invalidName name tag))) := by
  have h := dimableRx_iff name
  unfold checkDimableName
  constructor
  · split <;> simp_all [fail]
  · intro hn; rw [if_neg (mt h.mp hn)]; rfl

example : checkDimableName "%s0A".toList "name" = .error (.err (.invalidName "%s0A".toList "name")) :=
  (C10_check_dimable_name _ _).2 fun h => absurd ((C10_check_dimable_name _ "name").1.mpr h) (by decide)

/-- **C10.** `check_derived_name` accepts exactly the dot separated sequences of such names. -/
theorem C10_check_derived_name (name : Str) (tag : String) :
    checkDerivedName name tag = .ok () ↔ DerivedName name := by
  unfold checkDerivedName
  rw [forM_ok]
  constructor
  · intro h
    exact ⟨splitOn '.' name, splitOn_ne_nil _ _, (join_splitOn '.' name).symm,
      fun p hp => (C10_check_dimable_name p tag).1.mp (h p hp)⟩
  · rintro ⟨l, h1, rfl, h2⟩
    have hd : ∀ p ∈ l, '.' ∉ p := by
      intro p hp hm
      have hplain : ∀ {t : Str}, PlainName t → '.' ∉ t := by
        intro t h hm
        have := h '.' hm
        revert this; unfold IdentChar IdentStart; decide
      have hident : ∀ {t : Str}, Ident t → '.' ∉ t := by
        rintro t ⟨c, r, rfl, h1, h2⟩ hm
        rcases List.mem_cons.mp hm with rfl | hm
        · revert h1; unfold IdentStart; decide
        · exact hplain h2 hm
      cases h2 p hp with
      | placeholder => revert hm; decide
      | placeholderIdent h =>
        rcases List.mem_append.mp hm with hm | hm
        · revert hm; decide
        · exact hident h hm
      | ident h => exact hident h hm
      | identBracket h =>
        rcases List.mem_append.mp hm with hm | hm
        · exact hident h hm
        · revert hm; decide
      | identPlaceholder h h' =>
        rcases List.mem_append.mp hm with hm | hm
        · rcases List.mem_append.mp hm with hm | hm
          · exact hident h hm
          · revert hm; decide
        · exact hplain h' hm
    rw [splitOn_join h1 hd]
    exact fun p hp => (C10_check_dimable_name p tag).1.mpr (h2 p hp)

example : DerivedName "P.C%s.R".toList ∧ ¬ DerivedName "P. R".toList :=
  ⟨(C10_check_derived_name _ "derivedFrom").mp (by decide), fun h => absurd ((C10_check_derived_name _ "x").mpr h) (by decide)⟩

theorem plain_count {s : Str} (h : PlainName s) : s.count '%' = 0 := by
  rw [List.count_eq_zero]
  intro hm
  have := h '%' hm
  revert this; unfold IdentChar IdentStart; decide

theorem ident_count {s : Str} (h : Ident s) : s.count '%' = 0 := by
  obtain ⟨c, r, rfl, h1, h2⟩ := h
  rw [List.count_cons, plain_count h2, if_neg]
  intro he
  simp only [beq_iff_eq] at he
  subst he
  revert h1; unfold IdentStart; decide

/-- **C10.** An accepted name has at most one placeholder. -/
theorem C10_one_placeholder (name : Str) (tag : String) (h : checkDimableName name tag = .ok ()) :
    name.count '%' ≤ 1 := by
  have e1 : "%s".toList.count '%' = 1 := by decide
  have e2 : "[%s]".toList.count '%' = 1 := by decide
  cases (C10_check_dimable_name name tag).1.mp h with
  | placeholder => rw [e1]; exact Nat.le_refl 1
  | placeholderIdent hi => rw [List.count_append, e1, ident_count hi]; exact Nat.le_refl 1
  | ident hi => rw [ident_count hi]; exact Nat.zero_le 1
  | identBracket hi => rw [List.count_append, e2, ident_count hi]; exact Nat.le_refl 1
  | identPlaceholder hi h' =>
    rw [List.count_append, List.count_append, e1, ident_count hi, plain_count h']; exact Nat.le_refl 1

example : DimableName "CH%s_CR".toList :=
  .identPlaceholder (i := "CH".toList) (t := "_CR".toList)
    ⟨'C', ['H'], rfl, by unfold IdentStart; decide, by unfold IdentChar IdentStart; decide⟩
    (by unfold PlainName IdentChar IdentStart; decide)
example : checkDimableName "CH[%s]".toList "name" = .ok () ∧
    checkDimableName "%s0A".toList "name" = .error (.err (.invalidName "%s0A".toList "name")) ∧
    checkDimableName "A[%s]B".toList "name" = .error (.err (.invalidName "A[%s]B".toList "name")) ∧
    checkName "0A".toList "name" = .ok () ∧ checkName [] "name" = .ok () ∧
    checkDerivedName "A.B%s.C".toList "derivedFrom" = .ok () := by decide

end Svd
