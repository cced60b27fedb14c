import Verif.Model.Num
import Verif.Spec.Num

/-! # Lemmas about digits and number parsing -/

namespace Svd

open Spec

/-- Characters are determined by their code. -/
theorem Char.eq_of_toNat {a b : Char} (h : a.toNat = b.toNat) : a = b :=
  Char.toNat_inj.mp h

theorem digit_cases (c : Char) :
    (∃ k, k < 10 ∧ c.toNat = 48 + k) ∨ (∃ k, k < 6 ∧ c.toNat = 97 + k) ∨
    (∃ k, k < 6 ∧ c.toNat = 65 + k) ∨
    (¬(48 ≤ c.toNat ∧ c.toNat ≤ 57) ∧ ¬(97 ≤ c.toNat ∧ c.toNat ≤ 102) ∧
      ¬(65 ≤ c.toNat ∧ c.toNat ≤ 70)) := by
  by_cases h1 : 48 ≤ c.toNat ∧ c.toNat ≤ 57
  · exact .inl ⟨c.toNat - 48, by omega, by omega⟩
  by_cases h2 : 97 ≤ c.toNat ∧ c.toNat ≤ 102
  · exact .inr (.inl ⟨c.toNat - 97, by omega, by omega⟩)
  by_cases h3 : 65 ≤ c.toNat ∧ c.toNat ≤ 70
  · exact .inr (.inr (.inl ⟨c.toNat - 65, by omega, by omega⟩))
  exact .inr (.inr (.inr ⟨h1, h2, h3⟩))

/-- The parser's digit reading agrees with the digit alphabet. -/
theorem digitValue_eq (c : Char) :
    digitValue c =
      if 48 ≤ c.toNat ∧ c.toNat ≤ 57 then some (c.toNat - 48)
      else if 97 ≤ c.toNat ∧ c.toNat ≤ 102 then some (c.toNat - 87)
      else if 65 ≤ c.toNat ∧ c.toNat ≤ 70 then some (c.toNat - 55)
      else none := by
  rcases digit_cases c with ⟨k, hk, h⟩ | ⟨k, hk, h⟩ | ⟨k, hk, h⟩ | ⟨h1, h2, h3⟩
  · have hc : c = Char.ofNat (48 + k) := by rw [← h]; exact (Char.ofNat_toNat c).symm
    subst hc
    have : k = 0 ∨ k = 1 ∨ k = 2 ∨ k = 3 ∨ k = 4 ∨ k = 5 ∨ k = 6 ∨ k = 7 ∨ k = 8 ∨ k = 9 := by
      omega
    rcases this with rfl | rfl | rfl | rfl | rfl | rfl | rfl | rfl | rfl | rfl <;> decide
  · have hc : c = Char.ofNat (97 + k) := by rw [← h]; exact (Char.ofNat_toNat c).symm
    subst hc
    have : k = 0 ∨ k = 1 ∨ k = 2 ∨ k = 3 ∨ k = 4 ∨ k = 5 := by omega
    rcases this with rfl | rfl | rfl | rfl | rfl | rfl <;> decide
  · have hc : c = Char.ofNat (65 + k) := by rw [← h]; exact (Char.ofNat_toNat c).symm
    subst hc
    have : k = 0 ∨ k = 1 ∨ k = 2 ∨ k = 3 ∨ k = 4 ∨ k = 5 := by omega
    rcases this with rfl | rfl | rfl | rfl | rfl | rfl <;> decide
  · rw [if_neg h1, if_neg h2, if_neg h3]
    have a1 : ("0123456789abcdef".toList).idxOf? c = none := by
      rw [List.idxOf?_eq_none_iff]
      intro hm
      have : ∀ x ∈ "0123456789abcdef".toList,
          (48 ≤ x.toNat ∧ x.toNat ≤ 57) ∨ (97 ≤ x.toNat ∧ x.toNat ≤ 102) := by decide
      rcases this c hm with h | h
      · exact h1 h
      · exact h2 h
    have a2 : ("0123456789ABCDEF".toList).idxOf? c = none := by
      rw [List.idxOf?_eq_none_iff]
      intro hm
      have : ∀ x ∈ "0123456789ABCDEF".toList,
          (48 ≤ x.toNat ∧ x.toNat ≤ 57) ∨ (65 ≤ x.toNat ∧ x.toNat ≤ 70) := by decide
      rcases this c hm with h | h
      · exact h1 h
      · exact h3 h
    unfold digitValue
    rw [a1]
    exact a2

theorem toDigit_iff (radix : Nat) (c : Char) (d : Nat) :
    toDigit radix c = some d ↔ IsDigit radix c d := by
  unfold toDigit IsDigit
  rw [digitValue_eq]
  simp only [Bool.and_eq_true, decide_eq_true_eq]
  split
  · simp; omega
  · split
    · simp; omega
    · split
      · simp; omega
      · simp

/-- Positional value computed from the left, starting from an accumulator. -/
def PosLoop (digit : Char → Nat → Prop) (radix : Nat) : Nat → Str → Nat → Prop
  | acc, [], n => n = acc
  | acc, c :: cs, n => ∃ d, digit c d ∧ PosLoop digit radix (acc * radix + d) cs n

theorem PosLoop.append {digit radix} : ∀ {acc s t n}, PosLoop digit radix acc (s ++ t) n ↔
    ∃ m, PosLoop digit radix acc s m ∧ PosLoop digit radix m t n
  | acc, [], t, n => by simp [PosLoop]
  | acc, c :: s, t, n => by
    simp only [List.cons_append, PosLoop, PosLoop.append (s := s)]
    grind

theorem positional_iff {digit : Char → Nat → Prop} {radix : Nat} {s : Str} {n : Nat} :
    Positional digit radix s n ↔ s ≠ [] ∧ PosLoop digit radix 0 s n := by
  constructor
  · intro h
    induction h with
    | one hd => exact ⟨by simp, _, hd, by simp [PosLoop]⟩
    | snoc _ hd ih =>
      exact ⟨by simp, PosLoop.append.mpr ⟨_, ih.2, _, hd, rfl⟩⟩
  · rintro ⟨hs, h⟩
    have key : ∀ (r : Str) (n : Nat), r ≠ [] → PosLoop digit radix 0 r.reverse n →
        Positional digit radix r.reverse n := by
      intro r
      induction r with
      | nil => intro n h; exact absurd rfl h
      | cons c cs ih =>
        intro n _ h
        rw [List.reverse_cons] at h ⊢
        obtain ⟨m, h1, d, hd, h2⟩ := PosLoop.append.mp h
        simp only [PosLoop] at h2
        subst h2
        cases cs with
        | nil =>
          simp only [List.reverse_nil, PosLoop] at h1
          subst h1
          simpa using Positional.one hd
        | cons c' cs' => exact .snoc (ih _ (by simp) h1) hd
    simpa using key s.reverse n (by simpa using hs) (by simpa using h)

theorem PosLoop.le {digit radix} (hr : 0 < radix) : ∀ {acc s n}, PosLoop digit radix acc s n → acc ≤ n
  | acc, [], n, h => by simp [PosLoop] at h; omega
  | acc, c :: s, n, h => by
    obtain ⟨d, _, h⟩ := h
    have := PosLoop.le hr h
    have : acc * 1 ≤ acc * radix := Nat.mul_le_mul_left _ hr
    omega

/-- The digit loop of `from_str_radix` succeeds exactly on digit strings whose value fits. -/
theorem radixLoop_ok {w radix : Nat} (hr : 0 < radix) : ∀ {acc : Nat} {s : Str} {n : Nat},
    acc < 2 ^ w →
    (radixLoop w radix acc s = .ok n ↔ PosLoop (IsDigit radix) radix acc s n ∧ n < 2 ^ w)
  | acc, [], n, ha => by
    simp only [radixLoop, PosLoop, Except.ok.injEq]
    constructor
    · rintro rfl; exact ⟨rfl, ha⟩
    · rintro ⟨rfl, _⟩; rfl
  | acc, c :: s, n, ha => by
    simp only [radixLoop, PosLoop]
    cases hd : toDigit radix c with
    | none =>
      simp only [reduceCtorEq, false_iff]
      rintro ⟨⟨d, h, _⟩, _⟩
      rw [← toDigit_iff, hd] at h
      cases h
    | some d =>
      have hd' := (toDigit_iff _ _ _).mp hd
      have uniq : ∀ d', IsDigit radix c d' → d' = d := fun d' h => by
        rw [← toDigit_iff, hd] at h; injection h with h; exact h.symm
      dsimp only
      split
      · split
        · rename_i h1 h2
          rw [radixLoop_ok hr h2]
          constructor
          · rintro ⟨h, h'⟩; exact ⟨⟨d, hd', h⟩, h'⟩
          · rintro ⟨⟨d', hdd, h⟩, h'⟩; rw [uniq d' hdd] at h; exact ⟨h, h'⟩
        · rename_i h1 h2
          simp only [reduceCtorEq, false_iff]
          rintro ⟨⟨d', hdd, h⟩, h'⟩
          rw [uniq d' hdd] at h
          have := h.le hr
          omega
      · rename_i h1
        simp only [reduceCtorEq, false_iff]
        rintro ⟨⟨d', hdd, h⟩, h'⟩
        have := h.le hr
        omega

theorem map_ok_iff {w : Nat} {e : Except IntErrorKind Nat} {v : BitVec w} :
    e.map (BitVec.ofNat w) = .ok v ↔ ∃ n, e = .ok n ∧ v = BitVec.ofNat w n := by
  cases e <;> simp [Except.map, eq_comm]

theorem not_isDigit_plus {radix d} : ¬ IsDigit radix '+' d := by
  rintro ⟨h, _⟩
  have : digitValue '+' = none := by decide
  simp [this] at h

theorem not_isDigit_minus {radix d} : ¬ IsDigit radix '-' d := by
  rintro ⟨h, _⟩
  have : digitValue '-' = none := by decide
  simp [this] at h

/-- `from_str_radix` accepts exactly the numerals in range. -/
theorem fromStrRadix_ok {w radix : Nat} (hr : 0 < radix) (s : Str) (v : BitVec w) :
    fromStrRadix w radix s = .ok v ↔
      ∃ n, Numeral (IsDigit radix) radix s n ∧ n < 2 ^ w ∧ v = BitVec.ofNat w n := by
  have h0 : 0 < 2 ^ w := Nat.two_pow_pos w
  unfold fromStrRadix
  split
  · simp only [reduceCtorEq, false_iff]
    rintro ⟨n, h, _⟩
    cases h with
    | plain h => exact (positional_iff.mp h).1 rfl
  · simp only [reduceCtorEq, false_iff]
    rintro ⟨n, h, _⟩
    cases h with
    | plain h =>
      obtain ⟨_, d, hd, _⟩ := positional_iff.mp h
      exact not_isDigit_plus hd
    | plus h => exact (positional_iff.mp h).1 rfl
  · simp only [reduceCtorEq, false_iff]
    rintro ⟨n, h, _⟩
    cases h with
    | plain h =>
      obtain ⟨_, d, hd, _⟩ := positional_iff.mp h
      exact not_isDigit_minus hd
  · rename_i ds hne
    rw [map_ok_iff]
    constructor
    · rintro ⟨n, h, rfl⟩
      rw [radixLoop_ok hr h0] at h
      refine ⟨n, .plus (positional_iff.mpr ⟨?_, h.1⟩), h.2, rfl⟩
      rintro rfl; exact hne rfl
    · rintro ⟨n, h, hlt, rfl⟩
      refine ⟨n, ?_, rfl⟩
      rw [radixLoop_ok hr h0]
      cases h with
      | plain h =>
        obtain ⟨_, d, hd, _⟩ := positional_iff.mp h
        exact absurd hd not_isDigit_plus
      | plus h => exact ⟨(positional_iff.mp h).2, hlt⟩
  · rename_i ds hnil hplus hminus hplus'
    rw [map_ok_iff]
    constructor
    · rintro ⟨n, h, rfl⟩
      rw [radixLoop_ok hr h0] at h
      exact ⟨n, .plain (positional_iff.mpr ⟨hnil, h.1⟩), h.2, rfl⟩
    · rintro ⟨n, h, hlt, rfl⟩
      refine ⟨n, ?_, rfl⟩
      rw [radixLoop_ok hr h0]
      cases h with
      | plain h => exact ⟨(positional_iff.mp h).2, hlt⟩
      | plus h => exact absurd rfl (hplus' _)

/-! ### Don't-care digits -/

theorem replaceStr_char (a : Char) (t : Str) (s : Str) :
    replaceStr [a] t s = s.flatMap fun c => if c = a then t else [c] := by
  unfold replaceStr
  induction s with
  | nil => simp [replaceAux]
  | cons c cs ih =>
    simp only [replaceAux, List.isPrefixOf, Bool.and_true, beq_iff_eq, List.length_cons,
      List.length_nil, Nat.zero_add, Nat.sub_self, ih, List.flatMap_cons]
    by_cases h : a = c
    · simp [h]
    · simp [h, Ne.symm h]

theorem replaceStr_char_char (a b : Char) (s : Str) :
    replaceStr [a] [b] s = s.map fun c => if c = a then b else c := by
  rw [replaceStr_char]
  induction s with
  | nil => rfl
  | cons c cs ih => simp only [List.flatMap_cons, ih, List.map_cons]; split <;> rfl

theorem PosLoop.map {digit : Char → Nat → Prop} {radix} (f : Char → Char) : ∀ {acc s n},
    PosLoop digit radix acc (s.map f) n ↔ PosLoop (fun c => digit (f c)) radix acc s n
  | acc, [], n => by simp [PosLoop]
  | acc, c :: s, n => by simp only [List.map_cons, PosLoop, PosLoop.map f (s := s)]

theorem Numeral.map {digit digit' : Char → Nat → Prop} {radix} (f : Char → Char)
    (hf : ∀ c, f c = '+' ↔ c = '+') (hd : ∀ c d, digit (f c) d ↔ digit' c d) {s n} :
    Numeral digit radix (s.map f) n ↔ Numeral digit' radix s n := by
  have hfun : (fun c => digit (f c)) = digit' := by funext c d; exact propext (hd c d)
  have hpos : ∀ {s n}, Positional digit radix (List.map f s) n ↔ Positional digit' radix s n := by
    intro s n
    rw [positional_iff, positional_iff, PosLoop.map, hfun]; simp
  constructor
  · intro h
    generalize he : s.map f = t at h
    cases h with
    | plain h => subst he; exact .plain (hpos.mp h)
    | plus h =>
      cases s with
      | nil => cases he
      | cons c cs =>
        simp only [List.map_cons, List.cons.injEq, hf] at he
        obtain ⟨rfl, rfl⟩ := he
        exact .plus (hpos.mp h)
  · intro h
    cases h with
    | plain h => exact .plain (hpos.mpr h)
    | plus h => rw [List.map_cons, (hf '+').mpr rfl]; exact .plus (hpos.mpr h)

theorem isDigit2_iff {c : Char} {d : Nat} :
    IsDigit 2 c d ↔ (c = '0' ∧ d = 0) ∨ (c = '1' ∧ d = 1) := by
  rw [← toDigit_iff]
  constructor
  · intro h
    unfold toDigit at h
    simp only [Bool.and_eq_true, decide_eq_true_eq] at h
    have hc : c.toNat = 48 ∨ c.toNat = 49 := by
      grind
    rcases hc with hc | hc
    · left
      have : c = '0' := Char.eq_of_toNat hc
      subst this
      exact ⟨rfl, by simpa using h.symm⟩
    · right
      have : c = '1' := Char.eq_of_toNat hc
      subst this
      exact ⟨rfl, by simpa using h.symm⟩
  · rintro (⟨rfl, rfl⟩ | ⟨rfl, rfl⟩) <;> decide

theorem toNat_ofNat {n : Nat} (h : n.isValidChar) : (Char.ofNat n).toNat = n := by
  rw [Char.ofNat, dif_pos h]; rfl

theorem lower_toNat (c : Char) :
    (if isAsciiUpper c then Char.ofNat (c.toNat + 32) else c).toNat =
      if 65 ≤ c.toNat ∧ c.toNat ≤ 90 then c.toNat + 32 else c.toNat := by
  unfold isAsciiUpper
  simp only [show 'A'.toNat = 65 from rfl, show 'Z'.toNat = 90 from rfl, Bool.and_eq_true,
    decide_eq_true_eq]
  split
  · exact toNat_ofNat (by left; omega)
  · rfl

theorem char_eq_iff {a b : Char} : a = b ↔ a.toNat = b.toNat :=
  ⟨fun h => by rw [h], Char.eq_of_toNat⟩

theorem bin_digit (c : Char) (d : Nat) :
    IsDigit 2 (if c = 'x' then '0' else c) d ↔ IsBinDigit c d := by
  unfold IsBinDigit
  rw [isDigit2_iff, isDigit2_iff]
  split
  · rename_i h; subst h; simp
  · rename_i h; simp [h]

/-- What the `#` branch of the parser does to each character. -/
def hashChar (c : Char) : Char :=
  let l := if isAsciiUpper c then Char.ofNat (c.toNat + 32) else c
  if l = 'x' then '0' else l

theorem hash_digit (c : Char) (d : Nat) : IsDigit 2 (hashChar c) d ↔ IsHashDigit c d := by
  unfold IsHashDigit hashChar
  rw [isDigit2_iff, isDigit2_iff]
  have hl := lower_toNat c
  generalize (if isAsciiUpper c then Char.ofNat (c.toNat + 32) else c) = l at hl
  simp only
  simp only [char_eq_iff, show 'x'.toNat = 120 from rfl, show 'X'.toNat = 88 from rfl,
    show '0'.toNat = 48 from rfl, show '1'.toNat = 49 from rfl]
  split
  · simp only [show '0'.toNat = 48 from rfl]; grind
  · grind

theorem hash_plus (c : Char) : hashChar c = '+' ↔ c = '+' := by
  unfold hashChar
  have hl := lower_toNat c
  generalize (if isAsciiUpper c then Char.ofNat (c.toNat + 32) else c) = l at hl
  simp only
  simp only [char_eq_iff, show 'x'.toNat = 120 from rfl, show '+'.toNat = 43 from rfl]
  split
  · simp only [show '0'.toNat = 48 from rfl]; grind
  · grind

theorem hash_text (s : Str) :
    replaceStr "x".toList "0".toList (toLowercase s) = s.map hashChar := by
  show replaceStr ['x'] ['0'] _ = _
  rw [replaceStr_char_char, toLowercase, List.map_map]
  rfl

theorem bin_text (s : Str) :
    replaceStr "x".toList "0".toList s = s.map fun c => if c = 'x' then '0' else c := by
  show replaceStr ['x'] ['0'] _ = _
  rw [replaceStr_char_char]

theorem bin_plus (c : Char) : (if c = 'x' then '0' else c) = '+' ↔ c = '+' := by
  split
  · rename_i h; subst h; decide
  · rfl

/-! ### Which literal a prefix selects -/

theorem not_numeral_of_second {radix : Nat} {a x : Char} {s : Str} {n : Nat}
    (ha : a ≠ '+') (h : ∀ d, ¬ IsDigit radix x d) : ¬ Numeral (IsDigit radix) radix (a :: x :: s) n := by
  intro hn
  cases hn with
  | plain h' =>
    obtain ⟨_, d, _, d', hd', _⟩ := positional_iff.mp h'
    exact h d' hd'
  | plus h' => exact ha rfl

theorem not_numeral_of_first {radix : Nat} {x : Char} {s : Str} {n : Nat}
    (ha : x ≠ '+') (h : ∀ d, ¬ IsDigit radix x d) : ¬ Numeral (IsDigit radix) radix (x :: s) n := by
  intro hn
  cases hn with
  | plain h' =>
    obtain ⟨_, d, hd, _⟩ := positional_iff.mp h'
    exact h d hd
  | plus h' => exact ha rfl

theorem not_dec_x (d : Nat) : ¬ IsDigit 10 'x' d := by
  rw [← toDigit_iff]; have : toDigit 10 'x' = none := by decide
  simp [this]
theorem not_dec_X (d : Nat) : ¬ IsDigit 10 'X' d := by
  rw [← toDigit_iff]; have : toDigit 10 'X' = none := by decide
  simp [this]
theorem not_dec_b (d : Nat) : ¬ IsDigit 10 'b' d := by
  rw [← toDigit_iff]; have : toDigit 10 'b' = none := by decide
  simp [this]
theorem not_dec_hash (d : Nat) : ¬ IsDigit 10 '#' d := by
  rw [← toDigit_iff]; have : toDigit 10 '#' = none := by decide
  simp [this]

theorem intLiteral_hex {x : Char} (hx : x = 'x' ∨ x = 'X') {s : Str} {n : Nat} :
    IntLiteral ('0' :: x :: s) n ↔ Numeral (IsDigit 16) 16 s n := by
  constructor
  · intro h
    cases h with
    | dec h =>
      rcases hx with rfl | rfl
      · exact absurd h (not_numeral_of_second (by decide) not_dec_x)
      · exact absurd h (not_numeral_of_second (by decide) not_dec_X)
    | hex _ h => exact h
    | bin h => rcases hx with hx | hx <;> exact absurd hx (by decide)
  · exact .hex hx

theorem intLiteral_hash {s : Str} {n : Nat} :
    IntLiteral ('#' :: s) n ↔ Numeral IsHashDigit 2 s n := by
  constructor
  · intro h
    cases h with
    | dec h => exact absurd h (not_numeral_of_first (by decide) not_dec_hash)
    | hash h => exact h
  · exact .hash

theorem intLiteral_bin {s : Str} {n : Nat} :
    IntLiteral ('0' :: 'b' :: s) n ↔ Numeral IsBinDigit 2 s n := by
  constructor
  · intro h
    cases h with
    | dec h => exact absurd h (not_numeral_of_second (by decide) not_dec_b)
    | hex hx _ => rcases hx with hx | hx <;> exact absurd hx (by decide)
    | bin h => exact h
  · exact .bin

theorem isPrefix_cons2 {a b : Char} {s : Str} :
    [a, b].isPrefixOf s = true ↔ ∃ r, s = a :: b :: r := by
  rw [List.isPrefixOf_iff_prefix]
  constructor
  · rintro ⟨r, rfl⟩; exact ⟨r, rfl⟩
  · rintro ⟨r, rfl⟩; exact ⟨r, rfl⟩

theorem isPrefix_cons1 {a : Char} {s : Str} :
    [a].isPrefixOf s = true ↔ ∃ r, s = a :: r := by
  rw [List.isPrefixOf_iff_prefix]
  constructor
  · rintro ⟨r, rfl⟩; exact ⟨r, rfl⟩
  · rintro ⟨r, rfl⟩; exact ⟨r, rfl⟩

/-- The integer parser accepts exactly the literals in range. -/
theorem parseIntText_ok {w : Nat} (s : Str) (v : BitVec w) :
    parseIntText w s = .ok v ↔ ∃ n, IntLiteral s n ∧ n < 2 ^ w ∧ v = BitVec.ofNat w n := by
  unfold parseIntText
  change (if (['0', 'x'].isPrefixOf s || ['0', 'X'].isPrefixOf s) = true then _
    else if ['#'].isPrefixOf s = true then _ else if ['0', 'b'].isPrefixOf s = true then _ else _)
    = _ ↔ _
  split
  · rename_i h
    obtain ⟨x, hx, r, rfl⟩ : ∃ x, (x = 'x' ∨ x = 'X') ∧ ∃ r, s = '0' :: x :: r := by
      rw [Bool.or_eq_true, isPrefix_cons2, isPrefix_cons2] at h
      rcases h with ⟨r, h⟩ | ⟨r, h⟩
      · exact ⟨_, .inl rfl, r, h⟩
      · exact ⟨_, .inr rfl, r, h⟩
    simp only [intLiteral_hex hx]
    exact fromStrRadix_ok (by decide) r v
  · rename_i h1
    split
    · rename_i h
      obtain ⟨r, rfl⟩ := isPrefix_cons1.mp h
      have : (toLowercase ('#' :: r)).drop 1 = toLowercase r := by simp [toLowercase]
      rw [this, hash_text, fromStrRadix_ok (by decide)]
      simp only [intLiteral_hash, Numeral.map hashChar hash_plus hash_digit]
    · rename_i h2
      split
      · rename_i h
        obtain ⟨r, rfl⟩ := isPrefix_cons2.mp h
        rw [bin_text, fromStrRadix_ok (by decide)]
        simp only [intLiteral_bin, List.drop_succ_cons, List.drop_zero,
          Numeral.map _ bin_plus bin_digit]
      · rename_i h3
        rw [fromStrRadix_ok (by decide)]
        have : ∀ n, Numeral (IsDigit 10) 10 s n ↔ IntLiteral s n := by
          intro n
          constructor
          · exact .dec
          · intro h
            cases h with
            | dec h => exact h
            | hex hx h =>
              exfalso; apply h1
              rcases hx with rfl | rfl <;> simp [List.isPrefixOf]
            | hash h => exfalso; apply h2; simp [List.isPrefixOf]
            | bin h => exfalso; apply h3; simp [List.isPrefixOf]
        simp only [this]

/-! ### Printing -/

theorem isDigit_digitChar {radix n : Nat} (h : n < radix) (hr : radix ≤ 16) :
    IsDigit radix (Nat.digitChar n) n := by
  refine ⟨?_, h⟩
  have hn : n < 16 := by omega
  have : ∀ n < 16, digitValue (Nat.digitChar n) = some n := by decide
  exact this n hn

theorem isDigit_upper {radix n : Nat} (h : n < radix) (hr : radix ≤ 16) :
    IsDigit radix (upperHexDigit (Nat.digitChar n)) n := by
  refine ⟨?_, h⟩
  have hn : n < 16 := by omega
  have : ∀ n < 16, digitValue (upperHexDigit (Nat.digitChar n)) = some n := by decide
  exact this n hn

theorem positional_map_toDigits {digit : Char → Nat → Prop} {radix : Nat} (f : Char → Char)
    (hb : 1 < radix) (hd : ∀ d < radix, digit (f (Nat.digitChar d)) d) (n : Nat) :
    Positional digit radix ((Nat.toDigits radix n).map f) n := by
  induction n using Nat.strongRecOn with
  | ind n ih =>
    rw [Nat.toDigits_eq_if hb]
    split
    · rename_i h; exact .one (hd n h)
    · rename_i h
      have hlt : n / radix < n := Nat.div_lt_self (by omega) hb
      have := Positional.snoc (ih _ hlt) (hd (n % radix) (Nat.mod_lt _ (by omega)))
      rw [List.map_append]
      rw [Nat.div_add_mod' n radix] at this
      exact this

theorem positional_toDigits {radix : Nat} (hb : 1 < radix) (hr : radix ≤ 16) (n : Nat) :
    Positional (IsDigit radix) radix (Nat.toDigits radix n) n := by
  have := positional_map_toDigits (digit := IsDigit radix) id hb
    (fun d h => isDigit_digitChar h hr) n
  simpa using this

theorem positional_upper (n : Nat) : Positional (IsDigit 16) 16 (upperHexDigits n) n :=
  positional_map_toDigits upperHexDigit (by decide) (fun _ h => isDigit_upper h (by decide)) n

theorem Positional.zeros {digit : Char → Nat → Prop} {radix : Nat} (h0 : digit '0' 0) (k : Nat)
    {s : Str} {n : Nat} (h : Positional digit radix s n) :
    Positional digit radix (List.replicate k '0' ++ s) n := by
  rw [positional_iff] at h ⊢
  refine ⟨by simp [h.1], ?_⟩
  induction k with
  | zero => simpa using h.2
  | succ k ih => exact ⟨0, h0, by simpa using ih⟩

theorem isDigit_zero {radix : Nat} (h : 0 < radix) : IsDigit radix '0' 0 := ⟨by decide, h⟩

theorem hexText {digits : Str} {n : Nat} (width : Nat) (h : Positional (IsDigit 16) 16 digits n) :
    IntLiteral (withPrefix width "0x".toList digits) n := by
  unfold withPrefix
  rw [List.append_assoc]
  exact .hex (.inl rfl) (.plain (Positional.zeros (isDigit_zero (by decide)) _ h))

theorem intLiteral_formatNumber {w : Nat} (v : BitVec w) (f : NumberFormat) :
    IntLiteral (formatNumber v f) v.toNat := by
  have hl : Positional (IsDigit 16) 16 (lowerHexDigits v.toNat) v.toNat :=
    positional_toDigits (by decide) (by decide) _
  have hu := positional_upper v.toNat
  unfold formatNumber
  cases f <;> simp only
  · exact hexText _ hu
  · exact hexText _ hu
  · split <;> exact hexText _ hu
  · exact hexText _ hl
  · exact hexText _ hl
  · split <;> exact hexText _ hl
  · exact .dec (.plain (positional_toDigits (by decide) (by decide) _))
  · unfold withPrefix
    rw [List.append_assoc]
    refine .bin (.plain (Positional.zeros (.inl (isDigit_zero (by decide))) _ ?_))
    have := positional_map_toDigits (digit := IsBinDigit) (radix := 2) id (by decide)
      (fun d h => .inl (isDigit_digitChar h (by decide))) v.toNat
    simpa using this

theorem parseIntText_formatNumber {w : Nat} (v : BitVec w) (f : NumberFormat) :
    parseIntText w (formatNumber v f) = .ok v :=
  (parseIntText_ok _ _).mpr
    ⟨v.toNat, intLiteral_formatNumber v f, v.isLt, by simp⟩

theorem fromStrRadix_decString {w : Nat} (v : BitVec w) :
    fromStrRadix w 10 (decString v) = .ok v :=
  (fromStrRadix_ok (by decide) _ _).mpr
    ⟨v.toNat, .plain (positional_toDigits (by decide) (by decide) _), v.isLt, by simp⟩

theorem positional_mem {digit : Char → Nat → Prop} {radix : Nat} {s : Str} {n : Nat}
    (h : Positional digit radix s n) : ∀ c ∈ s, ∃ d, digit c d := by
  induction h with
  | one hd => intro c hc; simp at hc; subst hc; exact ⟨_, hd⟩
  | snoc _ hd ih =>
    intro c hc
    rcases List.mem_append.mp hc with hc | hc
    · exact ih c hc
    · simp at hc; subst hc; exact ⟨_, hd⟩

theorem digitValue_not_ws {c : Char} {d : Nat} (h : digitValue c = some d) :
    isWhitespace c = false := by
  rw [digitValue_eq] at h
  have hc : (48 ≤ c.toNat ∧ c.toNat ≤ 57) ∨ (65 ≤ c.toNat ∧ c.toNat ≤ 102) := by
    split at h
    · exact .inl ‹_›
    · split at h
      · exact .inr (by omega)
      · split at h
        · exact .inr (by omega)
        · cases h
  unfold isWhitespace
  simp only [Bool.or_eq_false_iff, Bool.and_eq_false_iff, decide_eq_false_iff_not, beq_eq_false_iff_ne]
  omega

theorem decString_not_ws {w : Nat} (v : BitVec w) : ∀ c ∈ decString v, isWhitespace c = false := by
  intro c hc
  obtain ⟨k, hk⟩ :=
    positional_mem (positional_toDigits (radix := 10) (by decide) (by decide) v.toNat) c hc
  exact digitValue_not_ws hk.1

end Svd
