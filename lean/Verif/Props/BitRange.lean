import Verif.Model.BitRange
import Verif.Spec.BitRange
import Verif.Props.Numbers
import Verif.Props.Dim

/-!
# C08, C09: bit ranges
-/

namespace Svd

open Spec Xml

theorem ofNat_toNat' {n : Nat} (h : n < 2 ^ 32) : (BitVec.ofNat 32 n).toNat = n := by
  simp [Nat.mod_eq_of_lt h]

theorem parseInt_of_number {t : Xml} {n : Nat} (h : ElementNumber t n) :
    parseInt 32 t = .ok (BitVec.ofNat 32 n) := by
  obtain ⟨text, lit, h1, h2, h3, h4⟩ := h
  rw [C02_parse_int_iff]
  exact ⟨text, lit, n, h1, h2, h3, h4, ofNat_toNat' h4⟩

theorem numeral_no_colon {s : Str} {n : Nat} (h : Numeral (IsDigit 10) 10 s n) : ':' ∉ s := by
  have hd : ∀ d, ¬ IsDigit 10 ':' d := by
    intro d h
    have h1 : digitValue ':' = none := by decide
    rw [h.1] at h1; cases h1
  intro hm
  cases h with
  | plain h => obtain ⟨d, h⟩ := positional_mem h _ hm; exact hd d h
  | plus h =>
    rcases List.mem_cons.mp hm with e | hm
    · revert e; decide
    · obtain ⟨d, h⟩ := positional_mem h _ hm; exact hd d h

theorem isPrefixOf_bracket (s : Str) : "[".toList.isPrefixOf ('[' :: s) = true := by
  show ['['].isPrefixOf ('[' :: s) = true
  simp

theorem isSuffixOf_bracket (s : Str) : "]".toList.isSuffixOf (s ++ [']']) = true := by
  rw [List.isSuffixOf_iff_suffix]; exact ⟨s, rfl⟩

theorem bracket_inner (s : Str) : (('[' :: (s ++ [']'])).drop 1).dropLast = s := by simp

theorem bracket_split {m l : Str} {a b : Nat} (hm : DecNumber m a) (hl : DecNumber l b) :
    splitOn ':' (m ++ ':' :: l) = [m, l] := by
  rw [splitOn_append _ (numeral_no_colon hm.1), splitOn_noSep (numeral_no_colon hl.1)]

theorem parseBitRangeText_ok {m l : Str} {msb lsb : Nat} (hm : DecNumber m msb)
    (hl : DecNumber l lsb) :
    parseBitRangeText ('[' :: m ++ ':' :: l ++ [']']) =
      .ok (BitVec.ofNat 32 msb, BitVec.ofNat 32 lsb) := by
  have e : '[' :: m ++ ':' :: l ++ [']'] = '[' :: ((m ++ ':' :: l) ++ [']']) := by simp
  unfold parseBitRangeText
  rw [e, isPrefixOf_bracket, ← List.cons_append, isSuffixOf_bracket, List.cons_append,
    bracket_inner, bracket_split hm hl]
  simp only [fromStr_dec.mpr ⟨msb, hm, rfl⟩, fromStr_dec.mpr ⟨lsb, hl, rfl⟩]
  rfl

theorem finishBitRange_ok {oc : Bool} {msb lsb : Nat} (hm : msb < 2 ^ 32) (hle : lsb ≤ msb)
    (hw : msb - lsb + 1 < 2 ^ 32) (ty : BitRangeType) :
    finishBitRange oc (BitVec.ofNat 32 msb) (BitVec.ofNat 32 lsb) ty =
      .ok { offset := BitVec.ofNat 32 lsb, width := BitVec.ofNat 32 (msb - lsb + 1), rangeType := ty } := by
  unfold finishBitRange
  have t1 := ofNat_toNat' hm
  have t2 : (BitVec.ofNat 32 lsb).toNat = lsb := ofNat_toNat' (by omega)
  have t3 : (BitVec.ofNat 32 (msb - lsb)).toNat = msb - lsb := ofNat_toNat' (by omega)
  have t4 : (1 : U32).toNat = 1 := rfl
  rw [if_neg (by omega), subC_le (by omega), ok_bind, t1, t2, addC_lt (by omega), ok_bind, t3, t4]

theorem finishBitRange_reversed {oc : Bool} {msb lsb : Nat} (hm : msb < 2 ^ 32) (hl : lsb < 2 ^ 32)
    (hlt : msb < lsb) (ty : BitRangeType) :
    finishBitRange oc (BitVec.ofNat 32 msb) (BitVec.ofNat 32 lsb) ty =
      fail (.invalidBitRange .size) := by
  unfold finishBitRange
  rw [if_pos (by rw [ofNat_toNat' hm, ofNat_toNat' hl]; exact hlt)]

/-- **C08.** The three notations are accepted for every `lsb ≤ msb` whose width is representable, and
give the same offset and width; `lsb()` and `msb()` are `lsb` and `msb`, except that `msb()` panics in
overflow-checked builds when `msb` is the largest `u32`. -/
theorem C08_notations_agree (oc : Bool) (t : Xml) (msb lsb : Nat) (ty : BitRangeType)
    (h : WritesRange t msb lsb ty) (hle : lsb ≤ msb) (hm : msb < 2 ^ 32)
    (hw : msb - lsb + 1 < 2 ^ 32) :
    ∃ b, parseBitRange oc t = .ok b ∧ b.offset.toNat = lsb ∧ b.width.toNat = msb - lsb + 1 ∧
      b.rangeType = ty ∧ b.lsb.toNat = lsb ∧
      (oc = false ∨ msb + 1 < 2 ^ 32 → ∃ v, b.msb oc = .ok v ∧ v.toNat = msb) := by
  have t2 : (BitVec.ofNat 32 lsb).toNat = lsb := ofNat_toNat' (by omega)
  have t3 : (BitVec.ofNat 32 (msb - lsb + 1)).toNat = msb - lsb + 1 := ofNat_toNat' hw
  refine ⟨{ offset := BitVec.ofNat 32 lsb, width := BitVec.ofNat 32 (msb - lsb + 1), rangeType := ty },
    ?_, t2, t3, rfl, t2, ?_⟩
  · cases h with
    | bitRange h1 h2 h3 h4 =>
      unfold parseBitRange
      simp only [h1, h2]
      rw [parseBitRangeText_ok h3 h4, ok_bind]
      exact finishBitRange_ok hm hle hw _
    | msbLsb h1 h2 h3 h4 h5 =>
      unfold parseBitRange
      simp only [h1, h2, h3]
      rw [parseInt_of_number h4, parseInt_of_number h5]
      exact finishBitRange_ok hm hle hw _
    | @offsetWidth x y w h1 h2 h3 h4 h5 h6 h7 =>
      unfold parseBitRange
      simp only [h1, h2, h3, h4]
      rw [parseInt_of_number h5, parseInt_of_number h6]
      have : w = msb - lsb + 1 := by omega
      rw [this]; rfl
  · intro hoc
    unfold BitRange.msb
    simp only []
    have t4 : (1 : U32).toNat = 1 := rfl
    by_cases hfit : msb + 1 < 2 ^ 32
    · rw [addC_lt (by rw [t2, t3]; omega), ok_bind, t2, t3]
      have t5 : (BitVec.ofNat 32 (lsb + (msb - lsb + 1))).toNat = msb + 1 := by
        rw [ofNat_toNat' (by omega)]; omega
      rw [subC_le (by rw [t5, t4]; omega), t5, t4]
      exact ⟨_, rfl, ofNat_toNat' hm⟩
    · have hoc : oc = false := by
        rcases hoc with h | h
        · exact h
        · exact absurd h hfit
      subst hoc
      have hmsb : msb = 2 ^ 32 - 1 := by omega
      unfold addC subC arith
      rw [if_neg (by rw [t2, t3]; omega)]
      simp only [Bool.false_eq_true, if_false, ok_bind]
      have hz : BitVec.ofNat 32 lsb + BitVec.ofNat 32 (msb - lsb + 1) = 0 := by
        apply BitVec.eq_of_toNat_eq
        rw [BitVec.toNat_add, t2, t3]
        have : lsb + (msb - lsb + 1) = 2 ^ 32 := by omega
        rw [this]; rfl
      rw [hz, if_neg (by decide)]
      exact ⟨_, rfl, by rw [hmsb]; decide⟩

example : ∃ b, parseBitRange true (.elem "field" [] [newNode "lsb" "4".toList, newNode "msb" "7".toList]) = .ok b ∧
    b.offset.toNat = 4 ∧ b.width.toNat = 4 := by
  obtain ⟨b, h, ho, hw, _⟩ := C08_notations_agree true
    (.elem "field" [] [newNode "lsb" "4".toList, newNode "msb" "7".toList]) 7 4 .msbLsb (.msbLsb rfl rfl rfl
    ⟨_, "4".toList, rfl, trim_iff.mp (by decide), .dec (.plain (.one (c := '4') (d := 4) ⟨by decide, by decide⟩)), by decide⟩
    ⟨_, "7".toList, rfl, trim_iff.mp (by decide), .dec (.plain (.one (c := '7') (d := 7) ⟨by decide, by decide⟩)), by decide⟩)
    (by decide) (by decide) (by decide)
  exact ⟨b, h, ho, hw⟩

/-- **C08.** A range with `lsb > msb` is rejected. -/
theorem C08_reversed_rejected (oc : Bool) (t : Xml) (msb lsb : Nat) (ty : BitRangeType)
    (h : WritesRange t msb lsb ty) (hty : ty ≠ .offsetWidth) (hlt : msb < lsb) :
    parseBitRange oc t = .error (.err (.invalidBitRange .size)) := by
  cases h with
  | bitRange h1 h2 h3 h4 =>
    unfold parseBitRange
    simp only [h1, h2]
    rw [parseBitRangeText_ok h3 h4, ok_bind]
    exact finishBitRange_reversed h3.2 h4.2 hlt _
  | msbLsb h1 h2 h3 h4 h5 =>
    unfold parseBitRange
    simp only [h1, h2, h3]
    rw [parseInt_of_number h4, parseInt_of_number h5]
    obtain ⟨_, _, _, _, _, hl⟩ := h4
    obtain ⟨_, _, _, _, _, hm⟩ := h5
    exact finishBitRange_reversed hm hl hlt _
  | offsetWidth => exact absurd rfl hty

example : parseBitRange true (.elem "field" [] [newNode "lsb" "7".toList, newNode "msb" "4".toList]) =
    .error (.err (.invalidBitRange .size)) :=
  C08_reversed_rejected true _ 4 7 .msbLsb (.msbLsb rfl rfl rfl
    ⟨_, "7".toList, rfl, trim_iff.mp (by decide), .dec (.plain (.one (c := '7') (d := 7) ⟨by decide, by decide⟩)), by decide⟩
    ⟨_, "4".toList, rfl, trim_iff.mp (by decide), .dec (.plain (.one (c := '4') (d := 4) ⟨by decide, by decide⟩)), by decide⟩)
    (by decide) (by decide)

/-- **C08** for the constructors of the API: the range from `msb`/`lsb`, and from the text
`[msb:lsb]`. -/
theorem C08_constructors (oc : Bool) (msb lsb : U32) (hle : lsb.toNat ≤ msb.toNat)
    (hw : msb.toNat - lsb.toNat + 1 < 2 ^ 32) :
    ∃ w : U32, w.toNat = msb.toNat - lsb.toNat + 1 ∧
      BitRange.fromMsbLsb oc msb lsb = .ok { offset := lsb, width := w, rangeType := .msbLsb } ∧
      BitRange.fromOffsetWidth lsb w = { offset := lsb, width := w, rangeType := .offsetWidth } ∧
      BitRange.fromBitRange oc ('[' :: decString msb ++ ':' :: decString lsb ++ [']']) =
        .ok (some { offset := lsb, width := w, rangeType := .bitRange }) := by
  have hm := msb.isLt
  have t3 : (BitVec.ofNat 32 (msb.toNat - lsb.toNat)).toNat = msb.toNat - lsb.toNat :=
    ofNat_toNat' (by omega)
  have t4 : (1 : U32).toNat = 1 := rfl
  refine ⟨BitVec.ofNat 32 (msb.toNat - lsb.toNat + 1), ofNat_toNat' hw, ?_, rfl, ?_⟩
  · unfold BitRange.fromMsbLsb
    rw [subC_le hle, ok_bind, addC_lt (by rw [t3, t4]; omega), t3, t4]; rfl
  · unfold BitRange.fromBitRange
    have e : '[' :: decString msb ++ ':' :: decString lsb ++ [']'] =
        '[' :: ((decString msb ++ ':' :: decString lsb) ++ [']']) := by simp
    rw [e, isPrefixOf_bracket, ← List.cons_append, isSuffixOf_bracket, List.cons_append,
      bracket_inner, bracket_split (decNumber_decString msb) (decNumber_decString lsb)]
    simp only [fromStrRadix_decString]
    rw [subC_le hle, ok_bind, addC_lt (by rw [t3, t4]; omega), t3, t4]; rfl

example : ∃ w : U32, w.toNat = 12 ∧ BitRange.fromMsbLsb true 15 4 = .ok { offset := 4, width := w, rangeType := .msbLsb } :=
  let ⟨w, h, h1, _⟩ := C08_constructors true 15 4 (by decide) (by decide)
  ⟨w, h, h1⟩

/-- The exception in **C08** is real. -/
theorem C08_msb_overflow_panic :
    BitRange.msb true { offset := 4294967295, width := 1, rangeType := .offsetWidth } =
      .error (.panic .overflow) := by decide

/-- Text after a second colon is ignored by the reader. -/
theorem C08_extra_part_ignored (oc : Bool) :
    parseBitRange oc (.elem "field" [] [newNode "bitRange" "[7:4:junk]".toList]) =
      .ok { offset := 4, width := 4, rangeType := .bitRange } := by cases oc <;> decide

example : WritesRange (.elem "field" [] [newNode "name" "A".toList, newNode "lsb" "4".toList,
    newNode "msb" " 0x7 ".toList]) 7 4 .msbLsb :=
  .msbLsb rfl rfl rfl
    ⟨_, "4".toList, rfl, trim_iff.mp (by decide), .dec (.plain (.one (c := '4') (d := 4) ⟨by decide, by decide⟩)), by decide⟩
    ⟨_, "0x7".toList, rfl, trim_iff.mp (by decide),
      .hex (x := 'x') (Or.inl rfl) (.plain (.one (c := '7') (d := 7) ⟨by decide, by decide⟩)), by decide⟩
example : parseBitRange true (.elem "field" [] [newNode "bitRange" "[7:4]".toList]) =
    .ok { offset := 4, width := 4, rangeType := .bitRange } := by decide

/-! ## C09 -/

/-- The element is not one of those that describe a bit range. -/
def NotRangeElem (x : Xml) : Prop :=
  ∀ k ∈ ["bitRange", "lsb", "msb", "bitOffset", "bitWidth"], x.hasTag k = false

theorem getChild_mid {tag : String} {attrs : List (String × Str)} {pre mid post : List Xml}
    {k : String} (hk : k ∈ ["bitRange", "lsb", "msb", "bitOffset", "bitWidth"])
    (h1 : ∀ x ∈ pre, NotRangeElem x) (h2 : ∀ x ∈ post, NotRangeElem x) :
    (Xml.elem tag attrs (pre ++ mid ++ post)).getChild k = mid.find? (hasTag k) := by
  unfold getChild children
  have e1 : pre.find? (hasTag k) = none :=
    List.find?_eq_none.mpr fun x hx => by simp [h1 x hx k hk]
  have e2 : post.find? (hasTag k) = none :=
    List.find?_eq_none.mpr fun x hx => by simp [h2 x hx k hk]
  simp [List.find?_append, e1, e2]

theorem elementNumber_decString (tag : String) (v : U32) :
    ElementNumber (newNode tag (decString v)) v.toNat := by
  have h := C01_decimal_round_trip 32 tag v
  rw [C02_parse_int_iff] at h
  obtain ⟨text, lit, n, h1, h2, h3, h4, rfl⟩ := h
  exact ⟨text, lit, h1, h2, h3, h4⟩

/-- **C09.** The elements the encoder writes for a bit range of width at least one whose end is
representable, between any other children of the field, are parsed back to the same offset and width,
in the notation of the range or the one forced by the configuration. -/
theorem C09_bit_range_round_trip (oc : Bool) (cfg : EncConfig) (br : BitRange)
    (hw : 0 < br.width.toNat) (hend : br.offset.toNat + br.width.toNat < 2 ^ 32)
    (tag : String) (attrs : List (String × Str)) (pre post : List Xml)
    (h1 : ∀ x ∈ pre, NotRangeElem x) (h2 : ∀ x ∈ post, NotRangeElem x) :
    ∃ xs, encodeBitRange oc cfg br = .ok xs ∧
      parseBitRange oc (.elem tag attrs (pre ++ xs ++ post)) =
        .ok { br with rangeType := cfg.fieldBitRange.getD br.rangeType } := by
  have t4 : (1 : U32).toNat = 1 := rfl
  have t5 : (BitVec.ofNat 32 (br.offset.toNat + br.width.toNat)).toNat =
      br.offset.toNat + br.width.toNat := ofNat_toNat' hend
  have hmsb : br.msb oc = .ok (BitVec.ofNat 32 (br.offset.toNat + br.width.toNat - 1)) := by
    unfold BitRange.msb
    rw [addC_lt hend, ok_bind, subC_le (by rw [t5, t4]; omega), t5, t4]
  generalize hmv : (BitVec.ofNat 32 (br.offset.toNat + br.width.toNat - 1)) = m at hmsb
  have hm : m.toNat = br.offset.toNat + br.width.toNat - 1 := by
    rw [← hmv]; exact ofNat_toNat' (by omega)
  have fin : ∀ b : BitRange, ∀ ty, b.offset.toNat = br.offset.toNat →
      b.width.toNat = m.toNat - br.offset.toNat + 1 → b.rangeType = ty →
      b = { br with rangeType := ty } := by
    intro b ty e1 e2 e3
    cases b; cases br
    simp only [BitRange.mk.injEq] at *
    exact ⟨BitVec.eq_of_toNat_eq e1, BitVec.eq_of_toNat_eq (by omega), e3⟩
  have use : ∀ xs ty, encodeBitRange oc cfg br = .ok xs →
      WritesRange (.elem tag attrs (pre ++ xs ++ post)) m.toNat br.offset.toNat ty →
      ty = cfg.fieldBitRange.getD br.rangeType →
      ∃ xs, encodeBitRange oc cfg br = .ok xs ∧
        parseBitRange oc (.elem tag attrs (pre ++ xs ++ post)) =
          .ok { br with rangeType := cfg.fieldBitRange.getD br.rangeType } := by
    intro xs ty henc hwr hty
    obtain ⟨b, hb, e1, e2, e3, _⟩ := C08_notations_agree oc _ _ _ _ hwr (by omega) m.isLt (by omega)
    refine ⟨xs, henc, ?_⟩
    rw [hb, fin b ty e1 e2 e3, hty]
  cases hty : cfg.fieldBitRange.getD br.rangeType with
  | bitRange =>
    rw [← hty]
    refine use [newNode "bitRange" ("[".toList ++ decString m ++ ":".toList ++ decString br.lsb ++
      "]".toList)] .bitRange ?_ ?_ hty.symm
    · unfold encodeBitRange BitRange.bitRange
      rw [hty]; simp only []; rw [hmsb]; rfl
    · refine .bitRange (r := newNode "bitRange" ("[".toList ++ decString m ++ ":".toList ++
        decString br.lsb ++ "]".toList)) (m := decString m) (l := decString br.lsb) ?_ ?_
        (decNumber_decString m) (decNumber_decString br.offset)
      · rw [getChild_mid (by simp) h1 h2]; rfl
      · show some _ = some _
        simp
  | msbLsb =>
    rw [← hty]
    refine use [newNode "lsb" (decString br.lsb), newNode "msb" (decString m)] .msbLsb ?_ ?_ hty.symm
    · unfold encodeBitRange
      rw [hty]; simp only []; rw [hmsb]; rfl
    · refine .msbLsb ?_ ?_ ?_ (elementNumber_decString "lsb" br.offset)
        (elementNumber_decString "msb" m)
      all_goals rw [getChild_mid (by simp) h1 h2]; rfl
  | offsetWidth =>
    rw [← hty]
    refine use [newNode "bitOffset" (decString br.offset), newNode "bitWidth" (decString br.width)]
      .offsetWidth ?_ ?_ hty.symm
    · unfold encodeBitRange
      rw [hty]
    · refine .offsetWidth ?_ ?_ ?_ ?_ (elementNumber_decString "bitOffset" br.offset)
        (elementNumber_decString "bitWidth" br.width) (by omega)
      all_goals rw [getChild_mid (by simp) h1 h2]; rfl

example : ∃ xs, encodeBitRange true {} { offset := 4, width := 4, rangeType := .bitRange } = .ok xs ∧
    xs = [newNode "bitRange" "[7:4]".toList] := ⟨_, rfl, by decide⟩

/-- Outside of **C09**: a zero-width range at offset zero makes the encoder panic in overflow-checked
builds. -/
theorem C09_zero_width_panic :
    encodeBitRange true {} { offset := 0, width := 0, rangeType := .msbLsb } =
      .error (.panic .overflow) := by decide

end Svd
