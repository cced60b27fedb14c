import Verif.Model.Encode
import Verif.Model.Parse
import Verif.Spec.Dim
import Verif.Spec.Str
import Verif.Spec.Read
import Verif.Lemmas.Num
import Verif.Lemmas.Str
import Verif.Lemmas.Split
import Verif.Lemmas.Except
import Verif.Lemmas.Arith

/-!
# C05, C06, C07: array indexes
-/

namespace Svd

open Spec Xml

theorem rangeIncl_eq (a b : Nat) : rangeIncl a b = List.range' a (b + 1 - a) := by
  unfold rangeIncl; rw [List.range'_eq_map_range]

theorem numeral_no_minus {s : Str} {n : Nat} (h : Numeral (IsDigit 10) 10 s n) : '-' ∉ s := by
  intro hm
  cases h with
  | plain h => obtain ⟨d, hd⟩ := positional_mem h _ hm; exact not_isDigit_minus hd
  | plus h =>
    rcases List.mem_cons.mp hm with e | hm
    · revert e; decide
    · obtain ⟨d, hd⟩ := positional_mem h _ hm; exact not_isDigit_minus hd

theorem fromStr_dec {s : Str} {v : U32} :
    fromStrRadix 32 10 s = .ok v ↔ ∃ n, DecNumber s n ∧ v = BitVec.ofNat 32 n := by
  rw [fromStrRadix_ok (by decide)]
  simp only [DecNumber, and_assoc]

/-! ## C05 -/

/-- **C05.** A `dimIndex` text is accepted with a list exactly when it is an index text standing for
that list. -/
theorem C05_parse_indexes_iff (text : Str) (l : List Str) :
    DimElement.parseIndexes text = some l ↔ IndexText text l := by
  have raw : DimElement.parseIndexes text = some l ↔
      DimElement.parseIndexesRaw text = some l ∧ l ≠ [] := by
    unfold DimElement.parseIndexes
    cases DimElement.parseIndexesRaw text with
    | none => simp
    | some v =>
      cases v with
      | nil => simp
      | cons a r => simp; rintro rfl; simp
  rw [raw]
  constructor
  · rintro ⟨h, hne⟩
    unfold DimElement.parseIndexesRaw at h
    split at h
    · split at h
      · cases h
      · rename_i start stop hs
        obtain ⟨rfl, hns⟩ := splitOnce_some.mp hs
        split at h
        · rename_i a b ha hb
          injection h with h; subst h
          obtain ⟨m, hm, rfl⟩ := fromStr_dec.mp ha
          obtain ⟨n, hn, rfl⟩ := fromStr_dec.mp hb
          have e1 : (BitVec.ofNat 32 m).toNat = m := by simp [Nat.mod_eq_of_lt hm.2]
          have e2 : (BitVec.ofNat 32 n).toNat = n := by simp [Nat.mod_eq_of_lt hn.2]
          rw [e1, e2, rangeIncl_eq] at hne ⊢
          refine .numbers hm hn ?_
          refine Classical.byContradiction fun hc => hne ?_
          have : n + 1 - m = 0 := by omega
          rw [this]; rfl
        · split at h
          · rename_i a b _ _
            split at h
            · rename_i hc
              injection h with h; subst h
              rw [rangeIncl_eq] at hne ⊢
              have hle : a.toNat ≤ b.toNat := by
                refine Classical.byContradiction fun hc => hne ?_
                have : b.toNat + 1 - a.toNat = 0 := by omega
                rw [this]; rfl
              refine .letters ?_ hle
              simp only [isAsciiLower, isAsciiUpper, Bool.or_eq_true, Bool.and_eq_true,
                decide_eq_true_eq] at hc
              rcases hc with hc | hc
              · exact .inl ⟨hc.1.1, hc.2.2⟩
              · exact .inr ⟨hc.1.1, hc.2.2⟩
            · cases h
          · cases h
    · rename_i hd
      injection h with h
      obtain ⟨h1, h2, h3⟩ := splitOn_iff.mp h
      subst h2
      refine .list h1 fun p hp => ⟨?_, h3 p hp⟩
      intro hm
      apply hd
      exact List.contains_iff_mem.mpr (mem_joinWith_of_mem hp hm)
  · intro h
    cases h with
    | @numbers s t m n hm hn hle =>
      have hc : (s ++ '-' :: t).contains '-' = true := by simp
      have hs : splitOnce '-' (s ++ '-' :: t) = some (s, t) :=
        splitOnce_some.mpr ⟨rfl, numeral_no_minus hm.1⟩
      have h1 := fromStr_dec.mpr ⟨m, hm, rfl⟩
      have h2 := fromStr_dec.mpr ⟨n, hn, rfl⟩
      have e1 : (BitVec.ofNat 32 m).toNat = m := by simp [Nat.mod_eq_of_lt hm.2]
      have e2 : (BitVec.ofNat 32 n).toNat = n := by simp [Nat.mod_eq_of_lt hn.2]
      refine ⟨?_, ?_⟩
      · unfold DimElement.parseIndexesRaw
        rw [if_pos hc, hs]
        simp only [h1, h2, e1, e2, rangeIncl_eq]
        rfl
      · have : n + 1 - m = (n - m) + 1 := by omega
        rw [this]; simp [decimalRange, List.range'_succ]
    | @letters a b hc hle =>
      have ha : a ≠ '-' := by
        rintro rfl
        have h1 : '-'.toNat = 45 := rfl
        have h2 : 'a'.toNat = 97 := rfl
        have h3 : 'A'.toNat = 65 := rfl
        omega
      have hnum : ∀ (c : Char) v, (97 ≤ c.toNat ∧ c.toNat ≤ 122) ∨ (65 ≤ c.toNat ∧ c.toNat ≤ 90) →
          fromStrRadix 32 10 [c] ≠ .ok v := by
        intro c v hc h
        obtain ⟨n, ⟨hn, _⟩, _⟩ := fromStr_dec.mp h
        have hcp : c ≠ '+' := by
          rintro rfl
          have : '+'.toNat = 43 := rfl
          omega
        have : ∃ d, IsDigit 10 c d := by
          cases hn with
          | plain h => exact positional_mem h c (by simp)
          | plus h => exact absurd rfl hcp
        obtain ⟨d, hd⟩ := this
        have h1 := hd.1
        rw [digitValue_eq] at h1
        have h2 := hd.2
        split at h1
        · omega
        · split at h1
          · injection h1; omega
          · split at h1
            · injection h1; omega
            · cases h1
      have e1 : 'a'.toNat = 97 := rfl
      have e2 : 'z'.toNat = 122 := rfl
      have e3 : 'A'.toNat = 65 := rfl
      have e4 : 'Z'.toNat = 90 := rfl
      refine ⟨?_, ?_⟩
      · unfold DimElement.parseIndexesRaw
        have hs : splitOnce '-' [a, '-', b] = some ([a], [b]) :=
          splitOnce_some.mpr ⟨rfl, by simpa using Ne.symm ha⟩
        rw [if_pos (by simp), hs]
        split
        · rename_i h; cases h
        · rename_i h
          injection h with h; injection h with h1 h2; subst h1; subst h2
          split
          · exact absurd ‹_› (hnum a _ (by omega))
          · simp only []
            rw [if_pos]
            · simp [rangeIncl_eq]
            simp only [isAsciiLower, isAsciiUpper, Bool.or_eq_true, Bool.and_eq_true,
              decide_eq_true_eq]
            omega
      · have : b.toNat + 1 - a.toNat = (b.toNat - a.toNat) + 1 := by omega
        rw [this]; simp [List.range'_succ]
    | list hne hp =>
      refine ⟨?_, hne⟩
      unfold DimElement.parseIndexesRaw
      rw [if_neg, splitOn_join hne (fun p h => (hp p h).2)]
      rw [List.contains_iff_mem]
      intro hm
      rcases mem_joinWith hm with h | ⟨p, h1, h2⟩
      · revert h; decide
      · exact (hp p h1).1 h2

example : IndexText "3-6".toList ["3".toList, "4".toList, "5".toList, "6".toList] :=
  (C05_parse_indexes_iff _ _).mp (by decide)

/-- **C05** at the level of the element: read exactly when the trimmed text is an index text. -/
theorem C05_parse_dim_index_iff (t : Xml) (l : List Str) :
    parseDimIndex t = .ok l ↔
      ∃ text lit, t.textOf = some text ∧ IsTrimmed text lit ∧ IndexText lit l := by
  unfold parseDimIndex getText
  cases ht : t.textOf with
  | none =>
    constructor
    · intro h; simp [fail, bind, Except.bind] at h
    · rintro ⟨_, _, h, _⟩; cases h
  | some text =>
    simp only [Option.some.injEq, exists_and_left, exists_eq_left', ← trim_iff,
      ← C05_parse_indexes_iff]
    simp only [bind, Except.bind]
    cases DimElement.parseIndexes (trim text) <;> simp [okOr, fail]

example : ∃ text lit, (newNode "dimIndex" " A,B ".toList).textOf = some text ∧ IsTrimmed text lit ∧
    IndexText lit ["A".toList, "B".toList] := (C05_parse_dim_index_iff _ _).mp (by decide)

/-- **C05**: never an empty list. -/
theorem C05_nonempty {text : Str} {l : List Str} (h : DimElement.parseIndexes text = some l) :
    l ≠ [] := by
  cases (C05_parse_indexes_iff text l).mp h with
  | @numbers s t m n _ _ hle =>
    have : n + 1 - m = (n - m) + 1 := by omega
    rw [this]; simp [decimalRange, List.range'_succ]
  | @letters a b _ hle =>
    have : b.toNat + 1 - a.toNat = (b.toNat - a.toNat) + 1 := by omega
    rw [this]; simp [List.range'_succ]
  | list h' _ => exact h'

example : DimElement.parseIndexes "3-6".toList =
    some ["3".toList, "4".toList, "5".toList, "6".toList] := by decide
example : DimElement.parseIndexes "B-D".toList = some ["B".toList, "C".toList, "D".toList] := by
  decide
example : DimElement.parseIndexes "x,,7".toList = some ["x".toList, [], "7".toList] := by decide
example : DimElement.parseIndexes "6-3".toList = none ∧ DimElement.parseIndexes "a-D".toList = none ∧
    DimElement.parseIndexes "1-2-3".toList = none := by decide

/-! ## C07 -/

theorem decString_inj {w : Nat} {a b : BitVec w} (h : decString a = decString b) : a = b := by
  have := fromStrRadix_decString a
  rw [h, fromStrRadix_decString b] at this
  injection this with this; exact this.symm

theorem collectInts_some {d : DimElement} {is : List Nat} {vs : List U32} :
    d.collectInts is = .ok (some vs) ↔ is.map d.indexAt = vs.map fun v => .ok (decString v) := by
  induction is generalizing vs with
  | nil => cases vs <;> simp [DimElement.collectInts]
  | cons i is ih =>
    unfold DimElement.collectInts
    rw [bind_ok]
    constructor
    · rintro ⟨idx, h1, h2⟩
      split at h2
      · cases h2
      · rename_i val hv
        split at h2
        · cases h2
        · rename_i hval
          simp only [Classical.not_not] at hval
          obtain ⟨r, h3, h4⟩ := bind_ok.mp h2
          split at h4
          · cases h4
          · injection h4 with h4; injection h4 with h4; subst h4
            simp [h1, hval, ih.mp h3]
    · intro h
      cases vs with
      | nil => simp at h
      | cons v vs =>
        simp only [List.map_cons, List.cons.injEq] at h
        refine ⟨decString v, h.1, ?_⟩
        rw [fromStrRadix_decString]
        simp only [ne_eq, not_true_eq_false, if_false]
        exact bind_ok.mpr ⟨some vs, ih.mpr h.2, rfl⟩

/-- The indexes the iterator delivers. -/
theorem indexAt_range {d : DimElement} {l : List Str} (hl : l.length = d.dim.toNat) :
    (List.range d.dim.toNat).map d.indexAt = l.map .ok ↔ (indexList d).take d.dim.toNat = l := by
  unfold indexList DimElement.indexAt
  cases hd : d.dimIndex with
  | none =>
    have : (List.map (fun i => (Except.ok (Nat.toDigits 10 i) : M Str)) (List.range d.dim.toNat)) =
        (decimalRange 0 d.dim.toNat).map .ok := by
      simp [decimalRange, List.range_eq_range', decimal]
    have e : ∀ i, (d.indexAt i) = Except.ok (Nat.toDigits 10 i) := by
      intro i; simp [DimElement.indexAt, hd]
    simp only []
    rw [this]
    have e2 : (decimalRange 0 d.dim.toNat).take d.dim.toNat = decimalRange 0 d.dim.toNat :=
      List.take_of_length_le (by simp [decimalRange])
    rw [e2]
    constructor
    · intro h
      exact (List.map_inj_right (fun a b h => by injection h)).mp h
    · rintro rfl; rfl
  | some l' =>
    simp only []
    constructor
    · intro h
      apply List.ext_getElem?
      intro i
      have := congrArg (·[i]?) h
      simp only [List.getElem?_map] at this
      by_cases hi : i < d.dim.toNat
      · rw [List.getElem?_take_of_lt hi]
        have hil : i < l.length := by omega
        rw [List.getElem?_range hi] at this
        simp only [Option.map_some, List.getElem?_eq_getElem hil, Option.some.injEq] at this
        rw [List.getElem?_eq_getElem hil]
        split at this
        · injection this with this; rw [← this]; assumption
        · cases this
      · rw [List.getElem?_eq_none (by simp; omega), List.getElem?_eq_none (by omega)]
    · intro h
      apply List.ext_getElem?
      intro i
      by_cases hi : i < d.dim.toNat
      · have := congrArg (·[i]?) h
        simp only [List.getElem?_take_of_lt hi] at this
        have hil : i < l.length := by omega
        rw [List.getElem?_eq_getElem hil] at this
        simp [List.getElem?_range hi, List.getElem?_eq_getElem hil, this]
      · rw [List.getElem?_eq_none (by simp; omega), List.getElem?_eq_none (by simp; omega)]

theorem zip_all_eq {l m : List Nat} (hl : l.length = m.length) :
    (l.zip m).all (fun p => p.1 == p.2) = true ↔ l = m := by
  induction l generalizing m with
  | nil => cases m <;> simp_all
  | cons a l ih =>
    cases m with
    | nil => simp at hl
    | cons b m =>
      simp only [List.length_cons, Nat.add_right_cancel_iff] at hl
      simp only [List.zip_cons_cons, List.all_cons, Bool.and_eq_true, beq_iff_eq, ih hl,
        List.cons.injEq]

theorem map_toNat_range' {first count : Nat} {vs : List U32}
    (h : vs.map (fun v => (decString v)) = decimalRange first count)
    (hlt : first + count ≤ 2 ^ 32) : vs.map BitVec.toNat = List.range' first count := by
  have e : decimalRange first count =
      ((List.range' first count).map (BitVec.ofNat 32)).map fun v => decString v := by
    unfold decimalRange
    rw [List.map_map]
    apply List.map_congr_left
    intro n hn
    rw [List.mem_range'_1] at hn
    have : n < 2 ^ 32 := by omega
    simp [decimal, decString, Nat.mod_eq_of_lt this]
  rw [e] at h
  rw [(List.map_inj_right (fun a b h => decString_inj h)).mp h, List.map_map]
  apply List.ext_getElem (by simp)
  intro i h1 h2
  simp only [List.length_map, List.length_range'] at h1
  simp only [List.getElem_map, List.getElem_range', Function.comp_apply, BitVec.toNat_ofNat]
  rw [Nat.mod_eq_of_lt (by omega)]

/-- **C07.** The compact range `a..=b` is offered exactly when the array has an element and its
indexes are the canonical numerals of `a, ..., b` in this order; with and without overflow checks. -/
theorem C07_range_iff (oc : Bool) (d : DimElement) (a b : U32) :
    d.indexesAsRange oc = .ok (some (a, b)) ↔ IsIndexRange d a.toNat b.toNat := by
  unfold DimElement.indexesAsRange
  rw [bind_ok]
  constructor
  · rintro ⟨o, h1, h2⟩
    cases o with
    | none => cases h2
    | some vs =>
      simp only [] at h2
      rw [collectInts_some] at h1
      have hlen : vs.length = d.dim.toNat := by
        have := congrArg List.length h1; simpa using this.symm
      have htake : (indexList d).take d.dim.toNat = vs.map fun v => decString v := by
        rw [← indexAt_range (by simpa using hlen), h1, List.map_map]; rfl
      split at h2
      · rename_i mn mx hmn hmx
        rw [List.min?_eq_some_iff] at hmn
        rw [List.max?_eq_some_iff] at hmx
        have hle : mn ≤ mx := hmn.2 _ hmx.1
        have hmx2 : mx < 2 ^ 32 := by
          obtain ⟨v, _, rfl⟩ := List.mem_map.mp hmx.1; exact v.isLt
        have hpos : 0 < d.dim.toNat := by
          rw [← hlen]
          refine List.length_pos_iff.mpr ?_
          rintro rfl; simp at hmx
        have t1 : (BitVec.ofNat 32 mx).toNat = mx := by simp; omega
        have t2 : (BitVec.ofNat 32 mn).toNat = mn := by simp; omega
        rw [subC_le (by rw [t1, t2]; exact hle)] at h2
        rw [ok_bind, t1, t2] at h2
        by_cases hfit : mx - mn + 1 < 2 ^ 32
        · have t3 : (BitVec.ofNat 32 (mx - mn)).toNat = mx - mn := by simp; omega
          have t4 : (1 : U32).toNat = 1 := rfl
          rw [addC_lt (by rw [t3, t4]; exact hfit), ok_bind, t3, t4] at h2
          split at h2
          · cases h2
          · rename_i hdim
            simp only [Classical.not_not] at hdim
            have hdim' : mx - mn + 1 = d.dim.toNat := by
              have := congrArg BitVec.toNat hdim
              simpa [Nat.mod_eq_of_lt hfit] using this
            split at h2
            · rename_i hall
              injection h2 with h2; injection h2 with h2; injection h2 with ha hb
              subst ha; subst hb
              rw [t1, t2]
              refine ⟨hpos, by omega, ?_⟩
              have hz : vs.map BitVec.toNat = rangeIncl mn mx := by
                have hl : (vs.map BitVec.toNat).length = (rangeIncl mn mx).length := by
                  rw [List.length_map, hlen, rangeIncl_eq, List.length_range']; omega
                rw [← zip_all_eq hl, List.zip_map_left, List.all_map]
                exact hall
              rw [htake]
              have : (fun v : U32 => decString v) = decimal ∘ BitVec.toNat := rfl
              rw [this, ← List.map_map, hz, rangeIncl_eq]
              unfold decimalRange
              congr 2
              omega
            · cases h2
        · exfalso
          have hmn0 : mn = 0 := by omega
          have hmx0 : mx = 2 ^ 32 - 1 := by omega
          subst hmn0; subst hmx0
          unfold addC arith at h2
          rw [if_neg (by decide)] at h2
          cases oc
          · simp only [Bool.false_eq_true, if_false, ok_bind] at h2
            split at h2
            · cases h2
            · rename_i hdim
              simp only [Classical.not_not] at hdim
              rw [← hdim] at hpos
              revert hpos; decide
          · cases h2
      · cases h2
  · rintro ⟨hpos, hsum, htake⟩
    have hb := b.isLt
    have e : decimalRange a.toNat d.dim.toNat =
        ((List.range' a.toNat d.dim.toNat).map (BitVec.ofNat 32)).map fun v => decString v := by
      unfold decimalRange
      rw [List.map_map]
      apply List.map_congr_left
      intro n hn
      rw [List.mem_range'_1] at hn
      have : n < 2 ^ 32 := by omega
      simp [decimal, decString, Nat.mod_eq_of_lt this]
    generalize hvs : (List.range' a.toNat d.dim.toNat).map (BitVec.ofNat 32) = vs at e
    have hnat := map_toNat_range' e.symm (by omega)
    have hlen : vs.length = d.dim.toNat := by rw [← hvs]; simp
    refine ⟨some vs, ?_, ?_⟩
    · rw [collectInts_some, (indexAt_range (l := vs.map fun v => decString v) (by simpa using hlen)).mpr
        (by rw [htake, e]), List.map_map]
      rfl
    · simp only [hnat]
      have hmin : (List.range' a.toNat d.dim.toNat).min? = some a.toNat := by
        rw [List.min?_eq_some_iff]
        refine ⟨by rw [List.mem_range'_1]; omega, fun n hn => ?_⟩
        rw [List.mem_range'_1] at hn; omega
      have hmax : (List.range' a.toNat d.dim.toNat).max? = some b.toNat := by
        rw [List.max?_eq_some_iff]
        refine ⟨by rw [List.mem_range'_1]; omega, fun n hn => ?_⟩
        rw [List.mem_range'_1] at hn; omega
      rw [hmin, hmax]
      simp only [BitVec.ofNat_toNat, BitVec.setWidth_eq]
      have hdl := d.dim.isLt
      have t3 : (BitVec.ofNat 32 (b.toNat - a.toNat)).toNat = b.toNat - a.toNat := by simp; omega
      have t4 : (1 : U32).toNat = 1 := rfl
      rw [subC_le (by omega), ok_bind, addC_lt (by rw [t3, t4]; omega), ok_bind, t3, t4]
      rw [if_neg, if_pos]
      · have hz : vs.map BitVec.toNat = rangeIncl a.toNat b.toNat := by
          rw [hnat, rangeIncl_eq]; congr 1; omega
        have hl : (vs.map BitVec.toNat).length = (rangeIncl a.toNat b.toNat).length := by rw [hz]
        have := (zip_all_eq hl).mpr hz
        rw [List.zip_map_left, List.all_map] at this
        exact this
      · simp only [Classical.not_not]
        apply BitVec.eq_of_toNat_eq
        simp; omega

example : IsIndexRange ⟨3, 4, some ["7".toList, "8".toList, "9".toList], none, none⟩ 7 9 :=
  (C07_range_iff true _ 7 9).mp (by decide)

theorem collectInts_total {d : DimElement} {is : List Nat} (h : ∀ i ∈ is, ∃ s, d.indexAt i = .ok s) :
    ∃ r, d.collectInts is = .ok r := by
  induction is with
  | nil => exact ⟨_, rfl⟩
  | cons i is ih =>
    obtain ⟨s, hs⟩ := h i (by simp)
    obtain ⟨r, hr⟩ := ih fun i hi => h i (by simp [hi])
    unfold DimElement.collectInts
    rw [hs, ok_bind]
    split
    · exact ⟨_, rfl⟩
    · split
      · exact ⟨_, rfl⟩
      · rw [hr, ok_bind]; cases r <;> exact ⟨_, rfl⟩

/-- **C07**, outcomes: if the list has (at least) as many entries as the array, the only failure is the
overflow panic, in overflow-checked builds, when both `0` and `4294967295` are indexes. -/
theorem C07_outcomes (oc : Bool) (d : DimElement)
    (hlen : ∀ l, d.dimIndex = some l → d.dim.toNat ≤ l.length) :
    (∃ r, d.indexesAsRange oc = .ok r) ∨
      (oc = true ∧ d.indexesAsRange oc = .error (.panic .overflow) ∧
        "0".toList ∈ indexList d ∧ "4294967295".toList ∈ indexList d) := by
  have htot : ∀ i ∈ List.range d.dim.toNat, ∃ s, d.indexAt i = .ok s := by
    intro i hi
    rw [List.mem_range] at hi
    unfold DimElement.indexAt
    cases hd : d.dimIndex with
    | none => exact ⟨_, rfl⟩
    | some l =>
      have := hlen l hd
      simp only []
      rw [List.getElem?_eq_getElem (by omega)]
      exact ⟨_, rfl⟩
  obtain ⟨o, ho⟩ := collectInts_total htot
  unfold DimElement.indexesAsRange
  rw [ho, ok_bind]
  cases o with
  | none => exact .inl ⟨_, rfl⟩
  | some vs =>
    have h1 := collectInts_some.mp ho
    have hlenv : vs.length = d.dim.toNat := by
      have := congrArg List.length h1; simpa using this.symm
    have htake : (indexList d).take d.dim.toNat = vs.map fun v => decString v := by
      rw [← indexAt_range (by simpa using hlenv), h1, List.map_map]; rfl
    simp only []
    split
    · rename_i mn mx hmn hmx
      rw [List.min?_eq_some_iff] at hmn
      rw [List.max?_eq_some_iff] at hmx
      have hle : mn ≤ mx := hmn.2 _ hmx.1
      obtain ⟨v1, hv1, rfl⟩ := List.mem_map.mp hmx.1
      obtain ⟨v2, hv2, rfl⟩ := List.mem_map.mp hmn.1
      simp only [BitVec.ofNat_toNat, BitVec.setWidth_eq]
      rw [subC_le hle, ok_bind]
      have t4 : (1 : U32).toNat = 1 := rfl
      have hl1 := v1.isLt
      have t3 : (BitVec.ofNat 32 (v1.toNat - v2.toNat)).toNat = v1.toNat - v2.toNat := by
        simp; omega
      by_cases hfit : v1.toNat - v2.toNat + 1 < 2 ^ 32
      · rw [addC_lt (by rw [t3, t4]; exact hfit), ok_bind]
        left
        split
        · exact ⟨_, rfl⟩
        · split <;> exact ⟨_, rfl⟩
      · have e2 : v2 = 0 := by apply BitVec.eq_of_toNat_eq; simp; omega
        have e1 : v1 = 4294967295 := by apply BitVec.eq_of_toNat_eq; simp; omega
        unfold addC arith
        rw [if_neg (by rw [t3, t4]; exact hfit)]
        cases oc
        · left
          simp only [Bool.false_eq_true, if_false, ok_bind]
          split
          · exact ⟨_, rfl⟩
          · split <;> exact ⟨_, rfl⟩
        · right
          refine ⟨rfl, rfl, ?_, ?_⟩
          · have : "0".toList ∈ (indexList d).take d.dim.toNat := by
              rw [htake, List.mem_map]; exact ⟨v2, hv2, by rw [e2]; decide⟩
            exact List.mem_of_mem_take this
          · have : "4294967295".toList ∈ (indexList d).take d.dim.toNat := by
              rw [htake, List.mem_map]; exact ⟨v1, hv1, by rw [e1]; decide⟩
            exact List.mem_of_mem_take this
    · exact .inl ⟨_, rfl⟩

example : ∃ r, DimElement.indexesAsRange true ⟨2, 4, some ["7".toList, "x".toList], none, none⟩ = .ok r :=
  (C07_outcomes true ⟨2, 4, some ["7".toList, "x".toList], none, none⟩ (by rintro l ⟨⟩; decide)).resolve_right
    fun h => absurd h.2.2.1 (by decide)

/-- The panic is real: a two-element array indexed by the smallest and the largest number. -/
theorem C07_overflow_panic :
    DimElement.indexesAsRange true
      { dim := 2, dimIncrement := 4, dimIndex := some ["0".toList, "4294967295".toList],
        dimName := none, dimArrayIndex := none } = .error (.panic .overflow) := by decide

example : IsIndexRange
    { dim := 3, dimIncrement := 4, dimIndex := some ["7".toList, "8".toList, "9".toList],
      dimName := none, dimArrayIndex := none } 7 9 := by
  refine ⟨by decide, by decide, by decide⟩
example : DimElement.indexesAsRange true
      { dim := 3, dimIncrement := 4, dimIndex := some ["7".toList, "08".toList, "9".toList],
        dimName := none, dimArrayIndex := none } = .ok none := by decide

/-! ## C06 -/

/-- Canonical numerals are decimal numbers. -/
theorem decNumber_decString (v : U32) : DecNumber (decString v) v.toNat :=
  ⟨.plain (positional_toDigits (by decide) (by decide) _), v.isLt⟩

/-- **C06**, text level: whichever notation the encoder chooses for an explicit index list, the text
is read back as the same list. -/
theorem C06_dim_index_text_round_trip (oc : Bool) (d : DimElement) (l : List Str)
    (hd : d.dimIndex = some l) (hlen : l.length = d.dim.toNat) (hne : l ≠ [])
    (hl : ∀ p ∈ l, '-' ∉ p ∧ ',' ∉ p) (text : Str) (h : dimIndexText oc d l = .ok text) :
    DimElement.parseIndexes text = some l := by
  rw [C05_parse_indexes_iff]
  unfold dimIndexText at h
  obtain ⟨r, h1, h2⟩ := bind_ok.mp h
  split at h2
  · rename_i a b
    injection h2 with h2; subst h2
    obtain ⟨hpos, hsum, htake⟩ := (C07_range_iff oc d a b).mp h1
    have e : l = decimalRange a.toNat d.dim.toNat := by
      rw [← htake, indexList, hd]
      simp only []
      rw [List.take_of_length_le (by omega)]
    rw [e]
    have : d.dim.toNat = b.toNat + 1 - a.toNat := by omega
    rw [this, List.append_assoc]
    exact .numbers (decNumber_decString a) (decNumber_decString b) (by omega)
  · injection h2 with h2; subst h2
    exact .list hne hl

example : DimElement.parseIndexes "7-9".toList = some ["7".toList, "8".toList, "9".toList] :=
  C06_dim_index_text_round_trip true ⟨3, 4, some ["7".toList, "8".toList, "9".toList], none, none⟩ _ rfl rfl
    (by simp) (by decide) _ (by decide)

theorem joinWith_head {l : List Str} (h : OuterClean l) (c : Char) (hc : (joinWith [','] l).head? = some c) :
    isWhitespace c = false := by
  match l with
  | [] => simp [joinWith] at hc
  | [p] => exact h.1 p rfl c hc
  | [] :: q :: r =>
    rw [joinWith_cons (by simp)] at hc
    have : c = ',' := by simpa using hc.symm
    rw [this]; decide
  | (x :: xs) :: q :: r =>
    rw [joinWith_cons (by simp)] at hc
    exact h.1 _ rfl c hc

theorem joinWith_last {l : List Str}
    (h : ∀ p, l.getLast? = some p → ∀ c, p.getLast? = some c → isWhitespace c = false)
    (c : Char) (hc : (joinWith [','] l).getLast? = some c) : isWhitespace c = false := by
  induction l with
  | nil => simp [joinWith] at hc
  | cons p l ih =>
    cases l with
    | nil => exact h p rfl c hc
    | cons q r =>
      rw [joinWith_cons (by simp), List.getLast?_append] at hc
      cases e : (joinWith [','] (q :: r)).getLast? with
      | none =>
        rw [e] at hc
        have : c = ',' := by simpa using hc.symm
        rw [this]; decide
      | some c' =>
        rw [e] at hc
        injection hc with hc; subst hc
        exact ih (fun p' hp' => h p' (by rw [List.getLast?_cons_cons]; exact hp')) e

/-- **C06.** The `dimIndex` element the encoder writes is read back as the same list, provided the
list has no whitespace at its ends (the reader trims) and is not empty (the XML reader
returns no text). -/
theorem C06_dim_index_round_trip (oc : Bool) (d : DimElement) (l : List Str)
    (hd : d.dimIndex = some l) (hlen : l.length = d.dim.toNat) (hne : l ≠ [])
    (hne' : l ≠ [[]]) (hl : ∀ p ∈ l, '-' ∉ p ∧ ',' ∉ p) (hw : OuterClean l)
    (hov : ¬ ("0".toList ∈ l ∧ "4294967295".toList ∈ l)) :
    ∃ x, encodeDimIndex oc d = .ok [x] ∧ x.hasTag "dimIndex" = true ∧ asRead x = x ∧
      parseDimIndex x = .ok l := by
  have hix : indexList d = l := by simp [indexList, hd]
  obtain ⟨r, hr⟩ : ∃ r, d.indexesAsRange oc = .ok r := by
    rcases C07_outcomes oc d (fun l' h => by rw [hd] at h; injection h with h; subst h; omega) with
      h | ⟨_, _, h⟩
    · exact h
    · rw [hix] at h; exact absurd h hov
  obtain ⟨text, htext⟩ : ∃ text, dimIndexText oc d l = .ok text := by
    unfold dimIndexText
    rw [hr, ok_bind]
    cases r <;> exact ⟨_, rfl⟩
  have hparse := C06_dim_index_text_round_trip oc d l hd hlen hne hl text htext
  have htext0 : text ≠ [] := by
    rintro rfl
    exact hne' (Option.some.inj (hparse.symm.trans (by decide)))
  refine ⟨newNode "dimIndex" text, ?_, rfl, ?_, ?_⟩
  · unfold encodeDimIndex; rw [hd]; simp only []; rw [htext]; rfl
  · cases text with
    | nil => exact absurd rfl htext0
    | cons c cs => rfl
  · rw [C05_parse_dim_index_iff]
    refine ⟨text, text, rfl, ?_, (C05_parse_indexes_iff _ _).mp hparse⟩
    unfold dimIndexText at htext
    rw [hr, ok_bind] at htext
    split at htext
    · injection htext with htext; subst htext
      refine trim_iff.mp (trim_eq_self_of_all ?_)
      intro c hc
      simp only [List.mem_append] at hc
      rcases hc with (hc | hc) | hc
      · exact decString_not_ws _ c hc
      · revert c; decide
      · exact decString_not_ws _ c hc
    · injection htext with htext; subst htext
      exact ⟨[], [], by simp, by simp, by simp, joinWith_head hw, joinWith_last hw.2⟩

example : ∃ x, encodeDimIndex true ⟨2, 4, some ["A b".toList, "".toList], none, none⟩ = .ok [x] ∧
    parseDimIndex x = .ok ["A b".toList, "".toList] :=
  let ⟨x, h, _, _, h'⟩ := C06_dim_index_round_trip true ⟨2, 4, some ["A b".toList, "".toList], none, none⟩ _ rfl rfl
    (by simp) (by simp) (by decide) (by unfold OuterClean; decide) (by decide)
  ⟨x, h, h'⟩

/-- The conditions of **C06** are needed: an entry with a dash is not read back. -/
theorem C06_dash_entry_lost :
    let d : DimElement := { dim := 2, dimIncrement := 4, dimIndex := some ["A-1".toList, "B".toList],
                            dimName := none, dimArrayIndex := none }
    ∃ text, dimIndexText true d ["A-1".toList, "B".toList] = .ok text ∧
      DimElement.parseIndexes text = none :=
  ⟨"A-1,B".toList, by decide, by decide⟩

/-- Nor is a single empty entry: the element is written without text. -/
theorem C06_empty_entry_lost :
    ∃ x, encodeDimIndex true { dim := 1, dimIncrement := 4, dimIndex := some [[]], dimName := none,
                               dimArrayIndex := none } = .ok [x] ∧
      parseDimIndex (asRead x) = .error (.err (.emptyTag "dimIndex")) :=
  ⟨newNode "dimIndex" [], by decide, by decide⟩

example : dimIndexText true
    { dim := 3, dimIncrement := 4, dimIndex := some ["7".toList, "8".toList, "9".toList],
      dimName := none, dimArrayIndex := none } ["7".toList, "8".toList, "9".toList] =
    .ok "7-9".toList := by decide
example : dimIndexText true
    { dim := 3, dimIncrement := 4, dimIndex := some ["7".toList, "9".toList, "8".toList],
      dimName := none, dimArrayIndex := none } ["7".toList, "9".toList, "8".toList] =
    .ok "7,9,8".toList := by decide

end Svd
