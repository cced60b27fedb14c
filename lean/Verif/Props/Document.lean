import Verif.Spec.Document
import Verif.Lemmas.BlameBits
import Verif.Lemmas.Subst
import Verif.Props.Validation
import Verif.Props.Expanded
import Verif.Lemmas.Canon

/-!
# C60: the parser accepts exactly the documents that describe a device, and returns this device
-/

namespace Svd
open Spec Xml

namespace Document

/-! ## Values -/

theorem readsText {x : Xml} {s : Str} : x.getText = .ok s ↔ ReadsText x s := by
  unfold Xml.getText ReadsText
  cases x.textOf with
  | none => simp [fail]
  | some t => simp [trim_iff]

theorem isNumber {w : Nat} (x : Xml) (v : BitVec w) : parseInt w x = .ok v ↔ IsNumber x v := by
  rw [C02_parse_int_iff]
  unfold IsNumber ReadsNumber ReadsText
  constructor
  · rintro ⟨t, l, n, h1, h2, h3, h4, rfl⟩
    exact ⟨l, ⟨t, h1, h2⟩, h3, h4⟩
  · rintro ⟨l, ⟨t, h1, h2⟩, h3, h4⟩
    exact ⟨t, l, _, h1, h2, h3, h4, rfl⟩

theorem isTruth (x : Xml) (b : Bool) : parseBool x = .ok b ↔ IsTruth x b := by
  rw [C03_parse_bool_iff]
  unfold IsTruth ReadsText
  constructor
  · rintro ⟨t, l, h1, h2, h3⟩
    cases h3
    · exact ⟨"0", by simp, t, h1, h2⟩
    · exact ⟨"false", by simp, t, h1, h2⟩
    · exact ⟨"1", by simp, t, h1, h2⟩
    · exact ⟨"true", by simp, t, h1, h2⟩
  · rintro ⟨s, hs, t, h1, h2⟩
    refine ⟨t, _, h1, h2, ?_⟩
    cases b
    · simp only [Bool.false_eq_true, if_false, List.mem_cons, List.not_mem_nil, or_false] at hs
      rcases hs with rfl | rfl
      · exact .false
      · exact .zero
    · simp only [if_true, List.mem_cons, List.not_mem_nil, or_false] at hs
      rcases hs with rfl | rfl
      · exact .true
      · exact .one

theorem isWord {α : Type} {parse : Xml → M α} {parseStr : Str → Option α} {asStr : α → Str}
    {table : List (String × α)} (hk : KeywordType parse parseStr asStr table) (x : Xml) (v : α) :
    parse x = .ok v ↔ IsWord table x v := by
  rw [hk.reads]
  unfold IsWord ReadsText
  constructor
  · rintro ⟨t, n, h1, h2, h3⟩
    exact ⟨n, h3, t, h1, h2⟩
  · rintro ⟨n, h3, t, h1, h2⟩
    exact ⟨t, n, h1, h2, h3⟩

theorem reqElem {α : Type} {p : Xml → M α} {R : Xml → α → Prop} (h : ∀ c a, p c = .ok a ↔ R c a) (x : Xml)
    (k : String) (a : α) : (∃ c, x.getChildElem k = .ok c ∧ p c = .ok a) ↔ ReqChild R x k a := by
  unfold Xml.getChildElem ReqChild
  cases x.getChild k with
  | none => simp [okOr, fail]
  | some c => simp [okOr, h]

theorem reqInt {w : Nat} (x : Xml) (k : String) (v : BitVec w) :
    getChildInt w x k = .ok v ↔ ReqChild IsNumber x k v := by
  unfold getChildInt
  rw [bind_ok]
  exact reqElem isNumber x k v

theorem reqBool (x : Xml) (k : String) (v : Bool) : x.getChildBool k = .ok v ↔ ReqChild IsTruth x k v := by
  unfold Xml.getChildBool
  rw [bind_ok]
  exact reqElem isTruth x k v

theorem opt {α : Type} {p : Xml → M α} {R : Xml → α → Prop} (h : ∀ c a, p c = .ok a ↔ R c a) (x : Xml)
    (k : String) (o : Option α) : Xml.optional k x p = .ok o ↔ OptChild R x k o := by
  unfold Xml.optional
  cases hc : x.getChild k with
  | none =>
    cases o with
    | none => simp [OptChild, hc]
    | some a => simp [OptChild, ReqChild, hc]
  | some c =>
    simp only [bind_ok]
    cases o with
    | none => simp [OptChild, hc]
    | some a => simp [OptChild, ReqChild, hc, h]

theorem textOpt (x : Xml) (k : String) (o : Option Str) : x.getChildTextOpt k = .ok o ↔ OptionalText x k o := by
  unfold Xml.getChildTextOpt
  have hch : ∀ s, ChildText x k s ↔ ∃ c, x.getChild k = some c ∧ c.getText = .ok s := fun s => by
    unfold ChildText
    simp only [readsText]
  cases o <;> simp only [OptionalText, hch] <;> cases x.getChild k with
  | none => simp
  | some c =>
    unfold Xml.getText
    cases ht : c.textOf <;> simp [fail, ht]

theorem text (x : Xml) (k : String) (s : Str) : x.getChildText k = .ok s ↔ ChildText x k s := by
  unfold Xml.getChildText
  rw [bind_ok]
  simp only [textOpt]
  constructor
  · rintro ⟨o, h1, h2⟩
    cases o with
    | none => cases h2
    | some a => cases h2; exact h1
  · intro h
    exact ⟨some s, h, rfl⟩

/-- The text before blank texts are dropped. -/
theorem nonblank {x : Xml} {k : String} {o : Option Str} (h : OptionalText x k o) :
    OptNonblank x k (emptyToNone o) := by
  cases o with
  | none => exact fun s hs => absurd ⟨s, hs⟩ h
  | some s =>
    by_cases hs : s = []
    · subst hs
      intro t ht
      have h1 := (text x k _).mpr h
      have h2 := (text x k _).mpr ht
      rw [h1] at h2
      cases h2
      rfl
    · have : emptyToNone (some s) = some s := by simp [emptyToNone, hs]
      rw [this]
      exact ⟨h, hs⟩

theorem nonblank_inv {x : Xml} {k : String} {r : Option Str} (h : OptNonblank x k r) :
    ∃ o, OptionalText x k o ∧ emptyToNone o = r := by
  cases r with
  | some s => exact ⟨some s, h.1, by simp [emptyToNone, h.2]⟩
  | none =>
    by_cases ht : ∃ s, ChildText x k s
    · obtain ⟨s, hs⟩ := ht
      have := h s hs
      subst this
      exact ⟨some [], hs, rfl⟩
    · exact ⟨none, ht, rfl⟩

theorem built {v : M Unit} {α : Type} {a b : α} : (v >>= fun _ => .ok a) = .ok b ↔ v = .ok () ∧ a = b := by
  rw [bind_ok]
  constructor
  · rintro ⟨⟨⟩, h, h2⟩; cases h2; exact ⟨h, rfl⟩
  · rintro ⟨h, rfl⟩; exact ⟨(), h, rfl⟩

/-! ## Register properties, enumerated values, arrays -/

theorem props_build {b p : RegisterProperties} {lvl : ValidateLevel} :
    b.build lvl = .ok p ↔ b = p ∧ PropsValid p lvl := by
  unfold RegisterProperties.build
  rw [built, C12_reset_value_check]
  constructor
  · rintro ⟨h, rfl⟩; exact ⟨rfl, h⟩
  · rintro ⟨rfl, h⟩; exact ⟨h, rfl⟩

theorem props (cfg : ParseConfig) (x : Xml) (p : RegisterProperties) :
    parseRegisterProperties cfg x = .ok p ↔ PropsSay cfg.validateLevel x p := by
  unfold parseRegisterProperties
  simp only [bind_ok, opt isNumber, opt (isWord C04_access), opt (isWord C04_protection), props_build]
  constructor
  · rintro ⟨_, h1, _, h2, _, h3, _, h4, _, h5, rfl, h6⟩
    exact ⟨h1, h2, h3, h4, h5, h6⟩
  · rintro ⟨h1, h2, h3, h4, h5, h6⟩
    exact ⟨_, h1, _, h2, _, h3, _, h4, _, h5, rfl, h6⟩

theorem isDefault (x : Xml) (o : Option Bool) : okOnly (x.getChildBool "isDefault") = .ok o ↔
    (match o with
      | some b => ReqChild IsTruth x "isDefault" b
      | none => ¬ ∃ b, ReqChild IsTruth x "isDefault" b) := by
  have hp : ∀ f, x.getChildBool "isDefault" = .error f → ∃ e, f = .err e := by
    intro f h
    unfold Xml.getChildBool Xml.getChildElem at h
    rcases bind_error.mp h with h | ⟨c, _, h⟩
    · cases hg : x.getChild "isDefault" with
      | none => rw [hg] at h; cases h; exact ⟨_, rfl⟩
      | some c => rw [hg] at h; cases h
    · unfold parseBool at h
      rcases bind_error.mp h with h | ⟨s, _, h⟩
      · unfold Xml.getText at h
        split at h
        · cases h
        · cases h; exact ⟨_, rfl⟩
      · unfold okOr at h
        split at h
        · cases h
        · cases h; exact ⟨_, rfl⟩
  simp only [← reqBool]
  unfold okOnly
  cases hb : x.getChildBool "isDefault" with
  | ok b => cases o <;> simp
  | error f =>
    obtain ⟨e, rfl⟩ := hp f hb
    cases o <;> simp

theorem enumValue (cfg : ParseConfig) (x : Xml) (e : EnumeratedValue) :
    parseEnumeratedValue cfg x = .ok e ↔ EnumValueSays cfg.validateLevel x e := by
  unfold parseEnumeratedValue
  by_cases ht : x.hasTag "enumeratedValue" = true
  · rw [if_neg (by simp [ht])]
    unfold EnumeratedValueBuilder.build
    simp only [bind_ok, text, textOpt, opt isNumber, isDefault, need, okOr]
    constructor
    · rintro ⟨_, h1, _, h2, _, h3, _, h4, _, h5, ⟨⟩, h6, h7⟩
      cases h5
      cases h7
      exact ⟨ht, h1, nonblank h2, h3, h4, (enumValue_validate _ _).mp h6⟩
    · rintro ⟨_, h1, h2, h3, h4, h5⟩
      obtain ⟨o, ho, he⟩ := nonblank_inv h2
      refine ⟨_, h1, _, ho, _, h3, _, h4, _, rfl, (), ?_⟩
      rw [he]
      exact ⟨(enumValue_validate _ _).mpr h5, rfl⟩
  · rw [if_pos (by simpa using ht)]
    exact ⟨(by intro h; cases h), fun h => absurd h.tag ht⟩

theorem values (cfg : ParseConfig) (skip : List String) (x : Xml) (l : List EnumeratedValue) :
    parseValueList cfg skip x = .ok l ↔ ValuesSay cfg.validateLevel skip x l := by
  unfold parseValueList ValuesSay
  refine pairs_mapM fun c _ e => ?_
  split
  · exact enumValue cfg c e
  · rename_i ht
    exact ⟨(by intro h; cases h), fun h => absurd h.tag ht⟩

theorem enums (cfg : ParseConfig) (x : Xml) (ht : x.hasTag "enumeratedValues" = true) (e : EnumeratedValues) :
    parseEnumeratedValues cfg x = .ok e ↔ EnumsSay cfg.validateLevel x e := by
  unfold parseEnumeratedValues EnumeratedValuesBuilder.build
  rw [if_neg (by simp [ht])]
  simp only [bind_ok, textOpt, opt (isWord C04_usage), values]
  constructor
  · rintro ⟨_, h1, _, h2, _, h3, ⟨⟩, h4, h5⟩
    cases h5
    exact ⟨nonblank h1, h2, rfl, h3, (enums_validate _ _).mp h4⟩
  · rintro ⟨h1, h2, h3, h4, h5⟩
    obtain ⟨o, ho, he⟩ := nonblank_inv h1
    refine ⟨_, ho, _, h2, _, h4, (), ?_⟩
    rw [he, ← h3]
    exact ⟨(enums_validate _ _).mpr h5, rfl⟩

theorem arrayIndex (cfg : ParseConfig) (x : Xml) (a : DimArrayIndex) :
    parseDimArrayIndex cfg x = .ok a ↔ ArrayIndexSays cfg.validateLevel x a := by
  unfold parseDimArrayIndex
  simp only [bind_ok, textOpt, values]
  constructor
  · rintro ⟨_, h1, _, h2, h3⟩
    cases h3
    exact ⟨h1, h2⟩
  · rintro ⟨h1, h2⟩
    exact ⟨_, h1, _, h2, rfl⟩

theorem dimIndex (x : Xml) (l : List Str) : parseDimIndex x = .ok l ↔ ∃ s, ReadsText x s ∧ IndexText s l := by
  unfold parseDimIndex
  simp only [bind_ok, readsText, ← C05_parse_indexes_iff]
  refine exists_congr fun s => and_congr_right fun _ => ?_
  cases DimElement.parseIndexes s <;> simp [okOr, fail]

theorem indexText_ne {s : Str} {l : List Str} (h : IndexText s l) : l ≠ [] := by
  have h := (C05_parse_indexes_iff s l).mpr h
  rintro rfl
  unfold DimElement.parseIndexes at h
  split at h <;> simp_all

theorem dim (cfg : ParseConfig) (x : Xml) (d : DimElement) :
    parseDimElement cfg x = .ok d ↔ DimSays cfg.validateLevel x d := by
  unfold parseDimElement DimElementBuilder.build
  simp only [bind_ok, reqInt, opt dimIndex, textOpt, opt (arrayIndex cfg), need, okOr, DimElement.validate]
  constructor
  · rintro ⟨_, h1, _, h2, i, h3, _, h4, _, h5, _, h6, _, h7, _, _, h8⟩
    cases h6
    cases h7
    cases h8
    have : emptyToNone i = i := by
      cases i with
      | none => rfl
      | some l =>
        obtain ⟨_, _, _, _, h⟩ := h3
        simp [emptyToNone, indexText_ne h]
    refine ⟨h1, h2, ?_, nonblank h4, h5⟩
    show OptChild _ _ _ (emptyToNone i)
    rw [this]
    exact h3
  · rintro ⟨h1, h2, h3, h4, h5⟩
    obtain ⟨o, ho, he⟩ := nonblank_inv h4
    refine ⟨_, h1, _, h2, _, h3, _, ho, _, h5, _, rfl, _, rfl, (), trivial, ?_⟩
    have : emptyToNone d.dimIndex = d.dimIndex := by
      cases hi : d.dimIndex with
      | none => rfl
      | some l =>
        rw [hi] at h3
        obtain ⟨_, _, _, _, h⟩ := h3
        simp [emptyToNone, indexText_ne h]
    rw [this, he]

theorem array {α : Type} {cfg : ParseConfig} {tag : String} {nm : α → Str} {x : Xml} {info : M α}
    {Info : Xml → α → Prop} (hi : x.hasTag tag = true → ∀ a, info = .ok a ↔ Info x a) (m : MaybeArray α) :
    parseArray cfg tag nm x info = .ok m ↔ ArraySays cfg.validateLevel tag Info nm x m := by
  unfold parseArray ArraySays
  by_cases ht : x.hasTag tag = true
  · rw [if_neg (by simp [ht])]
    have hi := hi ht
    cases hd : x.getChild "dimIncrement" with
    | none =>
      simp only [Option.isSome_none, Bool.false_eq_true, if_false, bind_ok]
      constructor
      · rintro ⟨a, h1, h2⟩
        cases h2
        exact ⟨ht, (hi _).mp h1, hd⟩
      · rintro ⟨_, h1, h2⟩
        cases m with
        | single i => exact ⟨i, (hi _).mpr h1, rfl⟩
        | array i d =>
          obtain ⟨⟨_, ⟨c, h, _⟩, _⟩, _⟩ := h2
          rw [hd] at h
          cases h
    | some c =>
      simp only [Option.isSome_some, if_true, bind_ok, dim]
      constructor
      · rintro ⟨a, h1, d, h2, ⟨⟩, h3, h4⟩
        have h3 : ∃ a' b', nm a = a' ++ "%s".toList ++ b' := by
          unfold checkHasPlaceholder at h3
          split at h3
          · rename_i hc; exact (containsSub_iff _ _).mp hc
          · cases h3
        split at h4
        · rename_i l hl
          split at h4
          · cases h4
          · rename_i hn
            cases h4
            refine ⟨ht, (hi _).mp h1, h2, h3, fun l' hl' => ?_⟩
            rw [hl] at hl'
            cases hl'
            omega
        · rename_i hn
          cases h4
          refine ⟨ht, (hi _).mp h1, h2, h3, fun l' hl' => ?_⟩
          rw [hn] at hl'
          cases hl'
      · rintro ⟨_, h1, h2⟩
        cases m with
        | single i =>
          have : x.getChild "dimIncrement" = none := h2
          rw [hd] at this
          cases this
        | array i d =>
          obtain ⟨h2, h3, h4⟩ := h2
          refine ⟨i, (hi _).mpr h1, d, h2, (), ?_, ?_⟩
          · unfold checkHasPlaceholder
            exact if_pos ((containsSub_iff _ _).mpr h3)
          · cases hl : d.dimIndex with
            | none => rfl
            | some l =>
              have := h4 l hl
              show (if d.dim.toNat ≠ l.length then _ else _) = _
              rw [if_neg (by omega)]
  · rw [if_pos (by simpa using ht)]
    exact ⟨(by intro h; cases h), fun h => absurd h.1 ht⟩

/-! ## Fields -/

theorem rangeText {t : Str} {m l : U32} : parseBitRangeText t = .ok (m, l) ↔ RangeText t m.toNat l.toNat := by
  refine ⟨parseBitRangeText_inv, ?_⟩
  rintro ⟨p, q, rest, rfl, hr, hp, hq⟩
  have e : '[' :: (p ++ ':' :: q ++ rest) ++ [']'] = '[' :: ((p ++ ':' :: q ++ rest) ++ [']']) := by simp
  have hs : ∃ r, splitOn ':' (p ++ ':' :: q ++ rest) = p :: q :: r := by
    rw [List.append_assoc, List.cons_append, splitOn_append _ (numeral_no_colon hp.1)]
    rcases hr with rfl | ⟨r', rfl⟩
    · rw [List.append_nil, splitOn_noSep (numeral_no_colon hq.1)]
      exact ⟨_, rfl⟩
    · rw [splitOn_append _ (numeral_no_colon hq.1)]
      exact ⟨_, rfl⟩
  obtain ⟨r, hs⟩ := hs
  unfold parseBitRangeText
  rw [e, isPrefixOf_bracket, ← List.cons_append, isSuffixOf_bracket, List.cons_append, bracket_inner, hs]
  have h1 : fromStrRadix 32 10 p = .ok m := fromStr_dec.mpr ⟨_, hp, by simp⟩
  have h2 : fromStrRadix 32 10 q = .ok l := fromStr_dec.mpr ⟨_, hq, by simp⟩
  simp [h1, h2]

theorem finish {oc : Bool} {m l : U32} {ty : BitRangeType} {b : BitRange} :
    finishBitRange oc m l ty = .ok b ↔ b.offset = l ∧ b.rangeType = ty ∧ l.toNat ≤ m.toNat ∧
      (oc = true → m.toNat - l.toNat + 1 < 2 ^ 32) ∧ b.width.toNat = (m.toNat - l.toNat + 1) % 2 ^ 32 := by
  unfold finishBitRange
  by_cases hlt : l.toNat > m.toNat
  · rw [if_pos hlt]
    constructor
    · intro h; cases h
    · intro h; omega
  · rw [if_neg hlt, subC_le (by omega), ok_bind]
    have hm := m.isLt
    have e1 : (BitVec.ofNat 32 (m.toNat - l.toNat)).toNat = m.toNat - l.toNat := ofNat_toNat' (by omega)
    have e2 : (1 : U32).toNat = 1 := rfl
    by_cases hw : m.toNat - l.toNat + 1 < 2 ^ 32
    · rw [addC_lt (by rw [e1, e2]; exact hw), ok_bind]
      constructor
      · intro h
        cases h
        refine ⟨rfl, rfl, by omega, fun _ => hw, ?_⟩
        show (BitVec.ofNat 32 _).toNat = _
        rw [BitVec.toNat_ofNat, e1, e2]
      · rintro ⟨rfl, rfl, _, _, h⟩
        congr 1
        obtain ⟨o, w, t⟩ := b
        simp only at h ⊢
        congr 1
        apply BitVec.eq_of_toNat_eq
        rw [h, BitVec.toNat_ofNat, e1, e2]
    · have hmx : m.toNat - l.toNat + 1 = 2 ^ 32 := by omega
      unfold addC arith
      rw [e1, e2, if_neg (by omega)]
      cases oc with
      | true =>
        constructor
        · intro h; cases h
        · intro h; exact absurd (h.2.2.2.1 rfl) hw
      | false =>
        constructor
        · intro h
          cases h
          refine ⟨rfl, rfl, by omega, (by intro h; cases h), ?_⟩
          show (_ + _ : U32).toNat = _
          rw [BitVec.toNat_add, e1, e2]
        · rintro ⟨rfl, rfl, _, _, h⟩
          show Except.ok _ = _
          congr 1
          obtain ⟨o, w, t⟩ := b
          simp only at h ⊢
          congr 1
          apply BitVec.eq_of_toNat_eq
          rw [h, BitVec.toNat_add, e1, e2]

theorem mapErr_iff {α : Type} {m : M α} {e : Err} {a : α} : mapErr m e = .ok a ↔ m = .ok a := by
  constructor
  · exact mapErr_ok
  · rintro rfl; rfl

/-- The notation of `bitOffset` and `bitWidth`. -/
theorem offsetWidth (x : Xml) (b : BitRange) :
    (match x.getChild "bitOffset", x.getChild "bitWidth" with
      | some offset, some width => do
        let o ← mapErr (parseInt 32 offset) (.invalidBitRange .parseError)
        let w ← mapErr (parseInt 32 width) (.invalidBitRange .parseError)
        .ok { offset := o, width := w, rangeType := .offsetWidth }
      | _, _ => fail (.invalidBitRange .syntax) : M BitRange) = .ok b ↔
    ReqChild IsNumber x "bitOffset" b.offset ∧ ReqChild IsNumber x "bitWidth" b.width ∧
      b.rangeType = .offsetWidth := by
  unfold ReqChild
  cases ho : x.getChild "bitOffset" with
  | none => simp [fail]
  | some o =>
    cases hw : x.getChild "bitWidth" with
    | none => simp [fail]
    | some w =>
      simp only [bind_ok, mapErr_iff, isNumber]
      constructor
      · rintro ⟨_, h1, _, h2, h3⟩
        cases h3
        exact ⟨⟨_, rfl, h1⟩, ⟨_, rfl, h2⟩, rfl⟩
      · rintro ⟨⟨_, h, h1⟩, ⟨_, h', h2⟩, h3⟩
        cases h
        cases h'
        exact ⟨_, h1, _, h2, by rw [← h3]⟩

theorem bits (oc : Bool) (x : Xml) (b : BitRange) : parseBitRange oc x = .ok b ↔ BitsSay oc x b := by
  unfold parseBitRange
  cases hr : x.getChild "bitRange" with
  | some r =>
    simp only
    cases ht : r.textOf with
    | none =>
      constructor
      · intro h; cases h
      · intro h
        cases h with
        | text h1 h2 => rw [hr] at h1; cases h1; rw [ht] at h2; cases h2
        | elements h1 => rw [hr] at h1; cases h1
        | width h1 => have := h1.1; rw [hr] at this; cases this
    | some t =>
      simp only [bind_ok, Prod.exists, rangeText, finish]
      constructor
      · rintro ⟨m, l, h1, rfl, h3, h4, h5, h6⟩
        exact .text hr ht h1 h4 h5 h6 h3
      · intro h
        cases h with
        | @text r' t' m h1 h2 h3 h4 h5 h6 h7 =>
          rw [hr] at h1; cases h1; rw [ht] at h2; cases h2
          have hm : m < 2 ^ 32 := by
            obtain ⟨_, _, _, _, _, h, _⟩ := h3
            exact h.2
          have e := ofNat_toNat' hm
          refine ⟨BitVec.ofNat 32 m, b.offset, ?_, rfl, h7, ?_, ?_, ?_⟩ <;> rw [e] <;> assumption
        | elements h1 => rw [hr] at h1; cases h1
        | width h1 => have := h1.1; rw [hr] at this; cases this
  | none =>
    simp only
    have key : BitsSay oc x b ↔
        (∃ m : U32, ReqChild IsNumber x "lsb" b.offset ∧ ReqChild IsNumber x "msb" m ∧ b.offset.toNat ≤ m.toNat ∧
          (oc = true → m.toNat - b.offset.toNat + 1 < 2 ^ 32) ∧
          b.width.toNat = (m.toNat - b.offset.toNat + 1) % 2 ^ 32 ∧ b.rangeType = .msbLsb) ∨
        ((x.getChild "lsb" = none ∨ x.getChild "msb" = none) ∧ ReqChild IsNumber x "bitOffset" b.offset ∧
          ReqChild IsNumber x "bitWidth" b.width ∧ b.rangeType = .offsetWidth) := by
      constructor
      · intro h
        cases h with
        | text h1 => rw [hr] at h1; cases h1
        | @elements m h1 h2 h3 h4 h5 h6 h7 => exact .inl ⟨m, h2, h3, h4, h5, h6, h7⟩
        | width h1 h2 h3 h4 => exact .inr ⟨h1.2, h2, h3, h4⟩
      · rintro (⟨m, h2, h3, h4, h5, h6, h7⟩ | ⟨h1, h2, h3, h4⟩)
        · exact .elements hr h2 h3 h4 h5 h6 h7
        · exact .width ⟨hr, h1⟩ h2 h3 h4
    rw [key]
    cases hl : x.getChild "lsb" with
    | some l =>
      cases hm : x.getChild "msb" with
      | some m =>
        simp only [bind_ok, mapErr_iff, isNumber, finish, ReqChild, hl, hm]
        constructor
        · rintro ⟨mv, h1, lv, h2, rfl, h3, h4, h5, h6⟩
          exact .inl ⟨mv, ⟨_, rfl, h2⟩, ⟨_, rfl, h1⟩, h4, h5, h6, h3⟩
        · rintro (⟨mv, ⟨_, h, h2⟩, ⟨_, h', h1⟩, h4, h5, h6, h3⟩ | ⟨h | h, _⟩)
          · cases h
            cases h'
            exact ⟨mv, h1, _, h2, rfl, h3, h4, h5, h6⟩
          · cases h
          · cases h
      | none =>
        refine Iff.trans (offsetWidth x b) ?_
        constructor
        · exact fun h => .inr ⟨.inr rfl, h⟩
        · rintro (⟨_, _, ⟨_, h, _⟩, _⟩ | ⟨_, h⟩)
          · rw [hm] at h; cases h
          · exact h
    | none =>
      refine Iff.trans (offsetWidth x b) ?_
      constructor
      · exact fun h => .inr ⟨.inl rfl, h⟩
      · rintro (⟨_, ⟨_, h, _⟩, _⟩ | ⟨_, h⟩)
        · rw [hl] at h; cases h
        · exact h

theorem onlyChild {x c : Xml} {tag : String} (h : x.children.filter Xml.isElement = [c])
    (ht : c.tag = tag) : x.getChild tag = some c := by
  have hc : c ∈ x.children.filter Xml.isElement := by rw [h]; simp
  have he := List.mem_filter.mp hc
  have ht' : c.hasTag tag = true := by
    cases c with
    | elem t as ks => simpa [Xml.hasTag, Xml.tag] using ht
    | _ => simp [Xml.isElement] at he
  have hs : (x.children.find? (hasTag tag)).isSome := List.find?_isSome.mpr ⟨c, he.1, ht'⟩
  unfold Xml.getChild
  cases hg : x.children.find? (hasTag tag) with
  | none => rw [hg] at hs; cases hs
  | some d =>
    have hd : d ∈ x.children.filter Xml.isElement := by
      refine List.mem_filter.mpr ⟨List.mem_of_find?_eq_some hg, ?_⟩
      have := List.find?_some hg
      cases d <;> first | rfl | simp [Xml.hasTag] at this
    rw [h] at hd
    simpa using hd

theorem constraint (x : Xml) (w : WriteConstraint) : parseWriteConstraint x = .ok w ↔ ConstraintSays x w := by
  unfold parseWriteConstraint ConstraintSays
  cases hf : x.children.filter Xml.isElement with
  | nil => simp [panics]
  | cons c rest =>
    cases rest with
    | cons d rest => simp [fail]
    | nil =>
      have hc := fun tag => onlyChild (tag := tag) hf
      simp only [List.isEmpty_nil, Bool.not_true, Bool.false_eq_true, if_false]
      by_cases h1 : c.tag = "writeAsRead"
      · rw [if_pos h1]
        simp only [bind_ok, reqBool, ReqChild, hc _ h1]
        constructor
        · rintro ⟨b, ⟨_, h, h2⟩, h3⟩
          cases h
          cases h3
          exact ⟨_, rfl, h1, h2⟩
        · rintro ⟨_, h, h2⟩
          cases h
          cases w with
          | writeAsRead b => exact ⟨b, ⟨_, rfl, h2.2⟩, rfl⟩
          | useEnumeratedValues b => exact absurd (h1.symm.trans h2.1) (by decide)
          | range r => exact absurd (h1.symm.trans h2.1) (by decide)
      · rw [if_neg h1]
        by_cases h2 : c.tag = "useEnumeratedValues"
        · rw [if_pos h2]
          simp only [bind_ok, reqBool, ReqChild, hc _ h2]
          constructor
          · rintro ⟨b, ⟨_, h, h3⟩, h4⟩
            cases h
            cases h4
            exact ⟨_, rfl, h2, h3⟩
          · rintro ⟨_, h, h3⟩
            cases h
            cases w with
            | writeAsRead b => exact absurd h3.1 h1
            | useEnumeratedValues b => exact ⟨b, ⟨_, rfl, h3.2⟩, rfl⟩
            | range r => exact absurd (h2.symm.trans h3.1) (by decide)
        · rw [if_neg h2]
          by_cases h3 : c.tag = "range"
          · rw [if_pos h3]
            unfold parseWriteConstraintRange
            simp only [bind_ok, reqInt, Xml.getChildElem, hc _ h3, okOr]
            constructor
            · rintro ⟨_, h, r, ⟨_, h4, _, h5, h6⟩, h7⟩
              cases h
              cases h6
              cases h7
              exact ⟨_, rfl, h3, h4, h5⟩
            · rintro ⟨_, h, h4⟩
              cases h
              cases w with
              | writeAsRead b => exact absurd h4.1 h1
              | useEnumeratedValues b => exact absurd h4.1 h2
              | range r => exact ⟨_, rfl, r, ⟨_, h4.2.1, _, h4.2.2, rfl⟩, rfl⟩
          · rw [if_neg h3]
            constructor
            · intro h; cases h
            · rintro ⟨_, h, h4⟩
              cases h
              cases w with
              | writeAsRead b => exact absurd h4.1 h1
              | useEnumeratedValues b => exact absurd h4.1 h2
              | range r => exact absurd h4.1 h3

theorem unlessSkipped {α : Type} {noEnums : Bool} {m : M α} {d a : α} {P : Prop} (h : m = .ok a ↔ P) :
    (if !noEnums then m else .ok d) = .ok a ↔ (if noEnums then a = d else P) := by
  cases noEnums
  · simpa using h
  · simp [eq_comm]

theorem fieldInfo (oc : Bool) (cfg : ParseConfig) (x : Xml) (ht : x.hasTag "field" = true) (f : FieldInfo) :
    parseFieldInfo oc cfg x = .ok f ↔ FieldSays oc cfg.ignoreEnums cfg.validateLevel x f := by
  unfold parseFieldInfo
  rw [if_neg (by simp [ht])]
  have he : ∀ l, (x.children.filter (hasTag "enumeratedValues")).mapM (parseEnumeratedValues cfg) = .ok l ↔
      Pairs (EnumsSay cfg.validateLevel) (x.children.filter (Xml.hasTag "enumeratedValues")) l := fun l =>
    pairs_mapM fun c hc e => enums cfg c (List.mem_filter.mp hc).2 e
  simp only [bind_ok, bits, text, textOpt, opt (isWord C04_access), opt (isWord C04_modifiedWriteValues),
    opt (isWord C04_readAction), unlessSkipped (opt constraint _ _ _), unlessSkipped (he _)]
  unfold FieldInfoBuilder.build
  simp only [bind_ok, need, okOr, FieldInfoBuilder.setBitRange]
  constructor
  · rintro ⟨_, h1, _, h2, _, h3, _, h4, _, h5, _, h6, _, h7, _, h8, _, h9, _, h10, ⟨⟩, h11, h12⟩
    cases h9
    cases h10
    cases h12
    exact ⟨h2, nonblank h3, h1, h4, h5, h6, h7, h8, rfl, (C13_field_validate _ _).mp h11⟩
  · rintro ⟨h2, h3, h1, h4, h5, h6, h7, h8, h9, h11⟩
    obtain ⟨o, ho, he⟩ := nonblank_inv h3
    refine ⟨_, h1, _, h2, _, ho, _, h4, _, h5, _, h6, _, h7, _, h8, _, rfl, _, rfl, (), ?_⟩
    dsimp only [Option.getD_some]
    rw [he, ← h9]
    exact ⟨(C13_field_validate _ _).mpr h11, rfl⟩

/-! ## Registers and clusters -/

theorem optList {α : Type} {p : Xml → M α} {R : Xml → α → Prop} (h : ∀ c a, p c = .ok a ↔ R c a) (x : Xml)
    (k : String) (o : Option (List α)) :
    (match x.getChild k with
      | some fs => do
        let l ← (fs.children.filter isElement).mapM p
        .ok (some l)
      | none => .ok none : M (Option (List α))) = .ok o ↔ OptList R x k o := by
  have := opt (p := fun c => (c.children.filter isElement).mapM p) (fun _ _ => pairs_mapM fun c _ a => h c a) x k o
  unfold Xml.optional at this
  refine Iff.trans ?_ this
  cases x.getChild k <;> rfl

theorem field (oc : Bool) (cfg : ParseConfig) (x : Xml) (f : Field) : parseField oc cfg x = .ok f ↔
    ArraySays cfg.validateLevel "field" (FieldSays oc cfg.ignoreEnums cfg.validateLevel) FieldInfo.name x f :=
  array (fun ht => fieldInfo oc cfg x ht) f

theorem registerInfo (oc : Bool) (cfg : ParseConfig) (x : Xml) (r : RegisterInfo) :
    parseRegisterInfo oc cfg x = .ok r ↔ RegisterSays oc cfg.ignoreEnums cfg.validateLevel x r := by
  unfold parseRegisterInfo RegisterInfoBuilder.build
  simp only [bind_ok, text, textOpt, reqInt, props, opt (isWord C04_dataType),
    opt (isWord C04_modifiedWriteValues), opt constraint, opt (isWord C04_readAction),
    need, okOr, props_build]
  constructor
  · rintro ⟨_, h1, _, h2, _, h3, _, h4, _, h5, _, h6, _, h7, _, h8, _, h9, _, h10, _, h11, _, h12, _, h13, _, h14,
      _, ⟨rfl, _⟩, ⟨⟩, h15, h16⟩
    cases h13
    cases h14
    cases h16
    exact ⟨h1, h2, h3, h4, h5, h6, h7, h8, h9, h10, h11,
      (optList (field oc cfg) x "fields" _).mp h12, rfl, (register_validate _ _).mp h15⟩
  · rintro ⟨h1, h2, h3, h4, h5, h6, h7, h8, h9, h10, h11, h12, h13, h15⟩
    refine ⟨_, h1, _, h2, _, h3, _, h4, _, h5, _, h6, _, h7, _, h8, _, h9, _, h10, _, h11, _,
      (optList (field oc cfg) x "fields" _).mpr h12, _, rfl, _, rfl, _, ⟨rfl, h7.valid⟩, (), ?_⟩
    rw [← h13]
    exact ⟨(register_validate _ _).mpr h15, rfl⟩

theorem register (oc : Bool) (cfg : ParseConfig) (x : Xml) (r : Register) : parseRegister oc cfg x = .ok r ↔
    ArraySays cfg.validateLevel "register" (RegisterSays oc cfg.ignoreEnums cfg.validateLevel)
      RegisterInfo.name x r :=
  array (fun _ => registerInfo oc cfg x) r

theorem clusterInfo (cfg : ParseConfig) (x : Xml) (kids : M (List RegisterCluster)) (c : ClusterInfo) :
    parseClusterInfoWith cfg x kids = .ok c ↔ ClusterSays cfg.validateLevel x c.toClusterHead ∧
      kids = .ok c.children ∧ ClusterValid c cfg.validateLevel := by
  unfold parseClusterInfoWith ClusterInfoBuilder.build
  simp only [bind_ok, text, textOpt, reqInt, props, need, okOr, props_build]
  constructor
  · rintro ⟨_, h1, _, h2, _, h3, _, h4, _, h5, _, h6, _, h7, _, h8, _, h9, _, ⟨rfl, _⟩, _, h10, ⟨⟩, h11, h12⟩
    cases h8
    cases h9
    cases h10
    cases h12
    exact ⟨⟨h1, nonblank h2, nonblank h3, nonblank h4, h5, h6, rfl⟩, h7, (cluster_validate _ _).mp h11⟩
  · rintro ⟨⟨h1, h2, h3, h4, h5, h6, h8⟩, h7, h11⟩
    obtain ⟨o2, h2, e2⟩ := nonblank_inv h2
    obtain ⟨o3, h3, e3⟩ := nonblank_inv h3
    obtain ⟨o4, h4, e4⟩ := nonblank_inv h4
    refine ⟨_, h1, _, h2, _, h3, _, h4, _, h5, _, h6, _, h7, _, rfl, _, rfl, _, ⟨rfl, h6.valid⟩, _, rfl, (), ?_⟩
    rw [e2, e3, e4, ← h8]
    exact ⟨(cluster_validate _ _).mpr h11, rfl⟩

theorem treeSays_tag {oc noEnums : Bool} {lvl : ValidateLevel} {x : Xml} {n : RegisterCluster}
    (h : TreeSays oc noEnums lvl x n) : x.hasTag "register" = true ∨ x.hasTag "cluster" = true := by
  cases h with
  | register h => exact .inl h.1
  | cluster => exact .inr rfl

mutual
theorem tree (oc : Bool) (cfg : ParseConfig) : (x : Xml) → ∀ n, parseRegisterCluster oc cfg x = .ok n ↔
    TreeSays oc cfg.ignoreEnums cfg.validateLevel x n
  | .elem tag attrs ks => by
    have ih := kids oc cfg ks
    intro n
    unfold parseRegisterCluster
    by_cases h1 : tag = "register"
    · rw [if_pos h1]
      simp only [bind_ok, register]
      constructor
      · rintro ⟨_, h, h2⟩
        cases h2
        exact .register h
      · intro h
        cases h with
        | register h => exact ⟨_, h, rfl⟩
        | cluster => exact absurd h1 (by decide)
    · rw [if_neg h1]
      by_cases h2 : tag = "cluster"
      · subst h2
        rw [if_pos rfl]
        have harr := array (cfg := cfg) (tag := "cluster") (nm := fun c : ClusterInfo => c.name)
          (x := .elem "cluster" attrs ks) (Info := fun x c => ClusterSays cfg.validateLevel x c.toClusterHead ∧
            parseClusterKids oc cfg ks = .ok c.children ∧ ClusterValid c cfg.validateLevel)
          fun _ a => clusterInfo cfg (.elem "cluster" attrs ks) (parseClusterKids oc cfg ks) a
        simp only [bind_ok, harr]
        constructor
        · rintro ⟨c, ⟨_, ⟨h3, h4, h5⟩, h6⟩, h7⟩
          cases h7
          cases c with
          | single i => exact .cluster h3 h6 ((ih _).mp h4) h5
          | array i d => exact .cluster h3 h6 ((ih _).mp h4) h5
        · intro h
          cases h with
          | register h => have := h.1; simp [Xml.hasTag] at this
          | @cluster _ _ h d cs h3 h4 h5 h6 =>
            cases d with
            | none => exact ⟨.single { h with children := cs }, ⟨rfl, ⟨h3, (ih _).mpr h5, h6⟩, h4⟩, rfl⟩
            | some d => exact ⟨.array { h with children := cs } d, ⟨rfl, ⟨h3, (ih _).mpr h5, h6⟩, h4⟩, rfl⟩
      · rw [if_neg h2]
        constructor
        · intro h; cases h
        · intro h
          have := treeSays_tag h
          simp [Xml.hasTag, h1, h2] at this
  | .text _ => fun n => by
    constructor
    · intro h; unfold parseRegisterCluster at h; cases h
    · intro h; have := treeSays_tag h; simp [Xml.hasTag] at this
  | .other => fun n => by
    constructor
    · intro h; unfold parseRegisterCluster at h; cases h
    · intro h; have := treeSays_tag h; simp [Xml.hasTag] at this
theorem kids (oc : Bool) (cfg : ParseConfig) : (l : List Xml) → ∀ ns, parseClusterKids oc cfg l = .ok ns ↔
    KidsSay oc cfg.ignoreEnums cfg.validateLevel l ns
  | [] => fun ns => by
    unfold parseClusterKids
    constructor
    · intro h; cases h; exact .nil
    · intro h; cases h; rfl
  | x :: xs => by
    have ihx := tree oc cfg x
    have ih := kids oc cfg xs
    intro ns
    unfold parseClusterKids
    by_cases ht : (x.hasTag "register" || x.hasTag "cluster") = true
    · rw [if_pos ht]
      simp only [bind_ok]
      constructor
      · rintro ⟨a, h1, r, h2, h3⟩
        cases h3
        exact .cons ((ihx _).mp h1) ((ih _).mp h2)
      · intro h
        cases h with
        | skip h1 h2 => simp [h1, h2] at ht
        | cons h1 h2 => exact ⟨_, (ihx _).mpr h1, _, (ih _).mpr h2, rfl⟩
    · rw [if_neg ht, ih]
      simp only [Bool.or_eq_true, not_or, Bool.not_eq_true] at ht
      constructor
      · exact fun h => .skip ht.1 ht.2 h
      · intro h
        cases h with
        | skip _ _ h => exact h
        | cons h _ =>
          have := treeSays_tag h
          simp [ht.1, ht.2] at this
end

/-! ## Peripherals and devices -/

theorem addressBlock (cfg : ParseConfig) (x : Xml) (a : AddressBlock) :
    parseAddressBlock cfg x = .ok a ↔ AddressBlockSays x a := by
  have hu : ∀ v, (∃ c, x.getChildElem "usage" = .ok c ∧ parseAddressBlockUsage c = .ok v) ↔ _ :=
    reqElem (isWord C04_addressBlockUsage) x "usage"
  unfold parseAddressBlock AddressBlockBuilder.build
  simp only [bind_ok, reqInt, opt (isWord C04_protection), need, okOr, AddressBlock.validate]
  constructor
  · rintro ⟨_, h1, _, h2, c, h3, _, h4, _, h5, _, h6, _, h7, _, h8, _, _, h9⟩
    cases h6
    cases h7
    cases h8
    cases h9
    exact ⟨h1, h2, (hu _).mp ⟨c, h3, h4⟩, h5⟩
  · rintro ⟨h1, h2, h3, h4⟩
    obtain ⟨c, h5, h6⟩ := (hu _).mpr h3
    exact ⟨_, h1, _, h2, c, h5, _, h6, _, h4, _, rfl, _, rfl, _, rfl, (), trivial, rfl⟩

theorem interrupt (cfg : ParseConfig) (x : Xml) (ht : x.hasTag "interrupt" = true) (i : Interrupt) :
    parseInterrupt cfg x = .ok i ↔ InterruptSays x i := by
  unfold parseInterrupt InterruptBuilder.build
  rw [if_neg (by simp [ht])]
  simp only [bind_ok, text, textOpt, reqInt, need, okOr, Interrupt.validate]
  constructor
  · rintro ⟨_, h1, _, h2, _, h3, _, h4, _, h5, _, _, h6⟩
    cases h4
    cases h5
    cases h6
    exact ⟨h1, h2, h3⟩
  · rintro ⟨h1, h2, h3⟩
    exact ⟨_, h1, _, h2, _, h3, _, rfl, _, rfl, (), trivial, rfl⟩

theorem peripheralInfo (oc : Bool) (cfg : ParseConfig) (x : Xml) (ht : x.hasTag "peripheral" = true)
    (p : PeripheralInfo) :
    parsePeripheralInfo oc cfg x = .ok p ↔ PeripheralSays oc cfg.ignoreEnums cfg.validateLevel x p := by
  unfold parsePeripheralInfo PeripheralInfoBuilder.build
  rw [if_neg (by simp [ht])]
  have ha : ∀ l, (x.children.filter (hasTag "addressBlock")).mapM (parseAddressBlock cfg) = .ok l ↔
      Pairs AddressBlockSays (x.children.filter (Xml.hasTag "addressBlock")) l := fun l =>
    pairs_mapM fun c _ e => addressBlock cfg c e
  have hi : ∀ l, (x.children.filter (hasTag "interrupt")).mapM (parseInterrupt cfg) = .ok l ↔
      Pairs InterruptSays (x.children.filter (Xml.hasTag "interrupt")) l := fun l =>
    pairs_mapM fun c hc e => interrupt cfg c (List.mem_filter.mp hc).2 e
  simp only [bind_ok, text, textOpt, reqInt, props, ha, hi, need, okOr, props_build]
  constructor
  · rintro ⟨_, h1, _, h2, _, h3, _, h4, _, h5, _, h6, _, h7, _, h8, _, h9, _, h10, _, h11, l, h12, _, h13, _, h14,
      _, h15, _, h16, _, ⟨rfl, _⟩, ⟨⟩, h17, h18⟩
    cases h15
    cases h16
    cases h18
    refine ⟨h1, nonblank h2, nonblank h3, nonblank h4, nonblank h5, nonblank h6, nonblank h7, nonblank h8,
      nonblank h9, h10, h11, ?_, h13, (optList (tree oc cfg) x "registers" _).mp h14, rfl, (peripheral_validate _ _).mp h17⟩
    cases l with
    | nil =>
      cases hl : x.children.filter (Xml.hasTag "addressBlock") with
      | nil => rfl
      | cons a r => rw [hl] at h12; cases h12
    | cons a r => exact ⟨by simp, h12⟩
  · rintro ⟨h1, h2, h3, h4, h5, h6, h7, h8, h9, h10, h11, h12, h13, h14, h15, h17⟩
    obtain ⟨o2, h2, e2⟩ := nonblank_inv h2
    obtain ⟨o3, h3, e3⟩ := nonblank_inv h3
    obtain ⟨o4, h4, e4⟩ := nonblank_inv h4
    obtain ⟨o5, h5, e5⟩ := nonblank_inv h5
    obtain ⟨o6, h6, e6⟩ := nonblank_inv h6
    obtain ⟨o7, h7, e7⟩ := nonblank_inv h7
    obtain ⟨o8, h8, e8⟩ := nonblank_inv h8
    obtain ⟨o9, h9, e9⟩ := nonblank_inv h9
    have h12 : ∃ l, Pairs AddressBlockSays (x.children.filter (Xml.hasTag "addressBlock")) l ∧
        (if l.isEmpty then none else some l) = p.addressBlock := by
      cases hp : p.addressBlock with
      | none =>
        rw [hp] at h12
        exact ⟨[], by rw [h12]; exact .nil, rfl⟩
      | some l =>
        rw [hp] at h12
        exact ⟨l, h12.2, by simp [h12.1]⟩
    obtain ⟨l, h12, e12⟩ := h12
    refine ⟨_, h1, _, h2, _, h3, _, h4, _, h5, _, h6, _, h7, _, h8, _, h9, _, h10, _, h11, l, h12, _, h13, _,
      (optList (tree oc cfg) x "registers" _).mpr h14, _, rfl, _, rfl, _, ⟨rfl, h11.valid⟩, (), ?_⟩
    dsimp only [Option.getD_some]
    rw [e2, e3, e4, e5, e6, e7, e8, e9, e12, ← h15]
    exact ⟨(peripheral_validate _ _).mpr h17, rfl⟩

theorem peripheral (oc : Bool) (cfg : ParseConfig) (x : Xml) (p : Peripheral) : parsePeripheral oc cfg x = .ok p ↔
    ArraySays cfg.validateLevel "peripheral" (PeripheralSays oc cfg.ignoreEnums cfg.validateLevel)
      PeripheralInfo.name x p :=
  array (fun ht => peripheralInfo oc cfg x ht) p

theorem cpu (cfg : ParseConfig) (x : Xml) (ht : x.hasTag "cpu" = true) (c : Cpu) :
    parseCpu cfg x = .ok c ↔ CpuSays x c := by
  have hu : ∀ v, (∃ c, x.getChildElem "endian" = .ok c ∧ parseEndian c = .ok v) ↔ _ :=
    reqElem (isWord C04_endian) x "endian"
  unfold parseCpu CpuBuilder.build
  rw [if_neg (by simp [ht])]
  simp only [bind_ok, text, reqInt, reqBool, opt isTruth, opt isNumber, need, okOr, Cpu.validate]
  constructor
  · rintro ⟨_, h1, _, h2, c, h3, _, h4, _, h5, _, h6, _, h7, _, h8, _, h9, _, h10, _, h11, _, h12, _, h13, _, h14,
      _, h15, _, h16, _, h17, _, k1, _, k2, _, k3, _, k4, _, k5, _, k6, _, k7, _, _, k8⟩
    cases k1
    cases k2
    cases k3
    cases k4
    cases k5
    cases k6
    cases k7
    cases k8
    exact ⟨h1, h2, (hu _).mp ⟨c, h3, h4⟩, h5, h6, h7, h8, h9, h10, h11, h12, h13, h14, h15, h16, h17⟩
  · rintro ⟨h1, h2, h3, h5, h6, h7, h8, h9, h10, h11, h12, h13, h14, h15, h16, h17⟩
    obtain ⟨c, h3, h4⟩ := (hu _).mpr h3
    exact ⟨_, h1, _, h2, c, h3, _, h4, _, h5, _, h6, _, h7, _, h8, _, h9, _, h10, _, h11, _, h12, _, h13, _, h14,
      _, h15, _, h16, _, h17, _, rfl, _, rfl, _, rfl, _, rfl, _, rfl, _, rfl, _, rfl, (), trivial, rfl⟩

theorem orDflt {α : Type} {lvl : ValidateLevel} {P : Option α → Prop} {o : Option α} {d a : α} {s : String}
    (h : P o) (hn : need (orDefault o lvl d) s = .ok a) : OrDefault lvl d P a := by
  cases o with
  | some b => cases lvl <;> · cases hn; exact .inl h
  | none =>
    cases lvl with
    | strict => cases hn
    | weak => cases hn; exact .inr ⟨h, by decide, rfl⟩
    | disabled => cases hn; exact .inr ⟨h, by decide, rfl⟩

theorem orDflt_inv {α : Type} {lvl : ValidateLevel} {P : Option α → Prop} {d a : α} (s : String)
    (h : OrDefault lvl d P a) : ∃ o, P o ∧ need (orDefault o lvl d) s = .ok a := by
  rcases h with h | ⟨h, hl, rfl⟩
  · exact ⟨_, h, by cases lvl <;> rfl⟩
  · exact ⟨_, h, by cases lvl <;> first | rfl | exact absurd rfl hl⟩

theorem optTagged {α : Type} {p : Xml → M α} {R : Xml → α → Prop} {x : Xml} {k : String}
    (h : ∀ c a, c.hasTag k = true → (p c = .ok a ↔ R c a)) (o : Option α) :
    Xml.optional k x p = .ok o ↔ OptChild R x k o := by
  unfold Xml.optional
  cases hc : x.getChild k with
  | none =>
    cases o with
    | none => simp [OptChild, hc]
    | some a => simp [OptChild, ReqChild, hc]
  | some c =>
    simp only [bind_ok]
    cases o with
    | none => simp [OptChild, hc]
    | some a => simp [OptChild, ReqChild, hc, h c _ (getChild_hasTag hc)]

theorem device (oc : Bool) (cfg : ParseConfig) (x : Xml) (d : Device) :
    parseDevice oc cfg x = .ok d ↔ DeviceSays oc cfg.ignoreEnums cfg.validateLevel x d := by
  unfold parseDevice
  by_cases ht : x.hasTag "device" = true
  · rw [if_neg (by simp [ht])]
    have hp : ∀ l, (∃ c, x.getChildElem "peripherals" = .ok c ∧
        (c.children.filter isElement).mapM (parsePeripheral oc cfg) = .ok l) ↔ _ :=
      reqElem (fun c l => pairs_mapM (l' := l) fun p _ a => peripheral oc cfg p a) x "peripherals"
    unfold DeviceBuilder.build
    simp only [bind_ok, text, textOpt, optTagged (fun c a h => cpu cfg c h a), opt isNumber, props, props_build]
    constructor
    · rintro ⟨_, h1, _, h2, _, h3, _, h4, _, h5, _, h6, _, h7, _, h8, _, h9, c, h10, _, h11, _, h12, _, h13, _, h14,
        _, h15, _, k1, _, k2, _, k3, _, k4, _, k5, _, ⟨rfl, _⟩, _, k6, ⟨⟩, k7, k8⟩
      cases k1
      cases k6
      cases k8
      refine ⟨ht, h1, h2, h3, h4, orDflt h12 k2, orDflt (P := OptionalText x "description") h13 k3, h5, h6, h7, h8,
        orDflt (P := OptChild IsNumber x "addressUnitBits") h14 k4, orDflt (P := OptChild IsNumber x "width") h15 k5,
        h9, (hp _).mp ⟨c, h10, h11⟩, rfl, rfl, ?_, (device_validate _ _).mp k7⟩
      cases x.attr "xmlns:xs" <;> cases x.attr "xs:noNamespaceSchemaLocation" <;> rfl
    · rintro ⟨_, h1, h2, h3, h4, h12, h13, h5, h6, h7, h8, h14, h15, h9, h10, e1, e2, e3, k7⟩
      obtain ⟨o12, h12, k2⟩ := orDflt_inv "version" h12
      obtain ⟨o13, h13, k3⟩ := orDflt_inv "description" h13
      obtain ⟨o14, h14, k4⟩ := orDflt_inv "addressUnitBits" h14
      obtain ⟨o15, h15, k5⟩ := orDflt_inv "width" h15
      obtain ⟨c, h10, h11⟩ := (hp _).mpr h10
      refine ⟨_, h1, _, h2, _, h3, _, h4, _, h5, _, h6, _, h7, _, h8, _, h9, c, h10, _, h11, _, h12, _, h13, _, h14,
        _, h15, _, rfl, _, k2, _, k3, _, k4, _, k5, _, ⟨rfl, h9.valid⟩, _, rfl, (), ?_⟩
      have e3 : (if (x.attr "xmlns:xs").isSome then x.attr "xs:noNamespaceSchemaLocation" else none).getD
          defaultNoNamespaceSchemaLocation = d.noNamespaceSchemaLocation := by
        rw [e3]
        cases x.attr "xmlns:xs" <;> cases x.attr "xs:noNamespaceSchemaLocation" <;> rfl
      have e1 : (x.attr "schemaVersion").getD defaultSchemaVersion = d.schemaVersion := e1.symm
      have e2 : (x.attr "xmlns:xs").getD defaultXmlnsXs = d.xmlnsXs := e2.symm
      rw [e1, e2, e3]
      exact ⟨(device_validate _ _).mpr k7, rfl⟩
  · rw [if_pos (by simpa using ht)]
    exact ⟨(by intro h; cases h), fun h => absurd h.tag ht⟩

end Document

/-- **C60.** Reading an element as a device succeeds with `d` exactly when the element describes `d`. -/
theorem C60_device (oc : Bool) (cfg : ParseConfig) (x : Xml) (d : Device) :
    parseDevice oc cfg x = .ok d ↔ DeviceSays oc cfg.ignoreEnums cfg.validateLevel x d :=
  Document.device oc cfg x d

/-- **C60.** Reading a document succeeds with `d` exactly when the first device element on its top level
describes `d`. -/
theorem C60_document (oc : Bool) (cfg : ParseConfig) (top : List Xml) (d : Device) :
    parseDocument oc cfg top = .ok d ↔
      ∃ before x after, top = before ++ x :: after ∧ (∀ y ∈ before, y.hasTag "device" = false) ∧
        DeviceSays oc cfg.ignoreEnums cfg.validateLevel x d := by
  unfold parseDocument
  simp only [bind_ok, C60_device]
  constructor
  · rintro ⟨x, h1, h2⟩
    cases hf : top.find? (hasTag "device") with
    | none => rw [hf] at h1; cases h1
    | some y =>
      rw [hf] at h1
      cases h1
      obtain ⟨_, before, after, h3, h4⟩ := List.find?_eq_some_iff_append.mp hf
      exact ⟨before, x, after, h3, fun y hy => by simpa using h4 y hy, h2⟩
  · rintro ⟨before, x, after, rfl, h1, h2⟩
    refine ⟨x, ?_, h2⟩
    have : (before ++ x :: after).find? (hasTag "device") = some x :=
      List.find?_eq_some_iff_append.mpr ⟨h2.tag, before, after, rfl, fun y hy => by simp [h1 y hy]⟩
    rw [this]
    rfl

/-- **C60.** An element describes at most one device. -/
theorem C60_unique {oc noEnums : Bool} {lvl : ValidateLevel} {x : Xml} {d d' : Device}
    (h : DeviceSays oc noEnums lvl x d) (h' : DeviceSays oc noEnums lvl x d') : d = d' := by
  have h := (C60_device oc { validateLevel := lvl, ignoreEnums := noEnums } x d).mpr h
  have h' := (C60_device oc { validateLevel := lvl, ignoreEnums := noEnums } x d').mpr h'
  rw [h] at h'
  cases h'
  rfl

namespace DocumentExample

def text (tag s : String) : Xml := .elem tag [] [.text s.toList]

/-- An array of registers with `n` names, inside a cluster; elements nobody knows are skipped. -/
def doc (names : String) : List Xml :=
  [.other, .elem "device" [("schemaVersion", "1.3".toList)] [text "width" "0x20", text "name" " DEV ",
    .elem "peripherals" [] [.text "\n".toList,
    .elem "peripheral" [] [text "baseAddress" "#1xx", text "name" "GPIO", text "version" "",
      .elem "registers" [] [
        .elem "cluster" [("derivedFrom", "P".toList)] [text "name" "PORT", text "unknown" "?", text "addressOffset" "8",
          .elem "register" [] [text "name" "CTRL%s", text "addressOffset" "0", text "dim" "2",
            text "dimIncrement" "4", text "dimIndex" names, text "size" "16",
            .elem "fields" [] [.elem "field" [] [text "name" "EN", text "lsb" "3", text "msb" "5",
              text "access" "read-only"]]]]]]]]]

def cfg : ParseConfig := { validateLevel := .weak }

def field : FieldInfo :=
  { name := "EN".toList, description := none, bitRange := ⟨3, 3, .msbLsb⟩, access := some .readOnly,
    modifiedWriteValues := none, writeConstraint := none, readAction := none, enumeratedValues := [],
    derivedFrom := none }

def expected : Device :=
  { vendor := none, vendorId := none, name := "DEV".toList, series := none, version := "1.0".toList,
    description := [], licenseText := none, cpu := none, headerSystemFilename := none,
    headerDefinitionsPrefix := none, addressUnitBits := 8, width := 32, defaultRegisterProperties := {},
    xmlnsXs := "http://www.w3.org/2001/XMLSchema-instance".toList,
    noNamespaceSchemaLocation := "CMSIS-SVD_Schema_1_1.xsd".toList, schemaVersion := "1.3".toList,
    peripherals := [.single
      { name := "GPIO".toList, displayName := none, version := none, description := none,
        alternatePeripheral := none, groupName := none, prependToName := none, appendToName := none,
        headerStructName := none, baseAddress := 4, defaultRegisterProperties := {}, addressBlock := none,
        interrupt := [], derivedFrom := none, registers := some [.cluster
          { name := "PORT".toList, description := none, alternateCluster := none, headerStructName := none,
            addressOffset := 8, defaultRegisterProperties := {}, derivedFrom := some "P".toList } none
          [.register (.array
            { name := "CTRL%s".toList, displayName := none, description := none, alternateGroup := none,
              alternateRegister := none, addressOffset := 0, properties := { size := some 16 }, datatype := none,
              modifiedWriteValues := none, writeConstraint := none, readAction := none,
              fields := some [.single field], derivedFrom := none }
            { dim := 2, dimIncrement := 4, dimIndex := some ["A".toList, "B".toList], dimName := none,
              dimArrayIndex := none })]] }] }

example : parseDocument true cfg (doc "A,B") = .ok expected := by decide +kernel

/-- The document describes this device. -/
example : ∃ x, x ∈ doc "A,B" ∧ DeviceSays true false .weak x expected := by
  obtain ⟨b, x, a, h, _, hx⟩ := (C60_document true cfg (doc "A,B") expected).mp (by decide +kernel)
  exact ⟨x, by rw [h]; simp, hx⟩

/-- With three names for two registers it describes none. -/
example : ∀ d, parseDocument true cfg (doc "A,B,C") ≠ .ok d := by
  have : parseDocument true cfg (doc "A,B,C") = fail (.incorrectDimIndexesCount 2 3) := by decide +kernel
  intro d h
  rw [this] at h
  cases h

end DocumentExample

end Svd
