import Verif.Lemmas.Blame
import Verif.Props.ParseTotal

/-! # What the errors of bit ranges say -/

namespace Svd

open Spec

theorem rangeText_ok {t : Str} {m l : Nat} (h : RangeText t m l) : ∃ p, parseBitRangeText t = .ok p := by
  obtain ⟨p, q, rest, rfl, h3, h4, h5⟩ := h
  unfold parseBitRangeText
  rw [isSuffixOf_bracket, List.cons_append, isPrefixOf_bracket, bracket_inner]
  have hs : ∃ tl, splitOn ':' (p ++ ':' :: q ++ rest) = p :: q :: tl := by
    rw [List.append_assoc, List.cons_append, splitOn_append _ (numeral_no_colon h4.1)]
    rcases h3 with rfl | ⟨r', rfl⟩
    · rw [List.append_nil, splitOn_noSep (numeral_no_colon h5.1)]; exact ⟨_, rfl⟩
    · rw [splitOn_append _ (numeral_no_colon h5.1)]; exact ⟨_, rfl⟩
  obtain ⟨tl, hs⟩ := hs
  rw [hs]
  simp only [fromStr_dec.mpr ⟨_, h4, rfl⟩, fromStr_dec.mpr ⟨_, h5, rfl⟩]
  exact ⟨_, rfl⟩

theorem bracket_cases {t : Str} (h1 : "[".toList.isPrefixOf t = true) (h2 : "]".toList.isSuffixOf t = true) :
    ∃ i, t = '[' :: i ++ [']'] := by
  rw [List.isPrefixOf_iff_prefix] at h1
  rw [List.isSuffixOf_iff_suffix] at h2
  obtain ⟨a, rfl⟩ := h1
  obtain ⟨b, hb⟩ := h2
  have e1 : "[".toList = ['['] := by decide
  have e2 : "]".toList = [']'] := by decide
  rw [e1, e2] at hb
  rw [e1]
  cases b with
  | nil =>
    rw [List.nil_append, List.singleton_append] at hb
    injection hb with hb
    exact absurd hb (by decide)
  | cons c b =>
    rw [List.cons_append, List.singleton_append] at hb
    injection hb with _ hb
    exact ⟨b, by rw [← hb]; rfl⟩

theorem bitRangeText_err {t : Str} {e : Err} (h : parseBitRangeText t = .error (.err e)) :
    (e = .invalidBitRange .syntax ∧ ¬ ∃ p q, t = '[' :: (p ++ ':' :: q) ++ [']']) ∨
      (e = .invalidBitRange .parseError ∧ (∃ i, t = '[' :: i ++ [']']) ∧ ¬ ∃ m l, RangeText t m l) := by
  have hn : ¬ ∃ m l, RangeText t m l := by
    rintro ⟨m, l, hr⟩
    obtain ⟨p, hp⟩ := rangeText_ok hr
    rw [hp] at h; cases h
  unfold parseBitRangeText at h
  split at h
  · rename_i hb
    cases h
    refine .inl ⟨rfl, ?_⟩
    rintro ⟨p, q, rfl⟩
    rw [List.cons_append, isPrefixOf_bracket] at hb
    cases hb
  · rename_i hb
    split at h
    · rename_i hb'
      cases h
      refine .inl ⟨rfl, ?_⟩
      rintro ⟨p, q, rfl⟩
      rw [isSuffixOf_bracket] at hb'
      cases hb'
    · rename_i hb'
      obtain ⟨i, rfl⟩ := bracket_cases (by simpa using hb) (by simpa using hb')
      rw [List.cons_append, bracket_inner] at h
      split at h
      · rename_i hs; exact absurd hs (splitOn_ne_nil _ _)
      · rename_i p ps hs
        split at h
        · cases h; exact .inr ⟨rfl, ⟨i, rfl⟩, hn⟩
        · split at h
          · cases h
            refine .inl ⟨rfl, ?_⟩
            rintro ⟨a, b, he⟩
            have he : i = a ++ ':' :: b := by
              injection he with _ he
              exact List.append_cancel_right he
            have hm : ':' ∉ p := splitOn_mem (by rw [hs]; simp)
            have hj := join_splitOn ':' i
            rw [hs] at hj
            have hj : p = i := hj
            rw [hj, he] at hm
            simp at hm
          · split at h
            · cases h; exact .inr ⟨rfl, ⟨i, rfl⟩, hn⟩
            · cases h

theorem mapErr_ok {α : Type} {m : M α} {e : Err} {a : α} (h : mapErr m e = .ok a) : m = .ok a := by
  unfold mapErr at h
  split at h
  · cases h; rfl
  · cases h
  · cases h

theorem mapErr_err {α : Type} {m : M α} {e e' : Err} (h : mapErr m e = .error (.err e')) :
    e' = e ∧ ∃ f, m = .error (.err f) := by
  unfold mapErr at h
  split at h
  · cases h
  · cases h; exact ⟨rfl, _, rfl⟩
  · rename_i hne
    cases h
    exact absurd rfl (hne _)

theorem readsNumber_iff {w : Nat} {x : Xml} {v : BitVec w} (h : Xml.parseInt w x = .ok v) :
    ReadsNumber w x v.toNat := by
  obtain ⟨t, s, m, h1, h2, h3, h4, h5⟩ := (C02_parse_int_iff w x v).mp h
  exact ⟨s, ⟨t, h1, h2⟩, h5 ▸ h3, h5 ▸ h4⟩

theorem readsNumber_not {w : Nat} {x : Xml} {f : Fault} (h : Xml.parseInt w x = .error f) :
    ¬ ∃ v, ReadsNumber w x v := by
  rintro ⟨v, s, ⟨t, h1, h2⟩, h3, h4⟩
  have := (C02_parse_int_iff w x (BitVec.ofNat w v)).mpr
    ⟨t, s, v, h1, h2, h3, h4, by simp [Nat.mod_eq_of_lt h4]⟩
  rw [this] at h; cases h

theorem finishBitRange_err {oc : Bool} {m l : U32} {ty : BitRangeType} {e : Err}
    (h : finishBitRange oc m l ty = .error (.err e)) : e = .invalidBitRange .size ∧ m.toNat < l.toNat := by
  unfold finishBitRange at h
  split at h
  · cases h; exact ⟨rfl, by assumption⟩
  · rcases bind_error.mp h with h | ⟨d, _, h⟩
    · unfold subC arith at h
      split at h
      · cases h
      · split at h <;> cases h
    · rcases bind_error.mp h with h | ⟨d, _, h⟩
      · unfold addC arith at h
        split at h
        · cases h
        · split at h <;> cases h
      · cases h

theorem finishBitRange_width {oc : Bool} {m l : U32} {ty : BitRangeType} {b : BitRange}
    (h : finishBitRange oc m l ty = .ok b) :
    l.toNat ≤ m.toNat ∧ b.width.toNat = (m.toNat - l.toNat + 1) % 2 ^ 32 := by
  unfold finishBitRange at h
  split at h
  · cases h
  · rename_i hle
    refine ⟨by omega, ?_⟩
    rw [subC_le (by omega), ok_bind] at h
    obtain ⟨w, hw, h⟩ := bind_ok.mp h
    cases h
    have hm := m.isLt
    have e1 : (BitVec.ofNat 32 (m.toNat - l.toNat)).toNat = m.toNat - l.toNat := ofNat_toNat' (by omega)
    have e2 : (1 : U32).toNat = 1 := rfl
    unfold addC arith at hw
    split at hw
    · cases hw
      rw [BitVec.toNat_add, e1, e2]
    · split at hw
      · cases hw
      · cases hw
        rw [BitVec.toNat_add, e1, e2]

theorem bitRange_says {lvl : ValidateLevel} {oc : Bool} {x : Xml} (ht : x.tag = "field") :
    Says (Blame lvl x) (parseBitRange oc x) := by
  unfold parseBitRange
  split
  · rename_i r hr
    split
    · rename_i hx
      exact Says.fail ⟨ht, r, hr, hx⟩
    · rename_i t hx
      refine Says.bind (fun e he => ?_) fun p hp e he => ?_
      · rcases bitRangeText_err he with ⟨rfl, h⟩ | ⟨rfl, h⟩
        · exact ⟨ht, .inl ⟨r, t, hr, hx, h⟩⟩
        · exact ⟨ht, .inl ⟨r, t, hr, hx, h⟩⟩
      · obtain ⟨rfl, hlt⟩ := finishBitRange_err he
        exact ⟨ht, _, _, hlt, .text hr hx (parseBitRangeText_inv (m := p.1) (l := p.2) hp)⟩
  · rename_i hr
    split
    · rename_i l m hl hm
      refine Says.bind (fun e he => ?_) fun mv hmv => Says.bind (fun e he => ?_) fun lv hlv e he => ?_
      · obtain ⟨rfl, f, hf⟩ := mapErr_err he
        exact ⟨ht, hr, l, m, hl, hm, fun h => readsNumber_not hf h.2⟩
      · obtain ⟨rfl, f, hf⟩ := mapErr_err he
        exact ⟨ht, hr, l, m, hl, hm, fun h => readsNumber_not hf h.1⟩
      · obtain ⟨rfl, hlt⟩ := finishBitRange_err he
        exact ⟨ht, _, _, hlt, .elements hr ⟨m, hm, readsNumber_iff (mapErr_ok hmv)⟩
          ⟨l, hl, readsNumber_iff (mapErr_ok hlv)⟩⟩
    · rename_i hlm
      have hno : NoBits x := by
        refine ⟨hr, ?_⟩
        cases hl : x.getChild "lsb" with
        | none => exact .inl rfl
        | some l =>
          cases hm : x.getChild "msb" with
          | none => exact .inr rfl
          | some m => exact (hlm l m hl hm).elim
      split
      · rename_i o w hco hcw
        refine Says.bind (fun e he => ?_) fun mv hmv => Says.bind (fun e he => ?_) fun lv hlv => Says.ok _
        · obtain ⟨rfl, f, hf⟩ := mapErr_err he
          exact ⟨ht, .inr ⟨hno, o, w, hco, hcw, fun h => readsNumber_not hf h.1⟩⟩
        · obtain ⟨rfl, f, hf⟩ := mapErr_err he
          exact ⟨ht, .inr ⟨hno, o, w, hco, hcw, fun h => readsNumber_not hf h.2⟩⟩
      · rename_i how
        refine Says.fail ⟨ht, .inr ⟨hno, ?_⟩⟩
        cases hl : x.getChild "bitOffset" with
        | none => exact .inl rfl
        | some l =>
          cases hm : x.getChild "bitWidth" with
          | none => exact .inr rfl
          | some m => exact (how l m hl hm).elim

theorem bitRange_width {oc : Bool} {x : Xml} {b : BitRange} (h : parseBitRange oc x = .ok b) :
    FieldWidth x b.width.toNat := by
  unfold parseBitRange at h
  split at h
  · rename_i r hr
    split at h
    · cases h
    · rename_i t hx
      obtain ⟨p, hp, h⟩ := bind_ok.mp h
      obtain ⟨h1, h2⟩ := finishBitRange_width h
      exact .bits (.text hr hx (parseBitRangeText_inv (m := p.1) (l := p.2) hp)) h1 h2
  · rename_i hr
    split at h
    · rename_i l m hl hm
      obtain ⟨mv, hmv, h⟩ := bind_ok.mp h
      obtain ⟨lv, hlv, h⟩ := bind_ok.mp h
      obtain ⟨h1, h2⟩ := finishBitRange_width h
      exact .bits (.elements hr ⟨m, hm, readsNumber_iff (mapErr_ok hmv)⟩
          ⟨l, hl, readsNumber_iff (mapErr_ok hlv)⟩) h1 h2
    · rename_i hlm
      split at h
      · rename_i o w hco hcw
        obtain ⟨ov, hov, h⟩ := bind_ok.mp h
        obtain ⟨wv, hwv, h⟩ := bind_ok.mp h
        cases h
        refine .width ⟨hr, ?_⟩ ⟨w, hcw, readsNumber_iff (mapErr_ok hwv)⟩
        cases hl : x.getChild "lsb" with
        | none => exact .inl rfl
        | some l =>
          cases hm : x.getChild "msb" with
          | none => exact .inr rfl
          | some m => exact (hlm l m hl hm).elim
      · cases h

end Svd
