import Verif.Spec.Told
import Verif.Props.Message

/-! # C73: the names and numbers in the texts of errors -/

namespace Svd
open Spec

namespace Told

theorem text {ws : List Word} {a s b : Str} (h : Contains ws b) : Contains (.text s :: ws) (a ++ (s ++ b)) :=
  ⟨a, s, b, by simp, rfl, fun _ _ => trivial, fun _ _ => trivial, h⟩

theorem textEnd {a s : Str} : Contains [.text s] (a ++ s) :=
  ⟨a, s, [], by simp, rfl, fun _ _ => trivial, fun _ _ => trivial, trivial⟩

theorem head {l b : Str} (x : Char) (h : l.head? = some x) (hx : digitValue x = none) :
    ∀ c ∈ (l ++ b).head?, digitValue c = none := by
  intro c hc
  cases l with
  | nil => cases h
  | cons y l => cases h; cases hc; exact hx

theorem last {l : Str} (x : Char) (h : l.getLast? = some x) (hx : digitValue x = none) :
    ∀ c ∈ l.getLast?, digitValue c = none := by
  intro c hc
  rw [h] at hc
  cases hc
  exact hx

theorem dec {ws : List Word} {a b : Str} {n : Nat} (ha : ∀ c ∈ a.getLast?, digitValue c = none)
    (hb : ∀ c ∈ b.head?, digitValue c = none) (h : Contains ws b) : Contains (.dec n :: ws) (a ++ (decText n ++ b)) :=
  ⟨a, decText n, b, by simp, positional_toDigits (by omega) (by omega) n, ha, hb, h⟩

theorem decEnd {a : Str} {n : Nat} (ha : ∀ c ∈ a.getLast?, digitValue c = none) :
    Contains [.dec n] (a ++ decText n) :=
  ⟨a, decText n, [], by simp, positional_toDigits (by omega) (by omega) n, ha, (fun _ h => nomatch h), trivial⟩

theorem hex {ws : List Word} {l b : Str} {n : Nat} (a : Str) (hl : l = a ++ "0x".toList)
    (ha : ∀ c ∈ a.getLast?, digitValue c = none) (hb : ∀ c ∈ b.head?, digitValue c = none) (h : Contains ws b) :
    Contains (.hex n :: ws) (l ++ (lowerHexDigits n ++ b)) :=
  ⟨a, "0x".toList ++ lowerHexDigits n, b, by simp [hl], ⟨_, rfl, positional_toDigits (by omega) (by omega) n⟩, ha, hb, h⟩

theorem kind {ws : List Word} {w p b : Str} (hp : Spelt (.kind w) p) (h : Contains ws b) :
    Contains (.kind w :: ws) (p ++ b) :=
  ⟨[], p, b, by simp, hp, (fun _ h => nomatch h), fun _ _ => trivial, h⟩

theorem skip {ws : List Word} {a b : Str} (ha : ∀ c ∈ a.getLast?, digitValue c = none) (h : Contains ws b) :
    Contains ws (a ++ b) := by
  cases ws with
  | nil => trivial
  | cons w ws =>
    obtain ⟨a', p, b', rfl, h1, h2, h3, h4⟩ := h
    refine ⟨a ++ a', p, b', by simp, h1, ?_, h3, h4⟩
    intro c hc
    rw [List.getLast?_append] at hc
    cases h5 : a'.getLast? with
    | some x => rw [h5] at hc; exact h2 c (by rw [h5]; exact hc)
    | none =>
      rw [h5] at hc
      cases w <;> first | trivial | exact ha c hc

/-- Texts quoted with commas between them. -/
theorem list (dbg : Str → Str) (cs : List Str) {ws : List Word} {b : Str} (h : Contains ws b) :
    Contains ((cs.map fun c => .text (dbg c)) ++ ws) ((", ".toList).intercalate (cs.map dbg) ++ ("]".toList ++ b)) := by
  have hb : Contains ws ("]".toList ++ b) := skip (last ']' rfl rfl) h
  induction cs with
  | nil => exact hb
  | cons a cs ih =>
    cases cs with
    | nil => simpa [List.intercalate] using text (a := []) (s := dbg a) hb
    | cons c cs =>
      have e : (", ".toList).intercalate ((a :: c :: cs).map dbg) =
          dbg a ++ (", ".toList ++ (", ".toList).intercalate ((c :: cs).map dbg)) := by
        simp [List.intercalate]
      rw [e]
      simp only [List.append_assoc]
      exact text (a := []) (s := dbg a) (skip (last ' ' rfl rfl) ih)

end Told

open Told in
/-- **C73.** The text of an error contains the names and numbers of the error, one after the other, numbers in
decimal notation (values and masks of registers in hexadecimal) and not touched by other digits. -/
theorem C73_contains {oc : Bool} {dbg : Str → Str} {e : Err} (he : Shown e) {s : Str}
    (h : e.message oc dbg = .ok s) : Contains (told dbg e) s := by
  cases e
  case enumOutOfRange v lo hi =>
    have h0 : hi ≠ 0 := fun h0 => by
      subst h0
      obtain ⟨s, hs⟩ := he.text true id
      simp [Err.message, panics] at hs
    simp only [Err.message] at h
    rw [if_neg (fun h => h0 h.1)] at h
    cases h
    have h1 : (hi - 1).toNat = hi.toNat - 1 := by
      have : hi.toNat ≠ 0 := fun h => h0 (BitVec.eq_of_toNat_eq h)
      rw [BitVec.toNat_sub_of_le]
      · rfl
      · rw [BitVec.le_def]
        change 1 ≤ _
        omega
    rw [h1]
    simp only [told, List.append_assoc]
    exact dec (last ' ' rfl rfl) (head ' ' rfl rfl) (dec (last '[' rfl rfl) (head ' ' rfl rfl)
      (dec (last ' ' rfl rfl) (fun c hc => by cases hc; rfl) trivial))
  all_goals simp only [Err.message, Except.ok.injEq] at h
  all_goals try subst h
  all_goals simp only [told, List.append_assoc]
  all_goals try trivial
  all_goals try exact textEnd
  all_goals try exact text trivial
  all_goals try exact text textEnd
  all_goals try exact text (text trivial)
  case incorrectDimIndexesCount => exact dec (last ' ' rfl rfl) (head ' ' rfl rfl) (decEnd (last ' ' rfl rfl))
  case enumValueAndDefault v =>
    cases v with
    | none => trivial
    | some v =>
      simp only [debugOption, List.append_assoc]
      exact skip (last ' ' rfl rfl) (dec (last '(' rfl rfl) (head ')' rfl rfl) trivial)
  case resetValueTooLarge =>
    exact hex "`RegisterProperties error: Reset value ".toList rfl (last ' ' rfl rfl) (head ' ' rfl rfl)
      (dec (last ' ' rfl rfl) (fun c hc => by cases hc; rfl) trivial)
  case resetMaskTooLarge =>
    exact hex "`RegisterProperties error: Mask value ".toList rfl (last ' ' rfl rfl) (head ' ' rfl rfl)
      (dec (last ' ' rfl rfl) (fun c hc => by cases hc; rfl) trivial)
  case resetMaskConflict =>
    exact hex "`RegisterProperties error: Reset value ".toList rfl (last ' ' rfl rfl) (head ' ' rfl rfl)
      (hex " conflicts with mask '".toList rfl (last '\'' rfl rfl) (fun c hc => by cases hc; rfl) trivial)
  case wcReversedRange => exact dec (last ' ' rfl rfl) (head ' ' rfl rfl) (decEnd (last ' ' rfl rfl))
  case wcOutOfRange =>
    exact dec (last ' ' rfl rfl) (head ' ' rfl rfl) (dec (last ' ' rfl rfl) (head '.' rfl rfl) (decEnd (last '.' rfl rfl)))
  case selfDerived w path =>
    refine kind ?_ (text trivial)
    have hw := he.named
    simp only [NamesKnown, List.mem_cons, List.not_mem_nil, or_false] at hw
    rcases hw with rfl | rfl | rfl | rfl | rfl <;> exact .inr rfl
  case notFound w path =>
    refine kind ?_ (text trivial)
    have hw := he.named
    simp only [NamesKnown, List.mem_cons, List.not_mem_nil, or_false] at hw
    rcases hw with rfl | rfl | rfl | rfl <;> exact .inl rfl
  case enumsNotFound path p cs r f =>
    have h1 : Contains [.text (dbg r), .text (dbg f)]
        (" }, name: ".toList ++ (dbg r ++ (" }, name: ".toList ++ (dbg f ++ " }".toList)))) :=
      text (text trivial)
    have h2 := skip (a := ", path: ".toList) (last ' ' rfl rfl) (skip (a := "[".toList) (last '[' rfl rfl) (list dbg cs h1))
    have h3 := skip (a := " not found, parent field: ".toList) (last ' ' rfl rfl) (text
      (a := "FieldPath { register: RegisterPath { block: BlockPath { peripheral: ".toList) (s := dbg p) h2)
    have h4 := text (a := "enumeratedValues ".toList) (s := path) h3
    unfold debugFieldPath debugList
    simp only [List.append_assoc]
    exact h4

-- The value 0x123 does not fit into 8 bits.
example : ∃ s, Err.message true id (.resetValueTooLarge 0x123 8) = .ok s ∧ Contains [.hex 0x123, .dec 8] s := by
  have hs : Shown (.resetValueTooLarge 0x123 8) := Shown.of trivial fun _ _ _ h => nomatch h
  obtain ⟨s, h⟩ := hs.text true id
  exact ⟨s, h, C73_contains hs h⟩

end Svd
