import Verif.Spec.Sample
import Verif.Model.Message
import Verif.Spec.Message
import Verif.Props.Complaint
import Verif.Props.Report
import Verif.Props.Flat
import Verif.Model.Top

/-! # C73: the texts of errors -/

namespace Svd
open Spec

/-! ## Numbers in texts -/

theorem PosLoop.same {digit : Char → Nat → Prop} (hd : ∀ c d d', digit c d → digit c d' → d = d') {radix : Nat}
    {s : Str} : ∀ {acc n n' : Nat}, PosLoop digit radix acc s n → PosLoop digit radix acc s n' → n = n' := by
  induction s with
  | nil => intro acc n n' h h'; simp only [PosLoop] at h h'; omega
  | cons c s ih =>
    intro acc n n' h h'
    obtain ⟨d, h1, h2⟩ := h
    obtain ⟨d', h1', h2'⟩ := h'
    cases hd c d d' h1 h1'
    exact ih h2 h2'

theorem isDigit_same {radix : Nat} (c : Char) (d d' : Nat) (h : IsDigit radix c d) (h' : IsDigit radix c d') :
    d = d' := by
  have := h.1.symm.trans h'.1
  injection this

theorem toDigits_inj {radix n n' : Nat} (hb : 1 < radix) (hr : radix ≤ 16)
    (h : Nat.toDigits radix n = Nat.toDigits radix n') : n = n' := by
  have h1 := (positional_iff.mp (positional_toDigits hb hr n)).2
  rw [h] at h1
  exact h1.same isDigit_same (positional_iff.mp (positional_toDigits hb hr n')).2

theorem not_mem_toDigits {radix n : Nat} (hb : 1 < radix) (hr : radix ≤ 16) {c : Char} (hc : digitValue c = none) :
    c ∉ Nat.toDigits radix n := fun h => by
  obtain ⟨d, hd⟩ := positional_mem (positional_toDigits hb hr n) c h
  rw [hd.1] at hc; cases hc

/-- Two texts up to the first `c` and the rest. -/
theorem until_inj {c : Char} {a a' b b' : Str} (h1 : c ∉ a) (h2 : c ∉ a') (h : a ++ c :: b = a' ++ c :: b') :
    a = a' ∧ b = b' := by
  induction a generalizing a' with
  | nil =>
    cases a' with
    | nil => injection h with _ h; exact ⟨rfl, h⟩
    | cons x a' => injection h with h; exact absurd (by rw [h]; simp) h2
  | cons x a ih =>
    cases a' with
    | nil => injection h with h; exact absurd (by rw [h]; simp) h1
    | cons x' a' =>
      injection h with e h
      obtain ⟨e1, e2⟩ := ih (fun h => h1 (by simp [h])) (fun h => h2 (by simp [h])) h
      exact ⟨by rw [e, e1], e2⟩

theorem digits_inj {radix n n' : Nat} (hb : 1 < radix) (hr : radix ≤ 16) {c : Char} (hc : digitValue c = none)
    {b b' : Str} (h : Nat.toDigits radix n ++ c :: b = Nat.toDigits radix n' ++ c :: b') : n = n' ∧ b = b' := by
  obtain ⟨h1, h2⟩ := until_inj (not_mem_toDigits hb hr hc) (not_mem_toDigits hb hr hc) h
  exact ⟨toDigits_inj hb hr h1, h2⟩

/-! ## The beginnings of the texts -/

/-- The number of an element that can refer to another. -/
def wordIndex (w : String) : Nat :=
  if w = "peripheral" then 0 else if w = "cluster" then 1 else if w = "register" then 2
  else if w = "field" then 3 else 4

/-- The class of an error: errors of different classes begin differently. -/
def Err.cls : Err → Nat
  | .missingTag _ | .notExpectedTag _ => 0
  | .emptyTag _ => 1
  | .parseInt _ => 2
  | .unknownEndian _ => 3
  | .unknownAccessType _ => 4
  | .invalidBitRange _ => 5
  | .unknownWriteConstraint => 6
  | .moreThanOneWriteConstraint => 7
  | .unknownUsageVariant | .unknownAddressBlockUsageVariant => 8
  | .invalidRegisterCluster _ => 9
  | .invalidDatatype _ => 10
  | .invalidModifiedWriteValues _ => 11
  | .invalidReadAction _ => 12
  | .invalidProtection _ => 13
  | .invalidBooleanValue _ => 14
  | .incorrectDimIndexesCount _ _ => 15
  | .dimIndexParse => 16
  | .missingPlaceholder _ _ => 17
  | .uninitialized _ => 18
  | .invalidName _ _ => 19
  | .emptyDevice => 20
  | .emptyRegisters => 21
  | .emptyCluster => 22
  | .emptyFields => 23
  | .zeroWidth => 24
  | .incompatibleEnumeratedValues => 25
  | .enumAbsentValue => 26
  | .enumValueAndDefault _ => 27
  | .enumOutOfRange _ _ _ => 28
  | .enumEmpty => 29
  | .resetValueTooLarge _ _ | .resetMaskConflict _ _ => 30
  | .resetMaskTooLarge _ _ => 31
  | .wcReversedRange _ _ => 32
  | .wcOutOfRange _ _ _ => 33
  | .enumsNotFound .. => 34
  | .deserialize => 35
  | .selfDerived w _ => 36 + wordIndex w
  | .notFound w _ => 41 + wordIndex w

def heads : List String := ["Expected a <", "Expected content in <", "Failed to parse `", "Unknown endianness `",
  "unknown access variant '", "Bit range invalid, ", "Unknown write constraint", "Multiple wc found",
  "Unknown usage variant", "Invalid RegisterCluster (expected register or cluster), found ",
  "Invalid datatype variant, found ", "Invalid modifiedWriteValues variant, found ",
  "Invalid readAction variant, found ", "Invalid protection variant, found ",
  "The content of the element could not be parsed to a boolean value ", "dimIndex tag must contain ",
  "Failed to parse dimIndex", "Name `", "`Build error: `", "`Name check error: Name `",
  "`Device error: ", "`Peripheral error: ", "`Cluster error: ", "`Register error: ", "`BitRange error: ",
  "`Field error: ", "`EnumeratedValue error: EnumeratedValue has",
  "`EnumeratedValue error: EnumeratedValue with `value` (passed ", "`EnumeratedValue error: Value ",
  "`EnumeratedValues error: ", "`RegisterProperties error: Reset value 0x",
  "`RegisterProperties error: Mask value 0x", "`WriteConstraint error: Range minimum ",
  "`WriteConstraint error: Value ", "enumeratedValues ", "-",
  "Peripheral ", "Cluster ", "Register ", "Field ", "EnumeratedValues ",
  "peripheral ", "cluster ", "register ", "field "]

theorem heads_differ : ∀ i, i < 45 → ∀ j, j < 45 → ∀ a ∈ heads[i]?, ∀ b ∈ heads[j]?,
    a.toList <+: b.toList → i = j := by decide +kernel

theorem wordIndex_lt (w : String) : wordIndex w < 5 := by
  unfold wordIndex
  repeat' split
  all_goals decide

theorem head_of (oc : Bool) (dbg : Str → Str) (e : Err) (he : NamesKnown e) {s : Str} (h : e.message oc dbg = .ok s) :
    e.cls < 45 ∧ ∃ a ∈ heads[e.cls]?, a.toList <+: s := by
  cases e
  case enumOutOfRange v lo hi =>
    simp only [Err.message] at h
    split at h
    · cases h
    · cases h
      exact ⟨Nat.le_of_ble_eq_true rfl, _, rfl, by
        repeat first | exact List.prefix_append _ _ | refine List.IsPrefix.trans ?_ (List.prefix_append _ _)⟩
  case selfDerived w p =>
    cases h
    simp only [NamesKnown, List.mem_cons, List.not_mem_nil, or_false] at he
    rcases he with rfl | rfl | rfl | rfl | rfl
    all_goals exact ⟨Nat.le_of_ble_eq_true rfl, _, rfl, by
      repeat first
        | decide
        | refine List.IsPrefix.trans ?_ (List.prefix_append _ _)⟩
  case notFound w p =>
    cases h
    simp only [NamesKnown, List.mem_cons, List.not_mem_nil, or_false] at he
    rcases he with rfl | rfl | rfl | rfl
    all_goals exact ⟨Nat.le_of_ble_eq_true rfl, _, rfl, by
      repeat first
        | decide
        | refine List.IsPrefix.trans ?_ (List.prefix_append _ _)⟩
  case deserialize => exact he.elim
  all_goals
    cases h
    exact ⟨Nat.le_of_ble_eq_true rfl, _, rfl, by
      repeat first
        | exact List.prefix_append _ _
        | decide
        | refine List.IsPrefix.trans ?_ (List.prefix_append _ _)⟩

theorem same_cls {oc oc' : Bool} {dbg dbg' : Str → Str} {e e' : Err} (he : NamesKnown e) (he' : NamesKnown e') {s : Str}
    (h : e.message oc dbg = .ok s) (h' : e'.message oc' dbg' = .ok s) : e.cls = e'.cls := by
  obtain ⟨h1, a, ha, hs⟩ := head_of oc dbg e he h
  obtain ⟨h1', b, hb, hs'⟩ := head_of oc' dbg' e' he' h'
  rcases List.prefix_or_prefix_of_prefix hs hs' with hp | hp
  · exact heads_differ _ h1 _ h1' a ha b hb hp
  · exact (heads_differ _ h1' _ h1 b hb a ha hp).symm

theorem toList_inj {a b : String} (h : a.toList = b.toList) : a = b := String.toList_inj.mp h

/-- The last characters of two equal texts. -/
theorem last_ne {a b : Str} {x y : Char} (h : a ++ [x] = b ++ [y]) : x = y := by
  have := congrArg List.getLast? h
  simpa using this

theorem decText_inj {n n' : Nat} (h : decText n = decText n') : n = n' := toDigits_inj (by omega) (by omega) h

theorem decText_until {n n' : Nat} {c : Char} (hc : digitValue c = none) {b b' : Str}
    (h : decText n ++ c :: b = decText n' ++ c :: b') : n = n' ∧ b = b' := digits_inj (by omega) (by omega) hc h

theorem hex_until {n n' : Nat} {c : Char} (hc : digitValue c = none) {b b' : Str}
    (h : lowerHexDigits n ++ c :: b = lowerHexDigits n' ++ c :: b') : n = n' ∧ b = b' :=
  digits_inj (by omega) (by omega) hc h

theorem wordIndex_inj : ∀ w ∈ ["peripheral", "cluster", "register", "field", "enumeratedValues"],
    ∀ w' ∈ ["peripheral", "cluster", "register", "field", "enumeratedValues"],
    wordIndex w = wordIndex w' → w = w' := by decide +kernel

theorem intError_inj {k k' : IntErrorKind} (h : k.text = k'.text) : k = k' := by
  revert h; cases k <;> cases k' <;> decide

theorem bitRangeError_inj {k k' : InvalidBitRange} (h : k.debug = k'.debug) : k = k' := by
  revert h; cases k <;> cases k' <;> decide

theorem debugOption_inj {v v' : Option U64} (h : debugOption v = debugOption v') : v = v' := by
  cases v with
  | none =>
    cases v' with
    | none => rfl
    | some v' => injection h with h _; exact absurd h (by decide)
  | some v =>
    cases v' with
    | none => injection h with h _; exact absurd h (by decide)
    | some v' =>
      have := decText_inj (List.append_cancel_left (List.append_cancel_right h))
      rw [BitVec.eq_of_toNat_eq this]

theorem ok_inj {a b s : Str} (h : (.ok a : M Str) = .ok s) (h' : (.ok b : M Str) = .ok s) : a = b := by
  cases h; cases h'; rfl

/-- Between two given texts. -/
theorem middle_inj {a b x y : Str} (h : a ++ x ++ b = a ++ y ++ b) : x = y :=
  List.append_cancel_left (List.append_cancel_right h)

theorem u64_eq {w : Nat} {a b : BitVec w} (h : a.toNat = b.toNat) : a = b := BitVec.eq_of_toNat_eq h

/-- The text tells the error. -/
theorem C73_told {oc oc' : Bool} {dbg : Str → Str} {e e' : Err} (he : NamesKnown e) (he' : NamesKnown e') {s : Str}
    (h : e.message oc dbg = .ok s) (h' : e'.message oc' dbg = .ok s) : SameText e e' := by
  have hc := same_cls he he' h h'
  cases e <;> cases e' <;> first
    | exact absurd hc (Nat.ne_of_beq_eq_false rfl)
    | exact .refl _
    | (simp only [Err.cls] at hc; omega)
    | skip
  case selfDerived.notFound w p w' p' =>
    have := wordIndex_lt w
    simp only [Err.cls] at hc; omega
  case notFound.selfDerived w p w' p' =>
    have := wordIndex_lt w'
    simp only [Err.cls] at hc; omega
  case missingTag.missingTag => cases toList_inj (middle_inj (ok_inj h h')); exact .refl _
  case missingTag.notExpectedTag t t' =>
    exact absurd (last_ne (a := "Expected a <".toList ++ t.toList ++ "> tag, found non".toList)
      (b := "Expected a <".toList ++ t'.toList ++ ">, found ..".toList) (x := 'e') (y := '.')
      (by simpa using ok_inj h h')) (by decide)
  case notExpectedTag.missingTag t' t =>
    exact absurd (last_ne (a := "Expected a <".toList ++ t.toList ++ "> tag, found non".toList)
      (b := "Expected a <".toList ++ t'.toList ++ ">, found ..".toList) (x := 'e') (y := '.')
      (by simpa using ok_inj h' h)) (by decide)
  case notExpectedTag.notExpectedTag => cases toList_inj (middle_inj (ok_inj h h')); exact .refl _
  case emptyTag.emptyTag => cases toList_inj (middle_inj (ok_inj h h')); exact .refl _
  case parseInt.parseInt => cases intError_inj (middle_inj (ok_inj h h')); exact .refl _
  case unknownEndian.unknownEndian => cases middle_inj (ok_inj h h'); exact .refl _
  case unknownAccessType.unknownAccessType => cases middle_inj (ok_inj h h'); exact .refl _
  case invalidBitRange.invalidBitRange =>
    cases bitRangeError_inj (List.append_cancel_left (ok_inj h h')); exact .refl _
  case unknownUsageVariant.unknownAddressBlockUsageVariant => exact absurd (ok_inj h h') (by decide)
  case unknownAddressBlockUsageVariant.unknownUsageVariant => exact absurd (ok_inj h h') (by decide)
  case invalidRegisterCluster.invalidRegisterCluster =>
    cases toList_inj (List.append_cancel_left (ok_inj h h')); exact .refl _
  case invalidDatatype.invalidDatatype => cases List.append_cancel_left (ok_inj h h'); exact .refl _
  case invalidModifiedWriteValues.invalidModifiedWriteValues =>
    cases List.append_cancel_left (ok_inj h h'); exact .refl _
  case invalidReadAction.invalidReadAction => cases List.append_cancel_left (ok_inj h h'); exact .refl _
  case invalidProtection.invalidProtection => cases List.append_cancel_left (ok_inj h h'); exact .refl _
  case invalidBooleanValue.invalidBooleanValue => cases middle_inj (ok_inj h h'); exact .refl _
  case incorrectDimIndexesCount.incorrectDimIndexesCount =>
    have h0 := ok_inj h h'
    simp only [List.append_assoc] at h0
    obtain ⟨h1, h2⟩ := decText_until (c := ' ') (by decide) (List.append_cancel_left h0)
    cases h1
    cases decText_inj (List.append_cancel_left (as := "indexes, found ".toList) h2)
    exact .refl _
  case missingPlaceholder.missingPlaceholder n t n' t' =>
    have h0 := congrArg List.reverse (List.append_cancel_right (ok_inj h h'))
    simp only [List.reverse_append, List.append_assoc] at h0
    obtain ⟨h1, h2⟩ := until_inj (c := '`') (by simpa [NamesKnown] using he) (by simpa [NamesKnown] using he') h0
    have h3 := List.append_cancel_right (List.append_cancel_left (as := " gat ni `".toList) h2)
    cases toList_inj (List.reverse_inj.mp h1)
    cases List.reverse_inj.mp h3
    exact .refl _
  case uninitialized.uninitialized => cases toList_inj (middle_inj (ok_inj h h')); exact .refl _
  case invalidName.invalidName => cases middle_inj (ok_inj h h'); exact .name ..
  case enumValueAndDefault.enumValueAndDefault =>
    cases debugOption_inj (middle_inj (ok_inj h h')); exact .refl _
  case enumOutOfRange.enumOutOfRange v lo hi v' lo' hi' =>
    simp only [Err.message] at h h'
    split at h
    · cases h
    split at h'
    · cases h'
    have h0 := ok_inj h h'
    simp only [List.append_assoc] at h0
    obtain ⟨h1, h2⟩ := decText_until (c := ' ') (by decide) (List.append_cancel_left h0)
    obtain ⟨h3, h4⟩ := decText_until (c := ' ') (by decide)
      (List.append_cancel_left (as := "out of range [".toList) h2)
    obtain ⟨h5, h6⟩ := decText_until (c := ']') (by decide) (List.append_cancel_left (as := "- ".toList) h4)
    cases u64_eq h1
    cases u64_eq h3
    have h7 : hi = hi' := by
      have := congrArg (· + 1) (u64_eq h5)
      simpa using this
    cases h7
    exact .refl _
  case resetValueTooLarge.resetValueTooLarge =>
    have h0 := ok_inj h h'
    simp only [List.append_assoc] at h0
    obtain ⟨h1, h2⟩ := hex_until (c := ' ') (by decide) (List.append_cancel_left h0)
    obtain ⟨h3, h4⟩ := decText_until (c := ' ') (by decide)
      (List.append_cancel_left (as := "doesn't fit in ".toList) h2)
    cases u64_eq h1
    cases u64_eq h3
    exact .refl _
  case resetMaskTooLarge.resetMaskTooLarge =>
    have h0 := ok_inj h h'
    simp only [List.append_assoc] at h0
    obtain ⟨h1, h2⟩ := hex_until (c := ' ') (by decide) (List.append_cancel_left h0)
    obtain ⟨h3, h4⟩ := decText_until (c := ' ') (by decide)
      (List.append_cancel_left (as := "doesn't fit in ".toList) h2)
    cases u64_eq h1
    cases u64_eq h3
    exact .refl _
  case resetMaskConflict.resetMaskConflict =>
    have h0 := ok_inj h h'
    simp only [List.append_assoc] at h0
    obtain ⟨h1, h2⟩ := hex_until (c := ' ') (by decide) (List.append_cancel_left h0)
    obtain ⟨h3, h4⟩ := hex_until (c := '\'') (by decide)
      (List.append_cancel_left (as := "conflicts with mask '0x".toList) h2)
    cases u64_eq h1
    cases u64_eq h3
    exact .refl _
  case resetValueTooLarge.resetMaskConflict =>
    have h0 := ok_inj h h'
    simp only [List.append_assoc] at h0
    obtain ⟨h1, h2⟩ := hex_until (c := ' ') (by decide) (List.append_cancel_left h0)
    injection h2 with h2 _
    exact absurd h2 (by decide)
  case resetMaskConflict.resetValueTooLarge =>
    have h0 := ok_inj h h'
    simp only [List.append_assoc] at h0
    obtain ⟨h1, h2⟩ := hex_until (c := ' ') (by decide) (List.append_cancel_left h0)
    injection h2 with h2 _
    exact absurd h2 (by decide)
  case wcReversedRange.wcReversedRange =>
    have h0 := ok_inj h h'
    simp only [List.append_assoc] at h0
    obtain ⟨h1, h2⟩ := decText_until (c := ' ') (by decide) (List.append_cancel_left h0)
    cases u64_eq h1
    cases u64_eq (decText_inj (List.append_cancel_left (as := "is greater than maximum ".toList) h2))
    exact .refl _
  case wcOutOfRange.wcOutOfRange =>
    have h0 := ok_inj h h'
    simp only [List.append_assoc] at h0
    obtain ⟨h1, h2⟩ := decText_until (c := ' ') (by decide) (List.append_cancel_left h0)
    obtain ⟨h3, h4⟩ := decText_until (c := '.') (by decide)
      (List.append_cancel_left (as := "out of range ".toList) h2)
    cases u64_eq h1
    cases u64_eq h3
    cases u64_eq (decText_inj (List.append_cancel_left (as := ".".toList) h4))
    exact .refl _
  case selfDerived.selfDerived w p w' p' =>
    simp only [Err.cls, Nat.add_left_cancel_iff] at hc
    cases wordIndex_inj w he w' he' hc
    have h0 := ok_inj h h'
    simp only [List.append_assoc] at h0
    cases List.append_cancel_right (List.append_cancel_left (List.append_cancel_left h0))
    exact .refl _
  case notFound.notFound w p w' p' =>
    simp only [Err.cls, Nat.add_left_cancel_iff] at hc
    have hw : ∀ w ∈ ["peripheral", "cluster", "register", "field"],
      w ∈ ["peripheral", "cluster", "register", "field", "enumeratedValues"] := by decide
    cases wordIndex_inj w (hw w he) w' (hw w' he') hc
    have h0 := ok_inj h h'
    simp only [List.append_assoc] at h0
    cases List.append_cancel_right (List.append_cancel_left (List.append_cancel_left h0))
    exact .refl _
  case enumsNotFound.enumsNotFound s p cs r f s' p' cs' r' f' =>
    by_cases hp : (p, cs, r, f) = (p', cs', r', f')
    · cases hp
      have h0 := ok_inj h h'
      cases List.append_cancel_left (List.append_cancel_right (List.append_cancel_right h0))
      exact .refl _
    · exact .field _ _ _ _ _ _ _ _ _ _ hp

-- No other error with known names has the text of this one.
example (e : Err) (he : NamesKnown e) (h : e.message true id = .ok "Expected a <name> tag, found none".toList) :
    SameText e (.missingTag "name") :=
  C73_told (oc' := true) he trivial h (by decide)

/-! ## Showing an error -/

/-- An error can be shown, and its names are those the programs use. -/
structure Shown (e : Err) : Prop where
  named : NamesKnown e
  text : ∀ oc dbg, ∃ s, e.message oc dbg = .ok s

/-- Showing an error panics only for an empty range, and only with overflow checks. -/
theorem C73_shown (oc : Bool) (dbg : Str → Str) (e : Err) :
    (∃ s, e.message oc dbg = .ok s) ↔ ¬ (oc = true ∧ ∃ v lo, e = .enumOutOfRange v lo 0) := by
  cases e
  case enumOutOfRange v lo hi =>
    simp only [Err.message]
    by_cases h : hi = 0 ∧ oc = true
    · rw [if_pos h]
      obtain ⟨rfl, rfl⟩ := h
      simp [panics]
    · rw [if_neg h]
      refine iff_of_true ⟨_, rfl⟩ ?_
      rintro ⟨h1, v', lo', h2⟩
      cases h2
      exact h ⟨rfl, h1⟩
  all_goals exact iff_of_true ⟨_, rfl⟩ (fun h => by obtain ⟨_, _, _, h⟩ := h; cases h)

theorem Shown.of {e : Err} (hn : NamesKnown e) (h : ∀ v lo hi, e = .enumOutOfRange v lo hi → hi ≠ 0) : Shown e :=
  ⟨hn, fun oc dbg => (C73_shown oc dbg e).mpr fun ⟨_, v, lo, he⟩ => h v lo 0 he rfl⟩

/-- All errors of the rules can be shown. -/
def AllShown (l : List Rule) : Prop := ∀ r ∈ l, Shown r.error

namespace AllShown

theorem nil : AllShown [] := by intro r h; cases h
theorem append {a b : List Rule} (ha : AllShown a) (hb : AllShown b) : AllShown (a ++ b) := fun r hr => by
  rcases List.mem_append.mp hr with h | h
  · exact ha r h
  · exact hb r h
theorem cons {e : Err} {p : Prop} {l : List Rule} (h : Shown e) (hl : AllShown l) : AllShown (⟨e, p⟩ :: l) := fun r hr => by
  rcases List.mem_cons.mp hr with rfl | hr
  · exact h
  · exact hl r hr
theorem flatMap {α : Type} {f : α → List Rule} {l : List α} (h : ∀ a, AllShown (f a)) : AllShown (l.flatMap f) := fun r hr => by
  obtain ⟨a, _, ha⟩ := List.mem_flatMap.mp hr
  exact h a r ha
theorem opt {α : Type} {f : α → List Rule} {o : Option α} (h : ∀ a, AllShown (f a)) : AllShown (optRule o f) := flatMap h
theorem strict {lvl : ValidateLevel} {l : List Rule} (h : AllShown l) : AllShown (strictOnly lvl l) := by
  unfold strictOnly; split
  · exact h
  · exact nil
theorem enabled {lvl : ValidateLevel} {l : List Rule} (h : AllShown l) : AllShown (Spec.enabled lvl l) := by
  unfold Spec.enabled; split
  · exact nil
  · exact h

/-- Errors without a range. -/
theorem one {e : Err} {p : Prop} (hn : NamesKnown e) (h : ∀ v lo hi, e ≠ .enumOutOfRange v lo hi) : AllShown [⟨e, p⟩] :=
  cons (.of hn fun v lo hi he => absurd he (h v lo hi)) nil

theorem name {k : String} {s : Str} {p : Prop} : AllShown [⟨.invalidName s k, p⟩] :=
  one trivial (fun _ _ _ h => by cases h)
theorem derived {k : String} {s : Str} : AllShown (derivedRule k s) := flatMap fun _ => name

theorem props (lvl : ValidateLevel) (p : RegisterProperties) : AllShown (propsRules lvl p) :=
  enabled (append (opt fun _ => opt fun _ => one trivial (fun _ _ _ h => by cases h))
    (strict (append (opt fun _ => opt fun _ => one trivial (fun _ _ _ h => by cases h))
      (opt fun _ => opt fun _ => one trivial (fun _ _ _ h => by cases h)))))
theorem enumValue (lvl : ValidateLevel) (v : EnumeratedValue) : AllShown (enumValueRules lvl v) :=
  enabled (append (append (strict name) (one trivial (fun _ _ _ h => by cases h)))
    (strict (one trivial (fun _ _ _ h => by cases h))))
theorem enums (lvl : ValidateLevel) (g : EnumeratedValues) : AllShown (enumsRules lvl g) :=
  enabled (append (append (strict (opt fun _ => name)) (strict (opt fun _ => derived)))
    (one trivial (fun _ _ _ h => by cases h)))
theorem register (lvl : ValidateLevel) (r : RegisterInfo) : AllShown (registerRules lvl r) :=
  strict (append (append (append (append name (opt fun _ => name)) (opt fun _ => name)) (opt fun _ => derived))
    (one trivial (fun _ _ _ h => by cases h)))
theorem cluster (lvl : ValidateLevel) (h : ClusterHead) (cs : List RegisterCluster) : AllShown (clusterRules lvl h cs) :=
  strict (append (append name (opt fun _ => derived)) (one trivial (fun _ _ _ h => by cases h)))
theorem peripheral (lvl : ValidateLevel) (p : PeripheralInfo) : AllShown (peripheralRules lvl p) :=
  strict (append (append name (opt fun _ => name)) (one trivial (fun _ _ _ h => by cases h)))

end AllShown

/-- Rules that are broken only if the error can be shown. -/
theorem field_shown {lvl : ValidateLevel} {f : FieldInfo} {r : Rule} (hr : r ∈ fieldRules lvl f) (hb : r.broken) :
    Shown r.error := by
  unfold fieldRules Spec.enabled at hr
  split at hr
  · cases hr
  have top : ∀ w, w < 64 → BitVec.ofNat 64 (2 ^ w) ≠ 0 := fun w hw h => by
    have h1 : (BitVec.ofNat 64 (2 ^ w)).toNat = 2 ^ w := by
      rw [BitVec.toNat_ofNat]
      exact Nat.mod_eq_of_lt (Nat.pow_lt_pow_right (by omega) hw)
    rw [h] at h1
    have : 0 < 2 ^ w := Nat.two_pow_pos w
    have : (0 : U64).toNat = 0 := rfl
    omega
  simp only [List.mem_append] at hr
  rcases hr with (((hr | hr) | hr) | hr) | hr
  · exact AllShown.strict (.append .name (.opt fun _ => .derived)) r hr
  · exact AllShown.one (e := .zeroWidth) (p := f.bitRange.width.toNat = 0) trivial (fun _ _ _ h => by cases h) r hr
  · obtain ⟨g, _, hr⟩ := List.mem_flatMap.mp hr
    obtain ⟨e, _, hr⟩ := List.mem_flatMap.mp hr
    obtain ⟨v, _, hr⟩ := List.mem_flatMap.mp hr
    rw [List.mem_singleton] at hr
    subst hr
    refine .of trivial fun v' lo hi h => ?_
    cases h
    exact top _ hb.1
  · exact AllShown.strict (.one (e := .incompatibleEnumeratedValues) (p := ¬ UsagesValid f.enumeratedValues) trivial (fun _ _ _ h => by cases h)) r hr
  · split at hr
    · simp only [List.mem_cons, List.not_mem_nil, or_false] at hr
      rcases hr with rfl | rfl | rfl
      all_goals exact .of trivial (fun _ _ _ h => by cases h)
    · cases hr

/-- Whatever rule is broken, its error can be shown. -/
def BrokenShown (l : List Rule) : Prop := ∀ r ∈ l, r.broken → Shown r.error

namespace BrokenShown

theorem all {l : List Rule} (h : AllShown l) : BrokenShown l := fun r hr _ => h r hr
theorem append {a b : List Rule} (ha : BrokenShown a) (hb : BrokenShown b) : BrokenShown (a ++ b) := fun r hr => by
  rcases List.mem_append.mp hr with h | h
  · exact ha r h
  · exact hb r h
theorem flatMap {α : Type} {f : α → List Rule} {l : List α} (h : ∀ a, BrokenShown (f a)) : BrokenShown (l.flatMap f) :=
  fun r hr => by
    obtain ⟨a, _, ha⟩ := List.mem_flatMap.mp hr
    exact h a r ha

theorem allField (lvl : ValidateLevel) (f : FieldInfo) : BrokenShown (allFieldRules lvl f) :=
  append (flatMap fun g => append (flatMap fun v => all (.enumValue lvl v)) (all (.enums lvl g))) fun _ => field_shown
theorem allRegister (lvl : ValidateLevel) (r : RegisterInfo) : BrokenShown (allRegisterRules lvl r) :=
  append (append (all (.props _ _)) (flatMap fun _ => flatMap fun _ => allField _ _)) (all (.register _ _))
theorem ownRegisters (lvl : ValidateLevel) (cs : List RegisterCluster) : BrokenShown (ownRegisterRules lvl cs) :=
  flatMap fun c => match c with
    | .register r => allRegister lvl r.info
    | .cluster .. => all .nil

mutual
theorem allCluster (lvl : ValidateLevel) : (c : RegisterCluster) → BrokenShown (allClusterRules lvl c)
  | .register _ => by rw [allClusterRules]; exact all .nil
  | .cluster h d cs => by
    rw [allClusterRules]
    exact append (append (append (all (.props _ _)) (ownRegisters _ _)) (clusters lvl cs)) (all (.cluster _ _ _))
theorem clusters (lvl : ValidateLevel) : (cs : List RegisterCluster) → BrokenShown (clustersRules lvl cs)
  | [] => by rw [clustersRules]; exact all .nil
  | c :: cs => by rw [clustersRules]; exact append (allCluster lvl c) (clusters lvl cs)
end

theorem allPeripheral (lvl : ValidateLevel) (p : PeripheralInfo) : BrokenShown (allPeripheralRules lvl p) :=
  append (append (append (all (.props _ _)) (flatMap fun _ => ownRegisters _ _)) (flatMap fun _ => clusters _ _))
    (all (.peripheral _ _))
theorem allDevice (lvl : ValidateLevel) (d : Device) : BrokenShown (allDeviceRules lvl d) :=
  append (append (all (.props _ _)) (flatMap fun _ => allPeripheral _ _))
    (all (.enabled (.one trivial (fun _ _ _ h => by cases h))))

end BrokenShown

/-- The errors of validation can be shown. -/
theorem C73_validate {lvl : ValidateLevel} {d : Device} {e : Err} (h : d.validateAll lvl = .error (.err e)) :
    NamesKnown e ∧ ∀ oc dbg, ∃ s, e.message oc dbg = .ok s := by
  obtain ⟨e', h', b, r, a, hl, _, hr, rfl⟩ := ((C72_device lvl d).1 _).mp h
  cases h'
  have := BrokenShown.allDevice lvl d r (by rw [hl]; simp) hr
  exact ⟨this.named, this.text⟩

example (oc : Bool) (dbg : Str → Str) : ∃ e s, (Sample.device []).validateAll .weak = .error (.err e) ∧
    e.message oc dbg = .ok s := by
  have h : (Sample.device []).validateAll .weak = .error (.err .emptyDevice) := by decide +kernel
  obtain ⟨s, hs⟩ := (C73_validate h).2 oc dbg
  exact ⟨_, s, h, hs⟩

theorem blame_shown {lvl : ValidateLevel} {x : Xml} {e : Err} (h : Blame lvl x e) : Shown e := by
  refine .of ?_ fun v lo hi he => ?_
  · cases e
    case missingPlaceholder s t =>
      have : ∀ t ∈ arrayTags, '`' ∉ t.toList := by decide
      exact this t h.2.1
    all_goals first | exact trivial | exact h.elim
  · subst he
    obtain ⟨_, _, _, ⟨w, _, _, hw⟩, _⟩ := h
    rintro rfl
    have : 0 < 2 ^ w := Nat.two_pow_pos w
    have : (0 : U64).toNat = 0 := rfl
    omega

theorem reference_shown {e : Err} (h : ReferenceError e) : Shown e := by
  cases h with
  | self h s => exact .of h (fun _ _ _ h => by cases h)
  | missing h s => exact .of h (fun _ _ _ h => by cases h)
  | values => exact .of trivial (fun _ _ _ h => by cases h)

/-- The errors of expansion can be shown, -/
theorem C73_expand {oc : Bool} {fuel : Nat} {d : Device} {e : Err} (h : expand oc fuel d = .error (.err e)) :
    NamesKnown e ∧ ∀ oc dbg, ∃ s, e.message oc dbg = .ok s := by
  cases (expand_faults oc fuel d).out _ h with
  | err h => exact ⟨(reference_shown h).named, (reference_shown h).text⟩

example (oc : Bool) (dbg : Str → Str) : ∃ e s,
    expand true 5 (Sample.device [.single (Sample.peripheralInfo "A" 0 (some "B"))]) = .error (.err e) ∧
    e.message oc dbg = .ok s := by
  have h : expand true 5 (Sample.device [.single (Sample.peripheralInfo "A" 0 (some "B"))]) =
    .error (.err (.notFound "peripheral" "B".toList)) := by decide +kernel
  obtain ⟨s, hs⟩ := (C73_expand h).2 oc dbg
  exact ⟨_, s, h, hs⟩

/-- and those of reading a document with any options. -/
theorem C73_parse {oc : Bool} {fuel : Nat} {cfg : ParseConfig} {top : List Xml} {e : Err}
    (h : parseWithConfig oc fuel cfg top = .error (.err e)) :
    NamesKnown e ∧ ∀ oc dbg, ∃ s, e.message oc dbg = .ok s := by
  unfold parseWithConfig at h
  rw [bind_error] at h
  rcases h with h | ⟨d, _, h⟩
  · suffices hs : Shown e from ⟨hs.named, hs.text⟩
    have hr := ((C58_same_outcome oc cfg top).2.1 e).mpr h
    rcases hr with hr | ⟨cs, hr⟩
    · obtain ⟨_, rfl⟩ := (C58_plain oc cfg top e).mp hr
      exact .of trivial (fun _ _ _ h => by cases h)
    · cases hn : (topNodes top).find? (Node.hasTag "device") with
      | none => unfold parseReport at hr; rw [hn] at hr; cases hr
      | some n =>
        unfold parseReport at hr
        rw [hn] at hr
        simp only at hr
        have ht : n.xml.hasTag "device" = true := List.find?_some (p := Node.hasTag "device") hn
        cases hd : n.parseDevice oc cfg with
        | ok d => rw [hd] at hr; cases hr
        | error f =>
          rw [hd] at hr
          cases f with
          | err e' id =>
            obtain ⟨_, _, _, _, _, hb⟩ := C58_error_true ht hd
            simp only at hr
            split at hr <;> cases hr
            exact blame_shown hb
          | panic p => cases hr
          | diverge => cases hr
  · simp only at h
    split at h
    · exact C73_expand h
    · cases h

example (oc : Bool) (dbg : Str → Str) : ∃ e s, parseWithConfig true 5 {} [.elem "device" [] []] = .error (.err e) ∧
    e.message oc dbg = .ok s := by
  have h : parseWithConfig true 5 {} [.elem "device" [] []] = .error (.err (.missingTag "name")) := by decide +kernel
  obtain ⟨s, hs⟩ := (C73_parse h).2 oc dbg
  exact ⟨_, s, h, hs⟩

/-- The range in the text is the range of the values that fit into the field. -/
theorem C73_range {lvl : ValidateLevel} {f : FieldInfo} {v lo hi : U64} (oc : Bool) (dbg : Str → Str)
    (h : f.validate lvl = .error (.err (.enumOutOfRange v lo hi))) :
    Err.message oc dbg (.enumOutOfRange v lo hi) = .ok ("`EnumeratedValue error: Value ".toList ++ decText v.toNat ++
      " out of range [0 - ".toList ++ decText (2 ^ f.bitRange.width.toNat - 1) ++ "]".toList) ∧
    2 ^ f.bitRange.width.toNat - 1 < v.toNat := by
  obtain ⟨e, he, b, r, a, hl, _, hb, hr⟩ := ((field_checks lvl f).error _).mp h
  cases he
  have hm : r ∈ fieldRules lvl f := by rw [hl]; simp
  unfold fieldRules Spec.enabled at hm
  split at hm
  · cases hm
  simp only [List.mem_append] at hm
  rcases hm with (((hm | hm) | hm) | hm) | hm
  · exfalso
    unfold strictOnly at hm
    split at hm
    · rcases List.mem_append.mp hm with hm | hm
      · rw [List.mem_singleton.mp hm] at hr; cases hr
      · obtain ⟨_, _, hm⟩ := List.mem_flatMap.mp hm
        obtain ⟨_, _, hm⟩ := List.mem_flatMap.mp hm
        rw [List.mem_singleton.mp hm] at hr; cases hr
    · cases hm
  · rw [List.mem_singleton.mp hm] at hr; cases hr
  · obtain ⟨g, _, hm⟩ := List.mem_flatMap.mp hm
    obtain ⟨e, _, hm⟩ := List.mem_flatMap.mp hm
    obtain ⟨v', _, hm⟩ := List.mem_flatMap.mp hm
    rw [List.mem_singleton] at hm
    subst hm
    cases hr
    obtain ⟨hw, hv⟩ := hb
    have h1 : (BitVec.ofNat 64 (2 ^ f.bitRange.width.toNat)).toNat = 2 ^ f.bitRange.width.toNat := by
      rw [BitVec.toNat_ofNat]
      exact Nat.mod_eq_of_lt (Nat.pow_lt_pow_right (by omega) hw)
    have hp : 0 < 2 ^ f.bitRange.width.toNat := Nat.two_pow_pos _
    have h0 : BitVec.ofNat 64 (2 ^ f.bitRange.width.toNat) ≠ 0 := fun h => by
      rw [h] at h1
      have : (0 : U64).toNat = 0 := rfl
      omega
    have h2 : (BitVec.ofNat 64 (2 ^ f.bitRange.width.toNat) - 1).toNat = 2 ^ f.bitRange.width.toNat - 1 := by
      rw [BitVec.toNat_sub_of_le, h1]
      · rfl
      · rw [BitVec.le_def, h1]
        change 1 ≤ _
        omega
    refine ⟨?_, by omega⟩
    simp only [Err.message]
    rw [if_neg (fun h => h0 h.1), h2]
    simp only [List.append_assoc]
    rfl
  · unfold strictOnly at hm
    split at hm
    · rw [List.mem_singleton.mp hm] at hr; cases hr
    · cases hm
  · exfalso
    split at hm
    · simp only [List.mem_cons, List.not_mem_nil, or_false] at hm
      rcases hm with rfl | rfl | rfl <;> cases hr
    · cases hm

/-! ## The parent field of missing enumerated values -/

theorem debugList_told {dbg : Str → Str} (hq : Quotes dbg) {l l' : List Str} {r r' : Str}
    (h : debugList dbg l ++ r = debugList dbg l' ++ r') : l = l' ∧ r = r' := by
  have key : ∀ (a : Str) (l : List Str), (", ".toList).intercalate ((a :: l).map dbg) =
      dbg a ++ l.flatMap fun s => ", ".toList ++ dbg s := by
    intro a l
    induction l generalizing a with
    | nil => simp [List.intercalate]
    | cons b l ih =>
      have := ih b
      simp only [List.intercalate, List.map_cons, List.intersperse_cons_cons, List.flatten_cons] at this ⊢
      rw [this]
      simp
  have tail : ∀ (l l' : List Str), (l.flatMap fun s => ", ".toList ++ dbg s) ++ ("]".toList ++ r) =
      (l'.flatMap fun s => ", ".toList ++ dbg s) ++ ("]".toList ++ r') → l = l' ∧ r = r' := by
    intro l
    induction l with
    | nil =>
      intro l' h
      cases l' with
      | nil => exact ⟨rfl, List.append_cancel_left h⟩
      | cons a l' => simp at h
    | cons a l ih =>
      intro l' h
      cases l' with
      | nil => simp at h
      | cons b l' =>
        simp only [List.flatMap_cons, List.append_assoc] at h
        obtain ⟨rfl, h1⟩ := hq.ending _ _ _ _ (List.append_cancel_left h)
        obtain ⟨rfl, hr⟩ := ih l' h1
        exact ⟨rfl, hr⟩
  unfold debugList at h
  simp only [List.append_assoc] at h
  have h := List.append_cancel_left h
  cases l with
  | nil =>
    cases l' with
    | nil => exact ⟨rfl, List.append_cancel_left h⟩
    | cons b l' =>
      rw [key] at h
      obtain ⟨t, ht⟩ := hq.opening b
      rw [ht] at h
      simp [List.intercalate] at h
  | cons a l =>
    cases l' with
    | nil =>
      rw [key] at h
      obtain ⟨t, ht⟩ := hq.opening a
      rw [ht] at h
      simp [List.intercalate] at h
    | cons b l' =>
      rw [key, key, List.append_assoc, List.append_assoc] at h
      obtain ⟨rfl, h1⟩ := hq.ending _ _ _ _ h
      obtain ⟨rfl, hr⟩ := tail l l' h1
      exact ⟨rfl, hr⟩

/-- **C73**, missing enumerated values: if strings are quoted so that their ends can be seen, the text tells the
parent field with all names on its path, for each reference. -/
theorem C73_parent {oc oc' : Bool} {dbg : Str → Str} (hq : Quotes dbg) (path p p' : Str) (cs cs' : List Str)
    (r r' f f' : Str) (h : Err.message oc dbg (.enumsNotFound path p cs r f) =
      Err.message oc' dbg (.enumsNotFound path p' cs' r' f')) : p = p' ∧ cs = cs' ∧ r = r' ∧ f = f' := by
  simp only [Err.message, Except.ok.injEq, List.append_assoc] at h
  have h := List.append_cancel_left (List.append_cancel_left (List.append_cancel_left h))
  unfold debugFieldPath at h
  simp only [List.append_assoc] at h
  obtain ⟨rfl, h1⟩ := hq.ending _ _ _ _ (List.append_cancel_left h)
  obtain ⟨rfl, h2⟩ := debugList_told hq (List.append_cancel_left h1)
  obtain ⟨rfl, h3⟩ := hq.ending _ _ _ _ (List.append_cancel_left h2)
  obtain ⟨rfl, _⟩ := hq.ending _ _ _ _ (List.append_cancel_left h3)
  exact ⟨rfl, rfl, rfl, rfl⟩

/-- Quotes around the text and a backslash before quotes and backslashes in it. -/
def quoted (s : Str) : Str :=
  '"' :: ((s.flatMap fun c => if c = '"' ∨ c = '\\' then ['\\', c] else [c]) ++ ['"'])

theorem quoted_quotes : Quotes quoted := by
  refine ⟨fun s => ⟨_, rfl⟩, ?_⟩
  intro s
  induction s with
  | nil =>
    intro s' r r' h
    cases s' with
    | nil => simpa [quoted] using h
    | cons c s' =>
      by_cases hc : c = '"' ∨ c = '\\'
      · simp [quoted, hc] at h
      · simp [quoted, hc] at h
        exact absurd h.1.symm fun e => hc (.inl e)
  | cons a s ih =>
    intro s' r r' h
    cases s' with
    | nil =>
      by_cases hc : a = '"' ∨ a = '\\'
      · simp [quoted, hc] at h
      · simp [quoted, hc] at h
        exact absurd h.1 fun e => hc (.inl e)
    | cons c s' =>
      have key : a = c ∧ quoted s ++ r = quoted s' ++ r' := by
        by_cases ha : a = '"' ∨ a = '\\' <;> by_cases hc : c = '"' ∨ c = '\\'
        · simp [quoted, ha, hc] at h
          exact ⟨h.1, by simpa [quoted] using h.2⟩
        · simp [quoted, ha, hc] at h
          exact absurd (Or.inr h.1.symm) hc
        · simp [quoted, ha, hc] at h
          exact absurd (Or.inr h.1) ha
        · simp [quoted, ha, hc] at h
          exact ⟨h.1, by simpa [quoted] using h.2⟩
      obtain ⟨rfl, hr⟩ := ih s' r r' key.2
      exact ⟨by rw [key.1], hr⟩

-- The hypothesis of `C73_parent` can be met.
example (p p' r r' f f' : Str) (cs cs' : List Str) (h : Err.message true quoted (.enumsNotFound "A".toList p cs r f) =
    Err.message false quoted (.enumsNotFound "A".toList p' cs' r' f')) : cs = cs' :=
  (C73_parent quoted_quotes _ _ _ _ _ _ _ _ _ h).2.1

/-! ## Examples -/

example : Err.message true id (.missingTag "name") = .ok "Expected a <name> tag, found none".toList := by decide
example : Err.message true id (.enumOutOfRange 9 0 8) =
    .ok "`EnumeratedValue error: Value 9 out of range [0 - 7]".toList := by decide +kernel
example : Err.message true id (.enumOutOfRange 9 0 0) = .error (.panic .overflow) := by decide +kernel
example : Err.message true id (.resetMaskConflict 255 16) =
    .ok "`RegisterProperties error: Reset value 0xff conflicts with mask '0x10'".toList := by decide +kernel
example : Err.message true id (.enumsNotFound "A".toList "P".toList ["C".toList, "D".toList] "R".toList "F".toList) =
    .ok ("enumeratedValues A not found, parent field: FieldPath { register: RegisterPath { block: BlockPath " ++
      "{ peripheral: P, path: [C, D] }, name: R }, name: F }").toList := by decide +kernel
/-- A placeholder message that can be read in two ways, if a tag contained a backquote. -/
example : Err.message true id (.missingPlaceholder "a` in tag `b".toList "c") =
    Err.message true id (.missingPlaceholder "a".toList "b` in tag `c") := by decide +kernel

-- `C73_range`: a value of two bits in a field of one bit.
example : Err.message true id (.enumOutOfRange 3 0 2) =
    .ok "`EnumeratedValue error: Value 3 out of range [0 - 1]".toList :=
  (C73_range (lvl := .weak) (f := Sample.fieldInfo "F" 0 none [Sample.evs none none [⟨"A".toList, none, some 3, none⟩]])
    true id (by decide +kernel)).1.trans (by decide +kernel)

end Svd
