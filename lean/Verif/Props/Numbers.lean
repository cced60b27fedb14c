import Verif.Model.Encode
import Verif.Model.Parse
import Verif.Lemmas.Num
import Verif.Lemmas.Str
import Verif.Spec.Keywords

/-!
# C01, C02, C03, C04: numbers, booleans and keywords as text
-/

namespace Svd

open Spec Xml

/-! ## C02 -/

/-- A literal has one value. -/
theorem intLiteral_unique {s : Str} {n m : Nat} (h1 : IntLiteral s n) (h2 : IntLiteral s m) :
    n = m := by
  have hn : n < 2 ^ (n + m) := Nat.lt_of_lt_of_le Nat.lt_two_pow_self
    (Nat.pow_le_pow_right (by decide) (by omega))
  have hm : m < 2 ^ (n + m) := Nat.lt_of_lt_of_le Nat.lt_two_pow_self
    (Nat.pow_le_pow_right (by decide) (by omega))
  have a := (parseIntText_ok (w := n + m) s _).mpr ⟨n, h1, hn, rfl⟩
  have b := (parseIntText_ok (w := n + m) s _).mpr ⟨m, h2, hm, rfl⟩
  rw [a] at b
  injection b with b
  have := congrArg BitVec.toNat b
  simpa [Nat.mod_eq_of_lt hn, Nat.mod_eq_of_lt hm] using this

/-- **C02.** An element is read as the `w`-bit integer `v` (`w` = 32 or 64 in the code) exactly when
its text, without surrounding whitespace, is an integer literal whose mathematical value is in range
and equal to `v`. -/
theorem C02_parse_int_iff (w : Nat) (t : Xml) (v : BitVec w) :
    parseInt w t = .ok v ↔
      ∃ text lit n, t.textOf = some text ∧ IsTrimmed text lit ∧ IntLiteral lit n ∧ n < 2 ^ w ∧
        v.toNat = n := by
  unfold parseInt getText
  cases ht : t.textOf with
  | none =>
    constructor
    · intro h; simp [fail, bind, Except.bind] at h
    · rintro ⟨_, _, _, h, _⟩; cases h
  | some text =>
    have key : (∃ text' lit n, some text = some text' ∧ IsTrimmed text' lit ∧ IntLiteral lit n ∧
        n < 2 ^ w ∧ v.toNat = n) ↔ ∃ n, IntLiteral (trim text) n ∧ n < 2 ^ w ∧ v = BitVec.ofNat w n := by
      constructor
      · rintro ⟨text', lit, n, h1, h2, h3, h4, h5⟩
        injection h1 with h1; subst h1
        rw [← trim_iff] at h2; subst h2
        exact ⟨n, h3, h4, by rw [← h5]; simp⟩
      · rintro ⟨n, h3, h4, rfl⟩
        exact ⟨text, _, n, rfl, isTrimmed_trim _, h3, h4, by simp [Nat.mod_eq_of_lt h4]⟩
    rw [key, ← parseIntText_ok]
    simp only [bind, Except.bind]
    cases parseIntText w (trim text) <;> simp [fail]

example : ∃ text lit n, (newNode "size" " 0x+5 ".toList).textOf = some text ∧ IsTrimmed text lit ∧ IntLiteral lit n ∧
    n < 2 ^ 32 ∧ (5 : U32).toNat = n := (C02_parse_int_iff 32 _ 5).mp (by decide)

/-- **C02**, the other outcomes: an element that is not such a number is a reported error, never a
wrapped number or a panic. -/
theorem C02_parse_int_otherwise (w : Nat) (t : Xml) :
    (∃ v, parseInt w t = .ok v) ∨ (∃ k, parseInt w t = .error (.err (.parseInt k))) ∨
      (t.textOf = none ∧ parseInt w t = .error (.err (.emptyTag t.tag))) := by
  unfold parseInt getText
  cases ht : t.textOf with
  | none => exact .inr (.inr ⟨rfl, rfl⟩)
  | some text =>
    simp only [bind, Except.bind]
    cases parseIntText w (trim text) with
    | ok v => exact .inl ⟨v, rfl⟩
    | error k => exact .inr (.inl ⟨k, rfl⟩)

-- "0x+5" is accepted with value 5, "#1xX0" with value 8, "4294967296" is out of range for 32 bits
example : parseInt 32 (newNode "size" "#1xX0".toList) = .ok 8 := by decide
example : parseInt 32 (newNode "size" " 0x+5 ".toList) = .ok 5 := by decide
example : parseInt 32 (newNode "size" "4294967296".toList) =
    .error (.err (.parseInt .posOverflow)) := by decide

/-! ## C01 -/

theorem numeral_not_ws {digit : Char → Nat → Prop} {radix : Nat} {s : Str} {n : Nat}
    (hd : ∀ c d, digit c d → isWhitespace c = false) (h : Numeral digit radix s n) :
    ∀ c ∈ s, isWhitespace c = false := by
  cases h with
  | plain h => intro c hc; obtain ⟨d, h⟩ := positional_mem h c hc; exact hd c d h
  | plus h =>
    intro c hc
    rcases List.mem_cons.mp hc with rfl | hc
    · decide
    · obtain ⟨d, h⟩ := positional_mem h c hc; exact hd c d h

/-- Literals contain no whitespace. -/
theorem intLiteral_not_ws {s : Str} {n : Nat} (h : IntLiteral s n) :
    ∀ c ∈ s, isWhitespace c = false := by
  cases h with
  | dec h => exact numeral_not_ws (fun c d h => digitValue_not_ws h.1) h
  | hex hx h =>
    have := numeral_not_ws (fun c d h => digitValue_not_ws h.1) h
    rcases hx with rfl | rfl <;> simpa using ⟨by decide, by decide, this⟩
  | hash h =>
    have := numeral_not_ws (fun c d h => by
      rcases h with h | ⟨rfl | rfl, _⟩
      · exact digitValue_not_ws h.1
      · decide
      · decide) h
    simpa using ⟨by decide, this⟩
  | bin h =>
    have := numeral_not_ws (fun c d h => by
      rcases h with h | ⟨rfl, _⟩
      · exact digitValue_not_ws h.1
      · decide) h
    simpa using ⟨by decide, by decide, this⟩

/-- **C01.** Every value of every width, written in any of the eight formats, reads back as the same
value. -/
theorem C01_number_round_trip (w : Nat) (tag : String) (v : BitVec w) (f : NumberFormat) :
    parseInt w (newNode tag (formatNumber v f)) = .ok v := by
  rw [C02_parse_int_iff]
  have h := intLiteral_formatNumber v f
  refine ⟨formatNumber v f, _, v.toNat, rfl, ?_, h, v.isLt, rfl⟩
  exact trim_iff.mp (trim_eq_self_of_all (intLiteral_not_ws h))

example : parseInt 64 (newNode "resetValue" "0x0000001abcd12345".toList) = .ok 0x1ABCD12345 :=
  C01_number_round_trip 64 "resetValue" 0x1ABCD12345 .lowerHex16

/-- **C01** for the decimal `to_string` used for interrupts, CPU numbers and bit ranges. -/
theorem C01_decimal_round_trip (w : Nat) (tag : String) (v : BitVec w) :
    parseInt w (newNode tag (decString v)) = .ok v :=
  C01_number_round_trip w tag v .dec

example : formatNumber (0xABCD : U32) .upperHex8 = "0x0000ABCD".toList ∧
    formatNumber (0x1ABCD12345 : U64) .lowerHex16 = "0x0000001abcd12345".toList ∧
    formatNumber (6 : U32) .bin = "0b110".toList := by decide

/-! ## C03 -/

/-- The texts of the truth values. -/
inductive BoolText : Str → Bool → Prop where
  | zero : BoolText "0".toList false
  | false : BoolText "false".toList false
  | one : BoolText "1".toList true
  | true : BoolText "true".toList true

/-- **C03.** An element is read as a boolean exactly when its trimmed text is `0`, `1`, `true` or
`false`, with that truth value; otherwise a reported error. -/
theorem C03_parse_bool_iff (t : Xml) (b : Bool) :
    parseBool t = .ok b ↔ ∃ text lit, t.textOf = some text ∧ IsTrimmed text lit ∧ BoolText lit b := by
  unfold parseBool getText
  cases ht : t.textOf with
  | none =>
    constructor
    · intro h; simp [fail, bind, Except.bind] at h
    · rintro ⟨_, _, h, _⟩; cases h
  | some text =>
    have key : ∀ s b, parseBoolText s = some b ↔ BoolText s b := by
      intro s b
      constructor
      · intro h
        unfold parseBoolText at h
        split at h
        · rename_i hs; injection h with h; subst hs; subst h; exact .zero
        · split at h
          · rename_i hs; injection h with h; subst hs; subst h; exact .one
          · split at h
            · rename_i hs; injection h with h; subst hs; subst h; exact .true
            · split at h
              · rename_i hs; injection h with h; subst hs; subst h; exact .false
              · cases h
      · intro h; cases h <;> decide
    simp only [Option.some.injEq, exists_and_left, exists_eq_left', ← trim_iff, ← key]
    simp only [bind, Except.bind]
    cases parseBoolText (trim text) <;> simp [okOr, fail]

example : ∃ text lit, (newNode "x" " true\n".toList).textOf = some text ∧ IsTrimmed text lit ∧ BoolText lit true :=
  (C03_parse_bool_iff _ _).mp (by decide)

/-- **C03**, the other outcomes. -/
theorem C03_parse_bool_otherwise (t : Xml) :
    (∃ b, parseBool t = .ok b) ∨ (∃ s, parseBool t = .error (.err (.invalidBooleanValue s))) ∨
      parseBool t = .error (.err (.emptyTag t.tag)) := by
  unfold parseBool getText
  cases ht : t.textOf with
  | none => exact .inr (.inr rfl)
  | some text =>
    simp only [bind, Except.bind]
    cases parseBoolText (trim text) with
    | some b => exact .inl ⟨b, rfl⟩
    | none => exact .inr (.inl ⟨_, rfl⟩)

/-- **C03.** What is written for a boolean reads back. -/
theorem C03_bool_round_trip (tag : String) (b : Bool) :
    parseBool (newNode tag (boolStr b)) = .ok b := by
  rw [C03_parse_bool_iff]
  refine ⟨_, _, rfl, trim_iff.mp (trim_eq_self_of_all ?_), ?_⟩
  · cases b <;> decide
  · cases b
    · exact .false
    · exact .true

example : parseBool (newNode "x" " true\n".toList) = .ok true ∧
    parseBool (newNode "x" "True".toList) = .error (.err (.invalidBooleanValue "True".toList)) := by
  decide

/-! ## C04 -/

/-- A keyword type is exactly described by a spelling table: reading accepts exactly the table,
writing produces exactly the table. -/
def SpelledBy {α : Type} (parseStr : Str → Option α) (asStr : α → Str) (table : List (String × α)) :
    Prop :=
  ∀ s v, (parseStr s = some v ↔ ∃ n, s = String.toList n ∧ (n, v) ∈ table) ∧
    (asStr v = s ↔ ∃ n, s = String.toList n ∧ (n, v) ∈ table)

theorem ite_some_cases {α : Type} {p : Prop} [Decidable p] {a v : α} {o : Option α}
    (h : (if p then some a else o) = some v) : (p ∧ a = v) ∨ o = some v := by
  split at h
  · injection h with h; exact .inl ⟨‹_›, h⟩
  · exact .inr h

theorem spelledBy_of {α : Type} {parseStr : Str → Option α} {asStr : α → Str}
    {table : List (String × α)} (h1 : ∀ v, parseStr (asStr v) = some v)
    (h2 : ∀ s v, parseStr s = some v → s = asStr v)
    (h3 : ∀ p ∈ table, asStr p.2 = p.1.toList) (h4 : ∀ v, ∃ p ∈ table, p.2 = v) :
    SpelledBy parseStr asStr table := by
  have key : ∀ s v, asStr v = s ↔ ∃ n, s = String.toList n ∧ (n, v) ∈ table := by
    intro s v
    constructor
    · rintro rfl
      obtain ⟨⟨n, v'⟩, hp, rfl⟩ := h4 v
      exact ⟨n, h3 _ hp, hp⟩
    · rintro ⟨n, rfl, hn⟩; exact h3 _ hn
  intro s v
  refine ⟨?_, key s v⟩
  rw [← key]
  constructor
  · intro h; exact (h2 s v h).symm
  · rintro rfl; exact h1 v

/-- What the element parser of a keyword type does, given its spelling table. -/
theorem parseKeyword_iff {α : Type} {parseStr : Str → Option α} {asStr : α → Str}
    {table : List (String × α)} (h : SpelledBy parseStr asStr table) (e : Str → Err) (t : Xml)
    (v : α) :
    parseKeyword parseStr e t = .ok v ↔
      ∃ text n, t.textOf = some text ∧ IsTrimmed text (String.toList n) ∧ (n, v) ∈ table := by
  unfold parseKeyword getText
  cases ht : t.textOf with
  | none =>
    constructor
    · intro h; simp [fail, bind, Except.bind] at h
    · rintro ⟨_, _, h, _⟩; cases h
  | some text =>
    have key := (h (trim text) v).1
    simp only [Option.some.injEq, exists_and_left, exists_eq_left', ← trim_iff]
    rw [← key]
    simp only [bind, Except.bind]
    cases parseStr (trim text) <;> simp [okOr, fail]

/-- A keyword type is read from and written to XML as described by its table: the element parser
accepts exactly the elements whose trimmed text is a spelling (anything else is a reported error, not
a panic), and what the encoder writes for a value is its spelling and reads back as that value. -/
structure KeywordType {α : Type} (parse : Xml → M α) (parseStr : Str → Option α) (asStr : α → Str)
    (table : List (String × α)) : Prop where
  spelled : SpelledBy parseStr asStr table
  reads : ∀ t v, parse t = .ok v ↔
    ∃ text n, t.textOf = some text ∧ IsTrimmed text (String.toList n) ∧ (n, v) ∈ table
  rejects : ∀ t, (∃ v, parse t = .ok v) ∨ ∃ e, parse t = .error (.err e)
  roundTrip : ∀ tag v, parse (newNode tag (asStr v)) = .ok v

theorem keywordType_of {α : Type} {parseStr : Str → Option α} {asStr : α → Str}
    {table : List (String × α)} (h : SpelledBy parseStr asStr table) (e : Str → Err)
    (ht : ∀ v, trim (asStr v) = asStr v) :
    KeywordType (parseKeyword parseStr e) parseStr asStr table where
  spelled := h
  reads := parseKeyword_iff h e
  rejects t := by
    unfold parseKeyword getText
    cases t.textOf with
    | none => exact .inr ⟨_, rfl⟩
    | some text =>
      simp only [bind, Except.bind]
      cases parseStr (trim text) with
      | some v => exact .inl ⟨v, rfl⟩
      | none => exact .inr ⟨_, rfl⟩
  roundTrip tag v := by
    rw [parseKeyword_iff h]
    obtain ⟨n, hn, hv⟩ := (h (asStr v) v).2.mp rfl
    exact ⟨asStr v, n, rfl, hn ▸ trim_iff.mp (ht v), hv⟩

/-- **C04** for `Access`. -/
theorem C04_access : KeywordType parseAccess Access.parseStr Access.asStr accessSpelling := by
  refine keywordType_of (spelledBy_of ?_ ?_ ?_ ?_) _ ?_
  · intro v; cases v <;> decide
  · intro s v h
    unfold Access.parseStr at h
    repeat (rcases ite_some_cases h with ⟨rfl, rfl⟩ | h; · rfl)
    cases h
  · decide
  · intro v; cases v <;> decide
  · intro v; cases v <;> decide

/-- **C04**, what the spelling of an access says: reading is possible exactly if the spelling begins with
`read`, and writing (at least once) exactly if it contains `write`. -/
theorem C04_access_rights (s : Str) (a : Access) (h : Access.parseStr s = some a) :
    (a.canRead = true ↔ "read".toList <+: s) ∧ (a.canWrite = true ↔ "write".toList <:+: s) := by
  unfold Access.parseStr at h
  repeat (rcases ite_some_cases h with ⟨rfl, rfl⟩ | h; · decide +kernel)
  cases h

example : Access.parseStr "read-writeOnce".toList = some .readWriteOnce ∧
    Access.parseStr "writeOnce".toList = some .writeOnce := by decide +kernel

/-- **C04** for `Usage`. -/
theorem C04_usage : KeywordType parseUsage Usage.parseStr Usage.asStr usageSpelling := by
  refine keywordType_of (spelledBy_of ?_ ?_ ?_ ?_) _ ?_
  · intro v; cases v <;> decide
  · intro s v h
    unfold Usage.parseStr at h
    repeat (rcases ite_some_cases h with ⟨rfl, rfl⟩ | h; · rfl)
    cases h
  · decide
  · intro v; cases v <;> decide
  · intro v; cases v <;> decide

/-- **C04** for `Protection`. -/
theorem C04_protection : KeywordType parseProtection Protection.parseStr Protection.asStr protectionSpelling := by
  refine keywordType_of (spelledBy_of ?_ ?_ ?_ ?_) _ ?_
  · intro v; cases v <;> decide
  · intro s v h
    unfold Protection.parseStr at h
    repeat (rcases ite_some_cases h with ⟨rfl, rfl⟩ | h; · rfl)
    cases h
  · decide
  · intro v; cases v <;> decide
  · intro v; cases v <;> decide

/-- **C04** for `Endian`. -/
theorem C04_endian : KeywordType parseEndian Endian.parseStr Endian.asStr endianSpelling := by
  refine keywordType_of (spelledBy_of ?_ ?_ ?_ ?_) _ ?_
  · intro v; cases v <;> decide
  · intro s v h
    unfold Endian.parseStr at h
    repeat (rcases ite_some_cases h with ⟨rfl, rfl⟩ | h; · rfl)
    cases h
  · decide
  · intro v; cases v <;> decide
  · intro v; cases v <;> decide

/-- **C04** for `ReadAction`. -/
theorem C04_readAction : KeywordType parseReadAction ReadAction.parseStr ReadAction.asStr readActionSpelling := by
  refine keywordType_of (spelledBy_of ?_ ?_ ?_ ?_) _ ?_
  · intro v; cases v <;> decide
  · intro s v h
    unfold ReadAction.parseStr at h
    repeat (rcases ite_some_cases h with ⟨rfl, rfl⟩ | h; · rfl)
    cases h
  · decide
  · intro v; cases v <;> decide
  · intro v; cases v <;> decide

/-- **C04** for `ModifiedWriteValues`. -/
theorem C04_modifiedWriteValues : KeywordType parseModifiedWriteValues ModifiedWriteValues.parseStr ModifiedWriteValues.asStr modifiedWriteValuesSpelling := by
  refine keywordType_of (spelledBy_of ?_ ?_ ?_ ?_) _ ?_
  · intro v; cases v <;> decide
  · intro s v h
    unfold ModifiedWriteValues.parseStr at h
    repeat (rcases ite_some_cases h with ⟨rfl, rfl⟩ | h; · rfl)
    cases h
  · decide
  · intro v; cases v <;> decide
  · intro v; cases v <;> decide

/-- **C04** for `DataType`. -/
theorem C04_dataType : KeywordType parseDataType DataType.parseStr DataType.asStr dataTypeSpelling := by
  refine keywordType_of (spelledBy_of ?_ ?_ ?_ ?_) _ ?_
  · intro v; cases v <;> decide
  · intro s v h
    unfold DataType.parseStr at h
    repeat (rcases ite_some_cases h with ⟨rfl, rfl⟩ | h; · rfl)
    cases h
  · decide
  · intro v; cases v <;> decide
  · intro v; cases v <;> decide

/-- **C04** for `AddressBlockUsage`. -/
theorem C04_addressBlockUsage : KeywordType parseAddressBlockUsage AddressBlockUsage.parseStr AddressBlockUsage.asStr addressBlockUsageSpelling := by
  refine keywordType_of (spelledBy_of ?_ ?_ ?_ ?_) _ ?_
  · intro v; cases v <;> decide
  · intro s v h
    unfold AddressBlockUsage.parseStr at h
    repeat (rcases ite_some_cases h with ⟨rfl, rfl⟩ | h; · rfl)
    cases h
  · decide
  · intro v; cases v <;> decide
  · intro v; cases v <;> decide

example : parseAccess (newNode "access" "\n read-only ".toList) = .ok .readOnly ∧
    parseAccess (newNode "access" "readonly".toList) =
      .error (.err (.unknownAccessType "readonly".toList)) := by decide

end Svd
