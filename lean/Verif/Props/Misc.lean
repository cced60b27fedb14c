import Verif.Spec.Sample
import Verif.Spec.Config
import Verif.Spec.Iter
import Verif.Model.Top
import Verif.Model.Iter
import Verif.Props.BitRange
import Verif.Props.Dim
import Verif.Props.Path

/-!
# C46, C47, C48, C49
-/

namespace Svd

open Spec

/-! ## C46 -/

/-- The UTF-8 bytes of a text. -/
def utf8 (cs : List Char) : List UInt8 := cs.flatMap String.utf8EncodeChar

theorem utf8_bom : utf8 ['\uFEFF'] = [0xEF, 0xBB, 0xBF] := by decide

theorem prefix_bom {b : List UInt8} : [0xEF, 0xBB, 0xBF].isPrefixOf b = true ↔
    ∃ t, b = utf8 ['\uFEFF'] ++ t := by
  rw [List.isPrefixOf_iff_prefix, utf8_bom]
  exact ⟨fun ⟨t, h⟩ => ⟨t, h.symm⟩, fun ⟨t, h⟩ => ⟨t, h.symm⟩⟩

theorem utf8_head {c : Char} {cs : List Char} {t : List UInt8} (h : utf8 (c :: cs) = utf8 ['\uFEFF'] ++ t) :
    c = '\uFEFF' := by
  have e : ∀ (c : Char) (b : List UInt8),
      ((String.utf8EncodeChar c ++ b).toByteArray).utf8DecodeChar? 0 = some c := by
    intro c b
    rw [List.toByteArray_append]
    exact ByteArray.utf8DecodeChar?_utf8EncodeChar_append
  have h1 := e c (utf8 cs)
  have h2 := e '\uFEFF' t
  have h3 : String.utf8EncodeChar c ++ utf8 cs = String.utf8EncodeChar '\uFEFF' ++ t := by
    simpa [utf8] using h
  rw [h3, h2] at h1
  injection h1 with h1
  exact h1.symm

/-- **C46.** One byte order mark in front of the text is removed. -/
theorem C46_removed (cs : List Char) : trimUtf8Bom (utf8 ('\uFEFF' :: cs)) = utf8 cs := by
  have e : utf8 ('\uFEFF' :: cs) = [0xEF, 0xBB, 0xBF] ++ utf8 cs := by
    rw [← utf8_bom]; simp [utf8]
  rw [e]
  rfl

/-- **C46.** A text without a byte order mark in front is left alone. -/
theorem C46_unchanged (cs : List Char) (h : cs.head? ≠ some '\uFEFF') :
    trimUtf8Bom (utf8 cs) = utf8 cs := by
  unfold trimUtf8Bom
  rw [if_neg]
  rw [Bool.and_eq_true, prefix_bom]
  rintro ⟨_, t, ht⟩
  cases cs with
  | nil => rw [utf8_bom] at ht; cases ht
  | cons c cs => exact h (by rw [utf8_head ht]; rfl)

example : trimUtf8Bom (utf8 "\uFEFF\uFEFF<device/>".toList) = utf8 "\uFEFF<device/>".toList :=
  C46_removed _
example : trimUtf8Bom (utf8 "<device/>".toList) = utf8 "<device/>".toList :=
  C46_unchanged _ (by decide)

/-! ## C47 -/

/-- **C47.** The serialised form of a bit range in each notation is read back as the same bit
range. -/
theorem C47_bit_range (oc : Bool) (b : BitRange) (hw : 1 ≤ b.width.toNat)
    (hb : b.offset.toNat + b.width.toNat < 2 ^ 32) :
    ∃ s, b.toSer oc = .ok s ∧ s.toBitRange oc = .ok (some b) := by
  obtain ⟨o, w, ty⟩ := b
  simp only at hw hb
  have hs : (BitVec.ofNat 32 (o.toNat + w.toNat)).toNat = o.toNat + w.toNat := ofNat_toNat' (by omega)
  have t4 : (1 : U32).toNat = 1 := rfl
  have hm : BitRange.msb oc ⟨o, w, ty⟩ = .ok (BitVec.ofNat 32 (o.toNat + w.toNat - 1)) := by
    unfold BitRange.msb
    simp only
    rw [addC_lt hb, ok_bind, subC_le (by rw [hs, t4]; omega), hs, t4]
  have hmn : (BitVec.ofNat 32 (o.toNat + w.toNat - 1)).toNat = o.toNat + w.toNat - 1 :=
    ofNat_toNat' (by omega)
  obtain ⟨w', hw', h1, _, h3⟩ := C08_constructors oc (BitVec.ofNat 32 (o.toNat + w.toNat - 1)) o
    (by rw [hmn]; omega) (by rw [hmn]; omega)
  have ew : w' = w := BitVec.eq_of_toNat_eq (by rw [hw', hmn]; omega)
  subst ew
  cases ty with
  | bitRange =>
    refine ⟨_, by unfold BitRange.toSer BitRange.bitRange; simp only [hm, ok_bind]; rfl, ?_⟩
    unfold SerBitRange.toBitRange
    rw [← h3]
    simp [BitRange.lsb]
  | offsetWidth => exact ⟨_, rfl, rfl⟩
  | msbLsb =>
    refine ⟨_, by unfold BitRange.toSer; simp only [hm, ok_bind]; rfl, ?_⟩
    unfold SerBitRange.toBitRange BitRange.lsb
    simp only [h1, ok_bind]

/-- **C47.** The serialised form of an index list is read back as the same list; a list given as an
array is taken as it is. -/
theorem C47_index_list (l : List Str) (hne : l ≠ []) (hl : ∀ p ∈ l, '-' ∉ p ∧ ',' ∉ p) :
    ∃ s, serializeDimIndex (some l) = .ok s ∧ deserializeDimIndex (some s) = some (some l) := by
  refine ⟨_, rfl, ?_⟩
  unfold deserializeDimIndex
  simp only
  rw [(C05_parse_indexes_iff (joinWith ",".toList l) l).mpr (.list hne hl)]
  rfl

/-- The conditions of **C47** are needed: an empty list is written as the empty text and comes back as
one empty index, and a dash is taken for a range. -/
theorem C47_conditions :
    (∃ s, serializeDimIndex (some []) = .ok s ∧ deserializeDimIndex (some s) = some (some [[]])) ∧
    (∃ s, serializeDimIndex (some ["0-2".toList]) = .ok s ∧
      deserializeDimIndex (some s) = some (some ["0".toList, "1".toList, "2".toList])) :=
  ⟨⟨_, rfl, by decide⟩, ⟨_, rfl, by decide⟩⟩

example : BitRange.toSer true ⟨4, 3, .bitRange⟩ = .ok (.bitRange "[6:4]".toList) := by decide
example : ∃ s, BitRange.toSer true ⟨4, 3, .msbLsb⟩ = .ok s ∧
    s.toBitRange true = .ok (some ⟨4, 3, .msbLsb⟩) :=
  C47_bit_range true _ (by decide) (by decide)
example : ∃ s, serializeDimIndex (some ["A".toList, "B".toList]) = .ok s ∧
    deserializeDimIndex (some s) = some (some ["A".toList, "B".toList]) :=
  C47_index_list _ (by simp) (by decide)

/-! ## C48 -/

theorem toList_eq_iff (a b : String) : a.toList = b.toList ↔ a = b := String.toList_inj

theorem case_parse_iff (v : String) (f : IdentifierFormat) :
    IdentifierFormat.parse v.toList = some f ↔ (v, f) ∈ caseSpelling := by
  unfold IdentifierFormat.parse caseSpelling
  simp only [toList_eq_iff]
  repeat' split
  all_goals (try subst_vars); cases f <;> simp_all

theorem number_parse_iff (v : String) (f : NumberFormat) :
    NumberFormat.parse v.toList = some f ↔ (v, f) ∈ numberSpelling := by
  unfold NumberFormat.parse numberSpelling
  simp only [toList_eq_iff]
  repeat' split
  all_goals (try subst_vars); cases f <;> simp_all

theorem range_parse_iff (v : String) (f : BitRangeType) :
    BitRangeType.parse v.toList = some f ↔ (v, f) ∈ rangeSpelling := by
  unfold BitRangeType.parse rangeSpelling
  simp only [toList_eq_iff]
  repeat' split
  all_goals (try subst_vars); cases f <;> simp_all

theorem words_split {v : String} {ws : List String} :
    Words v ws ↔ splitOn ',' v.toList = ws.map String.toList := by
  rw [splitOn_iff]
  have e : [','].intercalate (ws.map String.toList) = joinWith [','] (ws.map String.toList) := by
    generalize ws.map String.toList = l
    induction l with
    | nil => rfl
    | cons a l ih =>
      cases l with
      | nil => simp [joinWith, List.intercalate]
      | cons b l => rw [joinWith_cons (by simp), ← ih]; simp [List.intercalate]
  unfold Words
  rw [e]
  simp only [ne_eq, List.map_eq_nil_iff, List.mem_map, forall_exists_index, and_imp,
    forall_apply_eq_imp_iff₂]
  constructor
  · rintro ⟨a, b, c⟩; exact ⟨a, b.symm, c⟩
  · rintro ⟨a, b, c⟩; exact ⟨a, b.symm, c⟩

theorem words_exist (v : String) : ∃ ws, Words v ws := by
  refine ⟨(splitOn ',' v.toList).map String.ofList, words_split.mpr ?_⟩
  rw [List.map_map]
  have : (String.toList ∘ String.ofList) = id := by funext x; simp
  rw [this, List.map_id]

theorem contains_word (w : String) (ws : List String) :
    (ws.map String.toList).contains w.toList = true ↔ w ∈ ws := by
  rw [List.contains_iff_mem, List.mem_map]
  constructor
  · rintro ⟨x, h, e⟩; rw [toList_eq_iff] at e; exact e ▸ h
  · intro h; exact ⟨w, h, rfl⟩

theorem derivable_parse {v : String} {ws : List String} (h : Words v ws) :
    DerivableSorting.parse v.toList = orderNamed ws := by
  unfold DerivableSorting.parse DerivableSorting.fromParts Sorting.fromParts orderNamed keyNamed
  rw [words_split.mp h]
  simp only [contains_word]

theorem rc_parse {v : String} {ws : List String} (h : Words v ws) :
    RcSorting.parse v.toList = rcOrderNamed ws := by
  unfold RcSorting.parse DerivableSorting.fromParts Sorting.fromParts rcOrderNamed orderNamed keyNamed
  rw [words_split.mp h]
  simp only [contains_word]

theorem case_none_iff (v : String) : IdentifierFormat.parse v.toList = none ↔
    ∀ f, (v, f) ∉ caseSpelling := by
  rw [Option.eq_none_iff_forall_ne_some]; exact forall_congr' fun f => not_congr (case_parse_iff v f)

theorem number_none_iff (v : String) : NumberFormat.parse v.toList = none ↔
    ∀ f, (v, f) ∉ numberSpelling := by
  rw [Option.eq_none_iff_forall_ne_some]; exact forall_congr' fun f => not_congr (number_parse_iff v f)

theorem range_none_iff (v : String) : BitRangeType.parse v.toList = none ↔
    ∀ f, (v, f) ∉ rangeSpelling := by
  rw [Option.eq_none_iff_forall_ne_some]; exact forall_congr' fun f => not_congr (range_parse_iff v f)

/-- The options of a configuration determine it. -/
theorem settings_injective {c c' : EncConfig} (h : settings c = settings c') : c = c' := by
  obtain ⟨⟩ := c
  obtain ⟨⟩ := c'
  simp only [settings, List.cons.injEq, Prod.mk.injEq, Setting.case.injEq, Setting.number.injEq,
    Setting.range.injEq, Setting.order.injEq, Setting.rcOrder.injEq, true_and, and_true] at h
  simp only [EncConfig.mk.injEq]
  simp only [h, and_self]

/-- **C48.** Updating a known option with a text that denotes a value changes that option to the
value, and no other option. -/
theorem C48_known (c : EncConfig) (key value : String) (old new : Setting)
    (hk : (key, old) ∈ settings c) (hd : Denotes value old new) :
    ∃ c', c.update key.toList value.toList = .ok c' ∧
      settings c' = (settings c).map fun s => if s.1 = key then (key, new) else s := by
  unfold EncConfig.update
  simp only [settings, List.mem_cons, Prod.mk.injEq, List.not_mem_nil, or_false] at hk
  rcases hk with h | h | h | h | h | h | h | h | h | h | h | h | h | h | h | h | h | h | h | h | h |
    h | h
  all_goals
    obtain ⟨rfl, rfl⟩ := h
    simp only [toList_eq_iff]
    cases hd
  all_goals first
    | (rename_i h; rw [← case_parse_iff] at h; simp only [h]; exact ⟨_, rfl, rfl⟩)
    | (rename_i h; rw [← number_parse_iff] at h; simp only [h]; exact ⟨_, rfl, rfl⟩)
    | (rename_i h; rw [← range_parse_iff] at h; simp only [h]; exact ⟨_, rfl, rfl⟩)
    | (rename_i h; simp only [derivable_parse h]; exact ⟨_, rfl, rfl⟩)
    | (rename_i h; simp only [rc_parse h]; exact ⟨_, rfl, rfl⟩)

example : ∃ c', EncConfig.update {} "peripheral_sorting".toList "Name,DerivedLast".toList = .ok c' ∧
    settings c' = (settings {}).map fun s => if s.1 = "peripheral_sorting" then
      ("peripheral_sorting", .order (.deriveLast (some .name))) else s :=
  C48_known {} "peripheral_sorting" "Name,DerivedLast" (.order (.unchanged none)) _ (by simp [settings])
    (.order (words := ["Name", "DerivedLast"]) ⟨by simp, by decide, by decide⟩)

/-- **C48.** Other keys change nothing. -/
theorem C48_unknown (c : EncConfig) (key value : String) (hk : ∀ s ∈ settings c, s.1 ≠ key) :
    c.update key.toList value.toList = .ok c := by
  unfold EncConfig.update
  simp only [settings, List.forall_mem_cons, ne_eq, List.not_mem_nil, false_imp_iff,
    implies_true, and_true] at hk
  simp only [toList_eq_iff, fun k : String => @eq_comm String key k, hk, ↓reduceIte]

example : EncConfig.update { dimDim := .bin } "colour".toList "Dec".toList = .ok { dimDim := .bin } :=
  C48_unknown _ "colour" "Dec" (by decide)

/-- **C48.** A text that denotes no value for the option panics. -/
theorem C48_invalid (c : EncConfig) (key value : String) (old : Setting)
    (hk : (key, old) ∈ settings c) (hd : ∀ new, ¬ Denotes value old new) :
    c.update key.toList value.toList = .error (.panic .unwrap) := by
  unfold EncConfig.update
  simp only [settings, List.mem_cons, Prod.mk.injEq, List.not_mem_nil, or_false] at hk
  rcases hk with h | h | h | h | h | h | h | h | h | h | h | h | h | h | h | h | h | h | h | h | h |
    h | h
  all_goals
    obtain ⟨rfl, rfl⟩ := h
    simp only [toList_eq_iff]
  all_goals first
    | (have h := (case_none_iff value).mpr fun f hf => hd _ (.case hf)
       simp only [h]; rfl)
    | (have h := (number_none_iff value).mpr fun f hf => hd _ (.number hf)
       simp only [h]; rfl)
    | (have h := (range_none_iff value).mpr fun f hf => hd _ (.range hf)
       simp only [h]; rfl)
    | (obtain ⟨ws, h⟩ := words_exist value
       exact absurd (.order h) (hd _))
    | (obtain ⟨ws, h⟩ := words_exist value
       exact absurd (.rcOrder h) (hd _))

example : EncConfig.update {} "field_bit_range".toList "MsbLsb".toList =
    .ok { fieldBitRange := some .msbLsb } := by decide
example : Denotes "Name,DerivedLast" (.order (.unchanged none)) (.order (.deriveLast (some .name))) :=
  .order (words := ["Name", "DerivedLast"]) ⟨by simp, by decide, by decide⟩
example : EncConfig.update {} "peripheral_sorting".toList "Name,DerivedLast".toList =
    .ok { peripheralSorting := .deriveLast (some .name) } := by decide
example : EncConfig.update {} "dim_dim".toList "Octal".toList = .error (.panic .unwrap) := by decide
example : EncConfig.update {} "colour".toList "Dec".toList = .ok {} := by decide

/-! ## C49 -/

theorem find_firstWith {α : Type} {f : α → Bool} {p : α → Prop} (h : ∀ a, f a = true ↔ p a)
    (l : List α) : FirstWith p l (l.find? f) := by
  cases hf : l.find? f with
  | none =>
    rw [List.find?_eq_none] at hf
    exact fun y hy hp => hf y hy ((h y).mpr hp)
  | some x =>
    rw [List.find?_eq_some_iff_append] at hf
    obtain ⟨h1, pre, post, rfl, h2⟩ := hf
    refine ⟨(h x).mp h1, pre, post, rfl, fun y hy hp => ?_⟩
    have := h2 y hy
    rw [(h y).mpr hp] at this
    cases this

/-- **C49.** The effective usage is the declared one, read-write by default; unknown when derived. -/
theorem C49_usage (e : EnumeratedValues) (u : Usage) :
    e.usageOf = some u ↔
      e.derivedFrom = none ∧ (e.usage = some u ∨ e.usage = none ∧ u = .readWrite) := by
  unfold EnumeratedValues.usageOf
  cases e.derivedFrom with
  | some d => simp
  | none =>
    cases e.usage with
    | none => simp [eq_comm]
    | some v => simp

example : (EnumeratedValues.usageOf ⟨none, none, none, []⟩ = some .readWrite) ∧
    EnumeratedValues.usageOf ⟨none, some .read, some "X".toList, []⟩ = none := by decide

/-- **C49.** The default value is the first one marked default; lookup by name gives the first value
of that name. -/
theorem C49_values (e : EnumeratedValues) :
    FirstWith (fun v => v.isDefault = some true) e.values e.defaultValue ∧
    ∀ name, FirstWith (fun v => v.name = name) e.values (e.getValue name) := by
  refine ⟨find_firstWith (fun v => ?_) _, fun name => find_firstWith (fun v => ?_) _⟩
  · unfold EnumeratedValue.isDefaultB
    cases v.isDefault with
    | none => simp
    | some b => cases b <;> simp
  · simp

example : FirstWith (fun v : EnumeratedValue => v.isDefault = some true)
    [⟨['A'], none, some 1, none⟩, ⟨['B'], none, none, some true⟩, ⟨['C'], none, none, some true⟩]
    (some ⟨['B'], none, none, some true⟩) := (C49_values (Sample.evs none none
      [⟨['A'], none, some 1, none⟩, ⟨['B'], none, none, some true⟩, ⟨['C'], none, none, some true⟩])).1

/-- **C49.** The group of a field for a usage is the first with that effective usage, for fields with
one or two groups (more are not valid); otherwise none. -/
theorem C49_groups (f : FieldInfo) (u : Usage) :
    (f.enumeratedValues.length = 1 ∨ f.enumeratedValues.length = 2 →
      FirstWith (fun e => e.usageOf = some u) f.enumeratedValues (f.getEnumeratedValues u)) ∧
    (f.enumeratedValues.length = 0 ∨ 2 < f.enumeratedValues.length → f.getEnumeratedValues u = none) := by
  unfold FieldInfo.getEnumeratedValues
  constructor
  · intro h
    rw [if_pos h]
    exact find_firstWith (fun e => by simp) _
  · intro h
    rw [if_neg (by omega)]

example : (FieldInfo.getEnumeratedValues ⟨['F'], none, ⟨0, 1, .bitRange⟩, none, none, none, none,
    [⟨none, some .read, none, []⟩, ⟨some ['W'], some .write, none, []⟩], none⟩ .write) =
    some ⟨some ['W'], some .write, none, []⟩ := by decide
example : (EnumeratedValues.defaultValue ⟨none, none, none,
    [⟨['A'], none, some 1, none⟩, ⟨['B'], none, none, some true⟩, ⟨['C'], none, none, some true⟩]⟩) =
    some ⟨['B'], none, none, some true⟩ := by decide

/-- **C30.** What counts as whitespace: the characters with the Unicode property White_Space. -/
theorem C30_whitespace (c : Char) : isWhitespace c = true ↔ c.toNat ∈ [0x9, 0xA, 0xB, 0xC, 0xD, 0x20, 0x85, 0xA0, 0x1680,
    0x2000, 0x2001, 0x2002, 0x2003, 0x2004, 0x2005, 0x2006, 0x2007, 0x2008, 0x2009, 0x200A, 0x2028, 0x2029, 0x202F,
    0x205F, 0x3000] := by
  simp only [isWhitespace, Bool.or_eq_true, Bool.and_eq_true, decide_eq_true_eq, beq_iff_eq, List.mem_cons,
    List.not_mem_nil, or_false]
  omega

end Svd
