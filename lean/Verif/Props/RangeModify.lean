import Verif.Props.RangeCalls

/-!
# C44: what modifying a field makes of the bit range after any sequence of calls

`modify_from` applies the range of the builder and then the offset and the width the builder has kept, so the
result is not always the range that building gives.
-/

namespace Svd

open Spec RangeCalls

namespace RangeModify

theorem modified_range (s : FieldInfo) (b : FieldInfoBuilder) : (s.modified b).bitRange =
    ⟨b.bitOffset.getD (b.bitRange.getD s.bitRange).offset, b.bitWidth.getD (b.bitRange.getD s.bitRange).width,
      (b.bitRange.getD s.bitRange).rangeType⟩ := by
  unfold FieldInfo.modified
  cases b.derivedFrom <;> cases b.bitRange <;> cases b.bitOffset <;> cases b.bitWidth <;> rfl

/-- Once there is a range, the offset and the width that are kept stay as they are. -/
theorem kept_parts {b : FieldInfoBuilder} {r : BitRange} (h : b.bitRange = some r) {l : List RangeCall}
    (hl : ∀ c ∈ l, c.part) : (rangeCalls b l).bitOffset = b.bitOffset ∧ (rangeCalls b l).bitWidth = b.bitWidth := by
  induction l generalizing b r with
  | nil => exact ⟨rfl, rfl⟩
  | cons c l ih =>
    cases c with
    | range q => exact (hl (.range q) (by simp)).elim
    | offset v =>
      have h1 : (b.setBitOffset v) = { b with bitRange := some { r with offset := v } } := by
        unfold FieldInfoBuilder.setBitOffset; rw [h]
      have h2 := ih (b := b.setBitOffset v) (by rw [h1]) fun c hc => hl c (by simp [hc])
      rw [h1] at h2
      change (rangeCalls (b.setBitOffset v) l).bitOffset = _ ∧ (rangeCalls (b.setBitOffset v) l).bitWidth = _
      rw [h1]
      exact h2
    | width v =>
      have h1 : (b.setBitWidth v) = { b with bitRange := some { r with width := v } } := by
        unfold FieldInfoBuilder.setBitWidth; rw [h]
      have h2 := ih (b := b.setBitWidth v) (by rw [h1]) fun c hc => hl c (by simp [hc])
      rw [h1] at h2
      change (rangeCalls (b.setBitWidth v) l).bitOffset = _ ∧ (rangeCalls (b.setBitWidth v) l).bitWidth = _
      rw [h1]
      exact h2

theorem kept_width {b : FieldInfoBuilder} (h : b.bitRange = none) (ho : b.bitOffset = none) {l : List RangeCall}
    (hl : ∀ c ∈ l, ∃ w, c = .width w) :
    (rangeCalls b l).bitWidth = (l.filterMap RangeCall.width?).getLast?.or b.bitWidth := by
  induction l generalizing b with
  | nil => rfl
  | cons c l ih =>
    obtain ⟨w, rfl⟩ := hl c (by simp)
    have h1 : (b.setBitWidth w) = { b with bitWidth := some w } := by
      unfold FieldInfoBuilder.setBitWidth; simp only [h, ho]
    change (rangeCalls (b.setBitWidth w) l).bitWidth = _
    rw [ih (b := b.setBitWidth w) (by rw [h1]; exact h) (by rw [h1]; exact ho) fun c hc => hl c (by simp [hc]), h1,
      List.filterMap_cons_some (f := RangeCall.width?) (b := w) rfl]
    cases hx : l.filterMap RangeCall.width? with
    | nil => rfl
    | cons a t =>
      rw [List.getLast?_cons_cons, List.getLast?_eq_some_getLast (List.cons_ne_nil a t)]
      rfl

theorem lastWidth_eq (w : U32) (l : List RangeCall) : lastWidth w l = (l.filterMap RangeCall.width?).getLast?.getD w := by
  unfold lastWidth
  rw [List.getLastD_eq_getLast?]

end RangeModify

open RangeModify

/-- **C44.** Modifying after a call that sets the whole range: the range is that one, with the offset and the
width set last after it. Nothing set before it plays a part. -/
theorem C44_modify_range_partial (s : FieldInfo) (b : FieldInfoBuilder) (pre post : List RangeCall) (r : BitRange)
    (hp : ∀ c ∈ post, c.part) :
    (s.modified (rangeCalls b (pre ++ .range r :: post))).bitRange =
      ⟨lastOffset r.offset post, lastWidth r.width post, r.rangeType⟩ := by
  have h1 := C44_range_then_partial b pre post r hp
  have h2 : (rangeCalls b (pre ++ .range r :: post)).bitOffset = none ∧
      (rangeCalls b (pre ++ .range r :: post)).bitWidth = none := by
    rw [append]
    exact kept_parts (b := (rangeCalls b pre).setBitRange r) rfl hp
  rw [modified_range, h1, h2.1, h2.2]
  rfl

/-- **C44.** Modifying with single parts: a width alone, or widths followed by an offset, replace these parts
of the range of the field and keep the rest. -/
theorem C44_modify_parts_partial (s : FieldInfo) (b : FieldInfoBuilder) (h : b.bitRange = none)
    (ho : b.bitOffset = none) (hw : b.bitWidth = none) (pre : List RangeCall) (hpre : ∀ c ∈ pre, ∃ w, c = .width w)
    (o : U32) :
    (s.modified (rangeCalls b pre)).bitRange = { s.bitRange with width := lastWidth s.bitRange.width pre } ∧
    (s.modified (rangeCalls b (pre ++ [.offset o]))).bitRange =
      { s.bitRange with offset := o, width := lastWidth s.bitRange.width pre } := by
  obtain ⟨h1, h2⟩ := widths_only h ho hpre
  have h3 := kept_width h ho hpre
  rw [hw, Option.or_none] at h3
  refine ⟨?_, ?_⟩
  · rw [modified_range, h1, h2, h3, lastWidth_eq]
    rfl
  · have e : rangeCalls b (pre ++ [.offset o]) = { rangeCalls b pre with bitOffset := some o } := by
      rw [append]
      change (rangeCalls b pre).setBitOffset o = _
      unfold FieldInfoBuilder.setBitOffset
      simp only [h1, h2]
    rw [modified_range, e, lastWidth_eq]
    simp only [h1, h3]
    rfl

/-- **C44 (violated).** Modifying when the first offset is directly followed by a width: the offset is the one
set last, but a width set before the offset wins over all later ones. Without one it is the width set last. -/
theorem C44_modify_width_next (s : FieldInfo) (b : FieldInfoBuilder) (h : b.bitRange = none)
    (ho : b.bitOffset = none) (hw : b.bitWidth = none) (pre post : List RangeCall)
    (hpre : ∀ c ∈ pre, ∃ w, c = .width w) (hpost : ∀ c ∈ post, c.part) (o w : U32) :
    (s.modified (rangeCalls b (pre ++ .offset o :: .width w :: post))).bitRange =
      ⟨lastOffset o post, lastWidth (lastWidth w post) pre, .offsetWidth⟩ := by
  obtain ⟨h1, h2⟩ := widths_only h ho hpre
  have h3 := kept_width h ho hpre
  rw [hw, Option.or_none] at h3
  have e : rangeCalls b (pre ++ .offset o :: .width w :: post) =
      rangeCalls { rangeCalls b pre with bitRange := some ⟨o, w, .offsetWidth⟩ } post := by
    rw [append]
    change rangeCalls (((rangeCalls b pre).setBitOffset o).setBitWidth w) post = _
    congr 1
    unfold FieldInfoBuilder.setBitOffset FieldInfoBuilder.setBitWidth
    simp only [h1, h2]
    rfl
  have h4 := with_range (b := { rangeCalls b pre with bitRange := some ⟨o, w, .offsetWidth⟩ }) rfl hpost
  have h5 := kept_parts (b := { rangeCalls b pre with bitRange := some ⟨o, w, .offsetWidth⟩ }) rfl hpost
  rw [modified_range, e, h4, h5.1, h5.2, lastWidth_eq _ pre]
  simp only [h2, h3]
  rfl

/-- **C44 (violated).** Modifying when the first offset is directly followed by another one: the offset is the
first one, whatever was set later, and the width is the one set last after that or, without one, the first
offset. -/
theorem C44_modify_offset_next (s : FieldInfo) (b : FieldInfoBuilder) (h : b.bitRange = none)
    (ho : b.bitOffset = none) (pre post : List RangeCall)
    (hpre : ∀ c ∈ pre, ∃ w, c = .width w) (hpost : ∀ c ∈ post, c.part) (o o' : U32) :
    (s.modified (rangeCalls b (pre ++ .offset o :: .offset o' :: post))).bitRange =
      ⟨o, lastWidth o post, .offsetWidth⟩ := by
  obtain ⟨h1, h2⟩ := widths_only h ho hpre
  have e : rangeCalls b (pre ++ .offset o :: .offset o' :: post) =
      rangeCalls { rangeCalls b pre with
        bitRange := some ⟨o', o, .offsetWidth⟩, bitOffset := some o, bitWidth := none } post := by
    rw [append]
    change rangeCalls (((rangeCalls b pre).setBitOffset o).setBitOffset o') post = _
    congr 1
    unfold FieldInfoBuilder.setBitOffset
    simp only [h1, h2]
    rfl
  have h4 := with_range (b := { rangeCalls b pre with
    bitRange := some ⟨o', o, .offsetWidth⟩, bitOffset := some o, bitWidth := none }) rfl hpost
  have h5 := kept_parts (b := { rangeCalls b pre with
    bitRange := some ⟨o', o, .offsetWidth⟩, bitOffset := some o, bitWidth := none }) rfl hpost
  rw [modified_range, e, h4, h5.1, h5.2]
  rfl

/-- **C44.** The cases of the four theorems on modification are all there are. -/
theorem C44_modify_cases (l : List RangeCall) :
    (∃ pre r post, l = pre ++ .range r :: post ∧ ∀ c ∈ post, c.part) ∨
    (∃ pre o, (l = pre ∨ l = pre ++ [.offset o]) ∧ ∀ c ∈ pre, ∃ w, c = .width w) ∨
    (∃ pre o c post, l = pre ++ .offset o :: c :: post ∧ ((∃ w, c = .width w) ∨ ∃ o', c = .offset o') ∧
      (∀ c ∈ pre, ∃ w, c = .width w) ∧ ∀ c ∈ post, c.part) := by
  rcases C44_cases l with h | ⟨pre, o, mid, w, post, rfl, h1, h2, h3⟩ | h | ⟨pre, o, o', post, rfl, h1, h2⟩
  · exact .inl h
  · refine .inr (.inr ?_)
    cases mid with
    | nil => exact ⟨pre, o, .width w, post, rfl, .inl ⟨w, rfl⟩, h1, h3⟩
    | cons c mid =>
      refine ⟨pre, o, c, mid ++ .width w :: post, rfl, ?_, h1, ?_⟩
      · have := h2 c (by simp)
        cases c with
        | range r => exact this.elim
        | offset v => exact .inr ⟨v, rfl⟩
        | width v => exact .inl ⟨v, rfl⟩
      · intro x hx
        rcases List.mem_append.mp hx with hx | hx
        · exact h2 x (by simp [hx])
        · rcases List.mem_cons.mp hx with rfl | hx
          · trivial
          · exact h3 x hx
  · exact .inr (.inl h)
  · refine .inr (.inr ⟨pre, o, .offset o', post, rfl, .inr ⟨o', rfl⟩, h1, fun c hc => ?_⟩)
    obtain ⟨v, rfl⟩ := h2 c hc
    trivial

-- The hypotheses can be met, with results that differ from what building gives.
example : ((Sample.fieldInfo "F" 0).modified
    (rangeCalls {} [.offset 7, .width 9, .range ⟨1, 2, .msbLsb⟩, .width 3, .offset 4])).bitRange = ⟨4, 3, .msbLsb⟩ :=
  C44_modify_range_partial _ {} [.offset 7, .width 9] [.width 3, .offset 4] ⟨1, 2, .msbLsb⟩ (by simp [RangeCall.part])
example : ((Sample.fieldInfo "F" 6).modified (rangeCalls {} [.width 9, .width 2])).bitRange =
    { (Sample.fieldInfo "F" 6).bitRange with width := 2 } :=
  (C44_modify_parts_partial _ {} rfl rfl rfl [.width 9, .width 2] (by simp) 0).1
example : ((Sample.fieldInfo "F" 0).modified (rangeCalls {} [.width 9, .offset 1, .width 3, .offset 4])).bitRange =
    ⟨4, 9, .offsetWidth⟩ :=
  C44_modify_width_next _ {} rfl rfl rfl [.width 9] [.offset 4] (by simp) (by simp [RangeCall.part]) 1 3
example : ((Sample.fieldInfo "F" 0).modified (rangeCalls {} [.width 9, .offset 1, .offset 3, .offset 4])).bitRange =
    ⟨1, 1, .offsetWidth⟩ :=
  C44_modify_offset_next _ {} rfl rfl [.width 9] [.offset 4] (by simp) (by simp [RangeCall.part]) 1 3
example : ∃ pre o c post, [RangeCall.width 9, .offset 1, .width 3] = pre ++ .offset o :: c :: post :=
  ⟨[.width 9], 1, .width 3, [], rfl⟩

end Svd
