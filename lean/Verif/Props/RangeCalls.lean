import Verif.Spec.RangeCalls
import Verif.Spec.Sample

/-!
# C44: what any sequence of calls makes of the bit range
-/

namespace Svd

open Spec

/-- The calls one after the other. -/
def rangeCalls (b : FieldInfoBuilder) (l : List RangeCall) : FieldInfoBuilder :=
  l.foldl (fun b c => match c with
    | .offset v => b.setBitOffset v
    | .width v => b.setBitWidth v
    | .range r => b.setBitRange r) b

namespace RangeCalls

theorem lastOffset_offset (o v : U32) (l : List RangeCall) : lastOffset o (.offset v :: l) = lastOffset v l := by
  unfold lastOffset
  rw [List.filterMap_cons_some (f := RangeCall.offset?) (b := v) rfl]
  exact List.getLastD_cons ..

theorem lastOffset_width (o v : U32) (l : List RangeCall) : lastOffset o (.width v :: l) = lastOffset o l := rfl

theorem lastWidth_width (w v : U32) (l : List RangeCall) : lastWidth w (.width v :: l) = lastWidth v l := by
  unfold lastWidth
  rw [List.filterMap_cons_some (f := RangeCall.width?) (b := v) rfl]
  exact List.getLastD_cons ..

theorem lastWidth_offset (w v : U32) (l : List RangeCall) : lastWidth w (.offset v :: l) = lastWidth w l := rfl

theorem lastWidth_mid (w v : U32) (mid post : List RangeCall) (hm : ∀ c ∈ mid, c.part) :
    lastWidth v (mid ++ .width w :: post) = lastWidth w post := by
  induction mid generalizing v with
  | nil => exact lastWidth_width ..
  | cons c mid ih =>
    have ih := fun v => ih v fun c hc => hm c (by simp [hc])
    cases c with
    | range r => exact (hm (.range r) (by simp)).elim
    | offset x => exact ih v
    | width x => exact (lastWidth_width ..).trans (ih x)

theorem lastOffset_mid (o w : U32) (mid post : List RangeCall) (hm : ∀ c ∈ mid, c.part) :
    lastOffset o (mid ++ .width w :: post) = lastOffset o (mid ++ post) := by
  induction mid generalizing o with
  | nil => rfl
  | cons c mid ih =>
    have ih := fun v => ih v fun c hc => hm c (by simp [hc])
    cases c with
    | range r => exact (hm (.range r) (by simp)).elim
    | width x => exact ih o
    | offset x =>
      rw [List.cons_append, List.cons_append, lastOffset_offset, lastOffset_offset]
      exact ih x

theorem append (b : FieldInfoBuilder) (l m : List RangeCall) : rangeCalls b (l ++ m) = rangeCalls (rangeCalls b l) m :=
  List.foldl_append ..

theorem with_range {b : FieldInfoBuilder} {r : BitRange} (h : b.bitRange = some r) {l : List RangeCall}
    (hl : ∀ c ∈ l, c.part) :
    (rangeCalls b l).bitRange = some { r with offset := lastOffset r.offset l, width := lastWidth r.width l } := by
  induction l generalizing b r with
  | nil => exact h
  | cons c l ih =>
    cases c with
    | range q => exact (hl (.range q) (by simp)).elim
    | offset v =>
      have h1 : (b.setBitOffset v).bitRange = some { r with offset := v } := by
        unfold FieldInfoBuilder.setBitOffset; rw [h]
      have h2 := ih h1 fun c hc => hl c (by simp [hc])
      refine Eq.trans h2 ?_
      simp only [lastOffset_offset, lastWidth_offset]
    | width v =>
      have h1 : (b.setBitWidth v).bitRange = some { r with width := v } := by
        unfold FieldInfoBuilder.setBitWidth; rw [h]
      have h2 := ih h1 fun c hc => hl c (by simp [hc])
      refine Eq.trans h2 ?_
      simp only [lastOffset_width, lastWidth_width]

theorem widths_only {b : FieldInfoBuilder} (h : b.bitRange = none) (ho : b.bitOffset = none) {l : List RangeCall}
    (hl : ∀ c ∈ l, ∃ w, c = .width w) : (rangeCalls b l).bitRange = none ∧ (rangeCalls b l).bitOffset = none := by
  induction l generalizing b with
  | nil => exact ⟨h, ho⟩
  | cons c l ih =>
    obtain ⟨w, rfl⟩ := hl c (by simp)
    have h1 : (b.setBitWidth w).bitRange = none ∧ (b.setBitWidth w).bitOffset = none := by
      unfold FieldInfoBuilder.setBitWidth; simp only [h, ho, and_self]
    exact ih h1.1 h1.2 fun c hc => hl c (by simp [hc])

theorem one_offset {b : FieldInfoBuilder} (h : b.bitRange = none) (ho : b.bitOffset = none) {l : List RangeCall}
    (hl : ∀ c ∈ l, ∃ w, c = .width w) (o : U32) :
    (rangeCalls b (l ++ [.offset o])).bitRange = none ∧ (rangeCalls b (l ++ [.offset o])).bitOffset = some o := by
  obtain ⟨h1, h2⟩ := widths_only h ho hl
  rw [append]
  change ((rangeCalls b l).setBitOffset o).bitRange = none ∧ ((rangeCalls b l).setBitOffset o).bitOffset = some o
  unfold FieldInfoBuilder.setBitOffset
  simp only [h1, h2, and_self]

end RangeCalls

open RangeCalls

/-- **C44.** After a call that sets the whole range, the range is that one with the offset and the width set
last, in whatever order, on any builder and whatever was called before. -/
theorem C44_range_then_partial (b : FieldInfoBuilder) (pre post : List RangeCall) (r : BitRange)
    (hp : ∀ c ∈ post, c.part) :
    (rangeCalls b (pre ++ .range r :: post)).bitRange =
      some { r with offset := lastOffset r.offset post, width := lastWidth r.width post } := by
  rw [append]
  exact with_range (b := (rangeCalls b pre).setBitRange r) rfl hp

/-- **C44.** If some width is set after the first offset, the range consists of the offset and the width set
last, whatever the order and number of calls. -/
theorem C44_width_after_offset_partial (b : FieldInfoBuilder) (h : b.bitRange = none) (ho : b.bitOffset = none)
    (pre mid post : List RangeCall) (o w : U32) (hpre : ∀ c ∈ pre, ∃ w, c = .width w) (hmid : ∀ c ∈ mid, c.part)
    (hpost : ∀ c ∈ post, c.part) :
    (rangeCalls b (pre ++ .offset o :: (mid ++ .width w :: post))).bitRange =
      some ⟨lastOffset o (mid ++ post), lastWidth w post, .offsetWidth⟩ := by
  obtain ⟨h1, h2⟩ := one_offset h ho hpre o
  have e : pre ++ .offset o :: (mid ++ .width w :: post) = (pre ++ [.offset o]) ++ (mid ++ .width w :: post) := by simp
  rw [e, append]
  generalize rangeCalls b (pre ++ [.offset o]) = b' at h1 h2
  cases mid with
  | nil =>
    have h3 : (b'.setBitWidth w).bitRange = some ⟨o, w, .offsetWidth⟩ := by
      unfold FieldInfoBuilder.setBitWidth; rw [h1, h2]; rfl
    exact with_range h3 hpost
  | cons c mid =>
    have hall : ∀ x ∈ mid ++ .width w :: post, x.part := by
      intro x hx
      rcases List.mem_append.mp hx with hx | hx
      · exact hmid x (by simp [hx])
      · rcases List.mem_cons.mp hx with rfl | hx
        · trivial
        · exact hpost x hx
    cases c with
    | range q => exact (hmid (.range q) (by simp)).elim
    | width v =>
      have h3 : (b'.setBitWidth v).bitRange = some ⟨o, v, .offsetWidth⟩ := by
        unfold FieldInfoBuilder.setBitWidth; rw [h1, h2]; rfl
      refine (with_range h3 hall).trans ?_
      have hm : ∀ c ∈ mid, c.part := fun c hc => hmid c (by simp [hc])
      simp only [lastWidth_mid _ _ _ _ hm, lastOffset_mid _ _ _ _ hm, List.cons_append, lastOffset_width]
    | offset v =>
      have h3 : (b'.setBitOffset v).bitRange = some ⟨v, o, .offsetWidth⟩ := by
        unfold FieldInfoBuilder.setBitOffset; rw [h1, h2]; rfl
      refine (with_range h3 hall).trans ?_
      have hm : ∀ c ∈ mid, c.part := fun c hc => hmid c (by simp [hc])
      simp only [lastWidth_mid _ _ _ _ hm, lastOffset_mid _ _ _ _ hm, List.cons_append, lastOffset_offset]

/-- **C44 (violated).** All widths set before the only offset are lost, and there is no range; likewise if
there is no offset at all, as it should be. -/
theorem C44_widths_lost (b : FieldInfoBuilder) (h : b.bitRange = none) (ho : b.bitOffset = none)
    (pre : List RangeCall) (hpre : ∀ c ∈ pre, ∃ w, c = .width w) (o : U32) :
    (rangeCalls b pre).bitRange = none ∧ (rangeCalls b (pre ++ [.offset o])).bitRange = none :=
  ⟨(widths_only h ho hpre).1, (one_offset h ho hpre o).1⟩

/-- **C44 (violated).** If the offset is set several times and the width, if at all, before that, the first
offset takes the place of the width. -/
theorem C44_offsets_only (b : FieldInfoBuilder) (h : b.bitRange = none) (ho : b.bitOffset = none)
    (pre post : List RangeCall) (hpre : ∀ c ∈ pre, ∃ w, c = .width w) (o o' : U32)
    (hpost : ∀ c ∈ post, ∃ v, c = .offset v) :
    (rangeCalls b (pre ++ .offset o :: .offset o' :: post)).bitRange =
      some ⟨lastOffset o' post, o, .offsetWidth⟩ := by
  obtain ⟨h1, h2⟩ := one_offset h ho hpre o
  have e : pre ++ .offset o :: .offset o' :: post = (pre ++ [.offset o]) ++ (.offset o' :: post) := by simp
  rw [e, append]
  generalize rangeCalls b (pre ++ [.offset o]) = b' at h1 h2
  have h3 : (b'.setBitOffset o').bitRange = some ⟨o', o, .offsetWidth⟩ := by
    unfold FieldInfoBuilder.setBitOffset; rw [h1, h2]; rfl
  refine (with_range h3 fun c hc => ?_).trans ?_
  · obtain ⟨v, rfl⟩ := hpost c hc; trivial
  · have : lastWidth o post = o := by
      have : post.filterMap RangeCall.width? = [] := List.filterMap_eq_nil_iff.mpr fun c hc => by
        obtain ⟨v, rfl⟩ := hpost c hc; rfl
      unfold lastWidth; rw [this]; rfl
    simp only [this]

/-- **C44.** The four cases are all there are. -/
theorem C44_cases (l : List RangeCall) :
    (∃ pre r post, l = pre ++ .range r :: post ∧ ∀ c ∈ post, c.part) ∨
    (∃ pre o mid w post, l = pre ++ .offset o :: (mid ++ .width w :: post) ∧ (∀ c ∈ pre, ∃ w, c = .width w) ∧
      (∀ c ∈ mid, c.part) ∧ ∀ c ∈ post, c.part) ∨
    (∃ pre o, (l = pre ∨ l = pre ++ [.offset o]) ∧ ∀ c ∈ pre, ∃ w, c = .width w) ∨
    (∃ pre o o' post, l = pre ++ .offset o :: .offset o' :: post ∧ (∀ c ∈ pre, ∃ w, c = .width w) ∧
      ∀ c ∈ post, ∃ v, c = .offset v) := by
  have h1 : (∃ pre r post, l = pre ++ .range r :: post ∧ ∀ c ∈ post, c.part) ∨ ∀ c ∈ l, c.part := by
    induction l with
    | nil => exact .inr (by simp)
    | cons c l ih =>
      rcases ih with ⟨pre, r, post, rfl, h⟩ | h
      · exact .inl ⟨c :: pre, r, post, rfl, h⟩
      · cases c with
        | range r => exact .inl ⟨[], r, l, rfl, h⟩
        | offset v =>
          refine .inr fun c hc => ?_
          rcases List.mem_cons.mp hc with rfl | hc
          · trivial
          · exact h c hc
        | width v =>
          refine .inr fun c hc => ?_
          rcases List.mem_cons.mp hc with rfl | hc
          · trivial
          · exact h c hc
  rcases h1 with h1 | h1
  · exact .inl h1
  right
  have h2 : (∀ c ∈ l, ∃ w, c = .width w) ∨ ∃ pre o post, l = pre ++ .offset o :: post ∧
      (∀ c ∈ pre, ∃ w, c = .width w) ∧ ∀ c ∈ post, c.part := by
    induction l with
    | nil => exact .inl (by simp)
    | cons c l ih =>
      have ih := ih fun c hc => h1 c (by simp [hc])
      cases c with
      | range r => exact (h1 (.range r) (by simp)).elim
      | offset v => exact .inr ⟨[], v, l, rfl, by simp, fun c hc => h1 c (by simp [hc])⟩
      | width v =>
        rcases ih with ih | ⟨pre, o, post, rfl, h, h'⟩
        · refine .inl fun c hc => ?_
          rcases List.mem_cons.mp hc with rfl | hc
          · exact ⟨v, rfl⟩
          · exact ih c hc
        · refine .inr ⟨.width v :: pre, o, post, rfl, fun c hc => ?_, h'⟩
          rcases List.mem_cons.mp hc with rfl | hc
          · exact ⟨v, rfl⟩
          · exact h c hc
  rcases h2 with h2 | ⟨pre, o, post, rfl, h2, h3⟩
  · exact .inr (.inl ⟨l, 0, .inl rfl, h2⟩)
  have h4 : (∀ c ∈ post, ∃ v, c = .offset v) ∨ ∃ mid w p, post = mid ++ .width w :: p ∧ (∀ c ∈ mid, c.part) ∧
      ∀ c ∈ p, c.part := by
    clear h1 h2
    induction post with
    | nil => exact .inl (by simp)
    | cons c l ih =>
      have ih := ih fun c hc => h3 c (by simp [hc])
      cases c with
      | range r => exact (h3 (.range r) (by simp)).elim
      | width v => exact .inr ⟨[], v, l, rfl, by simp, fun c hc => h3 c (by simp [hc])⟩
      | offset v =>
        rcases ih with ih | ⟨mid, w, p, rfl, h, h'⟩
        · refine .inl fun c hc => ?_
          rcases List.mem_cons.mp hc with rfl | hc
          · exact ⟨v, rfl⟩
          · exact ih c hc
        · refine .inr ⟨.offset v :: mid, w, p, rfl, fun c hc => ?_, h'⟩
          rcases List.mem_cons.mp hc with rfl | hc
          · trivial
          · exact h c hc
  rcases h4 with h4 | ⟨mid, w, p, rfl, h4, h5⟩
  · cases post with
    | nil => exact .inr (.inl ⟨pre, o, .inr rfl, h2⟩)
    | cons c post =>
      obtain ⟨v, rfl⟩ := h4 c (by simp)
      exact .inr (.inr ⟨pre, o, v, post, rfl, h2, fun c hc => h4 c (by simp [hc])⟩)
  · exact .inl ⟨pre, o, mid, w, p, rfl, h2, h4, h5⟩

/-- **C44 (violated).** Modifying a field from a builder applies offsets and widths that the builder has kept
from earlier calls: a width set before the offset wins over the one set later, and an offset that was replaced
comes back. -/
theorem C44_modify_stale (s : FieldInfo) (b : FieldInfoBuilder) (h : b.bitRange = none) (ho : b.bitOffset = none)
    (o o' w w' : U32) :
    (s.modified (rangeCalls b [.width w, .offset o, .width w'])).bitRange = ⟨o, w, .offsetWidth⟩ ∧
    (s.modified (rangeCalls { b with bitWidth := none } [.offset o, .offset o', .width w])).bitRange =
      ⟨o, w, .offsetWidth⟩ := by
  cases hd : b.derivedFrom <;>
    simp [rangeCalls, FieldInfoBuilder.setBitOffset, FieldInfoBuilder.setBitWidth, FieldInfo.modified, h, ho, hd,
      BitRange.fromOffsetWidth, setIf]

-- The hypotheses can be met, with results that differ.
example : (rangeCalls {} [.width 9, .range ⟨1, 2, .msbLsb⟩, .width 3, .offset 4, .width 5]).bitRange =
    some ⟨4, 5, .msbLsb⟩ :=
  C44_range_then_partial {} [.width 9] [.width 3, .offset 4, .width 5] ⟨1, 2, .msbLsb⟩ (by simp [RangeCall.part])
example : (rangeCalls {} [.width 9, .offset 1, .offset 2, .width 3, .offset 4, .width 5]).bitRange =
    some ⟨4, 5, .offsetWidth⟩ :=
  C44_width_after_offset_partial {} rfl rfl [.width 9] [.offset 2] [.offset 4, .width 5] 1 3 (by simp)
    (by simp [RangeCall.part]) (by simp [RangeCall.part])
example : (rangeCalls {} [.width 9, .width 8]).bitRange = none ∧
    (rangeCalls {} [.width 9, .width 8, .offset 1]).bitRange = none :=
  C44_widths_lost {} rfl rfl [.width 9, .width 8] (by simp) 1
example : (rangeCalls {} [.width 9, .offset 1, .offset 2, .offset 3]).bitRange = some ⟨3, 1, .offsetWidth⟩ :=
  C44_offsets_only {} rfl rfl [.width 9] [.offset 3] (by simp) 1 2 (by simp)
example : ((Sample.fieldInfo "F" 0).modified (rangeCalls {} [.width 9, .offset 1, .width 3])).bitRange =
    ⟨1, 9, .offsetWidth⟩ := (C44_modify_stale _ {} rfl rfl 1 0 9 3).1
example : ∃ pre o mid w post, [RangeCall.width 9, .offset 1, .width 3] = pre ++ .offset o :: (mid ++ .width w :: post) :=
  ⟨[.width 9], 1, [], 3, [], rfl⟩

end Svd
