import Verif.Spec.Path
import Verif.Lemmas.Split
import Verif.Lemmas.Except
import Verif.Model.Expand

/-!
# C41, C42: dotted paths
-/

namespace Svd

open Spec

theorem dotted_eq_joinWith (l : List Str) : dotted l = joinWith ['.'] l := by
  unfold dotted
  induction l with
  | nil => rfl
  | cons a l ih =>
    cases l with
    | nil => simp [joinWith, List.intercalate]
    | cons b l =>
      rw [joinWith_cons (by simp), ← ih]
      simp [List.intercalate]

theorem dotted_concat {l : List Str} (h : l ≠ []) (x : Str) : dotted (l ++ [x]) = dotted l ++ ['.'] ++ x := by
  rw [dotted_eq_joinWith, dotted_eq_joinWith]
  induction l with
  | nil => exact absurd rfl h
  | cons a l ih =>
    cases l with
    | nil => simp [joinWith]
    | cons b l =>
      rw [List.cons_append, joinWith_cons (by simp), ih (by simp),
        joinWith_cons (p := a) (l := b :: l) (by simp)]
      simp

theorem splitOn_dotted {l : List Str} (h : NoDots l) (hl : l ≠ []) : splitOn '.' (dotted l) = l := by
  rw [dotted_eq_joinWith]; exact splitOn_join hl h

theorem block_display (b : BlockPath) : b.display = dotted (blockComponents b) := by
  obtain ⟨p, path⟩ := b
  unfold BlockPath.display blockComponents
  simp only
  suffices h : ∀ (init : List Str), init ≠ [] →
      path.foldl (fun acc p => acc ++ ['.'] ++ p) (dotted init) = dotted (init ++ path) by
    have := h [p] (by simp)
    simpa [dotted, List.intercalate] using this
  induction path with
  | nil => simp
  | cons x xs ih =>
    intro init hi
    rw [List.foldl_cons, ← dotted_concat hi, ih _ (by simp)]
    simp

theorem register_display (r : RegisterPath) : r.display = dotted (registerComponents r) := by
  unfold RegisterPath.display registerComponents
  rw [dotted_concat (by simp [blockComponents]), block_display]

theorem field_display (f : FieldPath) : f.display = dotted (fieldComponents f) := by
  unfold FieldPath.display fieldComponents
  rw [dotted_concat (by simp [registerComponents]), register_display]

theorem enum_display (e : EnumPath) : e.display = dotted (enumComponents e) := by
  unfold EnumPath.display enumComponents
  rw [dotted_concat (by simp [fieldComponents]), field_display]

/-- **C41.** A path prints as its components with dots between them. -/
theorem C41_display :
    (∀ b : BlockPath, b.display = dotted (blockComponents b)) ∧
    (∀ r : RegisterPath, r.display = dotted (registerComponents r)) ∧
    (∀ f : FieldPath, f.display = dotted (fieldComponents f)) ∧
    (∀ e : EnumPath, e.display = dotted (enumComponents e)) :=
  ⟨block_display, register_display, field_display, enum_display⟩

example : (FieldPath.mk ⟨⟨"P".toList, ["C".toList]⟩, "R".toList⟩ "F".toList).display = "P.C.R.F".toList :=
  (C41_display.2.2.1 _).trans (by decide)

theorem blockParse_concat (i : List Str) (x : Str) : BlockPath.parseVec (i ++ [x]) =
    .ok (match i with | [] => none | p :: ps => some ⟨p, ps⟩, x) := by
  unfold BlockPath.parseVec
  rw [List.getLast?_concat, List.dropLast_concat]
  cases i <;> rfl

theorem fieldParse_concat (i : List Str) (y x : Str) : FieldPath.parseVec (i ++ [y] ++ [x]) =
    match i with | [] => panics .unwrap | p :: ps => .ok (some ⟨⟨p, ps⟩, y⟩, x) := by
  unfold FieldPath.parseVec
  rw [List.getLast?_concat, List.dropLast_concat]
  have e : (i ++ [y]).isEmpty = false := by simp
  simp only [e, Bool.not_false, ↓reduceIte, RegisterPath.parseVec, blockParse_concat, ok_bind]
  cases i <;> rfl

/-- **C41.** Reading a printed path gives it back: a register or cluster path as its block and its
name, a peripheral path as its name. -/
theorem C41_parse_display :
    (∀ p : Str, NoDots [p] → BlockPath.parseStr (BlockPath.new p).display = .ok (none, p)) ∧
    (∀ (b : BlockPath) (c : Str), NoDots (blockComponents (b.newCluster c)) →
      BlockPath.parseStr (b.newCluster c).display = .ok (some b, c)) ∧
    (∀ r : RegisterPath, NoDots (registerComponents r) →
      RegisterPath.parseStr r.display = .ok (some r.block, r.name)) ∧
    (∀ f : FieldPath, NoDots (fieldComponents f) →
      FieldPath.parseStr f.display = .ok (some f.register, f.name)) := by
  refine ⟨?_, ?_, ?_, ?_⟩
  · intro p hp
    rw [block_display]
    unfold BlockPath.parseStr
    rw [splitOn_dotted (l := blockComponents (BlockPath.new p)) hp (by simp [blockComponents])]
    rfl
  · intro b c h
    rw [block_display]
    unfold BlockPath.parseStr
    rw [splitOn_dotted h (by simp [blockComponents])]
    have : blockComponents (b.newCluster c) = (b.peripheral :: b.path) ++ [c] := by
      simp [blockComponents, BlockPath.newCluster]
    rw [this, blockParse_concat]
  · intro r h
    rw [register_display]
    unfold RegisterPath.parseStr BlockPath.parseStr
    rw [splitOn_dotted h (by simp [registerComponents])]
    unfold registerComponents blockComponents
    rw [blockParse_concat]
  · intro f h
    rw [field_display]
    unfold FieldPath.parseStr
    rw [splitOn_dotted h (by simp [fieldComponents])]
    unfold fieldComponents registerComponents blockComponents
    rw [fieldParse_concat]

example : FieldPath.parseStr (FieldPath.mk ⟨⟨"P".toList, ["C".toList]⟩, "R".toList⟩ "F".toList).display =
    .ok (some ⟨⟨"P".toList, ["C".toList]⟩, "R".toList⟩, "F".toList) :=
  C41_parse_display.2.2.2 ⟨⟨⟨"P".toList, ["C".toList]⟩, "R".toList⟩, "F".toList⟩ (by
    unfold NoDots; decide)

theorem block_eqStr {b : BlockPath} (h : NoDots (blockComponents b)) (s : Str) :
    b.eqStr s = true ↔ s = dotted (blockComponents b) := by
  have key : b.eqStr s = true ↔ splitOn '.' s = blockComponents b := by
    unfold BlockPath.eqStr blockComponents
    generalize splitOn '.' s = parts
    cases parts with
    | nil => simp
    | cons p ps =>
      simp only [List.length_cons, ne_eq, Nat.add_right_cancel_iff, ite_not]
      by_cases hl : ps.length = b.path.length
      · rw [if_pos hl]
        by_cases hp : b.peripheral = p
        · rw [if_pos hp, hp]
          simp only [List.cons.injEq, true_and]
          revert hl
          generalize b.path = q
          induction ps generalizing q with
          | nil => intro hl; cases q <;> simp at hl ⊢
          | cons x xs ih =>
            intro hl
            cases q with
            | nil => simp at hl
            | cons y ys =>
              simp only [List.length_cons, Nat.add_right_cancel_iff] at hl
              simp only [List.zip_cons_cons, List.all_cons, Bool.and_eq_true, beq_iff_eq,
                List.cons.injEq, ih ys hl]
        · rw [if_neg hp]
          simp [Ne.symm hp]
      · rw [if_neg hl]
        simp only [Bool.false_eq_true, List.cons.injEq, false_iff, not_and]
        rintro _ rfl
        exact hl rfl
  rw [key]
  constructor
  · intro e
    rw [← e, dotted_eq_joinWith, join_splitOn]
  · intro e
    rw [e]; exact splitOn_dotted h (by simp [blockComponents])

theorem step_eqStr {l : List Str} {x : Str} (hl : l ≠ []) (h : NoDots (l ++ [x])) (eq : Str → Bool)
    (heq : ∀ s, eq s = true ↔ s = dotted l) (s : Str) :
    (match rsplitOnce '.' s with
      | some (a, b) => x == b && eq a
      | none => false) = true ↔ s = dotted (l ++ [x]) := by
  have hx : '.' ∉ x := h x (by simp)
  rw [dotted_concat hl]
  cases hr : rsplitOnce '.' s with
  | none =>
    simp only [Bool.false_eq_true, false_iff]
    rintro rfl
    exact (rsplitOnce_none.mp hr) (by simp)
  | some ab =>
    obtain ⟨a, b⟩ := ab
    simp only [Bool.and_eq_true, beq_iff_eq, heq]
    constructor
    · rintro ⟨rfl, rfl⟩
      obtain ⟨e, _⟩ := rsplitOnce_some.mp hr
      simpa using e
    · intro e
      have : rsplitOnce '.' s = some (dotted l, x) := rsplitOnce_some.mpr ⟨by simpa using e, hx⟩
      rw [hr] at this
      injection this with this
      injection this with h1 h2
      exact ⟨h2.symm, h1⟩

/-- **C41.** A path equals a text exactly when the text is the printed path. -/
theorem C41_eq_text (s : Str) :
    (∀ b : BlockPath, NoDots (blockComponents b) → (b.eqStr s = true ↔ s = b.display)) ∧
    (∀ r : RegisterPath, NoDots (registerComponents r) → (r.eqStr s = true ↔ s = r.display)) ∧
    (∀ f : FieldPath, NoDots (fieldComponents f) → (f.eqStr s = true ↔ s = f.display)) ∧
    (∀ e : EnumPath, NoDots (enumComponents e) → (e.eqStr s = true ↔ s = e.display)) := by
  have hr : ∀ (r : RegisterPath), NoDots (registerComponents r) → ∀ s,
      (r.eqStr s = true ↔ s = dotted (registerComponents r)) := fun r h s =>
    step_eqStr (by simp [blockComponents]) h r.block.eqStr
      (block_eqStr fun c hc => h c (by simp [registerComponents, hc])) s
  have hf : ∀ (f : FieldPath), NoDots (fieldComponents f) → ∀ s,
      (f.eqStr s = true ↔ s = dotted (fieldComponents f)) := fun f h s =>
    step_eqStr (by simp [registerComponents]) h f.register.eqStr
      (hr f.register fun c hc => h c (by simp [fieldComponents, hc])) s
  have he : ∀ (e : EnumPath), NoDots (enumComponents e) → ∀ s,
      (e.eqStr s = true ↔ s = dotted (enumComponents e)) := fun e h s =>
    step_eqStr (by simp [fieldComponents]) h e.field.eqStr
      (hf e.field fun c hc => h c (by simp [enumComponents, hc])) s
  refine ⟨fun b h => ?_, fun r h => ?_, fun f h => ?_, fun e h => ?_⟩
  · rw [block_display]; exact block_eqStr h s
  · rw [register_display]; exact hr r h s
  · rw [field_display]; exact hf f h s
  · rw [enum_display]; exact he e h s

example : (RegisterPath.mk ⟨"A".toList, ["C".toList]⟩ "R".toList).eqStr "A.C.R".toList = true :=
  ((C41_eq_text _).2.1 _ (by unfold NoDots; decide)).mpr (by decide)

/-- **C41.** Reading any text: one component is a bare name, more are block and name; nothing is
lost. -/
theorem C41_parse_text (s : Str) :
    ∃ b n, BlockPath.parseStr s = .ok (b, n) ∧ RegisterPath.parseStr s = .ok (b, n) ∧
      '.' ∉ n ∧ match b with
        | none => s = n
        | some b => s = b.display ++ ['.'] ++ n := by
  have hne := splitOn_ne_nil '.' s
  have hd : ∀ c ∈ splitOn '.' s, '.' ∉ c := fun c hc => splitOn_mem hc
  have hj : dotted (splitOn '.' s) = s := by rw [dotted_eq_joinWith, join_splitOn]
  unfold RegisterPath.parseStr BlockPath.parseStr
  revert hne hd hj
  generalize splitOn '.' s = v
  intro hne hd hj
  rcases List.eq_nil_or_concat v with rfl | ⟨i, x, rfl⟩
  · exact absurd rfl hne
  · simp only [List.concat_eq_append] at *
    rw [blockParse_concat]
    cases i with
    | nil =>
      refine ⟨none, x, rfl, rfl, hd x (by simp), ?_⟩
      rw [← hj]; simp [dotted, List.intercalate]
    | cons p ps =>
      refine ⟨some ⟨p, ps⟩, x, rfl, rfl, hd x (by simp), ?_⟩
      simp only
      rw [block_display, blockComponents, ← hj, dotted_concat (by simp)]

example : FieldPath.parseStr "GPIOA.MODE.CTRL.EN".toList =
    .ok (some ⟨⟨"GPIOA".toList, ["MODE".toList]⟩, "CTRL".toList⟩, "EN".toList) := by decide
example : NoDots (fieldComponents
    ⟨⟨⟨"GPIOA".toList, ["MODE".toList]⟩, "CTRL".toList⟩, "EN".toList⟩) := by
  unfold NoDots; decide
example : (RegisterPath.mk ⟨"A".toList, []⟩ "R".toList).eqStr "A.R".toList = true := by decide

/-! ## C42 -/

theorem count_dotted {l : List Str} (h : NoDots l) (hl : l ≠ []) :
    (dotted l).count '.' + 1 = l.length := by
  rw [dotted_eq_joinWith]
  induction l with
  | nil => exact absurd rfl hl
  | cons a l ih =>
    have ha : a.count '.' = 0 := List.count_eq_zero.mpr (h a (by simp))
    cases l with
    | nil => simp [joinWith, ha]
    | cons b l =>
      have := ih (fun c hc => h c (by simp [hc])) (by simp)
      rw [joinWith_cons (by simp)]
      simp only [List.append_assoc, List.count_append, ha, List.count_singleton, beq_self_eq_true,
        ↓reduceIte, List.length_cons] at *
      omega

/-- **C42**, exactly: reading a field path panics if and only if it has two components, otherwise it
returns the register path and the name whose text it is. -/
theorem C42_exact (s : Str) :
    (FieldPath.parseStr s = .error (.panic .unwrap) ↔ s.count '.' = 1) ∧
    (s.count '.' ≠ 1 → ∃ r n, FieldPath.parseStr s = .ok (r, n) ∧ '.' ∉ n ∧ match r with
      | none => s = n
      | some r => s = r.display ++ ['.'] ++ n) := by
  have hne := splitOn_ne_nil '.' s
  have hd : NoDots (splitOn '.' s) := fun c hc => splitOn_mem hc
  have hj : dotted (splitOn '.' s) = s := by rw [dotted_eq_joinWith, join_splitOn]
  have hc := count_dotted hd hne
  rw [hj] at hc
  unfold FieldPath.parseStr
  revert hne hd hj hc
  generalize splitOn '.' s = v
  intro hne hd hj hc
  rcases List.eq_nil_or_concat v with rfl | ⟨i, x, rfl⟩
  · exact absurd rfl hne
  · simp only [List.concat_eq_append] at *
    rcases List.eq_nil_or_concat i with rfl | ⟨j, y, rfl⟩
    · simp only [List.nil_append, List.length_singleton] at hc
      have e : FieldPath.parseVec ([] ++ [x]) = .ok (none, x) := rfl
      rw [e]
      refine ⟨⟨fun h => (by cases h), fun h => by omega⟩, fun _ => ⟨none, x, rfl, hd x (by simp), ?_⟩⟩
      rw [← hj]; simp [dotted, List.intercalate]
    · simp only [List.concat_eq_append] at *
      rw [fieldParse_concat]
      simp only [List.length_append, List.length_singleton] at hc
      cases j with
      | nil =>
        simp only [List.length_nil] at hc
        exact ⟨⟨fun _ => by omega, fun _ => rfl⟩, fun h => absurd (by omega) h⟩
      | cons p ps =>
        simp only [List.length_cons] at hc
        refine ⟨⟨fun h => (by cases h), fun h => by omega⟩, fun _ =>
          ⟨_, x, rfl, hd x (by simp), ?_⟩⟩
        simp only
        rw [register_display, registerComponents, blockComponents, ← hj, dotted_concat (by simp)]

example : FieldPath.parseStr "A.B".toList = .error (.panic .unwrap) ∧ ∃ r n, FieldPath.parseStr "A.B.C".toList = .ok (r, n) :=
  ⟨(C42_exact _).1.mpr (by decide), let ⟨r, n, h, _⟩ := (C42_exact "A.B.C".toList).2 (by decide); ⟨r, n, h⟩⟩

/-- **C42**, the part that holds. -/
theorem C42_returns_partial (s : Str) (h : s.count '.' ≠ 1) : ∃ r, FieldPath.parseStr s = .ok r := by
  obtain ⟨r, n, h, _⟩ := (C42_exact s).2 h
  exact ⟨_, h⟩

example : ∃ r, FieldPath.parseStr "P.C.R.F".toList = .ok r := C42_returns_partial _ (by decide)

/-- **C42**, violated: every reference `REG.FIELD` panics. -/
theorem C42_violated (reg field : Str) (hr : '.' ∉ reg) (hf : '.' ∉ field) :
    FieldPath.parseStr (reg ++ ['.'] ++ field) = .error (.panic .unwrap) :=
  (C42_exact _).1.mpr (by simp [List.count_append, List.count_eq_zero.mpr hr, List.count_eq_zero.mpr hf])

example : FieldPath.parseStr "CTRL.EN".toList = .error (.panic .unwrap) :=
  C42_violated "CTRL".toList "EN".toList (by decide) (by decide)
example : FieldPath.parseStr "EN".toList = .ok (none, "EN".toList) := by decide

theorem parent_concat (p : Str) (l : List Str) (x : Str) :
    BlockPath.parent ⟨p, l ++ [x]⟩ = some ⟨p, l⟩ := by
  have := List.dropLast_concat (l₁ := l) (b := x)
  cases l with
  | nil => rfl
  | cons a l =>
    simp only [List.cons_append] at this
    simp [BlockPath.parent, this]

theorem nameOf_concat (p : Str) (l : List Str) (x : Str) : BlockPath.nameOf ⟨p, l ++ [x]⟩ = .ok x := by
  simp [BlockPath.nameOf]

/-- **C41.** A path has a parent and a name exactly if it has more than one component; they are all
components but the last one, and the last one. -/
theorem C41_parent (b q : BlockPath) :
    (b.parent = some q ↔ ∃ n, blockComponents b = blockComponents q ++ [n]) ∧
    (∀ n, b.nameOf = .ok n ↔ ∃ q, blockComponents b = blockComponents q ++ [n]) ∧
    (b.parent = none ↔ b.nameOf = panics .unwrap) ∧
    (b.parent = none ↔ b.display = b.peripheral ∧ b.path = []) := by
  obtain ⟨p, l⟩ := b
  obtain ⟨p', l'⟩ := q
  rcases List.eq_nil_or_concat l with rfl | ⟨l, x, rfl⟩
  · simp [panics, BlockPath.display, BlockPath.parent, BlockPath.nameOf, blockComponents]
  · rw [List.concat_eq_append, parent_concat, nameOf_concat]
    unfold blockComponents
    refine ⟨⟨fun h => ?_, fun ⟨n, h⟩ => ?_⟩, fun n => ⟨fun h => ?_, fun ⟨q, h⟩ => ?_⟩, ?_, ?_⟩
    · cases h; exact ⟨x, rfl⟩
    · injection h with h1 h2
      cases h1
      cases (List.append_inj' h2 rfl).1
      rfl
    · cases h; exact ⟨⟨p, l⟩, rfl⟩
    · injection h with h1 h2
      have := (List.append_inj' h2 rfl).2
      injection this with this
      rw [this]
    · simp [panics]
    · simp
example : (BlockPath.mk "P".toList ["C".toList, "D".toList]).parent = some ⟨"P".toList, ["C".toList]⟩ ∧
    (BlockPath.mk "P".toList ["C".toList, "D".toList]).nameOf = .ok "D".toList ∧
    (BlockPath.new "P".toList).parent = none := by decide

/-- **C41.** The peripheral of a path is its first component, the register of a path to enumerated values
comes first in it. -/
theorem C41_first :
    (∀ r : RegisterPath, (registerComponents r).head? = some r.peripheral) ∧
    (∀ f : FieldPath, (fieldComponents f).head? = some f.peripheral) ∧
    (∀ e : EnumPath, (enumComponents e).head? = some e.peripheral ∧
      enumComponents e = registerComponents e.register ++ [e.field.name, e.name]) := by
  refine ⟨fun r => rfl, fun f => rfl, fun e => ⟨rfl, ?_⟩⟩
  simp [enumComponents, fieldComponents, EnumPath.register]
example : (EnumPath.mk ⟨⟨⟨"P".toList, []⟩, "R".toList⟩, "F".toList⟩ "E".toList).peripheral = "P".toList := rfl

end Svd
