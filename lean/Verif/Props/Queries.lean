import Verif.Props.Expanded
import Verif.Props.Misc

/-!
# C89: simple queries answer what their names say
-/

namespace Svd

open Spec

/-- **C89.** An element counts as an array exactly if it has an array description, and as single exactly if not. -/
theorem C89_array {α : Type} (m : MaybeArray α) : (m.isArray = true ↔ ∃ a d, m = .array a d) ∧
    (m.isSingle = true ↔ ∃ a, m = .single a) := by
  cases m <;> simp [MaybeArray.isArray, MaybeArray.isSingle]

/-- **C89.** A field without references stays as it is in expansion exactly if it is single, and all results are single. -/
theorem C89_field {ix : Index} {n : Nat} {b : RegisterPath} {f : Field} {l : List Field} (hf : FieldNoRef f)
    (h : expandField true ix n b f = .ok l) : (l = [f] ↔ f.isSingle = true) ∧ ∀ g ∈ l, g.isArray = false := by
  have := (expandField_iff hf l).mp h
  cases this with
  | single => exact ⟨by simp [MaybeArray.isSingle], by simp [MaybeArray.isArray]⟩
  | @array i d l hl =>
    refine ⟨⟨fun e => ?_, fun e => nomatch e⟩, ?_⟩
    · cases l with
      | nil => cases e
      | cons x xs => cases e
    · intro g hg
      obtain ⟨x, _, rfl⟩ := List.mem_map.mp hg
      rfl

/-- **C89.** What counts as Cortex-M: a name that begins with `CM`. -/
theorem C89_cortex_m (c : Cpu) : c.isCortexM = true ↔ ∃ s, c.name = 'C' :: 'M' :: s := by
  unfold Cpu.isCortexM
  rw [List.isPrefixOf_iff_prefix]
  exact ⟨fun ⟨s, h⟩ => ⟨s, h.symm⟩, fun ⟨s, h⟩ => ⟨s, h.symm⟩⟩

/-- **C89.** The levels are ordered: strict validation includes weak validation, which excludes disabled validation. -/
theorem C89_levels (l : ValidateLevel) : (l.isStrict = true → l.isWeak = true) ∧ (l.isWeak = true ↔ l.isDisabled = false) ∧
    (l.isStrict = true ↔ l = .strict) ∧ (l.isDisabled = true ↔ l = .disabled) := by
  cases l <;> decide

-- An array of one field does not stay: it becomes a single field.
example : ∃ ix l, expandField true ix 3 ⟨⟨"P".toList, []⟩, "R".toList⟩ (.array (Sample.fieldInfo "F%s" 0) (Sample.dim 1 1)) = .ok l ∧
    l.length = 1 ∧ l ≠ [.array (Sample.fieldInfo "F%s" 0) (Sample.dim 1 1)] := by
  obtain ⟨l, h⟩ := ok_of_isOk (x := expandField true {} 3 ⟨⟨"P".toList, []⟩, "R".toList⟩
    (.array (Sample.fieldInfo "F%s" 0) (Sample.dim 1 1))) (by decide +kernel)
  refine ⟨{}, l, h, ?_, fun e => ?_⟩
  · have hc : (expandField true {} 3 ⟨⟨"P".toList, []⟩, "R".toList⟩
      (.array (Sample.fieldInfo "F%s" 0) (Sample.dim 1 1))).map List.length = .ok 1 := by decide +kernel
    rw [h] at hc
    exact Except.ok.inj hc
  · exact nomatch (C89_field (by simp [FieldNoRef, MaybeArray.info, Sample.fieldInfo]) h).1.mp e

example (c : Cpu) : Cpu.isCortexM { c with name := "CM4".toList } = true ∧
    ¬ Cpu.isCortexM { c with name := "CA9".toList } = true := by
  rw [C89_cortex_m, C89_cortex_m]
  simp

end Svd
