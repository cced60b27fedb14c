import Verif.Props.Layout
import Verif.Props.RoundTripAll

/-! # C71: the order of elements with different names does not matter to the reader -/

namespace Svd
open Xml Spec

/-! ## Swaps do not change the normal form -/

theorem filter_swap {α : Type} {q : α → Bool} {a b : α} (h : ¬ (q a = true ∧ q b = true)) (pre post : List α) :
    (pre ++ a :: b :: post).filter q = (pre ++ b :: a :: post).filter q := by
  rw [List.filter_append, List.filter_append]
  congr 1
  cases ha : q a <;> cases hb : q b <;> simp_all

theorem arrange_swap {tag : String} {a b : Xml} (h : slot tag a.tag ≠ slot tag b.tag) (p : Xml → Bool)
    (pre post : List Xml) :
    arrange tag ((pre ++ a :: b :: post).filter p) = arrange tag ((pre ++ b :: a :: post).filter p) := by
  unfold arrange
  rw [List.flatMap_def, List.flatMap_def]
  congr 1
  apply List.map_congr_left
  intro s _
  rw [List.filter_filter, List.filter_filter]
  refine filter_swap ?_ pre post
  rintro ⟨h1, h2⟩
  rw [Bool.and_eq_true, beq_iff_eq] at h1 h2
  exact h (h1.1.trans h2.1.symm)

theorem swappable_slot {tag a b : String} (h : Swappable tag a b) :
    slot tag a ≠ slot tag b ∧ (listTags.contains tag = true ∨ ∃ k, recordTags tag = some k) := by
  unfold slot
  cases h with
  | record hr hn hc =>
    obtain ⟨k, hk⟩ := Option.isSome_iff_exists.mp hr
    have hl : ¬ listTags.contains tag = true := by
      intro hl
      have : ∀ t ∈ listTags, recordTags t = none := by decide
      rw [this tag (by simpa using hl)] at hk
      cases hk
    refine ⟨?_, .inr ⟨k, hk⟩⟩
    rw [if_neg hl, if_neg hl]
    by_cases ht : tag = "cluster"
    · subst ht
      intro he
      apply hc
      refine ⟨rfl, ?_⟩
      split at he <;> split at he <;> simp_all
    · rw [if_neg (fun e => ht e.1), if_neg (fun e => ht e.1)]
      exact hn
  | head ha hn =>
    have hl : listTags.contains tag = true := by
      unfold headTags at ha
      split at ha
      · rfl
      · rfl
      · cases ha
    refine ⟨?_, .inl hl⟩
    have he : a ≠ "" := by
      rintro rfl
      unfold headTags at ha
      split at ha <;> simp at ha
    rw [if_pos hl, if_pos hl, if_pos (by simpa using ha)]
    split
    · exact hn
    · exact he

theorem keep_swap {tag : String} {a b : Xml} (h : Swappable tag a.tag b.tag) (pre post : List Xml) :
    keep tag (pre ++ a :: b :: post) = keep tag (pre ++ b :: a :: post) := by
  obtain ⟨hs, h⟩ := swappable_slot h
  unfold keep
  by_cases hl : listTags.contains tag = true
  · rw [if_pos hl, if_pos hl, arrange_swap hs]
  · obtain ⟨k, hk⟩ := h.resolve_left hl
    rw [if_neg hl, if_neg hl]
    simp only [hk]
    rw [arrange_swap hs]

theorem canon_of_shuffled {x y : Xml} (h : Shuffled x y) : canon x = canon y := by
  induction h with
  | refl => rfl
  | symm _ ih => exact ih.symm
  | trans _ _ ih1 ih2 => exact ih1.trans ih2
  | swap as pre post as₁ as₂ cs₁ cs₂ hs =>
    simp only [canon, canons_eq, List.map_append, List.map_cons]
    rw [keep_swap (by exact hs)]
  | attr tag pre post v w cs hk =>
    simp only [canon]
    congr 1
    unfold keepAttrs
    rw [List.flatMap_def, List.flatMap_def]
    congr 1
    apply List.map_congr_left
    intro n _
    refine filter_swap ?_ pre post
    rintro ⟨h1, h2⟩
    exact hk ((beq_iff_eq.mp h1).trans (beq_iff_eq.mp h2).symm)
  | child tag as pre post _ ih =>
    simp only [canon, canons_eq, List.map_append, List.map_cons, ih]

/-! ## The reader -/

/-- C71, for an element: reading does not depend on the order of child elements with different names
(other than the registers and clusters of a cluster, and the items of a list) or of attributes; the
result is the same device or the same failure. -/
theorem C71_element (oc : Bool) (cfg : ParseConfig) {x y : Xml} (h : Shuffled x y) :
    parseDevice oc cfg x = parseDevice oc cfg y := by
  rw [← canon_device oc cfg x, canon_of_shuffled h, canon_device]

/-- C71, for a document, with the expansion that follows reading if requested. -/
theorem C71_document (oc : Bool) (fuel : Nat) (cfg : ParseConfig) {x y : Xml} (h : Shuffled x y)
    (pre post : List Xml) :
    parseWithConfig oc fuel cfg (pre ++ x :: post) = parseWithConfig oc fuel cfg (pre ++ y :: post) := by
  have ht : ∀ k, x.hasTag k = y.hasTag k := fun k => by
    rw [← canon_hasTag k x, canon_of_shuffled h, canon_hasTag]
  have hd : parseDocument oc cfg (pre ++ x :: post) = parseDocument oc cfg (pre ++ y :: post) := by
    unfold parseDocument
    rw [List.find?_append, List.find?_append]
    cases List.find? (hasTag "device") pre with
    | some p => rfl
    | none =>
      by_cases hc : x.hasTag "device" = true
      · rw [List.find?_cons_of_pos hc, List.find?_cons_of_pos (by rw [← ht]; exact hc)]
        exact C71_element oc cfg h
      · rw [List.find?_cons_of_neg hc, List.find?_cons_of_neg (by rw [← ht]; exact hc)]
  unfold parseWithConfig
  rw [hd]

/-- C71 together with C26: a device is read back from what was written for it, laid out in any way
and with the elements in any other order. -/
theorem C71_written (oc : Bool) (cc : IdentifierFormat → Str → Str) (pcfg : ParseConfig)
    (hi : pcfg.ignoreEnums = false) (d : Device) (h : Expressible pcfg.validateLevel d) :
    ∃ x, encodeDevice oc cc {} d = .ok x ∧
      ∀ y z, Reread x y → Shuffled y z → parseDevice oc pcfg z = .ok d := by
  obtain ⟨x, hx, hr⟩ := C26_lossless oc cc pcfg hi d h
  exact ⟨x, hx, fun y z hy hz => (C71_element oc pcfg hz).symm.trans (hr y hy)⟩

/-! ## Examples -/

def leafOf (k s : String) : Xml := .elem k [] [.text s.toList]

/-- A document in the order of the format; the flags say what is swapped. -/
def orderDoc (names clusterFirst registersFirst : Bool) : Xml :=
  .elem "device" [] [leafOf "name" "dev", .elem "peripherals" [] [
    .elem "peripheral" [] ((if names then id else List.reverse)
      [leafOf "name" "P", leafOf "baseAddress" "0x10", .elem "registers" [] ((if registersFirst then id else List.reverse)
        [.elem "register" [] [leafOf "name" "R", leafOf "addressOffset" "4"],
         .elem "cluster" [] ([leafOf "name" "C", leafOf "addressOffset" "0"] ++ (if clusterFirst then id else List.reverse)
           [.elem "cluster" [] [leafOf "name" "D", leafOf "addressOffset" "0",
             .elem "register" [] [leafOf "name" "T", leafOf "addressOffset" "4"]],
            .elem "register" [] [leafOf "name" "S", leafOf "addressOffset" "8"]])])])]]

/-- The relation reverses the children of the peripheral, so `C71_element` applies to the two. -/
example : Shuffled (orderDoc true true true) (orderDoc false true true) := by
  refine .child "device" _ [_] [] (.child "peripherals" _ [] [] ?_)
  have h : ∀ a b, a ≠ b → Swappable "peripheral" a b := fun a b h => .record rfl h (fun h => absurd h.1 (by decide))
  refine .trans (.swap [] [] [_] _ _ _ _ (h "name" "baseAddress" (by decide))) ?_
  refine .trans (.swap [] [_] [] _ _ _ _ (h "name" "registers" (by decide))) ?_
  exact .swap [] [] [_] _ _ _ _ (h "baseAddress" "registers" (by decide))

example : (parseDevice true {} (orderDoc false true true)).toOption.isSome = true := by decide +kernel

/-- A device with two names. -/
def twoNames (a b : String) : Xml :=
  .elem "device" [] [leafOf "name" a, leafOf "name" b, .elem "peripherals" [] [
    .elem "peripheral" [] [leafOf "name" "P", leafOf "baseAddress" "0x10"]]]

/-- Where order matters: items of a list, the registers and clusters of a cluster, and elements with
the same name, of which the first is read. -/
theorem C71_limits :
    parseDevice true {} (orderDoc true true true) ≠ parseDevice true {} (orderDoc true true false) ∧
    parseDevice true {} (orderDoc true true true) ≠ parseDevice true {} (orderDoc true false true) ∧
    parseDevice true {} (twoNames "a" "b") ≠ parseDevice true {} (twoNames "b" "a") := by
  decide +kernel

-- `C71_document`: the same for a whole document.
example (fuel : Nat) : parseWithConfig true fuel { expand := true } [.other, orderDoc true true true] =
    parseWithConfig true fuel { expand := true } [.other, orderDoc false true true] := by
  refine C71_document true fuel _ ?_ [.other] []
  refine .child "device" _ [_] [] (.child "peripherals" _ [] [] ?_)
  have h : ∀ a b, a ≠ b → Swappable "peripheral" a b := fun a b h => .record rfl h (fun h => absurd h.1 (by decide))
  refine .trans (.swap [] [] [_] _ _ _ _ (h "name" "baseAddress" (by decide))) ?_
  refine .trans (.swap [] [_] [] _ _ _ _ (h "name" "registers" (by decide))) ?_
  exact .swap [] [] [_] _ _ _ _ (h "baseAddress" "registers" (by decide))

theorem orderDoc_shuffled : Shuffled (orderDoc true true true) (orderDoc false true true) := by
  refine .child "device" _ [_] [] (.child "peripherals" _ [] [] ?_)
  have h : ∀ a b, a ≠ b → Swappable "peripheral" a b := fun a b h => .record rfl h (fun h => absurd h.1 (by decide))
  refine .trans (.swap [] [] [_] _ _ _ _ (h "name" "baseAddress" (by decide))) ?_
  refine .trans (.swap [] [_] [] _ _ _ _ (h "name" "registers" (by decide))) ?_
  exact .swap [] [] [_] _ _ _ _ (h "baseAddress" "registers" (by decide))

example : parseDevice true { validateLevel := .strict } (orderDoc true true true) =
    parseDevice true { validateLevel := .strict } (orderDoc false true true) := C71_element _ _ orderDoc_shuffled

end Svd
