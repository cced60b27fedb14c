import Verif.Model.Top
import Verif.Spec.Reorder
import Verif.Lemmas.Except

/-!
# A normal form of documents up to layout and the order of elements with different names

`canon` removes what does not matter and groups the children; every parser gives the same result on the normal form.
-/

namespace Svd

open Spec Xml

/-- The groups of children. -/
def slots (tag : String) : List String :=
  if listTags.contains tag then headTags tag ++ [""] else (recordTags tag).getD []

/-- The group of a child named `k`. -/
def slot (tag k : String) : String :=
  if listTags.contains tag then (if (headTags tag).contains k then k else "")
  else if tag = "cluster" ∧ k = "cluster" then "register" else k

/-- Group by group. -/
def arrange (tag : String) (cs : List Xml) : List Xml :=
  (slots tag).flatMap fun s => cs.filter fun c => slot tag c.tag == s

theorem slots_nodup (tag : String) : (slots tag).Nodup := by
  unfold slots
  split
  · next h =>
    have : ∀ t ∈ listTags, (headTags t ++ [""]).Nodup := by decide
    exact this tag (by simpa using h)
  · unfold recordTags
    split <;> decide

theorem flatMap_slot {p q : Xml → Bool} {f : Xml → String} {i : String} {l : List String} (cs : List Xml)
    (hn : l.Nodup) (hi : i ∈ l) (h : ∀ c, q c = true → f c = i) (hp : p = q) :
    (l.flatMap fun s => cs.filter fun c => f c == s).filter p = cs.filter q := by
  subst hp
  rw [List.filter_flatMap]
  have other : ∀ s, s ≠ i → (cs.filter fun c => f c == s).filter p = [] := by
    intro s hs
    rw [List.filter_filter, List.filter_eq_nil_iff]
    intro c _ hc
    rw [Bool.and_eq_true] at hc
    exact hs (by rw [← h c hc.1]; exact (beq_iff_eq.mp hc.2).symm)
  have own : (cs.filter fun c => f c == i).filter p = cs.filter p := by
    rw [List.filter_filter]
    apply List.filter_congr
    intro c _
    cases hc : p c with
    | false => rfl
    | true => simp [h c hc]
  clear h
  induction l with
  | nil => cases hi
  | cons s l ih =>
    rw [List.flatMap_cons]
    have hn := List.nodup_cons.mp hn
    by_cases hs : s = i
    · subst hs
      rw [own]
      have : (l.flatMap fun s => (cs.filter fun c => f c == s).filter p) = [] := by
        rw [List.flatMap_eq_nil_iff]
        intro t ht
        exact other t fun e => hn.1 (e ▸ ht)
      rw [this, List.append_nil]
    · rw [other s hs, List.nil_append]
      exact ih hn.2 (by rcases List.mem_cons.mp hi with rfl | hi; exact absurd rfl hs; exact hi)

/-- Within a group the order stays. -/
theorem arrange_filter {tag i : String} (hi : i ∈ slots tag) {q : Xml → Bool}
    (h : ∀ c, q c = true → slot tag c.tag = i) (cs : List Xml) : (arrange tag cs).filter q = cs.filter q :=
  flatMap_slot cs (slots_nodup tag) hi h rfl

/-- The children that matter for an element named `tag`. -/
def keep (tag : String) (cs : List Xml) : List Xml :=
  if listTags.contains tag then arrange tag (cs.filter isElement)
  else
    match recordTags tag with
    | some known => arrange tag (cs.filter fun c => c.isElement && known.contains c.tag)
    | none =>
      match cs with
      | .text s :: _ => [.text s]
      | _ => []

/-- The attributes that matter. -/
def keepAttrs (as : List (String × Str)) : List (String × Str) :=
  attributeNames.flatMap fun n => as.filter fun p => p.1 == n

mutual
/-- Normal form of a node. -/
def canon : Xml → Xml
  | .elem tag as cs => .elem tag (keepAttrs as) (keep tag (canons cs))
  | .text s => .text s
  | .other => .other
/-- Normal forms of a list of nodes. -/
def canons : List Xml → List Xml
  | [] => []
  | c :: cs => canon c :: canons cs
end

theorem canons_eq (cs : List Xml) : canons cs = cs.map canon := by
  induction cs with
  | nil => rfl
  | cons c cs ih => simp [canons, ih]

@[simp] theorem canon_tag (x : Xml) : (canon x).tag = x.tag := by cases x <;> simp [canon, tag]
@[simp] theorem canon_isElement (x : Xml) : (canon x).isElement = x.isElement := by
  cases x <;> simp [canon, isElement]
@[simp] theorem canon_hasTag (k : String) (x : Xml) : (canon x).hasTag k = x.hasTag k := by
  cases x <;> simp [canon, hasTag]

theorem attr_filter (l : List (String × Str)) (n : String) (h : attributeNames.contains n = true) :
    (keepAttrs l).find? (fun p => p.1 == n) = l.find? fun p => p.1 == n := by
  have ff : ∀ l : List (String × Str), l.find? (fun p => p.1 == n) = (l.filter fun p => p.1 == n).head? := by
    intro l
    exact (List.head?_filter (p := fun p : String × Str => p.1 == n)).symm
  rw [ff, ff]
  congr 1
  have hn : n ∈ attributeNames := by simpa using h
  unfold keepAttrs
  rw [List.filter_flatMap]
  have other : ∀ s, s ≠ n → (l.filter fun p => p.1 == s).filter (fun p => p.1 == n) = [] := by
    intro s hs
    rw [List.filter_filter, List.filter_eq_nil_iff]
    intro c _ hc
    rw [Bool.and_eq_true, beq_iff_eq, beq_iff_eq] at hc
    exact hs (hc.2.symm.trans hc.1)
  have own : (l.filter fun p => p.1 == n).filter (fun p => p.1 == n) = l.filter fun p => p.1 == n := by
    rw [List.filter_filter]; simp
  simp only [attributeNames, List.flatMap_cons, List.flatMap_nil, List.append_nil]
  simp only [attributeNames, List.mem_cons, List.not_mem_nil, or_false] at hn
  rcases hn with rfl | rfl | rfl | rfl <;>
    simp [own, other, -List.filter_filter]

theorem canon_attr (x : Xml) (n : String) (h : attributeNames.contains n = true) :
    (canon x).attr n = x.attr n := by
  cases x with
  | elem t as cs => simp only [canon, attr, attr_filter as n h]
  | text s => rfl
  | other => rfl

/-- Does the format define children `k` of elements `tag`? -/
def visible (tag k : String) : Bool :=
  listTags.contains tag || (match recordTags tag with
    | some known => known.contains k
    | none => false)

theorem slot_mem {tag k : String} (h : visible tag k = true) : slot tag k ∈ slots tag := by
  unfold slot slots
  unfold visible at h
  by_cases hl : listTags.contains tag = true
  · rw [if_pos hl, if_pos hl]
    split
    · next hk => exact List.mem_append_left _ (by simpa using hk)
    · exact List.mem_append_right _ (by simp)
  · rw [if_neg hl, if_neg hl]
    rw [Bool.or_eq_true] at h
    have h := h.resolve_left hl
    cases hr : recordTags tag with
    | none => rw [hr] at h; cases h
    | some known =>
      simp only [hr] at h ⊢
      have hk : k ∈ known := by simpa using h
      split
      · next hc =>
        rw [hc.1] at hr
        injection hr with hr
        rw [← hr]
        decide
      · exact hk

theorem hasTag_parts {k : String} {c : Xml} (hc : hasTag k c = true) : c.isElement = true ∧ c.tag = k := by
  cases c <;> simp_all [hasTag, isElement, Xml.tag]

theorem keep_filter {tag k : String} (h : visible tag k = true) (cs : List Xml) :
    (keep tag cs).filter (hasTag k) = cs.filter (hasTag k) := by
  have ha : ∀ l, (arrange tag l).filter (hasTag k) = l.filter (hasTag k) := fun l =>
    arrange_filter (slot_mem h) (fun c hc => by rw [(hasTag_parts hc).2]) l
  unfold keep
  unfold visible at h
  by_cases hl : listTags.contains tag = true
  · rw [if_pos hl, ha, List.filter_filter]
    apply List.filter_congr
    intro c _
    cases hc : hasTag k c with
    | false => rfl
    | true => simp [(hasTag_parts hc).1]
  · rw [if_neg hl]
    cases hr : recordTags tag with
    | none => simp [hr] at h; simp_all
    | some known =>
      simp only [hr] at h ⊢
      have hk : known.contains k = true := by
        rw [Bool.or_eq_true] at h; exact h.resolve_left hl
      rw [ha, List.filter_filter]
      apply List.filter_congr
      intro c _
      cases hc : hasTag k c with
      | false => rfl
      | true => simp [(hasTag_parts hc).1, (hasTag_parts hc).2] ; simpa using hk

theorem map_filter_canon (k : String) (cs : List Xml) :
    (cs.map canon).filter (hasTag k) = (cs.filter (hasTag k)).map canon := by
  rw [List.filter_map]
  congr 1
  apply List.filter_congr
  intro c _
  simp

/-- Children with a given name. -/
theorem canon_named {tag k : String} (h : visible tag k = true) (as : List (String × Str))
    (cs : List Xml) :
    (canon (.elem tag as cs)).children.filter (hasTag k) = (cs.filter (hasTag k)).map canon := by
  simp only [canon, children, canons_eq]
  rw [keep_filter h, map_filter_canon]

theorem find_filter (p : Xml → Bool) (l : List Xml) : l.find? p = (l.filter p).head? := by
  induction l with
  | nil => rfl
  | cons x xs ih =>
    by_cases hx : p x = true
    · rw [List.find?_cons_of_pos hx, List.filter_cons_of_pos hx]; rfl
    · rw [List.find?_cons_of_neg hx, List.filter_cons_of_neg hx, ih]

theorem canon_getChild {tag k : String} (h : visible tag k = true) (as : List (String × Str))
    (cs : List Xml) :
    (canon (.elem tag as cs)).getChild k = ((Xml.elem tag as cs).getChild k).map canon := by
  unfold getChild
  rw [find_filter, find_filter, canon_named h]
  simp [children, List.head?_map]

/-- Elements that hold text only. -/
def leaf (k : String) : Bool := !listTags.contains k && (recordTags k).isNone

theorem canon_textOf {k : String} (h : leaf k = true) {c : Xml} (hc : c.hasTag k = true) :
    (canon c).textOf = c.textOf := by
  cases c with
  | text s => rfl
  | other => rfl
  | elem t as cs =>
    have ht : t = k := by simpa [hasTag] using hc
    subst ht
    have h1 : listTags.contains t = false := by
      simp only [leaf, Bool.and_eq_true, Bool.not_eq_true'] at h; exact h.1
    have h2 : recordTags t = none := by
      simp only [leaf, Bool.and_eq_true, Option.isNone_iff_eq_none] at h; exact h.2
    simp only [canon, keep, h1, h2]
    cases cs with
    | nil => rfl
    | cons x xs => cases x <;> rfl

theorem canon_getText {k : String} (h : leaf k = true) {c : Xml} (hc : c.hasTag k = true) :
    (canon c).getText = c.getText := by
  unfold getText
  rw [canon_textOf h hc, canon_tag]

theorem getChild_hasTag {t c : Xml} {k : String} (h : t.getChild k = some c) : c.hasTag k = true :=
  by simpa using List.find?_some h

theorem canon_getChildTextOpt {tag k : String} (h : visible tag k = true) (hl : leaf k = true)
    (as : List (String × Str)) (cs : List Xml) :
    (canon (.elem tag as cs)).getChildTextOpt k = (Xml.elem tag as cs).getChildTextOpt k := by
  unfold getChildTextOpt
  rw [canon_getChild h]
  cases hc : (Xml.elem tag as cs).getChild k with
  | none => rfl
  | some c =>
    simp only [Option.map_some]
    rw [canon_getText hl (getChild_hasTag hc)]

theorem canon_getChildText {tag k : String} (h : visible tag k = true) (hl : leaf k = true)
    (as : List (String × Str)) (cs : List Xml) :
    (canon (.elem tag as cs)).getChildText k = (Xml.elem tag as cs).getChildText k := by
  unfold getChildText
  rw [canon_getChildTextOpt h hl]

theorem canon_optional {α : Type} {tag k : String} (h : visible tag k = true)
    (as : List (String × Str)) (cs : List Xml) (p : Xml → M α)
    (hp : ∀ c : Xml, c.hasTag k = true → p (canon c) = p c) :
    Xml.optional k (canon (.elem tag as cs)) p = Xml.optional k (Xml.elem tag as cs) p := by
  unfold Xml.optional
  rw [canon_getChild h]
  cases hc : (Xml.elem tag as cs).getChild k with
  | none => rfl
  | some c =>
    simp only [Option.map_some]
    rw [hp c (getChild_hasTag hc)]

/-- `getChildElem` followed by a parser. -/
theorem canon_getChildElem {α : Type} {tag k : String} (h : visible tag k = true)
    (as : List (String × Str)) (cs : List Xml) (p : Xml → M α)
    (hp : ∀ c : Xml, c.hasTag k = true → p (canon c) = p c) :
    ((canon (.elem tag as cs)).getChildElem k >>= p) = ((Xml.elem tag as cs).getChildElem k >>= p) := by
  unfold getChildElem
  rw [canon_getChild h]
  cases hc : (Xml.elem tag as cs).getChild k with
  | none => rfl
  | some c => exact hp c (getChild_hasTag hc)

theorem canon_parseInt {k : String} (h : leaf k = true) (w : Nat) {c : Xml}
    (hc : c.hasTag k = true) : parseInt w (canon c) = parseInt w c := by
  unfold parseInt; rw [canon_getText h hc]

theorem canon_parseBool {k : String} (h : leaf k = true) {c : Xml} (hc : c.hasTag k = true) :
    parseBool (canon c) = parseBool c := by
  unfold parseBool; rw [canon_getText h hc]

theorem canon_parseKeyword {α : Type} {k : String} (h : leaf k = true) (f : Str → Option α)
    (e : Str → Err) {c : Xml} (hc : c.hasTag k = true) :
    parseKeyword f e (canon c) = parseKeyword f e c := by
  unfold parseKeyword; rw [canon_getText h hc]

theorem canon_getChildInt {tag k : String} (h : visible tag k = true) (hl : leaf k = true)
    (w : Nat) (as : List (String × Str)) (cs : List Xml) :
    getChildInt w (canon (.elem tag as cs)) k = getChildInt w (.elem tag as cs) k :=
  canon_getChildElem h as cs _ fun _ hc => canon_parseInt hl w hc

theorem canon_getChildBool {tag k : String} (h : visible tag k = true) (hl : leaf k = true)
    (as : List (String × Str)) (cs : List Xml) :
    (canon (.elem tag as cs)).getChildBool k = (Xml.elem tag as cs).getChildBool k :=
  canon_getChildElem h as cs _ fun _ hc => canon_parseBool hl hc

/-- All children with a name, parsed in order. -/
theorem canon_mapM {α : Type} {tag k : String} (h : visible tag k = true)
    (as : List (String × Str)) (cs : List Xml) (p : Xml → M α)
    (hp : ∀ c : Xml, c.hasTag k = true → p (canon c) = p c) :
    ((canon (.elem tag as cs)).children.filter (hasTag k)).mapM p =
      ((Xml.elem tag as cs).children.filter (hasTag k)).mapM p := by
  rw [canon_named h, List.mapM_map]
  apply mapM_congr
  intro c hc
  exact hp c (List.mem_filter.mp hc).2

/-- The elements of a list container after its head. -/
theorem canon_elements {tag : String} (h : listTags.contains tag = true)
    (as : List (String × Str)) (cs : List Xml) :
    (canon (.elem tag as cs)).children.filter (fun c => c.isElement && !(headTags tag).contains c.tag) =
      (cs.filter fun c => c.isElement && !(headTags tag).contains c.tag).map canon := by
  simp only [canon, children, keep, h, if_true, canons_eq]
  rw [arrange_filter (i := "") (by unfold slots; rw [if_pos h]; simp)
    (fun c hc => by
      unfold slot
      rw [Bool.and_eq_true, Bool.not_eq_true'] at hc
      rw [if_pos h, if_neg (by rw [hc.2]; decide)]), List.filter_filter, List.filter_map]
  congr 1
  apply List.filter_congr
  intro c _
  simp
  exact fun h _ => h

/-- The same for a list without a head. -/
theorem canon_elements' {tag : String} (h : listTags.contains tag = true) (hh : headTags tag = [])
    (as : List (String × Str)) (cs : List Xml) :
    (canon (.elem tag as cs)).children.filter isElement = (cs.filter isElement).map canon := by
  have := canon_elements h as cs
  rw [hh] at this
  simpa using this

end Svd
