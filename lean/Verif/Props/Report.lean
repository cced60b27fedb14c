import Verif.Spec.Report
import Verif.Props.Blame

/-!
# C58, C59: where errors are reported, and with which messages
-/

namespace Svd
open Spec

/-! ## Positions -/

theorem way_of_path {y x : Xml} {r : List Nat} (h : AtPath y r x) : ∀ {top : List Xml} {i : Nat},
    top[i]? = some y → ∃ outer, Way top (i :: r) (outer ++ [x]) ∧ (outer ++ [x]).head? = some y := by
  induction h with
  | self x => exact fun hi => ⟨[], .last hi, rfl⟩
  | @child x c z j r hc _ ih =>
    intro top i hi
    obtain ⟨outer, hw, _⟩ := ih hc
    exact ⟨x :: outer, .step hi hw, rfl⟩

theorem getNode_of_way {top l : List Xml} {id : List Nat} (h : Way top id l) :
    ∀ {outer : List Xml} {x : Xml}, l = outer ++ [x] → getNode top id = some x := by
  induction h with
  | last hi =>
    intro outer x hl
    match outer, hl with
    | [], hl => cases hl; unfold getNode; exact hi
    | _ :: outer, hl => simp at hl
  | @step top i j r y l hi hw ih =>
    intro outer x hl
    match outer, hl with
    | [], hl => cases hl; cases hw
    | _ :: outer, hl =>
      unfold getNode
      rw [hi]
      exact ih (List.cons.inj hl).2

theorem ancestorIds_cons (i j : Nat) (r : List Nat) :
    ancestorIds (i :: j :: r) = (ancestorIds (j :: r)).map (i :: ·) ++ [[i]] := by
  have hf : ∀ (l : List Nat), (l.map fun k => i :: (j :: r).take k).filter (fun a => decide (a ≠ [])) =
      l.map fun k => i :: (j :: r).take k := by
    intro l
    rw [List.filter_eq_self]
    simp
  unfold ancestorIds
  have h1 : (List.range (i :: j :: r).length).map (fun k => (i :: j :: r).take k) =
      [] :: (List.range (j :: r).length).map fun k => i :: (j :: r).take k := by
    rw [List.length_cons, List.range_succ_eq_map, List.map_cons, List.map_map]
    rfl
  have h2 : (List.range (j :: r).length).map (fun k => (j :: r).take k) =
      [] :: (List.range r.length).map fun k => j :: r.take k := by
    rw [List.length_cons, List.range_succ_eq_map, List.map_cons, List.map_map]
    rfl
  have h3 : (List.range (j :: r).length).map (fun k => i :: (j :: r).take k) =
      [i] :: (List.range r.length).map fun k => i :: j :: r.take k := by
    rw [List.length_cons, List.range_succ_eq_map, List.map_cons, List.map_map]
    rfl
  rw [h1, h2, h3]
  simp [List.filter_map, Function.comp_def]

theorem ancestorIds_ne {id a : List Nat} (h : a ∈ ancestorIds id) : a ≠ [] := by
  unfold ancestorIds at h
  simpa using (List.mem_filter.mp h).2

theorem getNode_cons {top : List Xml} {i : Nat} {y : Xml} (hi : top[i]? = some y) {a : List Nat} (ha : a ≠ []) :
    getNode top (i :: a) = getNode y.children a := by
  match a with
  | [] => exact absurd rfl ha
  | j :: a =>
    conv => lhs; unfold getNode
    rw [hi]

theorem ancestors_of_way {top l : List Xml} {id : List Nat} (h : Way top id l) :
    (ancestorIds id).flatMap (fun a => ((getNode top a).map outerContext).getD []) =
      l.dropLast.reverse.flatMap outerContext := by
  induction h with
  | last hi => rfl
  | @step top i j r y l hi hw ih =>
    have hl : l ≠ [] := by cases hw <;> simp
    rw [ancestorIds_cons, List.flatMap_append, List.dropLast_cons_of_ne_nil hl, List.reverse_cons,
      List.flatMap_append, ← ih, List.flatMap_map]
    congr 1
    · rw [List.flatMap_def, List.flatMap_def]
      congr 1
      refine List.map_congr_left fun a ha => ?_
      rw [getNode_cons hi (ancestorIds_ne ha)]
    · simp [getNode, hi]

theorem names_of {x : Xml} {named : Str → Context} {unnamed : Context} :
    Names x named unnamed (match nodeName x with | some s => named s | none => unnamed) := by
  cases hn : nodeName x with
  | some s =>
    unfold nodeName at hn
    obtain ⟨c, hc, ht⟩ := Option.bind_eq_some_iff.mp hn
    exact .inl ⟨s, ⟨c, hc, ht⟩, rfl⟩
  | none =>
    refine .inr ⟨?_, rfl⟩
    rintro ⟨s, c, hc, ht⟩
    unfold nodeName at hn
    rw [hc] at hn
    simp [ht] at hn

theorem outer_messages : ∀ l : List Xml, OuterMessages l (l.flatMap outerContext)
  | [] => .nil
  | x :: l => by
    rw [List.flatMap_cons]
    by_cases hx : x.tag ∈ mentionedTags
    · have : outerContext x = [match nodeName x with | some s => .within x.tag s | none => .withinUnknown x.tag] := by
        unfold outerContext
        unfold mentionedTags at hx
        rw [if_pos (List.contains_iff_mem.mpr hx)]
        cases nodeName x <;> rfl
      rw [this]
      exact .mention hx names_of (outer_messages l)
    · have : outerContext x = [] := by
        unfold outerContext
        unfold mentionedTags at hx
        rw [if_neg (fun h => hx (List.contains_iff_mem.mp h))]
      rw [this]
      exact .skip hx (outer_messages l)

theorem own_message {id : List Nat} {x : Xml} (hx : x.tag ≠ "") : OwnMessage id x (ownContext id x) := by
  have : ownContext id x = (match nodeName x with
      | some s => .parsing x.tag s id | none => .parsingUnknown x.tag id) := by
    unfold ownContext
    rw [if_neg hx]
    cases nodeName x <;> rfl
  rw [this]
  exact names_of

/-! ## Errors and their nodes -/

/-- Whatever the error says, the node is an element. -/
theorem blame_element {lvl : ValidateLevel} {x : Xml} {e : Err} (h : Blame lvl x e) : x.isElement = true := by
  have key : ∀ {k : String}, k ≠ "" → x.tag = k → x.isElement = true := by
    intro k hk ht
    cases x with
    | elem t a c => rfl
    | text s => exact absurd ht.symm hk
    | other => exact absurd ht.symm hk
  have mem : ∀ {l : List String}, "" ∉ l → x.tag ∈ l → x.isElement = true := fun hl ht =>
    key (k := x.tag) (fun h => hl (h ▸ ht)) rfl
  cases e <;> simp only [Blame, WrongWord] at h
  case missingTag k =>
    rcases h.1 with ⟨ks, h, _⟩ | h
    · exact mem (l := requiredChildren.map (·.1)) (by decide) (List.mem_map_of_mem (f := (·.1)) h)
    · exact mem (by decide) h.1
  case emptyTag t => exact mem (by decide) (h.1 ▸ h.2.1)
  case parseInt =>
    obtain ⟨_, w, h, _⟩ := h
    exact mem (l := numberTags.map (·.1)) (by decide) (List.mem_map_of_mem (f := (·.1)) h)
  case invalidBooleanValue => exact mem (by decide) h.1
  case incorrectDimIndexesCount => exact mem (by decide) h.1
  case missingPlaceholder => exact mem (by decide) (h.1 ▸ h.2.1)
  case resetValueTooLarge => exact mem (by decide) h.2.1
  case resetMaskTooLarge => exact mem (by decide) h.2.1
  case resetMaskConflict => exact mem (by decide) h.2.1
  case notExpectedTag => exact h.2.1
  case invalidRegisterCluster => exact h.1
  case unknownUsageVariant => obtain ⟨s, h, _⟩ := h; exact key (by decide) h
  case unknownAddressBlockUsageVariant => obtain ⟨s, h, _⟩ := h; exact key (by decide) h
  case invalidName =>
    cases h.2 with
    | plain h => exact mem (l := plainNames.map (·.1)) (by decide) (List.mem_map_of_mem (f := (·.1)) h)
    | dimable h => exact mem (l := dimableNames.map (·.1)) (by decide) (List.mem_map_of_mem (f := (·.1)) h)
    | derived h => exact mem (by decide) h
    | derivedPeripheral h => exact key (by decide) h
  all_goals first
    | exact key (by decide) h.1
    | exact key (by decide) h.2.1
    | exact h.elim

/-- C58: every error of `Device::parse` is true of the node it is attached to, which is inside the
element that is read. -/
theorem C58_error_true {oc : Bool} {cfg : ParseConfig} {n : Node} (ht : n.xml.hasTag "device" = true)
    {e : Err} {id : NodeId} (h : n.parseDevice oc cfg = .error (.err e id)) :
    ∃ r x, id = n.id ++ r ∧ AtPath n.xml r x ∧ x.isElement = true ∧ Blame cfg.validateLevel x e := by
  obtain ⟨r, x, h1, h2, h3⟩ := Blaming.device ht e id h
  exact ⟨r, x, h1, h2, blame_element h3, h3⟩

/-- C58: the positions change nothing else. -/
theorem C58_same_device (oc : Bool) (cfg : ParseConfig) (n : Node) :
    erase (n.parseDevice oc cfg) = parseDevice oc cfg n.xml := Erase.parseDevice oc cfg n

theorem topNodes_find (top : List Xml) :
    ((topNodes top).find? (Node.hasTag "device")).map Node.xml = top.find? (Xml.hasTag "device") := by
  have hx : (topNodes top).map Node.xml = top := by
    unfold topNodes
    apply List.ext_getElem
    · simp
    · intro i h1 h2; simp
  conv => rhs; rw [← hx]
  rw [List.find?_map]
  rfl

/-- Every error of `Device::parse` in a document and its messages. -/
theorem located {oc : Bool} {cfg : ParseConfig} {top : List Xml} {n : Node}
    (hn : (topNodes top).find? (Node.hasTag "device") = some n) {e : Err} {id : NodeId}
    (h : n.parseDevice oc cfg = .error (.err e id)) :
    ∃ outer x, Way top id (outer ++ [x]) ∧ (outer ++ [x]).head? = top.find? (Xml.hasTag "device") ∧
      x.isElement = true ∧ Blame cfg.validateLevel x e ∧
      contexts top id = .ok (ownContext id x :: outer.reverse.flatMap outerContext) := by
  have ht : n.xml.hasTag "device" = true := List.find?_some (p := Node.hasTag "device") hn
  obtain ⟨r, x, rfl, hp, he, hb⟩ := C58_error_true ht h
  have hm := List.mem_of_find?_eq_some hn
  unfold topNodes at hm
  obtain ⟨i, hi, rfl⟩ := List.mem_mapIdx.mp hm
  obtain ⟨outer, hw, hh⟩ := way_of_path hp (List.getElem?_eq_getElem hi)
  refine ⟨outer, x, hw, ?_, he, hb, ?_⟩
  · rw [hh, ← topNodes_find, hn]
    rfl
  · unfold contexts
    rw [List.singleton_append, getNode_of_way hw rfl]
    simp only
    rw [ancestors_of_way hw, List.dropLast_concat]

/-- C58: the report is a device exactly if reading returns it, an error exactly if reading returns that error;
looking up the node of an error never panics. -/
theorem C58_same_outcome (oc : Bool) (cfg : ParseConfig) (top : List Xml) :
    (∀ d, parseReport oc cfg top = .ok d ↔ parseDocument oc cfg top = .ok d) ∧
    (∀ e, (parseReport oc cfg top = .error (.plain e) ∨ ∃ cs, parseReport oc cfg top = .error (.at e cs)) ↔
      parseDocument oc cfg top = .error (.err e)) ∧
    (∀ p, parseReport oc cfg top = .error (.panic p) ↔ parseDocument oc cfg top = .error (.panic p)) ∧
    (parseReport oc cfg top = .error .diverge ↔ parseDocument oc cfg top = .error .diverge) := by
  have hf := topNodes_find top
  cases hn : (topNodes top).find? (Node.hasTag "device") with
  | none =>
    rw [hn] at hf
    have h1 : parseReport oc cfg top = .error (.plain (.missingTag "device")) := by unfold parseReport; rw [hn]
    have h2 : parseDocument oc cfg top = .error (.err (.missingTag "device")) := by
      unfold parseDocument; rw [← hf]; rfl
    rw [h1, h2]
    simp
  | some n =>
    rw [hn] at hf
    have h2 : parseDocument oc cfg top = erase (n.parseDevice oc cfg) := by
      unfold parseDocument
      rw [← hf, C58_same_device]
      rfl
    rw [h2]
    cases hd : n.parseDevice oc cfg with
    | ok d =>
      have h1 : parseReport oc cfg top = .ok d := by unfold parseReport; rw [hn]; simp only; rw [hd]
      rw [h1]
      simp [erase]
    | error f =>
      cases f with
      | err e id =>
        obtain ⟨_, _, _, _, _, _, hc⟩ := located hn hd
        have h1 : ∃ cs, parseReport oc cfg top = .error (.at e cs) :=
          ⟨_, by unfold parseReport; rw [hn]; simp only; rw [hd]; simp only; rw [hc]⟩
        obtain ⟨cs, h1⟩ := h1
        rw [h1]
        simp [erase]
      | panic p =>
        have h1 : parseReport oc cfg top = .error (.panic p) := by
          unfold parseReport; rw [hn]; simp only; rw [hd]
        rw [h1]
        simp [erase]
      | diverge =>
        have h1 : parseReport oc cfg top = .error .diverge := by
          unfold parseReport; rw [hn]; simp only; rw [hd]
        rw [h1]
        simp [erase]

/-- C58: the only error without a position is the missing device. -/
theorem C58_plain (oc : Bool) (cfg : ParseConfig) (top : List Xml) (e : Err) :
    parseReport oc cfg top = .error (.plain e) ↔
      top.find? (Xml.hasTag "device") = none ∧ e = .missingTag "device" := by
  have hf := topNodes_find top
  cases hn : (topNodes top).find? (Node.hasTag "device") with
  | none =>
    rw [hn] at hf
    have h1 : parseReport oc cfg top = .error (.plain (.missingTag "device")) := by unfold parseReport; rw [hn]
    rw [h1, ← hf]
    simp [eq_comm]
  | some n =>
    rw [hn] at hf
    rw [← hf]
    refine ⟨fun h => ?_, fun h => by cases h.1⟩
    unfold parseReport at h
    rw [hn] at h
    simp only at h
    split at h <;> try cases h
    split at h <;> cases h

/-! ## Messages -/

/-- C58, C59: an error with messages is true of an element inside the (first) device; the messages are
about this element and then, innermost first, the elements around it that are mentioned. -/
theorem C59_messages {oc : Bool} {cfg : ParseConfig} {top : List Xml} {e : Err} {cs : List Context}
    (h : parseReport oc cfg top = .error (.at e cs)) :
    ∃ id outer x own rest, Way top id (outer ++ [x]) ∧
      (outer ++ [x]).head? = top.find? (Xml.hasTag "device") ∧
      x.isElement = true ∧ Blame cfg.validateLevel x e ∧
      cs = own :: rest ∧ (x.tag ≠ "" → OwnMessage id x own) ∧ OuterMessages outer.reverse rest := by
  unfold parseReport at h
  split at h
  · cases h
  rename_i n hn
  split at h <;> try cases h
  rename_i e' id hd
  obtain ⟨outer, x, h1, h2, h3, h4, hc⟩ := located hn hd
  rw [hc] at h
  cases h
  exact ⟨id, outer, x, _, _, h1, h2, h3, h4, rfl, own_message, outer_messages _⟩

theorem outerMessages_concat {x : Xml} (hx : x.tag ∈ mentionedTags) : ∀ {l : List Xml} {cs : List Context},
    OuterMessages (l ++ [x]) cs → ∃ cs' c, cs = cs' ++ [c] ∧ Names x (.within x.tag) (.withinUnknown x.tag) c
  | [], _, h => by
    cases h with
    | skip hn _ => exact absurd hx hn
    | mention _ hc h => cases h; exact ⟨[], _, rfl, hc⟩
  | y :: l, _, h => by
    cases h with
    | skip _ h => exact outerMessages_concat hx h
    | mention _ _ h =>
      obtain ⟨cs', c, rfl, hc⟩ := outerMessages_concat hx h
      exact ⟨_ :: cs', c, rfl, hc⟩

/-- C59: the last message is about the device. -/
theorem C59_device_last {oc : Bool} {cfg : ParseConfig} {top : List Xml} {e : Err} {cs : List Context}
    (h : parseReport oc cfg top = .error (.at e cs)) :
    ∃ d, top.find? (Xml.hasTag "device") = some d ∧
      ((∃ id c, cs = [c] ∧ OwnMessage id d c) ∨
        ∃ cs' c, cs = cs' ++ [c] ∧ Names d (.within "device") (.withinUnknown "device") c) := by
  obtain ⟨id, outer, x, own, rest, _, hh, _, _, rfl, ho, hr⟩ := C59_messages h
  match outer, hh, hr with
  | [], hh, hr =>
    have hx := tag_of_hasTag (List.find?_some hh.symm)
    cases hr
    exact ⟨x, hh.symm, .inl ⟨id, own, rfl, ho (by rw [hx]; decide)⟩⟩
  | d :: outer, hh, hr =>
    have hd := tag_of_hasTag (List.find?_some hh.symm)
    rw [List.reverse_cons] at hr
    obtain ⟨cs', c, rfl, hc⟩ := outerMessages_concat (by rw [hd]; decide) hr
    rw [hd] at hc
    exact ⟨d, hh.symm, .inr ⟨own :: cs', c, rfl, hc⟩⟩

/-- C59: after the first message only the mentioned kinds of elements appear; in particular no clusters. -/
theorem C59_only_mentioned {l : List Xml} {cs : List Context} (h : OuterMessages l cs) :
    ∀ c ∈ cs, ∃ x ∈ l, x.tag ∈ mentionedTags ∧ ((∃ s, c = .within x.tag s) ∨ c = .withinUnknown x.tag) := by
  induction h with
  | nil => simp
  | skip _ _ ih =>
    intro c hc
    obtain ⟨x, hx, h⟩ := ih c hc
    exact ⟨x, List.mem_cons_of_mem _ hx, h⟩
  | mention hx hn _ ih =>
    intro c hc
    rcases List.mem_cons.mp hc with rfl | hc
    · refine ⟨_, List.mem_cons_self .., hx, ?_⟩
      rcases hn with ⟨s, _, h⟩ | ⟨_, h⟩
      · exact .inl ⟨s, h⟩
      · exact .inr h
    · obtain ⟨x, hx, h⟩ := ih c hc
      exact ⟨x, List.mem_cons_of_mem _ hx, h⟩

/-- C59: the messages are determined by the node. -/
theorem C59_messages_unique {l : List Xml} {cs cs' : List Context} (h : OuterMessages l cs)
    (h' : OuterMessages l cs') : cs = cs' := by
  have names : ∀ {x : Xml} {f : Str → Context} {u c c' : Context}, Names x f u c → Names x f u c' → c = c' := by
    intro x f u c c' h h'
    rcases h with ⟨s, hs, rfl⟩ | ⟨hn, rfl⟩ <;> rcases h' with ⟨s', hs', rfl⟩ | ⟨hn', rfl⟩
    · obtain ⟨a, ha, hs⟩ := hs
      obtain ⟨b, hb, hs'⟩ := hs'
      rw [ha] at hb
      cases hb
      rw [hs] at hs'
      cases hs'
      rfl
    · exact absurd ⟨s, hs⟩ hn'
    · exact absurd ⟨s', hs'⟩ hn
    · rfl
  induction h generalizing cs' with
  | nil => cases h'; rfl
  | skip hn _ ih =>
    cases h' with
    | skip _ h' => exact ih h'
    | mention hx => exact absurd hx hn
  | mention hx hc _ ih =>
    cases h' with
    | skip hn => exact absurd hx hn
    | mention _ hc' h' => rw [names hc hc', ih h']

namespace ReportExample

def text (tag s : String) : Xml := .elem tag [] [.text s.toList]

/-- A document with one field in a register in a cluster. -/
def doc (field : List Xml) : List Xml :=
  [.other, .elem "device" [] [text "name" "DEV", .elem "peripherals" [] [
    .elem "peripheral" [] [text "name" "GPIO", text "baseAddress" "0x100", .elem "registers" [] [.text "\n".toList,
      .elem "cluster" [] [text "name" "PORT", text "addressOffset" "0",
        .elem "register" [] [text "name" "CTRL", text "addressOffset" "0", .elem "fields" [] [
          .elem "field" [] field]]]]]]]]

def cfg : ParseConfig := { validateLevel := .weak }

/-- The range of the field is the wrong way round; the cluster is not mentioned. -/
example : parseReport true cfg (doc [text "name" "EN", text "bitRange" "[0:3]"]) =
    .error (.at (.invalidBitRange .size) [.parsing "field" "EN".toList [1, 1, 0, 2, 1, 2, 2, 0],
      .within "register" "CTRL".toList, .within "peripheral" "GPIO".toList, .within "device" "DEV".toList]) := by
  decide +kernel

/-- The error is in a part of the field that is not mentioned itself. -/
example : parseReport true cfg (doc [text "name" "EN", text "bitRange" "[3:0]", text "access" "none"]) =
    .error (.at (.unknownAccessType "none".toList)
      [.parsingUnknown "access" [1, 1, 0, 2, 1, 2, 2, 0, 2], .within "field" "EN".toList,
      .within "register" "CTRL".toList, .within "peripheral" "GPIO".toList, .within "device" "DEV".toList]) := by
  decide +kernel

example : parseReport true cfg [.other, .elem "cpu" [] []] = .error (.plain (.missingTag "device")) := by
  decide +kernel

/-- A field without a name. -/
example : parseReport true cfg (doc [text "bitRange" "[3:0]"]) =
    .error (.at (.missingTag "name") [.parsingUnknown "field" [1, 1, 0, 2, 1, 2, 2, 0],
      .within "register" "CTRL".toList, .within "peripheral" "GPIO".toList, .within "device" "DEV".toList]) := by
  decide +kernel

end ReportExample

-- `C59_messages`, `C59_device_last`, `C58_same_outcome` and `C58_plain` on these documents.
open ReportExample in
example : ∃ id outer x own rest, Way (doc [text "name" "EN", text "bitRange" "[0:3]"]) id (outer ++ [x]) ∧
    x.isElement = true ∧ Blame .weak x (.invalidBitRange .size) ∧ (x.tag ≠ "" → OwnMessage id x own) ∧
    OuterMessages outer.reverse rest ∧ ∀ c ∈ rest, ∃ x ∈ outer.reverse, x.tag ∈ mentionedTags := by
  obtain ⟨id, outer, x, own, rest, h1, _, h3, h4, _, h6, h7⟩ := C59_messages (oc := true) (cfg := cfg)
    (top := doc [text "name" "EN", text "bitRange" "[0:3]"]) (e := .invalidBitRange .size)
    (cs := [.parsing "field" "EN".toList [1, 1, 0, 2, 1, 2, 2, 0],
      .within "register" "CTRL".toList, .within "peripheral" "GPIO".toList, .within "device" "DEV".toList])
    (by decide +kernel)
  exact ⟨id, outer, x, own, rest, h1, h3, h4, h6, h7, fun c hc =>
    let ⟨x, hx, ht, _⟩ := C59_only_mentioned h7 c hc; ⟨x, hx, ht⟩⟩
open ReportExample in
example : parseDocument true cfg (doc [text "name" "EN", text "bitRange" "[0:3]"]) = .error (.err (.invalidBitRange .size)) ∧
    parseReport true cfg [.other] = .error (.plain (.missingTag "device")) := by
  refine ⟨((C58_same_outcome true cfg _).2.1 _).mp (.inr ⟨[.parsing "field" "EN".toList [1, 1, 0, 2, 1, 2, 2, 0],
      .within "register" "CTRL".toList, .within "peripheral" "GPIO".toList, .within "device" "DEV".toList], ?_⟩),
    (C58_plain true cfg _ _).mpr ⟨rfl, rfl⟩⟩
  decide +kernel

end Svd
