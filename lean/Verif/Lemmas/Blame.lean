import Verif.Props.Located
import Verif.Props.Numbers
import Verif.Props.Names
import Verif.Props.Dim
import Verif.Props.BitRange
import Verif.Props.Validation
import Verif.Lemmas.Validate
import Verif.Spec.Blame

/-! # Errors with what they say and where they are -/

namespace Svd

open Spec

/-- All errors of the computation are as `P` says. -/
def Says {α : Type} (P : Err → Prop) (m : M α) : Prop := ∀ e, m = .error (.err e) → P e

namespace Says

variable {α β : Type} {P : Err → Prop}

theorem ok (a : α) : Says P (.ok a : M α) := fun _ h => (by cases h)

theorem fail {e : Err} (h : P e) : Says P (Svd.fail e : M α) := fun f hf => by
  cases hf; exact h

theorem bind {m : M α} {f : α → M β} (h : Says P m) (h' : ∀ a, m = .ok a → Says P (f a)) :
    Says P (m >>= f) := by
  intro e he
  rcases bind_error.mp he with he | ⟨a, ha, he⟩
  · exact h e he
  · exact h' a ha e he

theorem ite {c : Prop} [Decidable c] {m n : M α} (h : c → Says P m) (h' : ¬ c → Says P n) :
    Says P (if c then m else n) := by
  split
  · exact h ‹_›
  · exact h' ‹_›

theorem forM {f : α → M Unit} {l : List α} (h : ∀ a ∈ l, Says P (f a)) : Says P (l.forM f) := by
  induction l with
  | nil => exact ok _
  | cons a l ih => exact bind (h a (by simp)) fun _ _ => ih fun b hb => h b (by simp [hb])

theorem okOr {o : Option α} {e : Err} (h : o = none → P e) : Says P (Svd.okOr o e) := by
  cases o
  · exact fail (h rfl)
  · exact ok _

theorem need {o : Option α} {n : String} (h : o = none → P (.uninitialized n)) : Says P (Svd.need o n) := by
  cases o
  · exact fail (h rfl)
  · exact ok _

theorem needSome (a : α) (n : String) : Says P (Svd.need (some a) n) := ok a

theorem whenM {b : Bool} {m : M Unit} (h : b = true → Says P m) : Says P (Svd.whenM b m) := by
  unfold Svd.whenM; exact ite h fun _ => ok _

theorem forOpt {o : Option α} {f : α → M Unit} (h : ∀ a, o = some a → Says P (f a)) :
    Says P (Svd.forOpt o f) := by
  cases o
  · exact ok _
  · exact h _ rfl

theorem checkName {s : Str} {k : String} (h : ¬ PlainName s → P (.invalidName s k)) :
    Says P (Svd.checkName s k) := by
  intro e he
  by_cases hs : PlainName s
  · rw [(C10_check_name s k).1.mpr hs] at he; cases he
  · rw [(C10_check_name s k).2 hs] at he; cases he; exact h hs

theorem checkDimableName {s : Str} {k : String} (h : ¬ DimableName s → P (.invalidName s k)) :
    Says P (Svd.checkDimableName s k) := by
  intro e he
  by_cases hs : DimableName s
  · rw [(C10_check_dimable_name s k).1.mpr hs] at he; cases he
  · rw [(C10_check_dimable_name s k).2 hs] at he; cases he; exact h hs

theorem checkDerivedName {d : Str} {k : String}
    (h : ∀ l s, d = joinWith ['.'] l → s ∈ l → ¬ DimableName s → ¬ DerivedName d → P (.invalidName s k)) :
    Says P (Svd.checkDerivedName d k) := by
  intro e he
  have hd : ¬ DerivedName d := fun hd => by
    rw [(C10_check_derived_name d k).mpr hd] at he; cases he
  refine forM (fun s hs => checkDimableName fun hn => ?_) e he
  exact h _ s (join_splitOn '.' d).symm hs hn hd

end Says

/-! ## With positions -/

/-- All errors of the computation are as `P` says. -/
def Blaming {α : Type} (P : Err → NodeId → Prop) (m : L α) : Prop := ∀ e id, m = .error (.err e id) → P e id

/-- The error is true of a node inside `n`, at the given place. -/
def Blamed (lvl : ValidateLevel) (n : Node) (e : Err) (id : NodeId) : Prop :=
  ∃ r x, id = n.id ++ r ∧ AtPath n.xml r x ∧ Blame lvl x e

theorem Blamed.here {lvl : ValidateLevel} {n : Node} {e : Err} (h : Blame lvl n.xml e) : Blamed lvl n e n.id :=
  ⟨[], n.xml, by simp, .self _, h⟩

theorem Blamed.child {lvl : ValidateLevel} {n c : Node} {e : Err} {id : NodeId} (hc : c ∈ n.children)
    (h : Blamed lvl c e id) : Blamed lvl n e id := by
  obtain ⟨r, x, rfl, hp, hb⟩ := h
  unfold Node.children at hc
  obtain ⟨i, hi, rfl⟩ := List.mem_mapIdx.mp hc
  exact ⟨i :: r, x, by simp, .child (List.getElem?_eq_getElem hi) hp, hb⟩

theorem getChild_mem {n c : Node} {k : String} (h : n.getChild k = some c) : c ∈ n.children :=
  List.mem_of_find?_eq_some h

theorem tag_of_hasTag {k : String} {x : Xml} (h : x.hasTag k = true) : x.tag = k := by
  cases x with
  | elem t a c => exact beq_iff_eq.mp h
  | text s => cases h
  | other => cases h

theorem getChild_tag {n c : Node} {k : String} (h : n.getChild k = some c) : c.xml.tag = k :=
  tag_of_hasTag (List.find?_some (p := Node.hasTag k) h)

theorem getChild_some {n c : Node} {k : String} (h : n.getChild k = some c) :
    n.xml.getChild k = some c.xml := by rw [← Erase.getChild_xml, h]; rfl

theorem getChild_none {n : Node} {k : String} : n.getChild k = none ↔ n.xml.getChild k = none := by
  rw [← Erase.getChild_xml, Option.map_eq_none_iff]

theorem erase_ok {α : Type} {m : L α} {m' : M α} {a : α} (he : erase m = m') (h : m = .ok a) : m' = .ok a := by
  rw [← he, h]; rfl

namespace Blaming

variable {α β : Type} {P : Err → NodeId → Prop} {lvl : ValidateLevel} {n : Node}

theorem ok (a : α) : Blaming P (.ok a : L α) := fun _ _ h => (by cases h)

theorem mono {Q : Err → NodeId → Prop} {m : L α} (h : Blaming P m) (hpq : ∀ e id, P e id → Q e id) : Blaming Q m :=
  fun e id he => hpq e id (h e id he)

theorem bind {m : L α} {f : α → L β} (h : Blaming P m) (h' : ∀ a, m = .ok a → Blaming P (f a)) :
    Blaming P (m >>= f) := by
  intro e id he
  rcases bind_error.mp he with he | ⟨a, ha, he⟩
  · exact h e id he
  · exact h' a ha e id he

theorem ite {c : Prop} [Decidable c] {m n : L α} (h : c → Blaming P m) (h' : ¬ c → Blaming P n) :
    Blaming P (if c then m else n) := by
  split
  · exact h ‹_›
  · exact h' ‹_›

theorem mapM {f : α → L β} {l : List α} (h : ∀ a ∈ l, Blaming P (f a)) : Blaming P (l.mapM f) := by
  induction l with
  | nil => exact ok _
  | cons a l ih =>
    rw [mapM_cons]
    exact bind (h a (by simp)) fun _ _ => bind (ih fun b hb => h b (by simp [hb])) fun _ _ => ok _

theorem at' {m : M α} (h : Says (Blame lvl n.xml) m) : Blaming (Blamed lvl n) (n.at m) := by
  intro e id he
  cases m with
  | ok a => cases he
  | error f =>
    cases f with
    | err e' =>
      unfold Node.at at he
      cases he
      exact Blamed.here (h _ rfl)
    | panic p => cases he
    | diverge => cases he

theorem atFail {e : Err} (h : Blame lvl n.xml e) : Blaming (Blamed lvl n) (n.at (fail e) : L α) :=
  at' (Says.fail h)

theorem child {c : Node} {m : L α} (hc : c ∈ n.children) (h : Blaming (Blamed lvl c) m) : Blaming (Blamed lvl n) m :=
  h.mono fun _ _ => Blamed.child hc

/-- Children selected by a condition. -/
theorem children {p : Node → Bool} {f : Node → L β}
    (h : ∀ c ∈ n.children, p c = true → Blaming (Blamed lvl c) (f c)) :
    Blaming (Blamed lvl n) ((n.children.filter p).mapM f) :=
  mapM fun c hc => child (List.mem_filter.mp hc).1 (h c (List.mem_filter.mp hc).1 (List.mem_filter.mp hc).2)

theorem getText (hk : n.xml.tag ∈ valueTags) : Blaming (Blamed lvl n) n.getText := by
  unfold Node.getText
  split
  · exact ok _
  · rename_i h
    intro e id he
    cases he
    exact Blamed.here ⟨rfl, hk, h⟩

theorem getText_ok {s : Str} (h : n.getText = .ok s) : ReadsText n.xml s := by
  unfold Node.getText at h
  split at h
  · rename_i t ht
    cases h
    exact ⟨t, ht, trim_iff.mp rfl⟩
  · cases h

theorem getChildTextOpt (k : String) : Blaming P (n.getChildTextOpt k) := by
  unfold Node.getChildTextOpt Node.getText
  split
  · split
    · exact ok _
    · exact ok _
    · rename_i hne he
      split at he
      · cases he
      · cases he
        exact (hne _ _ rfl).elim
  · exact ok _

theorem getChildTextOpt_ok {k : String} {o : Option Str} (h : n.getChildTextOpt k = .ok o) :
    (∀ s, o = some s → ChildText n.xml k s) ∧
      (o = none → ∀ c, n.xml.getChild k = some c → c.textOf = none) := by
  unfold Node.getChildTextOpt at h
  split at h
  · rename_i c hc
    split at h
    · rename_i s hs
      cases h
      refine ⟨fun s' hs' => ?_, fun hn => by cases hn⟩
      cases hs'
      exact ⟨c.xml, getChild_some hc, getText_ok hs⟩
    · rename_i hs
      cases h
      refine ⟨fun s' hs' => (by cases hs'), fun _ c' hc' => ?_⟩
      rw [getChild_some hc] at hc'
      cases hc'
      unfold Node.getText at hs
      split at hs
      · cases hs
      · assumption
    · cases h
  · rename_i hc
    cases h
    refine ⟨fun s' hs' => (by cases hs'), fun _ c' hc' => ?_⟩
    rw [getChild_none.mp hc] at hc'
    cases hc'

theorem getChildText {k : String} (hk : k = "name" ∨ k = "revision") (hr : Requires n.xml k) :
    Blaming (Blamed lvl n) (n.getChildText k) :=
  bind (getChildTextOpt k) fun _ ho => at' (Says.okOr fun hn =>
    ⟨hr, .inr ⟨hk, (getChildTextOpt_ok ho).2 hn⟩⟩)

theorem getChildText_ok {k : String} {s : Str} (h : n.getChildText k = .ok s) : ChildText n.xml k s := by
  obtain ⟨o, ho, h⟩ := bind_ok.mp h
  cases o with
  | none => cases h
  | some s' => cases h; exact (getChildTextOpt_ok ho).1 s rfl

theorem getChildElem {k : String} (hr : Requires n.xml k) : Blaming (Blamed lvl n) (n.getChildElem k) :=
  at' (Says.okOr fun hn => ⟨hr, .inl (getChild_none.mp hn)⟩)

theorem getChildElem_ok {k : String} {c : Node} (h : n.getChildElem k = .ok c) : n.getChild k = some c := by
  unfold Node.getChildElem at h
  cases hc : n.getChild k with
  | none => rw [hc] at h; cases h
  | some c' => rw [hc] at h; cases h; rfl

theorem parseInt_ok {w : Nat} {v : BitVec w} (h : Node.parseInt w n = .ok v) : ReadsNumber w n.xml v.toNat := by
  obtain ⟨t, s, m, h1, h2, h3, h4, h5⟩ := (C02_parse_int_iff w n.xml v).mp (erase_ok (Erase.parseInt w n) h)
  exact ⟨s, ⟨t, h1, h2⟩, h5 ▸ h3, h5 ▸ h4⟩

theorem parseInt {w : Nat} (hk : (n.xml.tag, w) ∈ numberTags) : Blaming (Blamed lvl n) (Node.parseInt w n) := by
  intro e id he
  refine bind (getText ?_) (fun s hs => at' ?_) e id he
  · unfold valueTags
    simp only [List.mem_append, List.mem_map]
    exact .inl (.inl (.inl ⟨_, hk, rfl⟩))
  · split
    · exact Says.ok _
    · refine Says.fail ⟨⟨s, getText_ok hs⟩, w, hk, fun v hv => ?_⟩
      obtain ⟨s', ⟨t, h1, h2⟩, h3, h4⟩ := hv
      have := (C02_parse_int_iff w n.xml (BitVec.ofNat w v)).mpr
        ⟨t, s', v, h1, h2, h3, h4, by simp [Nat.mod_eq_of_lt h4]⟩
      have h5 := Erase.parseInt w n
      rw [he, this] at h5
      cases h5

theorem readsNumber_unique {w : Nat} {x : Xml} {v v' : Nat} (h : ReadsNumber w x v) (h' : ReadsNumber w x v') :
    v = v' := by
  obtain ⟨s, ⟨t, h1, h2⟩, h3, _⟩ := h
  obtain ⟨s', ⟨t', h1', h2'⟩, h3', _⟩ := h'
  rw [h1] at h1'; cases h1'
  rw [← trim_iff.mpr h2] at h3
  rw [← trim_iff.mpr h2'] at h3'
  exact intLiteral_unique h3 h3'

theorem parseBool_ok {b : Bool} (h : n.parseBool = .ok b) : ReadsTrue n.xml ↔ b = true := by
  obtain ⟨t, s, h1, h2, h3⟩ := (C03_parse_bool_iff n.xml b).mp (erase_ok (Erase.parseBool n) h)
  constructor
  · rintro (⟨t', h1', h2'⟩ | ⟨t', h1', h2'⟩)
    all_goals
      rw [h1] at h1'; cases h1'
      rw [← trim_iff.mpr h2, trim_iff.mpr h2'] at h3
      cases h3; rfl
  · rintro rfl
    cases h3
    · exact .inr ⟨t, h1, h2⟩
    · exact .inl ⟨t, h1, h2⟩

theorem parseBool (hk : n.xml.tag ∈ boolTags) : Blaming (Blamed lvl n) n.parseBool := by
  refine bind (getText ?_) fun s hs => at' (Says.okOr fun hn => ⟨hk, getText_ok hs, fun hm => ?_⟩)
  · unfold valueTags
    simp only [List.mem_append]
    exact .inl (.inl (.inr hk))
  · simp only [List.mem_cons, List.not_mem_nil, or_false] at hm
    rcases hm with rfl | rfl | rfl | rfl <;> exact absurd hn (by decide)

theorem getChildInt {w : Nat} {k : String} (hr : Requires n.xml k) (hk : (k, w) ∈ numberTags) :
    Blaming (Blamed lvl n) (Node.getChildInt w n k) :=
  bind (getChildElem hr) fun c hc => child (getChild_mem (getChildElem_ok hc)) (parseInt (by
    rw [getChild_tag (getChildElem_ok hc)]; exact hk))

theorem getChildInt_ok {w : Nat} {k : String} {v : BitVec w} (h : Node.getChildInt w n k = .ok v) :
    ChildNumber w n.xml k v.toNat := by
  obtain ⟨c, hc, h⟩ := bind_ok.mp h
  exact ⟨c.xml, getChild_some (getChildElem_ok hc), parseInt_ok h⟩

theorem getChildBool {k : String} (hr : n.xml.getChild k = none → Requires n.xml k) (hk : k ∈ boolTags) :
    Blaming (Blamed lvl n) (n.getChildBool k) :=
  bind (at' (Says.okOr fun hn => ⟨hr (getChild_none.mp hn), .inl (getChild_none.mp hn)⟩)) fun c hc =>
    child (getChild_mem (getChildElem_ok hc)) (parseBool (by rw [getChild_tag (getChildElem_ok hc)]; exact hk))

theorem optional {k : String} {f : Node → L α}
    (h : ∀ c, n.getChild k = some c → c.xml.tag = k → Blaming (Blamed lvl c) (f c)) :
    Blaming (Blamed lvl n) (Node.optional k n f) := by
  unfold Node.optional
  split
  · exact ok _
  · rename_i c hc
    exact bind (child (getChild_mem hc) (h c hc (getChild_tag hc))) fun _ _ => ok _

theorem optional_ok {k : String} {f : Node → L α} {o : Option α} (h : Node.optional k n f = .ok o) :
    (o = none ↔ n.xml.getChild k = none) ∧ ∀ a, o = some a → ∃ c, n.getChild k = some c ∧ f c = .ok a := by
  unfold Node.optional at h
  split at h
  · rename_i hc
    cases h
    exact ⟨by simp [getChild_none.mp hc], fun a ha => by cases ha⟩
  · rename_i c hc
    obtain ⟨a, ha, h⟩ := bind_ok.mp h
    cases h
    refine ⟨by simp [getChild_some hc], fun a' ha' => ?_⟩
    cases ha'
    exact ⟨c, hc, ha⟩

theorem optInt {w : Nat} {k : String} (hk : (k, w) ∈ numberTags) :
    Blaming (Blamed lvl n) (Node.optional k n (Node.parseInt w)) :=
  optional fun c _ ht => parseInt (by rw [ht]; exact hk)

theorem optInt_ok {w : Nat} {k : String} {o : Option (BitVec w)}
    (h : Node.optional k n (Node.parseInt w) = .ok o) {v : BitVec w} (hv : o = some v) :
    ChildNumber w n.xml k v.toNat := by
  obtain ⟨c, hc, h⟩ := (optional_ok h).2 v hv
  exact ⟨c.xml, getChild_some hc, parseInt_ok h⟩

theorem optBool {k : String} (hk : k ∈ boolTags) : Blaming (Blamed lvl n) (Node.optional k n Node.parseBool) :=
  optional fun c _ ht => parseBool (by rw [ht]; exact hk)

theorem okOnly {m : L α} : Blaming P (Node.okOnly m) := by
  unfold Node.okOnly
  split
  · exact ok _
  · exact ok _
  · rename_i hne
    intro e id he
    cases he
    exact absurd rfl (hne _ _)

theorem keyword {ps : Str → Option α} {e : Str → Err} {table : List (String × α)}
    (hk : n.xml.tag ∈ keywordTags)
    (ht : ∀ p ∈ table, (ps p.1.toList).isSome = true)
    (h : ∀ s, WrongWord n.xml n.xml.tag table s → Blame lvl n.xml (e s)) :
    Blaming (Blamed lvl n) (Node.parseKeyword ps e n) := by
  refine bind (getText ?_) fun s hs => at' (Says.okOr fun hn => h s ⟨rfl, getText_ok hs, fun p hp he => ?_⟩)
  · unfold valueTags
    simp only [List.mem_append]
    exact .inl (.inr hk)
  · have := ht p hp
    rw [he, hn] at this
    cases this

end Blaming

end Svd
