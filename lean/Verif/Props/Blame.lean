import Verif.Lemmas.BlameBits
import Verif.Lemmas.Subst

/-!
# C58: what parse errors say is true of the node they are attached to
-/

namespace Svd

open Spec

theorem requires {x : Xml} {tag k : String} (ht : x.tag = tag)
    (h : (requiredChildren.any fun p => p.1 == tag && p.2.contains k) = true) : Requires x k := by
  obtain ⟨⟨t, ks⟩, hp, h⟩ := List.any_eq_true.mp h
  rw [Bool.and_eq_true_iff, beq_iff_eq] at h
  refine .inl ⟨ks, ?_, List.contains_iff_mem.mp h.2⟩
  rw [ht, ← h.1]; exact hp

theorem emptyToNone_some {α : Type} {o : Option (List α)} {s : List α} (h : emptyToNone o = some s) :
    o = some s := by
  unfold emptyToNone at h
  cases o with
  | none => cases h
  | some t =>
    simp only [Option.bind_some] at h
    split at h
    · cases h
    · exact h

theorem strict_of {lvl : ValidateLevel} (h : lvl.isStrict = true) : lvl = .strict := by
  cases lvl <;> first | rfl | cases h

theorem enabled_of {lvl : ValidateLevel} (h : (!lvl.isDisabled) = true) : lvl ≠ .disabled := by
  rintro rfl; cases h

namespace Blaming

variable {lvl : ValidateLevel} {n : Node}

theorem access (ht : n.xml.tag = "access") : Blaming (Blamed lvl n) n.parseAccess :=
  keyword (table := accessSpelling) (by rw [ht]; decide) (by decide) fun s h => by rw [ht] at h; exact h

theorem endian (ht : n.xml.tag = "endian") : Blaming (Blamed lvl n) n.parseEndian :=
  keyword (table := endianSpelling) (by rw [ht]; decide) (by decide) fun s h => by rw [ht] at h; exact h

theorem usage (ht : n.xml.tag = "usage") : Blaming (Blamed lvl n) n.parseUsage :=
  keyword (table := usageSpelling) (by rw [ht]; decide) (by decide) fun s h => by rw [ht] at h; exact ⟨s, h⟩

theorem addressBlockUsage (ht : n.xml.tag = "usage") : Blaming (Blamed lvl n) n.parseAddressBlockUsage :=
  keyword (table := addressBlockUsageSpelling) (by rw [ht]; decide) (by decide) fun s h => by
    rw [ht] at h; exact ⟨s, h⟩

theorem protection (ht : n.xml.tag = "protection") : Blaming (Blamed lvl n) n.parseProtection :=
  keyword (table := protectionSpelling) (by rw [ht]; decide) (by decide) fun s h => by rw [ht] at h; exact h

theorem readAction (ht : n.xml.tag = "readAction") : Blaming (Blamed lvl n) n.parseReadAction :=
  keyword (table := readActionSpelling) (by rw [ht]; decide) (by decide) fun s h => by rw [ht] at h; exact h

theorem modifiedWriteValues (ht : n.xml.tag = "modifiedWriteValues") :
    Blaming (Blamed lvl n) n.parseModifiedWriteValues :=
  keyword (table := modifiedWriteValuesSpelling) (by rw [ht]; decide) (by decide) fun s h => by
    rw [ht] at h; exact h

theorem dataType (ht : n.xml.tag = "dataType") : Blaming (Blamed lvl n) n.parseDataType :=
  keyword (table := dataTypeSpelling) (by rw [ht]; decide) (by decide) fun s h => by rw [ht] at h; exact h

end Blaming

/-- Decomposes parsers; what is left are the parts that are specific to an element. -/
macro "blaming" : tactic => `(tactic| repeat' (first
  | with_reducible exact Blaming.ok _
  | with_reducible assumption
  | with_reducible exact Blaming.getChildTextOpt _
  | with_reducible exact Blaming.getChildText (by decide) (requires (by assumption) (by decide))
  | with_reducible exact Blaming.getChildInt (requires (by assumption) (by decide)) (by decide)
  | with_reducible exact Blaming.getChildElem (requires (by assumption) (by decide))
  | with_reducible exact Blaming.getChildBool (fun _ => requires (by assumption) (by decide)) (by decide)
  | with_reducible exact Blaming.optInt (by decide)
  | with_reducible exact Blaming.optBool (by decide)
  | with_reducible exact Blaming.optional fun _ _ ht => Blaming.access ht
  | with_reducible exact Blaming.optional fun _ _ ht => Blaming.usage ht
  | with_reducible exact Blaming.optional fun _ _ ht => Blaming.protection ht
  | with_reducible exact Blaming.optional fun _ _ ht => Blaming.readAction ht
  | with_reducible exact Blaming.optional fun _ _ ht => Blaming.modifiedWriteValues ht
  | with_reducible exact Blaming.optional fun _ _ ht => Blaming.dataType ht
  | with_reducible exact Blaming.okOnly
  | with_reducible refine Blaming.bind ?_ fun _ _ => ?_))

namespace Blaming

variable {oc : Bool} {cfg : ParseConfig} {n : Node}

/-! ## Register properties -/

/-- What the properties read from an element are. -/
def PropsFrom (x : Xml) (p : RegisterProperties) : Prop :=
  (∀ v, p.size = some v → ChildNumber 32 x "size" v.toNat) ∧
  (∀ v, p.resetValue = some v → ChildNumber 64 x "resetValue" v.toNat) ∧
  (∀ v, p.resetMask = some v → ChildNumber 64 x "resetMask" v.toNat)

theorem props_says {lvl : ValidateLevel} {x : Xml} {p : RegisterProperties} (ht : x.tag ∈ propertyElements)
    (hp : PropsFrom x p) : Says (Blame lvl x) (p.build lvl) := by
  obtain ⟨h1, h2, h3⟩ := hp
  unfold RegisterProperties.build RegisterProperties.validate checkResetValue
  refine .bind (.whenM fun hl => ?_) fun _ _ => .ok _
  have hl := enabled_of hl
  refine .bind ?_ fun _ _ => .whenM fun hs => ?_
  · split
    · rename_i hs hv
      refine .ite (fun hb => .fail ?_) fun _ => .ok _
      exact ⟨hl, ht, h1 _ hs, h2 _ hv, Nat.not_lt.mp ((bitLen_gt _ _).mp hb)⟩
    · exact .ok _
  · have hs := strict_of hs
    refine .bind ?_ fun _ _ => ?_
    · split
      · rename_i hsz hm
        refine .ite (fun hb => .fail ?_) fun _ => .ok _
        exact ⟨hs, ht, h1 _ hsz, h3 _ hm, Nat.not_lt.mp ((bitLen_gt _ _).mp hb)⟩
      · exact .ok _
    · split
      · rename_i hv hm
        refine .ite (fun hb => .fail ?_) fun _ => .ok _
        refine ⟨hs, ht, h2 _ hv, h3 _ hm, ?_⟩
        have := mt (and_eq_left _ _).mpr hb
        obtain ⟨i, hi⟩ := Classical.not_forall.mp this
        rw [Classical.not_imp, Bool.not_eq_true] at hi
        exact ⟨i, hi⟩
      · exact .ok _

theorem props (ht : n.xml.tag ∈ propertyElements) :
    Blaming (Blamed cfg.validateLevel n) (n.parseRegisterProperties cfg) := by
  unfold Node.parseRegisterProperties
  refine bind (optInt (by decide)) fun _ h1 => ?_
  refine bind (optional fun _ _ ht => access ht) fun _ _ => ?_
  refine bind (optional fun _ _ ht => protection ht) fun _ _ => ?_
  refine bind (optInt (by decide)) fun _ h2 => bind (optInt (by decide)) fun _ h3 => at' (props_says ht ?_)
  exact ⟨fun v => optInt_ok h1, fun v => optInt_ok h2, fun v => optInt_ok h3⟩

theorem props_from {p : RegisterProperties} (h : n.parseRegisterProperties cfg = .ok p) :
    PropsFrom n.xml p := by
  unfold Node.parseRegisterProperties at h
  obtain ⟨_, h1, h⟩ := bind_ok.mp h
  obtain ⟨_, _, h⟩ := bind_ok.mp h
  obtain ⟨_, _, h⟩ := bind_ok.mp h
  obtain ⟨_, h2, h⟩ := bind_ok.mp h
  obtain ⟨_, h3, h⟩ := bind_ok.mp h
  have h := erase_ok (Erase.at' _ _) h
  unfold RegisterProperties.build at h
  obtain ⟨_, _, h⟩ := bind_ok.mp h
  cases h
  exact ⟨fun v => optInt_ok h1, fun v => optInt_ok h2, fun v => optInt_ok h3⟩

/-! ## Enumerated values -/

theorem isDefault_true {o : Option Bool} (h : Node.okOnly (n.getChildBool "isDefault") = .ok o) :
    o = some true ↔ ∃ c, n.xml.getChild "isDefault" = some c ∧ ReadsTrue c := by
  unfold Node.okOnly at h
  split at h
  · rename_i b hb
    cases h
    obtain ⟨c, hc, hb⟩ := bind_ok.mp hb
    have hc := getChild_some (getChildElem_ok hc)
    rw [Option.some_inj, ← parseBool_ok hb]
    exact ⟨fun h => ⟨_, hc, h⟩, fun ⟨c', hc', h⟩ => by rw [hc] at hc'; cases hc'; exact h⟩
  · rename_i e id hb
    cases h
    refine ⟨fun h => (by cases h), fun ⟨c, hc, h⟩ => ?_⟩
    have he := Erase.getChildBool n "isDefault"
    rw [hb] at he
    unfold Xml.getChildBool Xml.getChildElem at he
    rw [hc] at he
    have : Xml.parseBool c = .ok true := by
      refine (C03_parse_bool_iff c true).mpr ?_
      rcases h with ⟨t, h1, h2⟩ | ⟨t, h1, h2⟩
      · exact ⟨t, _, h1, h2, .true⟩
      · exact ⟨t, _, h1, h2, .one⟩
    rw [← show (okOr (some c) (.missingTag "isDefault") >>= Xml.parseBool) = Xml.parseBool c from rfl,
      ← he] at this
    cases this
  · cases h

theorem enumValue : Blaming (Blamed cfg.validateLevel n) (if n.hasTag "enumeratedValue" then
    n.parseEnumeratedValue cfg else n.at (fail (.notExpectedTag "enumeratedValue"))) ∨ n.isElement = false := by
  by_cases he : n.isElement = true
  · refine .inl (.ite (fun hn => ?_) fun hn => atFail ⟨by decide, he, ?_⟩)
    · unfold Node.parseEnumeratedValue
      have ht : n.xml.tag = "enumeratedValue" := tag_of_hasTag hn
      rw [if_neg (by simp [hn])]
      refine bind (getChildText (by decide) (requires ht (by decide))) fun _ h1 => ?_
      refine bind (getChildTextOpt _) fun _ _ => bind (optInt (by decide)) fun v h2 => ?_
      refine bind okOnly fun d h3 => at' ?_
      unfold EnumeratedValueBuilder.build EnumeratedValue.validate
      refine .bind (.needSome _ _) fun _ hnm => .bind ?_ fun _ _ => .ok _
      cases hnm
      refine .ite (fun hl => ?_) fun _ => .ok _
      have hl := enabled_of hl
      refine .bind (.whenM fun hs => .checkName fun hb => ?_) fun _ _ => ?_
      · have hs := strict_of hs
        exact ⟨hs, .plain (by rw [ht]; decide) (getChildText_ok h1) hb⟩
      · split
        · rename_i hv hd
          refine .fail ⟨hl, ht, ?_, fun c hc hr => ?_⟩
          · exact (optional_ok h2).1.mp (by simpa using hv)
          · have := (isDefault_true h3).mpr ⟨c, hc, hr⟩
            simp [EnumeratedValue.isDefaultB, this] at hd
        · rename_i hv hd
          refine .ite (fun hs => .fail ?_) fun _ => .ok _
          have hs := strict_of hs
          refine ⟨hs, ht, ?_, (isDefault_true h3).mp (by simpa [EnumeratedValue.isDefaultB] using hd)⟩
          obtain ⟨m, hm⟩ := Option.isSome_iff_exists.mp hv
          exact ⟨m, hm, optInt_ok h2 hm⟩
        · exact .ok _
    · intro ht
      unfold Node.hasTag at hn
      unfold Node.isElement at he
      cases hx : n.xml with
      | elem t a c => rw [hx] at hn ht; exact hn (beq_iff_eq.mpr ht)
      | text s => rw [hx] at he; cases he
      | other => rw [hx] at he; cases he
  · exact .inr (by simpa using he)

theorem valueList (skip : List String) : Blaming (Blamed cfg.validateLevel n) (n.parseValueList cfg skip) :=
  children fun c _ hp => by
    rcases enumValue (cfg := cfg) (n := c) with h | h
    · exact h
    · rw [Bool.and_eq_true_iff, h] at hp; cases hp.1

theorem enumValue_value {v : EnumeratedValue} (h : n.parseEnumeratedValue cfg = .ok v) :
    n.hasTag "enumeratedValue" = true ∧ ∀ x, v.value = some x → ChildNumber 64 n.xml "value" x.toNat := by
  unfold Node.parseEnumeratedValue at h
  split at h
  · cases h
  · rename_i ht
    obtain ⟨_, _, h⟩ := bind_ok.mp h
    obtain ⟨_, _, h⟩ := bind_ok.mp h
    obtain ⟨_, h2, h⟩ := bind_ok.mp h
    obtain ⟨_, _, h⟩ := bind_ok.mp h
    have h := erase_ok (Erase.at' _ _) h
    unfold EnumeratedValueBuilder.build at h
    obtain ⟨_, _, h⟩ := bind_ok.mp h
    obtain ⟨_, _, h⟩ := bind_ok.mp h
    cases h
    exact ⟨by simpa using ht, fun x => optInt_ok h2⟩

theorem valueList_ok {skip : List String} {l : List EnumeratedValue} (h : n.parseValueList cfg skip = .ok l) :
    (∀ v ∈ l, ∃ c ∈ n.children, c.hasTag "enumeratedValue" = true ∧
      ∀ x, v.value = some x → ChildNumber 64 c.xml "value" x.toNat) ∧
    ("enumeratedValue" ∉ skip → l = [] → ∀ c ∈ n.xml.children, c.hasTag "enumeratedValue" = false) := by
  unfold Node.parseValueList at h
  refine ⟨fun v hv => ?_, fun hs hl c hc => ?_⟩
  · obtain ⟨c, hc, hcv⟩ := mapM_ok_mem' h hv
    split at hcv
    · exact ⟨c, (List.mem_filter.mp hc).1, enumValue_value hcv⟩
    · cases hcv
  · subst hl
    have hnil : n.children.filter (fun c => c.isElement && !skip.contains c.xml.tag) = [] :=
      List.length_eq_zero_iff.mp (mapM_ok_length h).symm
    rw [← Erase.children_xml] at hc
    obtain ⟨c', hc', rfl⟩ := List.mem_map.mp hc
    have := List.filter_eq_nil_iff.mp hnil c' hc'
    cases hx : c'.xml with
    | elem t a k =>
      simp only [Node.isElement, hx, Xml.isElement, Xml.tag, Bool.true_and, Bool.not_eq_true',
        Bool.not_eq_false, List.contains_iff_mem] at this
      have : t ≠ "enumeratedValue" := fun h => hs (h ▸ this)
      simp [Xml.hasTag, this]
    | text s => rfl
    | other => rfl

theorem enums (ht : n.hasTag "enumeratedValues" = true) :
    Blaming (Blamed cfg.validateLevel n) (n.parseEnumeratedValues cfg) := by
  unfold Node.parseEnumeratedValues
  rw [if_neg (by simp [ht])]
  have ht := tag_of_hasTag ht
  refine bind (getChildTextOpt _) fun nm h1 => bind (optional fun _ _ ht => usage ht) fun u _ => ?_
  refine bind (valueList _) fun l h2 => at' ?_
  unfold EnumeratedValuesBuilder.build EnumeratedValues.validate
  refine .bind (.ite (fun hl => ?_) fun _ => .ok _) fun _ _ => .ok _
  have hl := enabled_of hl
  refine .bind (.whenM fun hs => .forOpt fun s hn => .checkName fun hb => ?_) fun _ _ => ?_
  · have hs := strict_of hs
    exact ⟨hs, .plain (by rw [ht]; decide) ((getChildTextOpt_ok h1).1 _ (emptyToNone_some hn)) hb⟩
  · split
    · rename_i d hd
      refine .whenM fun hs => .checkDerivedName fun l s h1 h2 h3 h4 => ?_
      have hs := strict_of hs
      exact ⟨hs, .derived (by rw [ht]; decide) rfl hd h1 h2 h3 h4⟩
    · rename_i hd
      refine .ite (fun he => .fail ⟨hl, ht, hd, ?_⟩) fun _ => .ok _
      exact (valueList_ok h2).2 (by decide) (by simpa using he)

/-! ## Arrays -/

theorem dimArrayIndex : Blaming (Blamed cfg.validateLevel n) (n.parseDimArrayIndex cfg) :=
  bind (getChildTextOpt _) fun _ _ => bind (valueList _) fun _ _ => ok _

theorem dimIndex (ht : n.xml.tag = "dimIndex") : Blaming (Blamed cfg.validateLevel n) n.parseDimIndex := by
  refine bind (getText (by rw [ht]; decide)) fun s hs => at' (.okOr fun hn => ⟨ht, s, getText_ok hs, ?_⟩)
  rintro ⟨l, hl⟩
  rw [(C05_parse_indexes_iff s l).mpr hl] at hn
  cases hn

theorem dimIndex_ok {l : List Str} (h : n.parseDimIndex = .ok l) : ∃ s, ReadsText n.xml s ∧ IndexText s l := by
  obtain ⟨s, hs, h⟩ := bind_ok.mp h
  have h := erase_ok (Erase.at' _ _) h
  cases hp : DimElement.parseIndexes s with
  | none => rw [hp] at h; cases h
  | some l' =>
    rw [hp] at h
    cases h
    exact ⟨s, getText_ok hs, (C05_parse_indexes_iff s l).mp hp⟩

theorem dimElement (ht : n.xml.tag ∈ arrayTags) (hd : (n.getChild "dimIncrement").isSome = true) :
    Blaming (Blamed cfg.validateLevel n) (n.parseDimElement cfg) := by
  have hne : n.xml.getChild "dimIncrement" ≠ none := by
    intro h
    rw [getChild_none.mpr h] at hd
    cases hd
  unfold Node.parseDimElement
  refine bind (getChildInt (.inr ⟨ht, rfl, hne⟩) (by decide)) fun _ _ => ?_
  refine bind ?_ fun _ _ => ?_
  · obtain ⟨c, hc⟩ := Option.isSome_iff_exists.mp hd
    refine bind (at' (.okOr fun hn => ?_)) fun c hc => child (getChild_mem (getChildElem_ok hc)) (parseInt ?_)
    · rw [hc] at hn; cases hn
    · rw [getChild_tag (getChildElem_ok hc)]; decide
  refine bind (optional fun _ _ ht => dimIndex ht) fun _ _ => bind (getChildTextOpt _) fun _ _ => ?_
  refine bind (optional fun _ _ _ => dimArrayIndex) fun _ _ => at' ?_
  unfold DimElementBuilder.build DimElement.validate
  exact .bind (.needSome _ _) fun _ _ => .bind (.needSome _ _) fun _ _ => .bind (.ok _) fun _ _ => .ok _

theorem dimElement_ok {d : DimElement} (h : n.parseDimElement cfg = .ok d) :
    ChildNumber 32 n.xml "dim" d.dim.toNat ∧
      ∀ l, d.dimIndex = some l → ∃ s, ChildText n.xml "dimIndex" s ∧ IndexText s l := by
  unfold Node.parseDimElement at h
  obtain ⟨_, h1, h⟩ := bind_ok.mp h
  obtain ⟨_, _, h⟩ := bind_ok.mp h
  obtain ⟨_, h2, h⟩ := bind_ok.mp h
  obtain ⟨_, _, h⟩ := bind_ok.mp h
  obtain ⟨_, _, h⟩ := bind_ok.mp h
  have h := erase_ok (Erase.at' _ _) h
  cases h
  refine ⟨getChildInt_ok h1, fun l hl => ?_⟩
  obtain ⟨c, hc, h3⟩ := (optional_ok h2).2 l (emptyToNone_some hl)
  obtain ⟨s, hs, hi⟩ := dimIndex_ok h3
  exact ⟨s, ⟨c.xml, getChild_some hc, hs⟩, hi⟩

theorem array {α : Type} {tag : String} {nm : α → Str} {i : L α} (ht : n.hasTag tag = true)
    (hk : tag ∈ arrayTags) (hi : Blaming (Blamed cfg.validateLevel n) i)
    (hn : ∀ a, i = .ok a → ChildText n.xml "name" (nm a)) :
    Blaming (Blamed cfg.validateLevel n) (Node.parseArray cfg tag nm n i) := by
  unfold Node.parseArray
  rw [if_neg (by simp [ht])]
  have ht := tag_of_hasTag ht
  have hk' : n.xml.tag ∈ arrayTags := by rw [ht]; exact hk
  refine bind hi fun a ha => .ite (fun hd => ?_) fun _ => ok _
  have hne : n.xml.getChild "dimIncrement" ≠ none := by
    intro h
    rw [getChild_none.mpr h] at hd
    cases hd
  refine bind (dimElement hk' hd) fun d hde => bind (at' ?_) fun _ _ => ?_
  · unfold checkHasPlaceholder
    refine .ite (fun _ => .ok _) fun hc => .fail ⟨ht, hk, hne, hn a ha, fun hab => ?_⟩
    exact hc ((containsSub_iff _ _).mpr hab)
  · obtain ⟨h1, h2⟩ := dimElement_ok hde
    split
    · rename_i l hl
      refine .ite (fun he => atFail ?_) fun _ => ok _
      obtain ⟨s, hs, hi⟩ := h2 l hl
      exact ⟨hk', h1, ⟨s, l, hs, hi, rfl⟩, he⟩
    · exact ok _

/-! ## Fields -/

theorem element_getChild {c : Node} {k : String} (hc : c ∈ n.children) (he : c.isElement = true)
    (ht : c.xml.tag = k) : n.xml.getChild k ≠ none := by
  intro h
  have hm : c.xml ∈ n.xml.children := by rw [← Erase.children_xml]; exact List.mem_map_of_mem hc
  have := List.find?_eq_none.mp h c.xml hm
  unfold Node.isElement at he
  cases hx : c.xml with
  | elem t a l => rw [hx] at this ht; exact this (beq_iff_eq.mpr ht)
  | text s => rw [hx] at he; cases he
  | other => rw [hx] at he; cases he

theorem elements_xml : (n.children.filter Node.isElement).map Node.xml = n.xml.children.filter Xml.isElement :=
  Erase.filter_xml n Xml.isElement

theorem writeConstraint (ht : n.xml.tag = "writeConstraint") :
    Blaming (Blamed cfg.validateLevel n) n.parseWriteConstraint := by
  unfold Node.parseWriteConstraint
  split
  · intro e id he; cases he
  · rename_i c rest hf
    have hx : n.xml.children.filter Xml.isElement = c.xml :: rest.map Node.xml := by
      rw [← elements_xml, hf]; rfl
    have hm : c ∈ n.children ∧ c.isElement = true := by
      have : c ∈ n.children.filter Node.isElement := by rw [hf]; simp
      exact List.mem_filter.mp this
    refine .ite (fun hr => atFail ⟨ht, ?_⟩) fun hr => ?_
    · rw [hx]
      cases rest with
      | nil => cases hr
      | cons d rest => simp
    have hr : rest = [] := by cases rest with
      | nil => rfl
      | cons d rest => simp at hr
    subst hr
    refine .ite (fun hk => ?_) fun h1 => .ite (fun hk => ?_) fun h2 => .ite (fun hk => ?_) fun h3 => atFail ?_
    · exact bind (getChildBool (fun h => absurd h (element_getChild hm.1 hm.2 hk)) (by decide)) fun _ _ => ok _
    · exact bind (getChildBool (fun h => absurd h (element_getChild hm.1 hm.2 hk)) (by decide)) fun _ _ => ok _
    · refine bind (at' (.okOr fun h => absurd (getChild_none.mp h) (element_getChild hm.1 hm.2 hk))) fun e he => ?_
      refine bind (child (getChild_mem (getChildElem_ok he)) ?_) fun _ _ => ok _
      have hr := getChild_tag (getChildElem_ok he)
      unfold Node.parseWriteConstraintRange
      blaming
    · exact ⟨ht, c.xml, by rw [hx]; rfl, by simp [h1, h2, h3]⟩

theorem writeConstraint_range {r : WriteConstraintRange} (h : n.parseWriteConstraint = .ok (.range r)) :
    ∃ e, n.xml.getChild "range" = some e ∧ ChildNumber 64 e "minimum" r.min.toNat ∧
      ChildNumber 64 e "maximum" r.max.toNat := by
  unfold Node.parseWriteConstraint at h
  split at h
  · cases h
  · split at h
    · cases h
    · split at h
      · obtain ⟨_, _, h⟩ := bind_ok.mp h; cases h
      · split at h
        · obtain ⟨_, _, h⟩ := bind_ok.mp h; cases h
        · split at h
          · obtain ⟨e, he, h⟩ := bind_ok.mp h
            obtain ⟨r', hr, h⟩ := bind_ok.mp h
            cases h
            unfold Node.parseWriteConstraintRange at hr
            obtain ⟨_, h1, hr⟩ := bind_ok.mp hr
            obtain ⟨_, h2, hr⟩ := bind_ok.mp hr
            cases hr
            exact ⟨e.xml, getChild_some (getChildElem_ok he), getChildInt_ok h1, getChildInt_ok h2⟩
          · cases h

theorem usage_read {o : Option Usage} (h : Node.optional "usage" n Node.parseUsage = .ok o) :
    (o = some .read ↔ ChildText n.xml "usage" "read".toList) ∧
      (o = some .write ↔ ChildText n.xml "usage" "write".toList) := by
  obtain ⟨hn, hs⟩ := optional_ok h
  cases o with
  | none =>
    have hn := hn.mp rfl
    constructor <;> exact ⟨fun h => (by cases h), fun ⟨c, hc, _⟩ => by rw [hn] at hc; cases hc⟩
  | some u =>
    obtain ⟨c, hc, hu⟩ := hs u rfl
    obtain ⟨s, hs, hu⟩ := bind_ok.mp hu
    have hu := erase_ok (Erase.at' _ _) hu
    have hr := getText_ok hs
    have key : ∀ w : Usage, ∀ t : Str, Usage.parseStr t = some w →
        (∀ s', Usage.parseStr s' = some w → s' = t) →
        (some u = some w ↔ ChildText n.xml "usage" t) := by
      intro w t ht hinj
      cases hp : Usage.parseStr s with
      | none => rw [hp] at hu; cases hu
      | some u' =>
        rw [hp] at hu
        cases hu
        constructor
        · intro he
          cases he
          exact ⟨c.xml, getChild_some hc, hinj s hp ▸ hr⟩
        · rintro ⟨c', hc', ⟨t1, ht1, ht2⟩⟩
          rw [getChild_some hc] at hc'
          cases hc'
          obtain ⟨t3, ht3, ht4⟩ := hr
          rw [ht1] at ht3; cases ht3
          rw [← trim_iff.mpr ht2, trim_iff.mpr ht4, hp] at ht
          exact ht
    refine ⟨key .read _ (by decide) fun s' hs' => ?_, key .write _ (by decide) fun s' hs' => ?_⟩
    all_goals
      unfold Usage.parseStr at hs'
      repeat (rcases ite_some_cases hs' with ⟨rfl, hw⟩ | hs'; · first | rfl | cases hw)
      cases hs'

theorem enums_ok {g : EnumeratedValues} (h : n.parseEnumeratedValues cfg = .ok g) :
    (∀ v ∈ g.values, ∃ c ∈ n.xml.children, c.hasTag "enumeratedValue" = true ∧
      ∀ x, v.value = some x → ChildNumber 64 c "value" x.toNat) ∧
    (MayBeRead g ↔ MayBe "read" n.xml) ∧ (MayBeWrite g ↔ MayBe "write" n.xml) := by
  unfold Node.parseEnumeratedValues at h
  split at h
  · cases h
  · obtain ⟨_, _, h⟩ := bind_ok.mp h
    obtain ⟨u, hu, h⟩ := bind_ok.mp h
    obtain ⟨l, hl, h⟩ := bind_ok.mp h
    have h := erase_ok (Erase.at' _ _) h
    obtain ⟨_, _, h⟩ := bind_ok.mp h
    cases h
    obtain ⟨h1, h2⟩ := usage_read hu
    refine ⟨fun v hv => ?_, ?_, ?_⟩
    · obtain ⟨c, hc, hh⟩ := (valueList_ok hl).1 v hv
      exact ⟨c.xml, by rw [← Erase.children_xml]; exact List.mem_map_of_mem hc, hh⟩
    · exact or_congr Iff.rfl h1
    · exact or_congr Iff.rfl h2

theorem groups_xml :
    (n.children.filter (Node.hasTag "enumeratedValues")).map Node.xml = valueGroups n.xml :=
  Erase.filter_xml n (Xml.hasTag "enumeratedValues")

theorem groups_compatible {l : List EnumeratedValues}
    (h : (n.children.filter (Node.hasTag "enumeratedValues")).mapM (Node.parseEnumeratedValues cfg) = .ok l)
    (hc : ¬ UsagesValid l) :
    3 ≤ (valueGroups n.xml).length ∨ ∃ a b, valueGroups n.xml = [a, b] ∧
      ¬ (MayBe "read" a ∧ MayBe "write" b ∨ MayBe "read" b ∧ MayBe "write" a) := by
  have hm := mapM_ok.mp h
  have hx := groups_xml (n := n)
  generalize n.children.filter (Node.hasTag "enumeratedValues") = cs at hm hx
  match cs, l with
  | [], [] => exact absurd ⟨by simp, by simp⟩ hc
  | [], _ :: _ => simp at hm
  | [_], [] => simp at hm
  | [_], [_] => exact absurd ⟨by simp, by simp⟩ hc
  | [_], _ :: _ :: _ => simp at hm
  | [_, _], [] => simp at hm
  | [_, _], [_] => simp at hm
  | [_, _], _ :: _ :: _ :: _ => simp at hm
  | [a, b], [g, k] =>
    refine .inr ⟨a.xml, b.xml, hx.symm, fun hh => hc ⟨by simp, ?_⟩⟩
    intro g' k' he
    cases he
    simp only [List.map_cons, List.map_nil, List.cons.injEq, and_true] at hm
    obtain ⟨_, h1, h2⟩ := enums_ok hm.1
    obtain ⟨_, h3, h4⟩ := enums_ok hm.2
    rw [h1, h2, h3, h4]
    exact hh
  | _ :: _ :: _ :: _, _ =>
    left
    rw [← hx]
    simp

theorem fieldInfo (ht : n.hasTag "field" = true) :
    Blaming (Blamed cfg.validateLevel n) (n.parseFieldInfo oc cfg) := by
  unfold Node.parseFieldInfo
  rw [if_neg (by simp [ht])]
  have ht := tag_of_hasTag ht
  refine bind (at' (bitRange_says ht)) fun br hbr => ?_
  have hw := bitRange_width (erase_ok (Erase.at' _ _) hbr)
  refine bind (getChildText (by decide) (requires ht (by decide))) fun nm hnm => ?_
  refine bind (getChildTextOpt _) fun _ _ => bind (optional fun _ _ ht => access ht) fun _ _ => ?_
  refine bind (optional fun _ _ ht => modifiedWriteValues ht) fun _ _ => ?_
  refine bind (.ite (fun _ => optional fun _ _ ht => writeConstraint ht) fun _ => ok _) fun wc hwc => ?_
  refine bind (optional fun _ _ ht => readAction ht) fun _ _ => ?_
  refine bind (.ite (fun _ => children fun c _ hc => enums hc) fun _ => ok _) fun evs hevs => at' ?_
  have hevs : evs = [] ∨
      (n.children.filter (Node.hasTag "enumeratedValues")).mapM (Node.parseEnumeratedValues cfg) = .ok evs := by
    split at hevs
    · exact .inr hevs
    · cases hevs; exact .inl rfl
  have hwc : ∀ r, wc = some (.range r) → ConstraintRange n.xml r.min.toNat r.max.toNat := by
    rintro r rfl
    split at hwc
    · obtain ⟨c, hc, hr⟩ := (optional_ok hwc).2 _ rfl
      obtain ⟨e, h1, h2, h3⟩ := writeConstraint_range hr
      exact ⟨c.xml, e, getChild_some hc, h1, h2, h3⟩
    · cases hwc
  have hp : br.width.toNat < 64 → (BitVec.ofNat 64 (2 ^ br.width.toNat)).toNat = 2 ^ br.width.toNat := by
    intro h
    rw [BitVec.toNat_ofNat]
    exact Nat.mod_eq_of_lt (Nat.pow_lt_pow_right (by omega) h)
  unfold FieldInfoBuilder.build FieldInfoBuilder.setBitRange
  refine .bind (.needSome _ _) fun _ h1 => .bind (.needSome _ _) fun _ h2 => .bind ?_ fun _ _ => .ok _
  cases h1
  cases h2
  unfold FieldInfo.validate
  refine .whenM fun hl => ?_
  have hl := enabled_of hl
  refine .bind (.whenM fun hs => .bind (.checkDimableName fun hb => ?_) fun _ _ => .forOpt fun d hd =>
    .checkDerivedName fun l s h1 h2 h3 h4 => ?_) fun _ _ => ?_
  · exact ⟨strict_of hs, .dimable (by rw [ht]; decide) (getChildText_ok hnm) hb⟩
  · exact ⟨strict_of hs, .derived (by rw [ht]; decide) rfl hd h1 h2 h3 h4⟩
  dsimp only
  refine .ite (fun h0 => .bind (.fail ⟨hl, ht, ?_⟩) fun _ h => by cases h) fun _ => .bind (.ok _) fun _ _ => ?_
  · have : br.width.toNat = 0 := by rw [show br.width = 0 from h0]; rfl
    rw [this] at hw; exact hw
  refine .bind (.whenM fun h64 => .forM fun g hg => .forM fun v hv => ?_) fun _ _ => ?_
  · have h64 : br.width.toNat < 64 := by simpa using h64
    unfold EnumeratedValue.checkRange
    split
    · rename_i x hx
      refine .ite (fun hlt => .fail ?_) fun _ => .ok _
      rcases hevs with rfl | hevs
      · cases hg
      · obtain ⟨c, hc, hcg⟩ := mapM_ok_mem' hevs hg
        obtain ⟨e, he, h1, h2⟩ := (enums_ok hcg).1 v hv
        refine ⟨hl, ht, rfl, ⟨_, hw, h64, hp h64⟩, by simpa using hlt, c.xml, ?_, e, he, h1, h2 x hx⟩
        rw [← groups_xml]
        exact List.mem_map_of_mem hc
    · exact .ok _
  refine .bind (.whenM fun hs => .ite (fun _ => .ok _) fun hc => .fail ⟨strict_of hs, ht, ?_⟩) fun _ _ => ?_
  · have hc : ¬ UsagesValid evs := fun h => hc ((compatibleEnums_iff evs).mpr h)
    rcases hevs with rfl | hevs
    · exact absurd ⟨by simp, by simp⟩ hc
    · exact groups_compatible hevs hc
  · rcases wc with _ | (_ | _ | r)
    · exact .ok _
    · exact .ok _
    · exact .ok _
    · refine .whenM fun h64 => ?_
      have h64 : br.width.toNat < 64 := by simpa using h64
      unfold WriteConstraintRange.checkRange
      refine .ite (fun h => .fail ⟨hl, ht, hwc r rfl, h⟩) fun hle => ?_
      unfold List.forM List.forM List.forM
      have hle : r.min.toNat ≤ r.max.toNat := Nat.not_lt.mp hle
      refine .bind (.ite (fun h => .fail ?_) fun _ => .ok _) fun _ h1 =>
        .bind (.ite (fun h => .fail ?_) fun _ => .ok _) fun _ _ => .ok _
      · exact ⟨hl, ht, rfl, ⟨_, hw, h64, hp h64⟩, by simpa using h, _, _, hwc r rfl, hle, .inl rfl⟩
      · refine ⟨hl, ht, rfl, ⟨_, hw, h64, hp h64⟩, by simpa using h, _, _, hwc r rfl, hle, .inr ⟨?_, rfl⟩⟩
        by_cases hlt : r.min.toNat < (BitVec.ofNat 64 (2 ^ br.width.toNat)).toNat
        · exact hlt
        · rw [if_pos (by simpa using hlt)] at h1
          cases h1

theorem fieldInfo_name {f : FieldInfo} (h : n.parseFieldInfo oc cfg = .ok f) : ChildText n.xml "name" f.name := by
  unfold Node.parseFieldInfo at h
  split at h
  · cases h
  · obtain ⟨_, _, h⟩ := bind_ok.mp h
    obtain ⟨_, hn, h⟩ := bind_ok.mp h
    iterate 6 obtain ⟨_, _, h⟩ := bind_ok.mp h
    have h := erase_ok (Erase.at' _ _) h
    obtain ⟨_, h1, h⟩ := bind_ok.mp h
    cases h1
    obtain ⟨_, h1, h⟩ := bind_ok.mp h
    obtain ⟨_, h1, h⟩ := bind_ok.mp h
    cases h
    exact getChildText_ok hn

/-- An element with another tag is reported. -/
theorem other_tag {tag : String} {x : Xml} (he : x.isElement = true) (h : ¬ x.hasTag tag = true) : x.tag ≠ tag := by
  intro ht
  cases x with
  | elem t a c => exact h (beq_iff_eq.mpr ht)
  | text s => cases he
  | other => cases he

theorem field (he : n.isElement = true) : Blaming (Blamed cfg.validateLevel n) (n.parseField oc cfg) := by
  by_cases ht : n.hasTag "field" = true
  · exact array ht (by decide) (fieldInfo ht) fun _ => fieldInfo_name
  · unfold Node.parseField Node.parseArray
    rw [if_pos (by simpa using ht)]
    exact atFail ⟨by decide, he, other_tag he ht⟩

/-! ## Registers and clusters -/

theorem list_ok {α : Type} {k : String} {f : Node → L α} {o : Option (List α)}
    (h : (match n.getChild k with
      | some fs => do
        let l ← (fs.children.filter Node.isElement).mapM f
        .ok (some l)
      | none => .ok none : L (Option (List α))) = .ok o) (ho : o = some []) :
    ∃ c, n.xml.getChild k = some c ∧ NoElements c := by
  split at h
  · rename_i c hc
    obtain ⟨l, hl, h⟩ := bind_ok.mp h
    cases h
    cases ho
    refine ⟨c.xml, getChild_some hc, fun x hx => ?_⟩
    have hnil : c.children.filter Node.isElement = [] := List.length_eq_zero_iff.mp (mapM_ok_length hl).symm
    have hnil' := elements_xml (n := c)
    rw [hnil] at hnil'
    simpa using List.filter_eq_nil_iff.mp hnil'.symm x hx
  · cases h; cases ho

theorem registerInfo (ht : n.xml.tag = "register") :
    Blaming (Blamed cfg.validateLevel n) (n.parseRegisterInfo oc cfg) := by
  unfold Node.parseRegisterInfo
  refine bind (getChildText (by decide) (requires ht (by decide))) fun nm hnm => ?_
  refine bind (getChildTextOpt _) fun _ _ => bind (getChildTextOpt _) fun _ _ => ?_
  refine bind (getChildTextOpt _) fun ag hag => bind (getChildTextOpt _) fun ar har => ?_
  refine bind (getChildInt (requires ht (by decide)) (by decide)) fun _ _ => ?_
  refine bind (props (by rw [ht]; decide)) fun pr hpr => bind (optional fun _ _ ht => dataType ht) fun _ _ => ?_
  refine bind (optional fun _ _ ht => modifiedWriteValues ht) fun _ _ => ?_
  refine bind (optional fun _ _ ht => writeConstraint ht) fun _ _ => ?_
  refine bind (optional fun _ _ ht => readAction ht) fun _ _ => bind ?_ fun fs hfs => at' ?_
  · split
    · rename_i c hc
      exact bind (child (getChild_mem hc) (children fun c _ he => field he)) fun _ _ => ok _
    · exact ok _
  unfold RegisterInfoBuilder.build
  refine .bind (.needSome _ _) fun _ h1 => .bind (.needSome _ _) fun _ h2 => ?_
  cases h1
  cases h2
  refine .bind (props_says (by rw [ht]; decide) (props_from hpr)) fun _ _ => .bind ?_ fun _ _ => .ok _
  unfold RegisterInfo.validate
  refine .whenM fun hl => .bind (.whenM fun hs => .bind (.checkDimableName fun hb => ?_) fun _ _ =>
    .bind (.forOpt fun s h => .checkName fun hb => ?_) fun _ _ => .forOpt fun s h => .checkDimableName fun hb => ?_)
    fun _ _ => ?_
  · exact ⟨strict_of hs, .dimable (by rw [ht]; decide) (getChildText_ok hnm) hb⟩
  · exact ⟨strict_of hs, .plain (by rw [ht]; decide) ((getChildTextOpt_ok hag).1 _ h) hb⟩
  · exact ⟨strict_of hs, .dimable (by rw [ht]; decide) ((getChildTextOpt_ok har).1 _ h) hb⟩
  · split
    · rename_i d hd
      refine .whenM fun hs => .checkDerivedName fun l s h1 h2 h3 h4 => ?_
      exact ⟨strict_of hs, .derived (by rw [ht]; decide) rfl hd h1 h2 h3 h4⟩
    · rename_i hd
      refine .forOpt fun l hl => .ite (fun he => .fail ?_) fun _ => .ok _
      rw [Bool.and_eq_true_iff, List.isEmpty_iff] at he
      exact ⟨strict_of he.2, ht, hd, list_ok hfs (by rw [← he.1]; exact hl)⟩

theorem registerInfo_name {r : RegisterInfo} (h : n.parseRegisterInfo oc cfg = .ok r) :
    ChildText n.xml "name" r.name := by
  unfold Node.parseRegisterInfo at h
  obtain ⟨_, hn, h⟩ := bind_ok.mp h
  iterate 11 obtain ⟨_, _, h⟩ := bind_ok.mp h
  have h := erase_ok (Erase.at' _ _) h
  obtain ⟨_, h1, h⟩ := bind_ok.mp h
  cases h1
  iterate 3 obtain ⟨_, _, h⟩ := bind_ok.mp h
  cases h
  exact getChildText_ok hn

theorem register (ht : n.hasTag "register" = true) :
    Blaming (Blamed cfg.validateLevel n) (n.parseRegister oc cfg) :=
  array ht (by decide) (registerInfo (tag_of_hasTag ht)) fun _ => registerInfo_name

theorem clusterInfo {k : L (List RegisterCluster)} (ht : n.xml.tag = "cluster")
    (hk : Blaming (Blamed cfg.validateLevel n) k)
    (hnil : k = .ok [] → ∀ c ∈ n.xml.children, c.hasTag "register" = false ∧ c.hasTag "cluster" = false) :
    Blaming (Blamed cfg.validateLevel n) (n.parseClusterInfoWith cfg k) := by
  unfold Node.parseClusterInfoWith
  refine bind (getChildText (by decide) (requires ht (by decide))) fun nm hnm => ?_
  refine bind (getChildTextOpt _) fun _ _ => bind (getChildTextOpt _) fun _ _ => ?_
  refine bind (getChildTextOpt _) fun _ _ => ?_
  refine bind (getChildInt (requires ht (by decide)) (by decide)) fun _ _ => ?_
  refine bind (props (by rw [ht]; decide)) fun pr hpr => bind hk fun cs hcs => at' ?_
  unfold ClusterInfoBuilder.build
  refine .bind (.needSome _ _) fun _ h1 => .bind (.needSome _ _) fun _ h2 => ?_
  cases h1
  cases h2
  refine .bind (props_says (by rw [ht]; decide) (props_from hpr)) fun _ _ => ?_
  refine .bind (.needSome _ _) fun _ h3 => .bind ?_ fun _ _ => .ok _
  cases h3
  unfold ClusterInfo.validate validateClusterParts
  refine .whenM fun hl => .bind (.whenM fun hs => .checkDimableName fun hb => ?_) fun _ _ => ?_
  · exact ⟨strict_of hs, .dimable (by rw [ht]; decide) (getChildText_ok hnm) hb⟩
  · split
    · rename_i d hd
      refine .whenM fun hs => .checkDerivedName fun l s h1 h2 h3 h4 => ?_
      exact ⟨strict_of hs, .derived (by rw [ht]; decide) rfl hd h1 h2 h3 h4⟩
    · rename_i hd
      refine .ite (fun he => .fail ?_) fun _ => .ok _
      rw [Bool.and_eq_true_iff, List.isEmpty_iff] at he
      exact ⟨strict_of he.2, ht, hd, hnil (by rw [← he.1]; exact hcs)⟩

theorem clusterInfo_name {k : L (List RegisterCluster)} {c : ClusterInfo}
    (h : n.parseClusterInfoWith cfg k = .ok c) : ChildText n.xml "name" c.name := by
  unfold Node.parseClusterInfoWith at h
  obtain ⟨_, hn, h⟩ := bind_ok.mp h
  iterate 6 obtain ⟨_, _, h⟩ := bind_ok.mp h
  have h := erase_ok (Erase.at' _ _) h
  obtain ⟨_, h1, h⟩ := bind_ok.mp h
  cases h1
  iterate 4 obtain ⟨_, _, h⟩ := bind_ok.mp h
  cases h
  exact getChildText_ok hn

theorem clusterKids_nil {id : NodeId} : ∀ {xs : List Xml} {i : Nat},
    Node.parseClusterKids oc cfg id i xs = .ok [] →
    ∀ c ∈ xs, c.hasTag "register" = false ∧ c.hasTag "cluster" = false
  | [], _, _ => by simp
  | x :: xs, i, h => by
    unfold Node.parseClusterKids at h
    split at h
    · obtain ⟨_, _, h⟩ := bind_ok.mp h
      obtain ⟨_, _, h⟩ := bind_ok.mp h
      cases h
    · rename_i hx
      simp only [Bool.or_eq_true, not_or, Bool.not_eq_true] at hx
      intro c hc
      rcases List.mem_cons.mp hc with rfl | hc
      · exact hx
      · exact clusterKids_nil h c hc

mutual
theorem registerCluster : ∀ (x : Xml) (id : NodeId), x.isElement = true →
    Blaming (Blamed cfg.validateLevel ⟨id, x⟩) (Node.parseRegisterCluster oc cfg id x)
  | .elem tag attrs kids, id, _ => by
    have hk : Blaming (Blamed cfg.validateLevel ⟨id, .elem tag attrs kids⟩) (Node.parseClusterKids oc cfg id 0 kids) :=
      (clusterKids kids id 0).mono fun e i h => by
        obtain ⟨j, c, hj, hb⟩ := h
        rw [Nat.zero_add] at hb
        refine Blamed.child ?_ hb
        unfold Node.children
        rw [List.mem_mapIdx]
        obtain ⟨hlt, rfl⟩ := List.getElem?_eq_some_iff.mp hj
        exact ⟨j, hlt, rfl⟩
    unfold Node.parseRegisterCluster
    refine .ite (fun ht => ?_) fun h1 => .ite (fun ht => ?_) fun h2 => ?_
    · exact bind (register (beq_iff_eq.mpr ht)) fun _ _ => ok _
    · refine bind (array (n := ⟨id, _⟩) (beq_iff_eq.mpr ht) (by decide) (clusterInfo ht hk ?_) fun _ =>
        clusterInfo_name) fun _ _ => ok _
      exact clusterKids_nil
    · intro e i he
      cases he
      exact Blamed.here (n := ⟨id, _⟩) ⟨rfl, rfl, h1, h2⟩
  | .text _, _, h => by cases h
  | .other, _, h => by cases h
theorem clusterKids : ∀ (xs : List Xml) (id : NodeId) (i : Nat),
    Blaming (fun e i' => ∃ j c, xs[j]? = some c ∧ Blamed cfg.validateLevel ⟨id ++ [i + j], c⟩ e i')
      (Node.parseClusterKids oc cfg id i xs)
  | [], _, _ => by unfold Node.parseClusterKids; exact ok _
  | x :: xs, id, i => by
    have h1 : x.isElement = true → _ := registerCluster x (id ++ [i])
    have h2 := clusterKids xs id (i + 1)
    have h2 : Blaming (fun e i' => ∃ j c, (x :: xs)[j]? = some c ∧
        Blamed cfg.validateLevel ⟨id ++ [i + j], c⟩ e i') (Node.parseClusterKids oc cfg id (i + 1) xs) :=
      h2.mono fun e i' ⟨j, c, hj, hb⟩ => ⟨j + 1, c, hj, by
        rw [show i + (j + 1) = i + 1 + j by omega]; exact hb⟩
    unfold Node.parseClusterKids
    refine .ite (fun hx => ?_) fun _ => h2
    have he : x.isElement = true := by
      cases x with
      | elem t a c => rfl
      | text s => cases hx
      | other => cases hx
    refine bind ((h1 he).mono fun e i' hb => ⟨0, x, rfl, ?_⟩) fun _ _ => bind h2 fun _ _ => ok _
    exact hb
end

/-! ## Peripherals and the device -/

theorem addressBlock (ht : n.xml.tag = "addressBlock") :
    Blaming (Blamed cfg.validateLevel n) (n.parseAddressBlock cfg) := by
  unfold Node.parseAddressBlock
  blaming
  · rename_i u hu
    exact child (getChild_mem (getChildElem_ok hu)) (addressBlockUsage (getChild_tag (getChildElem_ok hu)))
  · refine at' ?_
    unfold AddressBlockBuilder.build
    exact .bind (.needSome _ _) fun _ _ => .bind (.needSome _ _) fun _ _ => .bind (.needSome _ _) fun _ _ =>
      .bind (.ok _) fun _ _ => .ok _

theorem interrupt (ht : n.hasTag "interrupt" = true) :
    Blaming (Blamed cfg.validateLevel n) (n.parseInterrupt cfg) := by
  unfold Node.parseInterrupt
  rw [if_neg (by simp [ht])]
  have ht := tag_of_hasTag ht
  blaming
  refine at' ?_
  unfold InterruptBuilder.build
  exact .bind (.needSome _ _) fun _ _ => .bind (.needSome _ _) fun _ _ => .bind (.ok _) fun _ _ => .ok _

theorem peripheralInfo (ht : n.hasTag "peripheral" = true) :
    Blaming (Blamed cfg.validateLevel n) (n.parsePeripheralInfo oc cfg) := by
  unfold Node.parsePeripheralInfo
  rw [if_neg (by simp [ht])]
  have ht := tag_of_hasTag ht
  refine bind (getChildText (by decide) (requires ht (by decide))) fun nm hnm => ?_
  iterate 8 refine bind (getChildTextOpt _) fun _ _ => ?_
  refine bind (getChildInt (requires ht (by decide)) (by decide)) fun _ _ => ?_
  refine bind (props (by rw [ht]; decide)) fun pr hpr => ?_
  refine bind (children fun c _ hc => addressBlock (tag_of_hasTag hc)) fun _ _ => ?_
  refine bind (children fun c _ hc => interrupt hc) fun _ _ => bind ?_ fun rs hrs => at' ?_
  · split
    · rename_i c hc
      exact bind (child (getChild_mem hc) (children fun c _ he => registerCluster c.xml c.id he)) fun _ _ => ok _
    · exact ok _
  unfold PeripheralInfoBuilder.build
  refine .bind (.needSome _ _) fun _ h1 => .bind (.needSome _ _) fun _ h2 => ?_
  cases h1
  cases h2
  refine .bind (props_says (by rw [ht]; decide) (props_from hpr)) fun _ _ => .bind ?_ fun _ _ => .ok _
  unfold PeripheralInfo.validate
  refine .whenM fun hl => .bind (.whenM fun hs => .checkDimableName fun hb => ?_) fun _ _ => ?_
  · exact ⟨strict_of hs, .dimable (by rw [ht]; decide) (getChildText_ok hnm) hb⟩
  · split
    · rename_i d hd
      refine .whenM fun hs => .checkDimableName fun hb => ?_
      exact ⟨strict_of hs, .derivedPeripheral ht rfl hd hb⟩
    · rename_i hd
      refine .forOpt fun l hl => .ite (fun he => .fail ?_) fun _ => .ok _
      rw [Bool.and_eq_true_iff, List.isEmpty_iff] at he
      exact ⟨strict_of he.2, ht, hd, list_ok hrs (by rw [← he.1]; exact hl)⟩

theorem peripheralInfo_name {p : PeripheralInfo} (h : n.parsePeripheralInfo oc cfg = .ok p) :
    ChildText n.xml "name" p.name := by
  unfold Node.parsePeripheralInfo at h
  split at h
  · cases h
  · obtain ⟨_, hn, h⟩ := bind_ok.mp h
    iterate 13 obtain ⟨_, _, h⟩ := bind_ok.mp h
    have h := erase_ok (Erase.at' _ _) h
    obtain ⟨_, h1, h⟩ := bind_ok.mp h
    cases h1
    iterate 3 obtain ⟨_, _, h⟩ := bind_ok.mp h
    cases h
    exact getChildText_ok hn

theorem peripheral (he : n.isElement = true) : Blaming (Blamed cfg.validateLevel n) (n.parsePeripheral oc cfg) := by
  by_cases ht : n.hasTag "peripheral" = true
  · exact array ht (by decide) (peripheralInfo ht) fun _ => peripheralInfo_name
  · unfold Node.parsePeripheral Node.parseArray
    rw [if_pos (by simpa using ht)]
    exact atFail ⟨by decide, he, other_tag he ht⟩

theorem cpu (ht : n.hasTag "cpu" = true) : Blaming (Blamed cfg.validateLevel n) (n.parseCpu cfg) := by
  unfold Node.parseCpu
  rw [if_neg (by simp [ht])]
  have ht := tag_of_hasTag ht
  blaming
  · rename_i e he
    exact child (getChild_mem (getChildElem_ok he)) (endian (getChild_tag (getChildElem_ok he)))
  · refine at' ?_
    unfold CpuBuilder.build
    iterate 7 refine .bind (.needSome _ _) fun _ _ => ?_
    exact .bind (.ok _) fun _ _ => .ok _

theorem orDefault_says {α : Type} {lvl : ValidateLevel} {x : Xml} {o : Option α} {d : α} {k : String}
    (h : lvl = .strict → o = none → Blame lvl x (.uninitialized k)) :
    Says (Blame lvl x) (need (orDefault o lvl d) k) := by
  refine .need fun hn => ?_
  cases o with
  | some a => cases hn
  | none =>
    refine h ?_ rfl
    cases lvl <;> first | rfl | cases hn

theorem device (ht : n.hasTag "device" = true) : Blaming (Blamed cfg.validateLevel n) (n.parseDevice oc cfg) := by
  unfold Node.parseDevice
  rw [if_neg (by simp [ht])]
  have ht := tag_of_hasTag ht
  iterate 2 refine bind (getChildTextOpt _) fun _ _ => ?_
  refine bind (getChildText (by decide) (requires ht (by decide))) fun nm hnm => ?_
  iterate 2 refine bind (getChildTextOpt _) fun _ _ => ?_
  refine bind (optional fun c hc _ => cpu (List.find?_some (p := Node.hasTag "cpu") hc)) fun _ _ => ?_
  iterate 2 refine bind (getChildTextOpt _) fun _ _ => ?_
  refine bind (props (by rw [ht]; decide)) fun pr hpr => ?_
  refine bind (getChildElem (requires ht (by decide))) fun ps hps => ?_
  have hps := getChildElem_ok hps
  refine bind (child (getChild_mem hps) (children fun c _ he => peripheral he)) fun l hl => ?_
  refine bind (getChildTextOpt _) fun ver hver => bind (getChildTextOpt _) fun desc hdesc => ?_
  refine bind (optInt (by decide)) fun aub haub => bind (optInt (by decide)) fun wd hwd => at' ?_
  have text : ∀ {k : String} {o : Option Str}, n.getChildTextOpt k = .ok o → o = none →
      ∀ s, ¬ ChildText n.xml k s := by
    rintro k o h hn s ⟨c, hc, t, ht, _⟩
    rw [(getChildTextOpt_ok h).2 hn c hc] at ht
    cases ht
  unfold DeviceBuilder.build
  refine .bind (.needSome _ _) fun _ _ => ?_
  refine .bind (orDefault_says fun hs hn => ⟨hs, ht, .inl ⟨by decide, text hver hn⟩⟩) fun _ _ => ?_
  refine .bind (orDefault_says fun hs hn => ⟨hs, ht, .inl ⟨by decide, text hdesc hn⟩⟩) fun _ _ => ?_
  refine .bind (orDefault_says fun hs hn => ⟨hs, ht, .inr ⟨by decide, (optional_ok haub).1.mp hn⟩⟩) fun _ _ => ?_
  refine .bind (orDefault_says fun hs hn => ⟨hs, ht, .inr ⟨by decide, (optional_ok hwd).1.mp hn⟩⟩) fun _ _ => ?_
  refine .bind (props_says (by rw [ht]; decide) (props_from hpr)) fun _ _ => ?_
  refine .bind (.needSome _ _) fun _ h3 => .bind ?_ fun _ _ => .ok _
  cases h3
  unfold Device.validate
  refine .whenM fun hlv => .ite (fun he => .fail ⟨enabled_of hlv, ht, ps.xml, getChild_some hps, ?_⟩) fun _ => .ok _
  have he : l = [] := by simpa using he
  subst he
  intro x hx
  have hnil : ps.children.filter Node.isElement = [] := List.length_eq_zero_iff.mp (mapM_ok_length hl).symm
  have hnil' := elements_xml (n := ps)
  rw [hnil] at hnil'
  simpa using List.filter_eq_nil_iff.mp hnil'.symm x hx

end Blaming

end Svd
