import Verif.Spec.Order
import Verif.Model.Encode
import Verif.Props.RoundTripExamples

/-!
# C55: written files have their elements in the prescribed order
-/

namespace Svd

open Spec

/-- The children are those of the items, and everything inside is in order. -/
def Good (l : List Item) (xs : List Xml) : Prop := Follows l (xs.map Xml.tag) ∧ ∀ x ∈ xs, InOrder x

theorem good_nil : Good [] [] := ⟨rfl, nofun⟩

theorem good_must {l : List Item} {x : Xml} {xs : List Xml} {t : String} (h : x.tag = t) (hx : InOrder x)
    (hl : Good l xs) : Good (.must t :: l) (x :: xs) := by
  refine ⟨⟨_, by rw [List.map_cons, h], hl.1⟩, fun y hy => ?_⟩
  rcases List.mem_cons.mp hy with rfl | hy
  · exact hx
  · exact hl.2 y hy

theorem good_may {α : Type} {l : List Item} {o : Option α} {f : α → Xml} {xs : List Xml} {t : String}
    (h : ∀ a, (f a).tag = t ∧ InOrder (f a)) (hl : Good l xs) : Good (.may t :: l) (optNode o f ++ xs) := by
  cases o with
  | none => exact ⟨.inl hl.1, hl.2⟩
  | some a =>
    obtain ⟨h1, h2⟩ := good_must (h a).1 (h a).2 hl
    exact ⟨.inr h1, h2⟩

theorem good_any {l : List Item} {ts : List String} {ys xs : List Xml}
    (h : ∀ y ∈ ys, y.tag ∈ ts ∧ InOrder y) (hl : Good l xs) : Good (.any ts :: l) (ys ++ xs) := by
  refine ⟨⟨ys.map Xml.tag, _, List.map_append, fun t ht => ?_, hl.1⟩, fun y hy => ?_⟩
  · obtain ⟨y, hy, rfl⟩ := List.mem_map.mp ht
    exact (h y hy).1
  · rcases List.mem_append.mp hy with hy | hy
    · exact (h y hy).2
    · exact hl.2 y hy

theorem placed_leafNode {t : String} {s : Str} (h : contents t = []) : (newNode t s).tag = t ∧ InOrder (newNode t s) :=
  ⟨rfl, .leaf h⟩

theorem good_end {l : List Item} {xs : List Xml} (h : Good l (xs ++ [])) : Good l xs := by
  rwa [List.append_nil] at h

/-- Goes through the children one by one. -/
macro "inorder" : tactic => `(tactic| (
  refine good_end ?_
  simp only [List.append_assoc, List.cons_append, List.nil_append]
  repeat' first
    | exact good_nil
    | refine good_must (placed_leafNode (by decide)).1 (placed_leafNode (by decide)).2 ?_
    | refine good_may (fun _ => placed_leafNode (by decide)) ?_))

theorem tag_derived {cc : IdentifierFormat → Str → Str} {o : Option Str} {f : Option IdentifierFormat} :
    (derivedAttr cc o f).map (·.1) ∈ [[], ["derivedFrom"]] := by
  unfold derivedAttr
  cases o <;> simp

section
variable (oc : Bool) (cc : IdentifierFormat → Str → Str) (cfg : EncConfig)

theorem placed_enumeratedValue (e : EnumeratedValue) :
    (encodeEnumeratedValue cc cfg e).tag = "enumeratedValue" ∧ InOrder (encodeEnumeratedValue cc cfg e) := by
  have : Good [.must "name", .may "description", .may "value", .may "isDefault"]
      ([newNode "name" (changeCase cc e.name cfg.enumeratedValueName)] ++
       optNode e.description (newNode "description") ++
       optNode e.value (fun v => newNode "value" (formatNumber v cfg.enumeratedValueValue)) ++
       optNode e.isDefault (fun v => newNode "isDefault" (boolStr v))) := by
    inorder
  exact ⟨rfl, .node (by decide) (.head _) this.1 this.2⟩

theorem placed_enumeratedValues (e : EnumeratedValues) :
    (encodeEnumeratedValues cc cfg e).tag = "enumeratedValues" ∧ InOrder (encodeEnumeratedValues cc cfg e) := by
  have : Good [.may "name", .may "usage", .any ["enumeratedValue"]]
      (optNode e.name (fun d => newNode "name" (changeCase cc d cfg.enumeratedValuesName)) ++
       optNode e.usage (fun v => newNode "usage" v.asStr) ++
       e.values.map (encodeEnumeratedValue cc cfg)) := by
    inorder
    refine good_any (fun y hy => ?_) good_nil
    obtain ⟨v, _, rfl⟩ := List.mem_map.mp hy
    exact ⟨.head _, (placed_enumeratedValue cc cfg v).2⟩
  exact ⟨rfl, .node tag_derived (.head _) this.1 this.2⟩

theorem placed_dimArrayIndex (d : DimArrayIndex) :
    (encodeDimArrayIndex cc cfg d).tag = "dimArrayIndex" ∧ InOrder (encodeDimArrayIndex cc cfg d) := by
  have : Good [.may "headerEnumName", .any ["enumeratedValue"]]
      (optNode d.headerEnumName
        (fun n => newNode "headerEnumName" (changeCase cc n cfg.dimArrayIndexHeaderEnumName)) ++
       d.values.map (encodeEnumeratedValue cc cfg)) := by
    inorder
    refine good_any (fun y hy => ?_) good_nil
    obtain ⟨v, _, rfl⟩ := List.mem_map.mp hy
    exact ⟨.head _, (placed_enumeratedValue cc cfg v).2⟩
  exact ⟨rfl, .node (by decide) (.head _) this.1 this.2⟩

theorem placed_writeConstraint (w : WriteConstraint) :
    (encodeWriteConstraint w).tag = "writeConstraint" ∧ InOrder (encodeWriteConstraint w) := by
  cases w with
  | writeAsRead v =>
    have : Good [.must "writeAsRead"] [newNode "writeAsRead" (boolStr v)] := by inorder
    exact ⟨rfl, .node (by decide) (.head _) this.1 this.2⟩
  | useEnumeratedValues v =>
    have : Good [.must "useEnumeratedValues"] [newNode "useEnumeratedValues" (boolStr v)] := by inorder
    exact ⟨rfl, .node (by decide) (.tail _ (.head _)) this.1 this.2⟩
  | range r =>
    have h1 : Good [.must "minimum", .must "maximum"]
        [newNode "minimum" (decString r.min), newNode "maximum" (decString r.max)] := by inorder
    have h2 : Good [.must "range"] [.elem "range" []
        [newNode "minimum" (decString r.min), newNode "maximum" (decString r.max)]] :=
      good_must rfl (.node (by decide) (.head _) h1.1 h1.2) good_nil
    exact ⟨rfl, .node (by decide) (.tail _ (.tail _ (.head _))) h2.1 h2.2⟩

theorem placed_addressBlock (a : AddressBlock) :
    (encodeAddressBlock cfg a).tag = "addressBlock" ∧ InOrder (encodeAddressBlock cfg a) := by
  have : Good [.must "offset", .must "size", .must "usage", .may "protection"]
      ([newNode "offset" (formatNumber a.offset cfg.addressBlockOffset),
        newNode "size" (formatNumber a.size cfg.addressBlockSize),
        newNode "usage" a.usage.asStr] ++
       optNode a.protection (fun v => newNode "protection" v.asStr)) := by
    inorder
  exact ⟨rfl, .node (by decide) (.head _) this.1 this.2⟩

theorem placed_interrupt (i : Interrupt) :
    (encodeInterrupt cc cfg i).tag = "interrupt" ∧ InOrder (encodeInterrupt cc cfg i) := by
  have : Good [.must "name", .may "description", .must "value"]
      ([newNode "name" (changeCase cc i.name cfg.interruptName)] ++
       optNode i.description (newNode "description") ++
       [newNode "value" (decString i.value)]) := by
    inorder
  exact ⟨rfl, .node (by decide) (.head _) this.1 this.2⟩

theorem placed_cpu (c : Cpu) : (encodeCpu c).tag = "cpu" ∧ InOrder (encodeCpu c) := by
  obtain ⟨l, hl⟩ : ∃ l, encodeCpu c = .elem "cpu" [] l := ⟨_, rfl⟩
  have : ∃ is ∈ contents "cpu", Good is l := by
    refine ⟨_, .head _, ?_⟩
    unfold encodeCpu at hl
    injection hl with _ _ hl
    rw [← hl]
    inorder
  obtain ⟨is, h1, h2⟩ := this
  rw [hl]
  exact ⟨rfl, .node (by decide) h1 h2.1 h2.2⟩

/-- The children written for the description of an array come first. -/
theorem good_dim {d : DimElement} {x : Xml} {l : List Item} {xs : List Xml}
    (h : encodeDimElement oc cc cfg d = .ok x) (hl : Good l xs) : Good (dimGroup ++ l) (x.children ++ xs) := by
  unfold encodeDimElement encodeDimIndex at h
  obtain ⟨di, h1, h⟩ := bind_ok.mp h
  injection h with h; subst h
  have hd : ∃ o : Option Str, di = optNode o (newNode "dimIndex") := by
    split at h1
    · obtain ⟨s, _, h1⟩ := bind_ok.mp h1
      injection h1 with h1
      exact ⟨some s, h1.symm⟩
    · injection h1 with h1
      exact ⟨none, h1.symm⟩
  obtain ⟨o, rfl⟩ := hd
  simp only [Xml.children, dimGroup, List.append_assoc, List.cons_append, List.nil_append]
  repeat' first
    | refine good_must (placed_leafNode (by decide)).1 (placed_leafNode (by decide)).2 ?_
    | refine good_may (fun _ => placed_leafNode (by decide)) ?_
    | refine good_may (placed_dimArrayIndex cc cfg) ?_
  exact hl

theorem placed_array {tag : String} {dim : Option DimElement} {info : M Xml} {x : Xml} {l : List Item}
    (hl : l ∈ contents tag) (hd : dimGroup ++ l ∈ contents tag)
    (hi : ∀ i, info = .ok i → ∃ as cs, i = .elem tag as cs ∧ as.map (·.1) ∈ attributes tag ∧ Good l cs)
    (h : encodeArray oc cc cfg tag dim info = .ok x) : x.tag = tag ∧ InOrder x := by
  unfold encodeArray at h
  cases dim with
  | none =>
    obtain ⟨as, cs, rfl, h1, h2⟩ := hi x h
    exact ⟨rfl, .node h1 hl h2.1 h2.2⟩
  | some d =>
    obtain ⟨a, ha, h⟩ := bind_ok.mp h
    obtain ⟨i, hi', h⟩ := bind_ok.mp h
    obtain ⟨as, cs, rfl, h1, h2⟩ := hi i hi'
    injection h with h; subst h
    obtain ⟨g1, g2⟩ := good_dim oc cc cfg ha h2
    obtain ⟨cs', rfl⟩ : ∃ cs', a = .elem "dimElement" [] cs' := by
      unfold encodeDimElement at ha
      obtain ⟨_, _, ha⟩ := bind_ok.mp ha
      injection ha with ha
      exact ⟨_, ha.symm⟩
    refine ⟨rfl, .node ?_ hd g1 g2⟩
    simpa [mergeElem] using h1

theorem placed_field {f : Field} {x : Xml} (h : encodeField oc cc cfg f = .ok x) :
    x.tag = "field" ∧ InOrder x := by
  have hbr : ∃ l ∈ [[Item.must "bitRange"], [.must "lsb", .must "msb"], [.must "bitOffset", .must "bitWidth"]],
      ∀ br, encodeBitRange oc cfg f.info.bitRange = .ok br → ∀ is xs, Good is xs → Good (l ++ is) (br ++ xs) := by
    unfold encodeBitRange
    split
    · refine ⟨_, .head _, fun br h is xs hg => ?_⟩
      obtain ⟨_, _, h⟩ := bind_ok.mp h
      injection h with h; subst h
      exact good_must rfl (.leaf (by decide)) hg
    · refine ⟨_, .tail _ (.head _), fun br h is xs hg => ?_⟩
      obtain ⟨_, _, h⟩ := bind_ok.mp h
      injection h with h; subst h
      exact good_must rfl (.leaf (by decide)) (good_must rfl (.leaf (by decide)) hg)
    · refine ⟨_, .tail _ (.tail _ (.head _)), fun br h is xs hg => ?_⟩
      injection h with h; subst h
      exact good_must rfl (.leaf (by decide)) (good_must rfl (.leaf (by decide)) hg)
  obtain ⟨l, hl, hbr⟩ := hbr
  have hc : fieldContent l ∈ contents "field" ∧ dimGroup ++ fieldContent l ∈ contents "field" := by
    simp only [List.mem_cons, List.not_mem_nil, or_false] at hl
    rcases hl with rfl | rfl | rfl <;> simp [contents, dimable]
  refine placed_array oc cc cfg hc.1 hc.2 (fun i hi => ?_) h
  unfold encodeFieldInfo at hi
  obtain ⟨br, h1, hi⟩ := bind_ok.mp hi
  injection hi with hi; subst hi
  refine ⟨_, _, rfl, tag_derived, ?_⟩
  unfold fieldContent
  refine good_end ?_
  simp only [List.append_assoc, List.cons_append, List.nil_append]
  refine good_must rfl (.leaf (by decide)) (good_may (fun _ => placed_leafNode (by decide)) ?_)
  refine hbr br h1 _ _ ?_
  refine good_may (fun _ => placed_leafNode (by decide)) (good_may (fun _ => placed_leafNode (by decide)) ?_)
  refine good_may placed_writeConstraint (good_may (fun _ => placed_leafNode (by decide)) ?_)
  refine good_any (fun y hy => ?_) good_nil
  obtain ⟨v, _, rfl⟩ := List.mem_map.mp hy
  exact ⟨.head _, (placed_enumeratedValues cc cfg v).2⟩

theorem good_fields {fs : Option (List Field)} {l : List Xml} (h : encodeFields oc cc cfg fs = .ok l) :
    Good [.may "fields"] l := by
  unfold encodeFields at h
  cases fs with
  | none => injection h with h; subst h; exact ⟨.inl rfl, nofun⟩
  | some v =>
    obtain ⟨sorted, _, h⟩ := bind_ok.mp h
    obtain ⟨cs, hcs, h⟩ := bind_ok.mp h
    injection h with h; subst h
    split
    · exact ⟨.inl rfl, nofun⟩
    · have : Good [.any ["field"]] (cs ++ []) := good_any (fun y hy => by
        obtain ⟨f, _, hf⟩ := mapM_ok_mem' hcs hy
        obtain ⟨h1, h2⟩ := placed_field oc cc cfg hf
        exact ⟨by rw [h1]; decide, h2⟩) good_nil
      rw [List.append_nil] at this
      have := good_may (o := some ()) (f := fun _ => .elem "fields" [] cs) (t := "fields")
        (fun _ => ⟨rfl, .node (by decide) (.head _) this.1 this.2⟩) good_nil
      exact this

theorem placed_register {r : Register} {x : Xml} (h : encodeRegister oc cc cfg r = .ok x) :
    x.tag = "register" ∧ InOrder x := by
  refine placed_array oc cc cfg (.head _) (.tail _ (.head _)) (fun i hi => ?_) h
  unfold encodeRegisterInfo at hi
  obtain ⟨fs, h1, hi⟩ := bind_ok.mp hi
  injection hi with hi; subst hi
  refine ⟨_, _, rfl, tag_derived, ?_⟩
  simp only [encodeProperties, propertyGroup, List.append_assoc, List.cons_append, List.nil_append]
  repeat' first
    | exact good_fields oc cc cfg h1
    | refine good_must (placed_leafNode (by decide)).1 (placed_leafNode (by decide)).2 ?_
    | refine good_may (fun _ => placed_leafNode (by decide)) ?_
    | refine good_may placed_writeConstraint ?_

mutual
theorem placed_rc : ∀ (c : RegisterCluster) (x : Xml), encodeRegisterCluster oc cc cfg c = .ok x →
    x.tag ∈ ["register", "cluster"] ∧ InOrder x
  | .register r, x, h => by
    rw [encodeRegisterCluster] at h
    obtain ⟨h1, h2⟩ := placed_register oc cc cfg h
    exact ⟨by rw [h1]; decide, h2⟩
  | .cluster hd d cs, x, h => by
    rw [encodeRegisterCluster] at h
    have : x.tag = "cluster" ∧ InOrder x := by
      refine placed_array oc cc cfg (.head _) (.tail _ (.head _)) (fun i hi => ?_) h
      unfold encodeClusterWith at hi
      obtain ⟨l, h1, hi⟩ := bind_ok.mp hi
      injection hi with hi; subst hi
      refine ⟨_, _, rfl, tag_derived, ?_⟩
      refine good_end ?_
      simp only [encodeProperties, propertyGroup, List.append_assoc, List.cons_append, List.nil_append]
      repeat' first
        | refine good_any (placed_rcs cs l h1) good_nil
        | refine good_must (placed_leafNode (by decide)).1 (placed_leafNode (by decide)).2 ?_
        | refine good_may (fun _ => placed_leafNode (by decide)) ?_
    exact ⟨by rw [this.1]; decide, this.2⟩
theorem placed_rcs : ∀ (cs : List RegisterCluster) (xs : List Xml), encodeRegisterClusters oc cc cfg cs = .ok xs →
    ∀ x ∈ xs, x.tag ∈ ["register", "cluster"] ∧ InOrder x
  | [], xs, h => by
    rw [encodeRegisterClusters] at h
    injection h with h; subst h
    nofun
  | c :: cs, xs, h => by
    rw [encodeRegisterClusters] at h
    obtain ⟨y, h1, h⟩ := bind_ok.mp h
    obtain ⟨ys, h2, h⟩ := bind_ok.mp h
    injection h with h; subst h
    have i1 := placed_rc c y h1
    have i2 := placed_rcs cs ys h2
    intro x hx
    rcases List.mem_cons.mp hx with rfl | hx
    · exact i1
    · exact i2 x hx
end

theorem good_registers {rs : Option (List RegisterCluster)} {l : List Xml}
    (h : encodeRegisters oc cc cfg rs = .ok l) : Good [.may "registers"] l := by
  unfold encodeRegisters at h
  cases rs with
  | none => injection h with h; subst h; exact ⟨.inl rfl, nofun⟩
  | some v =>
    obtain ⟨sorted, _, h⟩ := bind_ok.mp h
    obtain ⟨cs, hcs, h⟩ := bind_ok.mp h
    injection h with h; subst h
    have : Good [.any ["register", "cluster"]] (cs ++ []) := good_any (fun y hy => by
      obtain ⟨f, _, hf⟩ := mapM_ok_mem' hcs hy
      exact placed_rc oc cc cfg f y hf) good_nil
    rw [List.append_nil] at this
    exact good_may (o := some ()) (f := fun _ => .elem "registers" [] cs) (t := "registers")
      (fun _ => ⟨rfl, .node (by decide) (.head _) this.1 this.2⟩) good_nil

theorem placed_peripheral {p : Peripheral} {x : Xml} (h : encodePeripheral oc cc cfg p = .ok x) :
    x.tag = "peripheral" ∧ InOrder x := by
  refine placed_array oc cc cfg (.head _) (.tail _ (.head _)) (fun i hi => ?_) h
  unfold encodePeripheralInfo at hi
  obtain ⟨rs, h1, hi⟩ := bind_ok.mp hi
  injection hi with hi; subst hi
  refine ⟨_, _, rfl, tag_derived, ?_⟩
  simp only [encodeProperties, propertyGroup, List.append_assoc, List.cons_append, List.nil_append]
  repeat' first
    | exact good_registers oc cc cfg h1
    | refine good_must (placed_leafNode (by decide)).1 (placed_leafNode (by decide)).2 ?_
    | refine good_may (fun _ => placed_leafNode (by decide)) ?_
    | refine good_any (fun y hy => ?_) ?_
  · obtain ⟨a, _, rfl⟩ := List.mem_map.mp hy
    obtain ⟨h1, h2⟩ := placed_addressBlock cfg a
    exact ⟨by rw [h1]; decide, h2⟩
  · obtain ⟨a, _, rfl⟩ := List.mem_map.mp hy
    obtain ⟨h1, h2⟩ := placed_interrupt cc cfg a
    exact ⟨by rw [h1]; decide, h2⟩

/-- **C55.** Under every configuration, every element of a written file has its children in the order that
the format prescribes, none of the single ones twice, none of the required ones missing, and only the
attributes it may have. -/
theorem C55_in_order (d : Device) (x : Xml) (h : encodeDevice oc cc cfg d = .ok x) :
    x.tag = "device" ∧ InOrder x := by
  unfold encodeDevice at h
  obtain ⟨sorted, _, h⟩ := bind_ok.mp h
  obtain ⟨ps, h1, h⟩ := bind_ok.mp h
  injection h with h; subst h
  have hp : Good [.any ["peripheral"]] (ps ++ []) := good_any (fun y hy => by
    obtain ⟨p, _, hp⟩ := mapM_ok_mem' h1 hy
    obtain ⟨g1, g2⟩ := placed_peripheral oc cc cfg hp
    exact ⟨by rw [g1]; decide, g2⟩) good_nil
  rw [List.append_nil] at hp
  suffices hs : ∃ l ∈ contents "device", Good l _ by
    obtain ⟨l, h1, h2⟩ := hs
    exact ⟨rfl, .node (.head _) h1 h2.1 h2.2⟩
  refine ⟨_, .head _, ?_⟩
  simp only [encodeProperties, propertyGroup, List.append_assoc, List.cons_append, List.nil_append]
  repeat' first
    | exact good_nil
    | refine good_must (placed_leafNode (by decide)).1 (placed_leafNode (by decide)).2 ?_
    | refine good_may (fun _ => placed_leafNode (by decide)) ?_
    | refine good_may placed_cpu ?_
    | refine good_must rfl (.node (by decide) (.head _) hp.1 hp.2) ?_

end

/-! ## Examples -/

/-- The order excludes something: a value before the name, a name twice, a missing value, an attribute. -/
example (as : List (String × Str)) (a b : Str) :
    ¬ InOrder (.elem "interrupt" as [newNode "value" a, newNode "name" b]) ∧
    ¬ InOrder (.elem "interrupt" as [newNode "name" a, newNode "name" b]) ∧
    ¬ InOrder (.elem "interrupt" as [newNode "name" a]) ∧
    ¬ InOrder (.elem "interrupt" [("derivedFrom", a)] [newNode "name" a, newNode "value" b]) := by
  refine ⟨fun h => ?_, fun h => ?_, fun h => ?_, fun h => ?_⟩ <;> cases h <;>
    simp_all [contents, attributes, Follows, newNode, Xml.tag]

/-- The theorem applies to a device with a bit of everything. -/
example : ∃ x, encodeDevice true (fun _ s => s) {} Sample.rich = .ok x ∧ InOrder x := by
  obtain ⟨x, hx, _⟩ := C26_lossless true (fun _ s => s) { validateLevel := .strict } rfl _ rich_expressible
  exact ⟨x, hx, (C55_in_order true (fun _ s => s) {} Sample.rich x hx).2⟩

end Svd
