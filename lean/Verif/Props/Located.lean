import Verif.Model.Located
import Verif.Lemmas.Except

/-!
# C58: parse errors are reported where they are
-/

namespace Svd

/-! ## The positions do not change the outcome -/

/-- The outcome without the position. -/
def erase {α : Type} : L α → M α
  | .ok a => .ok a
  | .error (.err e _) => .error (.err e)
  | .error (.panic p) => .error (.panic p)
  | .error .diverge => .error .diverge

namespace Erase

variable {α β : Type}

theorem ok (a : α) : erase (.ok a : L α) = .ok a := rfl

theorem bind {m : L α} {m' : M α} {f : α → L β} {f' : α → M β} (h : erase m = m')
    (h' : ∀ a, erase (f a) = f' a) : erase (m >>= f) = (m' >>= f') := by
  subst h
  cases m with
  | ok a => exact h' a
  | error e => cases e <;> rfl

theorem at' (n : Node) (m : M α) : erase (n.at m) = m := by
  cases m with
  | ok a => rfl
  | error e => cases e <;> rfl

theorem ite {c c' : Prop} [Decidable c] [Decidable c'] {m n : L α} {m' n' : M α} (hc : c ↔ c')
    (h : erase m = m') (h' : erase n = n') : erase (if c then m else n) = if c' then m' else n' := by
  by_cases hh : c
  · rw [if_pos hh, if_pos (hc.mp hh), h]
  · rw [if_neg hh, if_neg (mt hc.mpr hh), h']

theorem children_xml (n : Node) : n.children.map Node.xml = n.xml.children := by
  unfold Node.children
  apply List.ext_getElem
  · simp
  · intro i h1 h2; simp

theorem filter_xml (n : Node) (p : Xml → Bool) :
    (n.children.filter fun c => p c.xml).map Node.xml = n.xml.children.filter p := by
  rw [← children_xml, List.filter_map]; rfl

theorem getChild_xml (n : Node) (k : String) : (n.getChild k).map Node.xml = n.xml.getChild k := by
  unfold Node.getChild Xml.getChild
  rw [← children_xml, List.find?_map]; rfl

theorem mapM {l : List Node} {l' : List Xml} {f : Node → L β} {g : Xml → M β} (hl : l.map Node.xml = l')
    (h : ∀ c, erase (f c) = g c.xml) : erase (l.mapM f) = l'.mapM g := by
  subst hl
  induction l with
  | nil => rfl
  | cons a l ih =>
    rw [List.map_cons, mapM_cons, mapM_cons]
    exact bind (h a) fun _ => bind ih fun _ => rfl

theorem getText (n : Node) : erase n.getText = n.xml.getText := by
  unfold Node.getText Xml.getText
  cases n.xml.textOf <;> rfl

theorem getChildTextOpt (n : Node) (k : String) : erase (n.getChildTextOpt k) = n.xml.getChildTextOpt k := by
  unfold Node.getChildTextOpt Xml.getChildTextOpt
  rw [← getChild_xml]
  cases n.getChild k with
  | none => rfl
  | some c =>
    simp only [Option.map_some]
    rw [← getText c]
    unfold Node.getText
    cases c.xml.textOf <;> rfl

theorem getChildText (n : Node) (k : String) : erase (n.getChildText k) = n.xml.getChildText k :=
  bind (getChildTextOpt n k) fun _ => at' _ _

theorem bindElem {n : Node} {k : String} {f : Node → L β} {f' : Xml → M β}
    (h : ∀ c, erase (f c) = f' c.xml) : erase (n.getChildElem k >>= f) = (n.xml.getChildElem k >>= f') := by
  unfold Node.getChildElem Xml.getChildElem
  rw [← getChild_xml]
  cases n.getChild k with
  | none => rfl
  | some c => exact h c

theorem parseInt (w : Nat) (n : Node) : erase (Node.parseInt w n) = Xml.parseInt w n.xml :=
  bind (getText n) fun _ => at' _ _

theorem parseBool (n : Node) : erase n.parseBool = n.xml.parseBool :=
  bind (getText n) fun _ => at' _ _

theorem getChildInt (w : Nat) (n : Node) (k : String) :
    erase (Node.getChildInt w n k) = Xml.getChildInt w n.xml k := bindElem fun _ => parseInt w _

theorem getChildBool (n : Node) (k : String) : erase (n.getChildBool k) = n.xml.getChildBool k :=
  bindElem fun _ => parseBool _

theorem optional {n : Node} {k : String} {f : Node → L α} {g : Xml → M α}
    (h : ∀ c, erase (f c) = g c.xml) : erase (Node.optional k n f) = Xml.optional k n.xml g := by
  unfold Node.optional Xml.optional
  rw [← getChild_xml]
  cases n.getChild k with
  | none => rfl
  | some c => exact bind (h c) fun _ => rfl

theorem parseKeyword (ps : Str → Option α) (e : Str → Err) (n : Node) :
    erase (Node.parseKeyword ps e n) = Xml.parseKeyword ps e n.xml :=
  bind (getText n) fun _ => at' _ _

theorem okOnly {m : L α} {m' : M α} (h : erase m = m') : erase (Node.okOnly m) = Svd.okOnly m' := by
  subst h
  cases m with
  | ok a => rfl
  | error e => cases e <;> rfl

end Erase

/-- Decomposes equations between a computation with and without positions. -/
macro "erasing" : tactic => `(tactic| repeat' (first
  | exact Erase.ok _
  | exact Erase.at' _ _
  | with_reducible exact Erase.getText _
  | with_reducible exact Erase.getChildTextOpt _ _ | with_reducible exact Erase.getChildText _ _
  | with_reducible exact Erase.parseInt _ _ | with_reducible exact Erase.parseBool _
  | with_reducible exact Erase.getChildInt _ _ _ | with_reducible exact Erase.getChildBool _ _
  | with_reducible exact Erase.parseKeyword _ _ _
  | with_reducible assumption
  | with_reducible refine Erase.optional fun _ => ?_
  | with_reducible refine Erase.okOnly ?_
  | with_reducible refine Erase.ite Iff.rfl ?_ ?_
  | with_reducible refine Erase.bindElem fun _ => ?_
  | with_reducible refine Erase.bind ?_ fun _ => ?_))

namespace Erase

theorem parseRegisterProperties (cfg : ParseConfig) (n : Node) :
    erase (n.parseRegisterProperties cfg) = Svd.parseRegisterProperties cfg n.xml := by
  unfold Node.parseRegisterProperties Svd.parseRegisterProperties Node.parseAccess Svd.parseAccess
    Node.parseProtection Svd.parseProtection
  erasing

theorem parseEnumeratedValue (cfg : ParseConfig) (n : Node) :
    erase (n.parseEnumeratedValue cfg) = Svd.parseEnumeratedValue cfg n.xml := by
  unfold Node.parseEnumeratedValue Svd.parseEnumeratedValue
  erasing

theorem parseValueList (cfg : ParseConfig) (skip : List String) (n : Node) :
    erase (n.parseValueList cfg skip) = Svd.parseValueList cfg skip n.xml := by
  unfold Node.parseValueList Svd.parseValueList
  refine mapM (filter_xml n fun c => c.isElement && !skip.contains c.tag) fun c => ?_
  refine ite Iff.rfl (parseEnumeratedValue cfg c) (at' _ _)

theorem parseEnumeratedValues (cfg : ParseConfig) (n : Node) :
    erase (n.parseEnumeratedValues cfg) = Svd.parseEnumeratedValues cfg n.xml := by
  have := parseValueList cfg ["name", "headerEnumName", "usage"] n
  unfold Node.parseEnumeratedValues Svd.parseEnumeratedValues Node.parseUsage Svd.parseUsage
  erasing

theorem parseDimArrayIndex (cfg : ParseConfig) (n : Node) :
    erase (n.parseDimArrayIndex cfg) = Svd.parseDimArrayIndex cfg n.xml := by
  have := parseValueList cfg ["headerEnumName"] n
  unfold Node.parseDimArrayIndex Svd.parseDimArrayIndex
  erasing

theorem parseDimIndex (n : Node) : erase n.parseDimIndex = Svd.parseDimIndex n.xml := by
  unfold Node.parseDimIndex Svd.parseDimIndex
  erasing

theorem parseDimElement (cfg : ParseConfig) (n : Node) :
    erase (n.parseDimElement cfg) = Svd.parseDimElement cfg n.xml := by
  unfold Node.parseDimElement Svd.parseDimElement
  erasing
  · exact parseDimIndex _
  · exact parseDimArrayIndex cfg _

theorem parseArray {α : Type} {cfg : ParseConfig} {tag : String} {nm : α → Str} {n : Node} {i : L α}
    {i' : M α} (h : erase i = i') :
    erase (Node.parseArray cfg tag nm n i) = Svd.parseArray cfg tag nm n.xml i' := by
  have := parseDimElement cfg n
  unfold Node.parseArray Svd.parseArray
  refine ite Iff.rfl (at' _ _) (bind h fun a => ite ?_ (bind this fun d => bind (at' _ _) fun _ => ?_) rfl)
  · rw [← getChild_xml, Option.isSome_map]
  · cases d.dimIndex with
    | none => rfl
    | some l => exact ite Iff.rfl (at' _ _) rfl

theorem parseWriteConstraint (n : Node) :
    erase n.parseWriteConstraint = Svd.parseWriteConstraint n.xml := by
  have hf := filter_xml n Xml.isElement
  unfold Node.parseWriteConstraint Svd.parseWriteConstraint
  change (n.children.filter Node.isElement).map Node.xml = _ at hf
  rw [← hf]
  cases n.children.filter Node.isElement with
  | nil => rfl
  | cons c l =>
    simp only [List.map_cons]
    refine ite (by cases l <;> simp) (at' _ _) (ite Iff.rfl ?_ (ite Iff.rfl ?_ (ite Iff.rfl ?_ (at' _ _))))
    · erasing
    · erasing
    · refine bindElem fun c => ?_
      refine bind ?_ fun _ => rfl
      unfold Node.parseWriteConstraintRange Svd.parseWriteConstraintRange
      erasing

theorem parseFieldInfo (oc : Bool) (cfg : ParseConfig) (n : Node) :
    erase (n.parseFieldInfo oc cfg) = Svd.parseFieldInfo oc cfg n.xml := by
  have := mapM (filter_xml n (Xml.hasTag "enumeratedValues")) (parseEnumeratedValues cfg)
  unfold Node.parseFieldInfo Svd.parseFieldInfo Node.parseAccess Svd.parseAccess
    Node.parseModifiedWriteValues Svd.parseModifiedWriteValues Node.parseReadAction Svd.parseReadAction
  erasing
  · exact parseWriteConstraint _
  · exact this

theorem parseField (oc : Bool) (cfg : ParseConfig) (n : Node) :
    erase (n.parseField oc cfg) = Svd.parseField oc cfg n.xml := parseArray (parseFieldInfo oc cfg n)

theorem list {α : Type} {n : Node} {k : String} {f : Node → L α} {g : Xml → M α}
    (h : ∀ c, erase (f c) = g c.xml) :
    erase (match n.getChild k with
      | some fs => do
        let l ← (fs.children.filter Node.isElement).mapM f
        .ok (some l)
      | none => .ok none : L (Option (List α))) =
    (match n.xml.getChild k with
      | some fs => do
        let l ← (fs.children.filter Xml.isElement).mapM g
        .ok (some l)
      | none => .ok none : M (Option (List α))) := by
  rw [← getChild_xml]
  cases n.getChild k with
  | none => rfl
  | some c => exact bind (mapM (filter_xml c Xml.isElement) h) fun _ => rfl

theorem parseRegisterInfo (oc : Bool) (cfg : ParseConfig) (n : Node) :
    erase (n.parseRegisterInfo oc cfg) = Svd.parseRegisterInfo oc cfg n.xml := by
  have h1 := parseRegisterProperties cfg n
  have h2 := list (n := n) (k := "fields") (parseField oc cfg)
  unfold Node.parseRegisterInfo Svd.parseRegisterInfo Node.parseDataType Svd.parseDataType
    Node.parseModifiedWriteValues Svd.parseModifiedWriteValues Node.parseReadAction Svd.parseReadAction
  erasing
  · exact parseWriteConstraint _
  · exact h2

theorem parseRegister (oc : Bool) (cfg : ParseConfig) (n : Node) :
    erase (n.parseRegister oc cfg) = Svd.parseRegister oc cfg n.xml :=
  parseArray (parseRegisterInfo oc cfg n)

theorem parseClusterInfoWith {cfg : ParseConfig} {n : Node} {k : L (List RegisterCluster)}
    {k' : M (List RegisterCluster)} (h : erase k = k') :
    erase (n.parseClusterInfoWith cfg k) = Svd.parseClusterInfoWith cfg n.xml k' := by
  have h1 := parseRegisterProperties cfg n
  unfold Node.parseClusterInfoWith Svd.parseClusterInfoWith
  erasing

mutual
theorem parseRegisterCluster (oc : Bool) (cfg : ParseConfig) :
    ∀ (x : Xml) (id : NodeId), erase (Node.parseRegisterCluster oc cfg id x) = Svd.parseRegisterCluster oc cfg x
  | .elem tag attrs kids, id => by
    have h1 := parseClusterKids oc cfg kids id 0
    unfold Node.parseRegisterCluster Svd.parseRegisterCluster
    refine ite Iff.rfl (bind (parseRegister oc cfg ⟨id, _⟩) fun _ => rfl) (ite Iff.rfl ?_ rfl)
    exact bind (parseArray (n := ⟨id, _⟩) (parseClusterInfoWith (n := ⟨id, _⟩) h1)) fun _ => rfl
  | .text _, id => by unfold Node.parseRegisterCluster Svd.parseRegisterCluster; rfl
  | .other, id => by unfold Node.parseRegisterCluster Svd.parseRegisterCluster; rfl
theorem parseClusterKids (oc : Bool) (cfg : ParseConfig) :
    ∀ (xs : List Xml) (id : NodeId) (i : Nat),
      erase (Node.parseClusterKids oc cfg id i xs) = Svd.parseClusterKids oc cfg xs
  | [], id, i => by unfold Node.parseClusterKids Svd.parseClusterKids; rfl
  | x :: xs, id, i => by
    have h1 := parseRegisterCluster oc cfg x (id ++ [i])
    have h2 := parseClusterKids oc cfg xs id (i + 1)
    unfold Node.parseClusterKids Svd.parseClusterKids
    exact ite Iff.rfl (bind h1 fun _ => bind h2 fun _ => rfl) h2
end

theorem parseAddressBlock (cfg : ParseConfig) (n : Node) :
    erase (n.parseAddressBlock cfg) = Svd.parseAddressBlock cfg n.xml := by
  unfold Node.parseAddressBlock Svd.parseAddressBlock Node.parseAddressBlockUsage
    Svd.parseAddressBlockUsage Node.parseProtection Svd.parseProtection
  erasing

theorem parseInterrupt (cfg : ParseConfig) (n : Node) :
    erase (n.parseInterrupt cfg) = Svd.parseInterrupt cfg n.xml := by
  unfold Node.parseInterrupt Svd.parseInterrupt
  erasing

theorem parsePeripheralInfo (oc : Bool) (cfg : ParseConfig) (n : Node) :
    erase (n.parsePeripheralInfo oc cfg) = Svd.parsePeripheralInfo oc cfg n.xml := by
  have h1 := parseRegisterProperties cfg n
  have h2 := mapM (filter_xml n (Xml.hasTag "addressBlock")) (parseAddressBlock cfg)
  have h3 := mapM (filter_xml n (Xml.hasTag "interrupt")) (parseInterrupt cfg)
  have h4 := list (n := n) (k := "registers") (f := fun c => Node.parseRegisterCluster oc cfg c.id c.xml)
    fun c => parseRegisterCluster oc cfg c.xml c.id
  unfold Node.parsePeripheralInfo Svd.parsePeripheralInfo
  erasing
  · exact h2
  · exact h3
  · exact h4

theorem parsePeripheral (oc : Bool) (cfg : ParseConfig) (n : Node) :
    erase (n.parsePeripheral oc cfg) = Svd.parsePeripheral oc cfg n.xml :=
  parseArray (parsePeripheralInfo oc cfg n)

theorem parseCpu (cfg : ParseConfig) (n : Node) : erase (n.parseCpu cfg) = Svd.parseCpu cfg n.xml := by
  unfold Node.parseCpu Svd.parseCpu Node.parseEndian Svd.parseEndian
  erasing

theorem parseDevice (oc : Bool) (cfg : ParseConfig) (n : Node) :
    erase (n.parseDevice oc cfg) = Svd.parseDevice oc cfg n.xml := by
  have h1 := parseRegisterProperties cfg n
  have h2 : ∀ c : Node, erase ((c.children.filter Node.isElement).mapM (Node.parsePeripheral oc cfg)) =
      (c.xml.children.filter Xml.isElement).mapM (Svd.parsePeripheral oc cfg) := fun c =>
    mapM (filter_xml c Xml.isElement) (parsePeripheral oc cfg)
  unfold Node.parseDevice Svd.parseDevice
  erasing
  · exact parseCpu cfg _
  · exact h2 _

end Erase

end Svd
