import Verif.Spec.Rearranged
import Verif.Props.Shuffled
import Verif.Props.FillPaths
import Verif.Props.Document
import Verif.Props.Reorder

/-! # C86: the order of peripherals, registers, clusters and fields in a document -/

namespace Svd
open Xml Spec

namespace Rearrange
open Shuffle

/-! ## Being the same but for the order is an equivalence -/

theorem alike_refl (f : Field) : FieldAlike f f := alike_iff.mpr ⟨rfl, f.info.bitRange.rangeType, rfl⟩

theorem pairs_refl {α : Type} {R : α → α → Prop} (h : ∀ a, R a a) : ∀ l : List α, Pairs R l l
  | [] => .nil
  | a :: l => .cons (h a) (pairs_refl h l)

theorem register_refl (r : Register) : RegisterShuffled r r := by
  refine register_iff.mpr ⟨rfl, r.info.fields, ?_, rfl⟩
  cases r.info.fields with
  | none => exact .none
  | some l => exact .some (of_pairs (pairs_refl alike_refl l))

mutual
theorem rc_refl : ∀ c : RegisterCluster, RcShuffled c c
  | .register r => .register (register_refl r)
  | .cluster _ _ cs => .cluster (rcs_refl cs)
theorem rcs_refl : ∀ l : List RegisterCluster, RcsShuffled l l
  | [] => .nil
  | c :: cs => .cons (m₁ := []) (rc_refl c) (rcs_refl cs)
end

theorem peripheral_refl (p : Peripheral) : PeripheralShuffled p p := by
  refine peripheral_iff.mpr ⟨rfl, p.info.registers, ?_, rfl⟩
  cases p.info.registers with
  | none => exact .none
  | some l => exact .some (rcs_refl l)

theorem device_refl (d : Device) : DeviceShuffled d d := ⟨_, of_pairs (pairs_refl peripheral_refl _), rfl⟩

theorem mixed_trans {α β γ : Type} {R : α → β → Prop} {S : β → γ → Prop} {T : α → γ → Prop}
    (hs : ∀ a b c, R a b → S b c → T a c) {l : List α} {m : List β} (h : Mixed R l m) :
    ∀ {n : List γ}, Mixed S m n → Mixed T l n := by
  induction h with
  | nil => intro n h; cases h; exact .nil
  | cons h1 _ ih =>
    intro n h
    cases perm_left h List.perm_middle with
    | cons h3 h4 => exact .cons (hs _ _ _ h1 h3) (ih h4)

theorem alike_trans {f g h : Field} (h1 : FieldAlike f g) (h2 : FieldAlike g h) : FieldAlike f h := by
  obtain ⟨a1, t, a2⟩ := alike_iff.mp h1
  obtain ⟨b1, u, b2⟩ := alike_iff.mp h2
  exact alike_iff.mpr ⟨b1.trans a1, u, by rw [b2, a2]⟩

theorem register_trans {a b c : Register} (h1 : RegisterShuffled a b) (h2 : RegisterShuffled b c) :
    RegisterShuffled a c := by
  obtain ⟨a1, fs, a2, a3⟩ := register_iff.mp h1
  obtain ⟨b1, gs, b2, b3⟩ := register_iff.mp h2
  refine register_iff.mpr ⟨b1.trans a1, gs, ?_, by rw [b3, a3]⟩
  rw [a3] at b2
  dsimp only at b2
  generalize a.info.fields = o at a2
  cases a2 with
  | none => exact b2
  | some h =>
    cases b2 with
    | some h' => exact .some (mixed_trans (R := FieldAlike) (S := FieldAlike) (T := FieldAlike) (fun _ _ _ h h' => alike_trans h h') h h')

mutual
theorem rc_trans {a b : RegisterCluster} : RcShuffled a b → ∀ {c}, RcShuffled b c → RcShuffled a c
  | .register h, _, .register h' => .register (register_trans h h')
  | .cluster h, _, .cluster h' => .cluster (rcs_iff.mpr (rcs_trans h (rcs_iff.mp h')))
theorem rcs_trans {l m : List RegisterCluster} : RcsShuffled l m → ∀ {n}, Mixed RcShuffled m n → Mixed RcShuffled l n
  | .nil, _, h => h
  | .cons h1 h2, _, h => by
    cases perm_left h List.perm_middle with
    | cons h3 h4 => exact .cons (rc_trans h1 h3) (rcs_trans h2 h4)
end

theorem peripheral_trans {a b c : Peripheral} (h1 : PeripheralShuffled a b) (h2 : PeripheralShuffled b c) :
    PeripheralShuffled a c := by
  obtain ⟨a1, fs, a2, a3⟩ := peripheral_iff.mp h1
  obtain ⟨b1, gs, b2, b3⟩ := peripheral_iff.mp h2
  refine peripheral_iff.mpr ⟨b1.trans a1, gs, ?_, by rw [b3, a3]⟩
  rw [a3] at b2
  dsimp only at b2
  generalize a.info.registers = o at a2
  cases a2 with
  | none => exact b2
  | some h =>
    cases b2 with
    | some h' => exact .some (rcs_iff.mpr (rcs_trans h (rcs_iff.mp h')))

theorem device_trans {a b c : Device} (h1 : DeviceShuffled a b) (h2 : DeviceShuffled b c) : DeviceShuffled a c := by
  obtain ⟨ps, a1, rfl⟩ := h1
  obtain ⟨qs, b1, rfl⟩ := h2
  exact ⟨qs, mixed_trans (R := PeripheralShuffled) (S := PeripheralShuffled) (T := PeripheralShuffled) (fun _ _ _ h h' => peripheral_trans h h') a1 b1, rfl⟩

/-! ## Elements that are the same but for the children with certain names -/

structure But (ks : List String) (x y : Xml) : Prop where
  tag : ∀ n, y.hasTag n = x.hasTag n
  attr : ∀ n, y.attr n = x.attr n
  kids : ∀ j, j ∉ ks → y.children.filter (hasTag j) = x.children.filter (hasTag j)

section
variable {ks : List String} {x y : Xml}

theorem But.child (h : But ks x y) {j : String} (hj : j ∉ ks) : y.getChild j = x.getChild j := by
  unfold getChild
  rw [← List.head?_filter, ← List.head?_filter, h.kids j hj]

variable {j : String} (e : y.getChild j = x.getChild j)
include e

theorem text {s : Str} (h : ChildText x j s) : ChildText y j s := by
  unfold ChildText
  rw [e]
  exact h

theorem optText {s : Option Str} (h : OptionalText x j s) : OptionalText y j s := by
  unfold OptionalText ChildText
  rw [e]
  exact h

theorem nonblank {s : Option Str} (h : OptNonblank x j s) : OptNonblank y j s := by
  unfold OptNonblank ChildText
  rw [e]
  exact h

theorem req {α : Type} {R : Xml → α → Prop} {a : α} (h : ReqChild R x j a) : ReqChild R y j a := by
  unfold ReqChild
  rw [e]
  exact h

theorem opt {α : Type} {R : Xml → α → Prop} {a : Option α} (h : OptChild R x j a) : OptChild R y j a := by
  unfold OptChild ReqChild
  rw [e]
  exact h
end

theorem props {lvl : ValidateLevel} {x y : Xml} {p : RegisterProperties}
    (e : ∀ j ∈ ["size", "access", "protection", "resetValue", "resetMask"], y.getChild j = x.getChild j)
    (h : PropsSay lvl x p) : PropsSay lvl y p where
  size := opt (e _ (by simp)) h.size
  access := opt (e _ (by simp)) h.access
  protection := opt (e _ (by simp)) h.protection
  resetValue := opt (e _ (by simp)) h.resetValue
  resetMask := opt (e _ (by simp)) h.resetMask
  valid := h.valid

theorem shape {lvl : ValidateLevel} {x y : Xml} {n : Str} {o : Option DimElement}
    (e : ∀ j ∈ ["dim", "dimIncrement", "dimIndex", "dimName", "dimArrayIndex"], y.getChild j = x.getChild j)
    (h : ShapeSays lvl x n o) : ShapeSays lvl y n o := by
  cases o with
  | none => exact (e _ (by simp)).trans h
  | some d =>
    refine ⟨⟨?_, ?_, ?_, ?_, ?_⟩, h.2⟩
    · exact req (e _ (by simp)) h.1.dim
    · exact req (e _ (by simp)) h.1.dimIncrement
    · exact opt (e _ (by simp)) h.1.dimIndex
    · exact nonblank (e _ (by simp)) h.1.dimName
    · exact opt (e _ (by simp)) h.1.dimArrayIndex

/-- A list in the child `k`. -/
theorem optList {α : Type} {R : Xml → α → Prop} {S : α → α → Prop} {x y : Xml} {k : String} {o : Option (List α)}
    (hc : y.getChild k = x.getChild k ∨ ∃ c c', x.getChild k = some c ∧ y.getChild k = some c' ∧
      ∀ l, Pairs R (c.children.filter isElement) l → ∃ l', Pairs R (c'.children.filter isElement) l' ∧ Mixed S l l')
    (hr : ∀ a, S a a) (h : OptList R x k o) :
    (o = none ∧ OptList R y k none) ∨ ∃ l l', o = some l ∧ OptList R y k (some l') ∧ Mixed S l l' := by
  rcases hc with e | ⟨c, c', h1, h2, h3⟩
  · cases o with
    | none => exact .inl ⟨rfl, opt e h⟩
    | some l => exact .inr ⟨l, l, rfl, opt e h, of_pairs (pairs_refl hr l)⟩
  · cases o with
    | none => cases h1.symm.trans h
    | some l =>
      obtain ⟨d, h4, h5⟩ := h
      cases h1.symm.trans h4
      obtain ⟨l', h6, h7⟩ := h3 l h5
      exact .inr ⟨l, l', rfl, ⟨c', h2, h6⟩, h7⟩

theorem mixed_ne {α β : Type} {R : α → β → Prop} {l : List α} {m : List β} (h : Mixed R l m) (hl : l ≠ []) : m ≠ [] := by
  cases h with
  | nil => exact absurd rfl hl
  | cons => simp

/-! ## What is read from two elements with two items swapped -/

section
variable {oc ne : Bool} {lvl : ValidateLevel}

theorem register {x y : Xml} (hb : But ["fields"] x y)
    (hc : y.getChild "fields" = x.getChild "fields" ∨ ∃ c c', x.getChild "fields" = some c ∧
      y.getChild "fields" = some c' ∧ Mixed Eq (c.children.filter isElement) (c'.children.filter isElement))
    {r : Register} (h : ArraySays lvl "register" (RegisterSays oc ne lvl) RegisterInfo.name x r) :
    ∃ r', ArraySays lvl "register" (RegisterSays oc ne lvl) RegisterInfo.name y r' ∧ RegisterShuffled r r' := by
  obtain ⟨h1, h2, h3⟩ := h
  have e : ∀ j, j ∉ ["fields"] → y.getChild j = x.getChild j := fun _ => hb.child
  have key : ∃ fs, OptList (ArraySays lvl "field" (FieldSays oc ne lvl) FieldInfo.name) y "fields" fs ∧
      FieldsShuffled r.info.fields fs ∧ (r.info.fields ≠ some [] → fs ≠ some []) := by
    have := optList (S := FieldAlike) (hc.imp_right fun ⟨c, c', g1, g2, g3⟩ => ⟨c, c', g1, g2, fun l hl => by
      obtain ⟨l', g4, g5⟩ := through g3 hl fun a b f hab hf => ⟨f, hab ▸ hf, rfl⟩
      exact ⟨l', g4, mono g5 fun a b hab => hab ▸ alike_refl a⟩⟩) alike_refl h2.fields
    rcases this with ⟨g1, g2⟩ | ⟨l, l', g1, g2, g3⟩
    · exact ⟨none, g2, by rw [g1]; exact .none, fun _ => nofun⟩
    · refine ⟨some l', g2, by rw [g1]; exact .some g3, fun hn e => ?_⟩
      cases e
      rw [g1] at hn
      exact mixed_ne g3 (fun e => hn (by rw [e])) rfl
  obtain ⟨fs, g1, g2, g3⟩ := key
  refine ⟨r.mapInfo fun i => { i with fields := fs }, ⟨(hb.tag _).trans h1, ?_, ?_⟩, fs, g2, rfl⟩
  · rw [info_map]
    exact {
      name := text (e _ (by decide)) h2.name
      displayName := optText (e _ (by decide)) h2.displayName
      description := optText (e _ (by decide)) h2.description
      alternateGroup := optText (e _ (by decide)) h2.alternateGroup
      alternateRegister := optText (e _ (by decide)) h2.alternateRegister
      addressOffset := req (e _ (by decide)) h2.addressOffset
      properties := props (fun j hj => e j (by revert j; decide)) h2.properties
      datatype := opt (e _ (by decide)) h2.datatype
      modifiedWriteValues := opt (e _ (by decide)) h2.modifiedWriteValues
      writeConstraint := opt (e _ (by decide)) h2.writeConstraint
      readAction := opt (e _ (by decide)) h2.readAction
      fields := g1
      derivedFrom := h2.derivedFrom.trans (hb.attr _).symm
      valid := ⟨h2.valid.1, fun hl =>
        have := h2.valid.2 hl
        ⟨this.1, this.2.1, this.2.2.1, this.2.2.2.1, fun hd => g3 (this.2.2.2.2 hd)⟩⟩ }
  · rw [info_map, dim_map]
    exact shape (fun j hj => e j (by revert j; decide)) h3

theorem kids_iff {xs : List Xml} {l : List RegisterCluster} : KidsSay oc ne lvl xs l ↔
    Pairs (TreeSays oc ne lvl) (xs.filter fun x => x.hasTag "register" || x.hasTag "cluster") l := by
  have tags : ∀ {x n}, TreeSays oc ne lvl x n → (x.hasTag "register" || x.hasTag "cluster") = true := by
    intro x n h
    cases h with
    | register h => rw [h.1]; rfl
    | cluster => simp [hasTag]
  induction xs generalizing l with
  | nil =>
    constructor
    · intro h; cases h; exact .nil
    · intro h; cases h; exact .nil
  | cons x xs ih =>
    constructor
    · intro h
      cases h with
      | skip h1 h2 h3 =>
        rw [List.filter_cons, if_neg (by rw [h1, h2]; decide)]
        exact ih.mp h3
      | cons h1 h2 =>
        rw [List.filter_cons, if_pos (tags h1)]
        exact .cons h1 (ih.mp h2)
    · intro h
      by_cases hx : (x.hasTag "register" || x.hasTag "cluster") = true
      · rw [List.filter_cons, if_pos hx] at h
        cases h with
        | cons h1 h2 => exact .cons h1 (ih.mpr h2)
      · rw [List.filter_cons, if_neg hx] at h
        rw [Bool.or_eq_true, not_or, Bool.not_eq_true, Bool.not_eq_true] at hx
        exact .skip hx.1 hx.2 (ih.mpr h)

theorem tree_register {x : Xml} {n : RegisterCluster} (ht : x.tag = "register") (h : TreeSays oc ne lvl x n) :
    ∃ r, n = .register r ∧ ArraySays lvl "register" (RegisterSays oc ne lvl) RegisterInfo.name x r := by
  cases h with
  | register h => exact ⟨_, rfl, h⟩
  | cluster => exact absurd (show "cluster" = "register" from ht) (by decide)

theorem cluster {as : List (String × Str)} {xs ys : List Xml}
    (hb : But ["register", "cluster"] (.elem "cluster" as xs) (.elem "cluster" as ys))
    (hm : ∀ l, KidsSay oc ne lvl xs l → ∃ l', KidsSay oc ne lvl ys l' ∧ RcsShuffled l l')
    {n : RegisterCluster} (h : TreeSays oc ne lvl (.elem "cluster" as xs) n) :
    ∃ n', TreeSays oc ne lvl (.elem "cluster" as ys) n' ∧ RcShuffled n n' := by
  have e : ∀ j, j ∉ ["register", "cluster"] → getChild (.elem "cluster" as ys) j = getChild (.elem "cluster" as xs) j :=
    fun _ => hb.child
  cases h with
  | register h => exact absurd (show ("cluster" == "register") = true from h.1) (by decide)
  | @cluster _ _ hd d cs h1 h2 h3 h4 =>
    obtain ⟨cs', g1, g2⟩ := hm cs h3
    refine ⟨.cluster hd d cs', .cluster ?_ (shape (fun j hj => e j (by revert j; decide)) h2) g1 ?_, .cluster g2⟩
    · exact {
        name := text (e _ (by decide)) h1.name
        description := nonblank (e _ (by decide)) h1.description
        alternateCluster := nonblank (e _ (by decide)) h1.alternateCluster
        headerStructName := nonblank (e _ (by decide)) h1.headerStructName
        addressOffset := req (e _ (by decide)) h1.addressOffset
        properties := props (fun j hj => e j (by revert j; decide)) h1.properties
        derivedFrom := h1.derivedFrom }
    · exact ⟨h4.1, fun hl =>
        have := h4.2 hl
        ⟨this.1, this.2.1, fun hn => mixed_ne (rcs_iff.mp g2) (this.2.2 hn)⟩⟩

theorem peripheral {x y : Xml} (hb : But ["registers"] x y)
    (hc : y.getChild "registers" = x.getChild "registers" ∨ ∃ c c', x.getChild "registers" = some c ∧
      y.getChild "registers" = some c' ∧ ∀ l, Pairs (TreeSays oc ne lvl) (c.children.filter isElement) l →
        ∃ l', Pairs (TreeSays oc ne lvl) (c'.children.filter isElement) l' ∧ Mixed RcShuffled l l')
    {p : Peripheral} (h : ArraySays lvl "peripheral" (PeripheralSays oc ne lvl) PeripheralInfo.name x p) :
    ∃ p', ArraySays lvl "peripheral" (PeripheralSays oc ne lvl) PeripheralInfo.name y p' ∧ PeripheralShuffled p p' := by
  obtain ⟨h1, h2, h3⟩ := h
  have e : ∀ j, j ∉ ["registers"] → y.getChild j = x.getChild j := fun _ => hb.child
  have key : ∃ rs, OptList (TreeSays oc ne lvl) y "registers" rs ∧
      RegistersShuffled p.info.registers rs ∧ (p.info.registers ≠ some [] → rs ≠ some []) := by
    rcases optList (S := RcShuffled) hc rc_refl h2.registers with ⟨g1, g2⟩ | ⟨l, l', g1, g2, g3⟩
    · exact ⟨none, g2, by rw [g1]; exact .none, fun _ => nofun⟩
    · refine ⟨some l', g2, by rw [g1]; exact .some (rcs_iff.mpr g3), fun hn e => ?_⟩
      cases e
      rw [g1] at hn
      exact mixed_ne g3 (fun e => hn (by rw [e])) rfl
  obtain ⟨rs, g1, g2, g3⟩ := key
  refine ⟨p.mapInfo fun i => { i with registers := rs }, ⟨(hb.tag _).trans h1, ?_, ?_⟩, rs, g2, rfl⟩
  · rw [info_map]
    exact {
      name := text (e _ (by decide)) h2.name
      displayName := nonblank (e _ (by decide)) h2.displayName
      version := nonblank (e _ (by decide)) h2.version
      description := nonblank (e _ (by decide)) h2.description
      alternatePeripheral := nonblank (e _ (by decide)) h2.alternatePeripheral
      groupName := nonblank (e _ (by decide)) h2.groupName
      prependToName := nonblank (e _ (by decide)) h2.prependToName
      appendToName := nonblank (e _ (by decide)) h2.appendToName
      headerStructName := nonblank (e _ (by decide)) h2.headerStructName
      baseAddress := req (e _ (by decide)) h2.baseAddress
      properties := props (fun j hj => e j (by revert j; decide)) h2.properties
      addressBlock := by
        have := h2.addressBlock
        simp only [hb.kids "addressBlock" (by decide)]
        exact this
      interrupt := by rw [hb.kids "interrupt" (by decide)]; exact h2.interrupt
      registers := g1
      derivedFrom := h2.derivedFrom.trans (hb.attr _).symm
      valid := ⟨h2.valid.1, fun hl =>
        have := h2.valid.2 hl
        ⟨this.1, this.2.1, fun hd => g3 (this.2.2 hd)⟩⟩ }
  · rw [info_map, dim_map]
    exact shape (fun j hj => e j (by revert j; decide)) h3

theorem orDefault {α : Type} {a dflt : α} {P Q : Option α → Prop} (hpq : ∀ o, P o → Q o) (h : OrDefault lvl dflt P a) :
    OrDefault lvl dflt Q a := h.imp (hpq _) fun h => ⟨hpq _ h.1, h.2⟩

theorem device {x y : Xml} (hb : But ["peripherals"] x y)
    (hc : y.getChild "peripherals" = x.getChild "peripherals" ∨ ∃ c c', x.getChild "peripherals" = some c ∧
      y.getChild "peripherals" = some c' ∧ ∀ l, Pairs (ArraySays lvl "peripheral" (PeripheralSays oc ne lvl)
          PeripheralInfo.name) (c.children.filter isElement) l →
        ∃ l', Pairs (ArraySays lvl "peripheral" (PeripheralSays oc ne lvl) PeripheralInfo.name)
          (c'.children.filter isElement) l' ∧ Mixed PeripheralShuffled l l')
    {d : Device} (h : DeviceSays oc ne lvl x d) : ∃ d', DeviceSays oc ne lvl y d' ∧ DeviceShuffled d d' := by
  have e : ∀ j, j ∉ ["peripherals"] → y.getChild j = x.getChild j := fun _ => hb.child
  have key : ∃ ps, ReqChild (fun c l => Pairs (ArraySays lvl "peripheral" (PeripheralSays oc ne lvl)
      PeripheralInfo.name) (c.children.filter isElement) l) y "peripherals" ps ∧
      Mixed PeripheralShuffled d.peripherals ps := by
    rcases optList (o := some d.peripherals) hc peripheral_refl h.peripherals with ⟨g1, _⟩ | ⟨l, l', g1, g2, g3⟩
    · cases g1
    · cases g1
      exact ⟨l', g2, g3⟩
  obtain ⟨ps, g1, g2⟩ := key
  refine ⟨{ d with peripherals := ps }, ?_, ps, g2, rfl⟩
  exact {
    tag := (hb.tag _).trans h.tag
    vendor := optText (e _ (by decide)) h.vendor
    vendorId := optText (e _ (by decide)) h.vendorId
    name := text (e _ (by decide)) h.name
    series := optText (e _ (by decide)) h.series
    version := orDefault (fun _ => optText (e _ (by decide))) h.version
    description := orDefault (fun _ => optText (e _ (by decide))) h.description
    licenseText := optText (e _ (by decide)) h.licenseText
    cpu := opt (e _ (by decide)) h.cpu
    headerSystemFilename := optText (e _ (by decide)) h.headerSystemFilename
    headerDefinitionsPrefix := optText (e _ (by decide)) h.headerDefinitionsPrefix
    addressUnitBits := orDefault (fun _ => opt (e _ (by decide))) h.addressUnitBits
    width := orDefault (fun _ => opt (e _ (by decide))) h.width
    properties := props (fun j hj => e j (by revert j; decide)) h.properties
    peripherals := g1
    schemaVersion := h.schemaVersion.trans (by rw [hb.attr])
    xmlnsXs := h.xmlnsXs.trans (by rw [hb.attr])
    schemaLocation := h.schemaLocation.trans (by rw [hb.attr, hb.attr])
    valid := ⟨fun hl => mixed_ne g2 (h.valid.1 hl), h.valid.2⟩ }
end

/-! ## Swaps -/

theorem swapped_symm {x y : Xml} (h : Swapped x y) : Swapped y x := by
  induction h with
  | items as as₁ as₂ pre post cs₁ cs₂ hl => exact .items as as₂ as₁ pre post cs₂ cs₁ (hl.imp_right fun h => ⟨h.1, h.2.2, h.2.1⟩)
  | inside as as₁ as₂ pre post cs₁ cs₂ hl _ ih => exact .inside as as₂ as₁ pre post cs₂ cs₁ hl ih

section
variable {tag a b : String} {ks : List String} (as as₁ as₂ : List (String × Str)) (pre post cs₁ cs₂ : List Xml)

theorem but_items (ha : a ∈ ks) (hb : b ∈ ks) :
    But ks (.elem tag as (pre ++ .elem a as₁ cs₁ :: .elem b as₂ cs₂ :: post))
      (.elem tag as (pre ++ .elem b as₂ cs₂ :: .elem a as₁ cs₁ :: post)) where
  tag _ := rfl
  attr _ := rfl
  kids j hj := by
    have h1 : (a == j) = false := beq_false_of_ne fun e => hj (e ▸ ha)
    have h2 : (b == j) = false := beq_false_of_ne fun e => hj (e ▸ hb)
    simp [children, List.filter_append, hasTag, h1, h2]

theorem but_inside (ha : a ∈ ks) :
    But ks (.elem tag as (pre ++ .elem a as₁ cs₁ :: post)) (.elem tag as (pre ++ .elem a as₂ cs₂ :: post)) where
  tag _ := rfl
  attr _ := rfl
  kids j hj := by
    have h1 : (a == j) = false := beq_false_of_ne fun e => hj (e ▸ ha)
    simp [children, List.filter_append, hasTag, h1]

theorem child_inside : getChild (.elem tag as (pre ++ .elem a as₂ cs₂ :: post)) a =
      getChild (.elem tag as (pre ++ .elem a as₁ cs₁ :: post)) a ∨
    getChild (.elem tag as (pre ++ .elem a as₁ cs₁ :: post)) a = some (.elem a as₁ cs₁) ∧
      getChild (.elem tag as (pre ++ .elem a as₂ cs₂ :: post)) a = some (.elem a as₂ cs₂) := by
  simp only [getChild, children, List.find?_append]
  cases pre.find? (hasTag a) with
  | some c => exact .inl rfl
  | none => exact .inr (by simp [hasTag])

theorem mixed_items (q : Xml → Bool) :
    Mixed Eq ((pre ++ .elem a as₁ cs₁ :: .elem b as₂ cs₂ :: post).filter q)
      ((pre ++ .elem b as₂ cs₂ :: .elem a as₁ cs₁ :: post).filter q) := by
  refine shuffled_iff.mpr ⟨_, pairs_refl (fun _ => rfl) _, ?_⟩
  exact List.Perm.filter _ (List.Perm.append_left _ (.swap ..))

theorem mixed_inside (q : Xml → Bool) (h1 : q (.elem a as₁ cs₁) = true) (h2 : q (.elem a as₂ cs₂) = true) :
    Mixed (fun c d => c = d ∨ c = .elem a as₁ cs₁ ∧ d = .elem a as₂ cs₂)
      ((pre ++ .elem a as₁ cs₁ :: post).filter q) ((pre ++ .elem a as₂ cs₂ :: post).filter q) := by
  rw [List.filter_append, List.filter_append, List.filter_cons, List.filter_cons, if_pos h1, if_pos h2]
  exact append (of_pairs (pairs_refl (fun _ => .inl rfl) _))
    (.cons (m₁ := []) (.inr ⟨rfl, rfl⟩) (of_pairs (pairs_refl (fun _ => .inl rfl) _)))
end

/-- What is read from the second element if something is read from the first. -/
structure Follows (oc ne : Bool) (lvl : ValidateLevel) (tag : String) (x y : Xml) : Prop where
  fields : tag = "fields" → Mixed Eq (x.children.filter isElement) (y.children.filter isElement)
  tree : tag = "register" ∨ tag = "cluster" → ∀ n, TreeSays oc ne lvl x n →
    ∃ n', TreeSays oc ne lvl y n' ∧ RcShuffled n n'
  registers : tag = "registers" → ∀ l, Pairs (TreeSays oc ne lvl) (x.children.filter isElement) l →
    ∃ l', Pairs (TreeSays oc ne lvl) (y.children.filter isElement) l' ∧ Mixed RcShuffled l l'
  peripheral : tag = "peripheral" → ∀ p, ArraySays lvl "peripheral" (PeripheralSays oc ne lvl) PeripheralInfo.name x p →
    ∃ p', ArraySays lvl "peripheral" (PeripheralSays oc ne lvl) PeripheralInfo.name y p' ∧ PeripheralShuffled p p'
  peripherals : tag = "peripherals" → ∀ l, Pairs (ArraySays lvl "peripheral" (PeripheralSays oc ne lvl)
      PeripheralInfo.name) (x.children.filter isElement) l →
    ∃ l', Pairs (ArraySays lvl "peripheral" (PeripheralSays oc ne lvl) PeripheralInfo.name)
      (y.children.filter isElement) l' ∧ Mixed PeripheralShuffled l l'
  device : tag = "device" → ∀ d, DeviceSays oc ne lvl x d → ∃ d', DeviceSays oc ne lvl y d' ∧ DeviceShuffled d d'

theorem same {α : Type} {R : Xml → α → Prop} {S : α → α → Prop} {l m : List Xml} {as : List α} (hr : ∀ a, S a a)
    (h : Mixed Eq l m) (hp : Pairs R l as) : ∃ bs, Pairs R m bs ∧ Mixed S as bs :=
  through h hp fun _ _ c e hc => ⟨c, e ▸ hc, hr c⟩

theorem one {α : Type} {R : Xml → α → Prop} {S : α → α → Prop} {l m : List Xml} {as : List α} {c d : Xml}
    (hr : ∀ a, S a a) (h : Mixed (fun a b => a = b ∨ a = c ∧ b = d) l m)
    (hs : ∀ a, R c a → ∃ b, R d b ∧ S a b) (hp : Pairs R l as) : ∃ bs, Pairs R m bs ∧ Mixed S as bs := by
  refine through h hp fun a b n e hn => ?_
  rcases e with rfl | ⟨rfl, rfl⟩
  · exact ⟨n, hn, hr n⟩
  · exact hs n hn

theorem follows {oc ne : Bool} {lvl : ValidateLevel} {x y : Xml} (h : Swapped x y) : Follows oc ne lvl x.tag x y := by
  induction h with
  | @items tag a b as as₁ as₂ pre post cs₁ cs₂ hl =>
    have hm := mixed_items (a := a) (b := b) as₁ as₂ pre post cs₁ cs₂ isElement
    show Follows oc ne lvl tag _ _
    rcases hl with ht | ⟨rfl, ha, hb⟩
    · have no : ∀ t, t ∉ ["peripherals", "registers", "fields"] → tag ≠ t := fun t h e => h (e ▸ ht)
      exact {
        fields := fun _ => hm
        tree := fun h => h.elim (fun h => absurd h (no _ (by decide))) (fun h => absurd h (no _ (by decide)))
        registers := fun _ l => same rc_refl hm
        peripheral := fun h => absurd h (no _ (by decide))
        peripherals := fun _ l => same peripheral_refl hm
        device := fun h => absurd h (no _ (by decide)) }
    · refine ⟨fun h => absurd h (by decide), fun _ n hn => ?_, fun h => absurd h (by decide),
        fun h => absurd h (by decide), fun h => absurd h (by decide), fun h => absurd h (by decide)⟩
      refine cluster (but_items as as₁ as₂ pre post cs₁ cs₂ ha hb) (fun l hk => ?_) hn
      obtain ⟨l', h1, h2⟩ := same rc_refl (mixed_items as₁ as₂ pre post cs₁ cs₂ _) (kids_iff.mp hk)
      exact ⟨l', kids_iff.mpr h1, rcs_iff.mpr h2⟩
  | @inside tag a as as₁ as₂ pre post cs₁ cs₂ hl hs ih =>
    change Follows oc ne lvl a _ _ at ih
    show Follows oc ne lvl tag _ _
    have hm := mixed_inside (a := a) as₁ as₂ pre post cs₁ cs₂ isElement rfl rfl
    have hc := child_inside (tag := tag) (a := a) as as₁ as₂ pre post cs₁ cs₂
    have hb : ∀ {ks : List String}, a ∈ ks → But ks (.elem tag as (pre ++ .elem a as₁ cs₁ :: post))
      (.elem tag as (pre ++ .elem a as₂ cs₂ :: post)) := fun h => but_inside as as₁ as₂ pre post cs₁ cs₂ h
    have tree : tag = "cluster" → a = "register" ∨ a = "cluster" → Follows oc ne lvl tag
        (.elem tag as (pre ++ .elem a as₁ cs₁ :: post)) (.elem tag as (pre ++ .elem a as₂ cs₂ :: post)) := by
      rintro rfl ha
      have ha' : a ∈ ["register", "cluster"] := by simpa using ha
      refine ⟨fun h => absurd h (by decide), fun _ n hn => ?_, fun h => absurd h (by decide),
        fun h => absurd h (by decide), fun h => absurd h (by decide), fun h => absurd h (by decide)⟩
      refine cluster (hb ha') (fun l hk => ?_) hn
      have tags : ∀ {as cs}, (hasTag "register" (.elem a as cs) || hasTag "cluster" (.elem a as cs)) = true := by
        intro as cs
        simpa [hasTag] using ha
      obtain ⟨l', h1, h2⟩ := one rc_refl (mixed_inside as₁ as₂ pre post cs₁ cs₂ _ tags tags) (ih.tree ha) (kids_iff.mp hk)
      exact ⟨l', kids_iff.mpr h1, rcs_iff.mpr h2⟩
    have regs : tag = "registers" → a = "register" ∨ a = "cluster" → Follows oc ne lvl tag
        (.elem tag as (pre ++ .elem a as₁ cs₁ :: post)) (.elem tag as (pre ++ .elem a as₂ cs₂ :: post)) := by
      rintro rfl ha
      exact ⟨fun h => absurd h (by decide), fun h => absurd h (by decide), fun _ l => one rc_refl hm (ih.tree ha),
        fun h => absurd h (by decide), fun h => absurd h (by decide), fun h => absurd h (by decide)⟩
    simp only [onTheWay, List.mem_cons, Prod.mk.injEq, List.not_mem_nil, or_false] at hl
    rcases hl with ⟨rfl, rfl⟩ | ⟨rfl, rfl⟩ | ⟨rfl, rfl⟩ | ⟨rfl, rfl⟩ | ⟨rfl, rfl⟩ | ⟨rfl, rfl⟩ | ⟨rfl, rfl⟩ | ⟨rfl, rfl⟩
    · refine ⟨fun h => absurd h (by decide), fun h => absurd h (by decide), fun h => absurd h (by decide),
        fun h => absurd h (by decide), fun h => absurd h (by decide), fun _ d hd => ?_⟩
      exact device (hb (by decide)) (hc.imp_right fun h => ⟨_, _, h.1, h.2, ih.peripherals rfl⟩) hd
    · exact ⟨fun h => absurd h (by decide), fun h => absurd h (by decide), fun h => absurd h (by decide),
        fun h => absurd h (by decide), fun _ l => one peripheral_refl hm (ih.peripheral rfl), fun h => absurd h (by decide)⟩
    · refine ⟨fun h => absurd h (by decide), fun h => absurd h (by decide), fun h => absurd h (by decide),
        fun _ p hp => ?_, fun h => absurd h (by decide), fun h => absurd h (by decide)⟩
      exact peripheral (hb (by decide)) (hc.imp_right fun h => ⟨_, _, h.1, h.2, ih.registers rfl⟩) hp
    · exact regs rfl (.inl rfl)
    · exact regs rfl (.inr rfl)
    · exact tree rfl (.inl rfl)
    · exact tree rfl (.inr rfl)
    · refine ⟨fun h => absurd h (by decide), fun _ n hn => ?_, fun h => absurd h (by decide),
        fun h => absurd h (by decide), fun h => absurd h (by decide), fun h => absurd h (by decide)⟩
      obtain ⟨r, rfl, h⟩ := tree_register rfl hn
      obtain ⟨r', h1, h2⟩ := register (hb (by decide)) (hc.imp_right fun h => ⟨_, _, h.1, h.2, ih.fields rfl⟩) h
      exact ⟨.register r', .register h1, .register h2⟩

end Rearrange

theorem Rearrange.rearranged_tag {x y : Xml} (h : Rearranged x y) : ∀ k, x.hasTag k = y.hasTag k := by
  induction h with
  | shuffled h => exact fun k => by rw [← canon_hasTag k, canon_of_shuffled h, canon_hasTag]
  | swapped h => intro k; cases h <;> rfl
  | symm _ ih => exact fun k => (ih k).symm
  | trans _ _ ih1 ih2 => exact fun k => (ih1 k).trans (ih2 k)

/-! ## Theorems -/

open Rearrange Shuffle in
/-- **C86.** If a device is read from one of two documents that differ in the order of things only, one is read from
the other, and the two devices differ in the order of things only. -/
theorem C86_read (oc : Bool) (cfg : ParseConfig) {x y : Xml} (h : Rearranged x y) :
    (∀ d, parseDevice oc cfg x = .ok d → ∃ e, parseDevice oc cfg y = .ok e ∧ DeviceShuffled d e) ∧
    ∀ e, parseDevice oc cfg y = .ok e → ∃ d, parseDevice oc cfg x = .ok d ∧ DeviceShuffled d e := by
  have step : ∀ {x y : Xml}, Swapped x y → ∀ d, parseDevice oc cfg x = .ok d →
      ∃ e, parseDevice oc cfg y = .ok e ∧ DeviceShuffled d e := by
    intro x y h d hd
    have hs := (C60_device oc cfg x d).mp hd
    have ht : x.tag = "device" := by
      have := hs.tag
      cases x <;> simp_all [hasTag, tag]
    obtain ⟨e, h1, h2⟩ := (follows h).device ht d hs
    exact ⟨e, (C60_device oc cfg y e).mpr h1, h2⟩
  induction h with
  | shuffled h =>
    rw [C71_element oc cfg h]
    exact ⟨fun d hd => ⟨d, hd, device_refl d⟩, fun d hd => ⟨d, hd, device_refl d⟩⟩
  | swapped h =>
    refine ⟨step h, fun e he => ?_⟩
    obtain ⟨d, h1, h2⟩ := step (swapped_symm h) e he
    exact ⟨d, h1, device_flip h2⟩
  | symm _ ih =>
    constructor
    · intro d hd
      obtain ⟨e, h1, h2⟩ := ih.2 d hd
      exact ⟨e, h1, device_flip h2⟩
    · intro d hd
      obtain ⟨e, h1, h2⟩ := ih.1 d hd
      exact ⟨e, h1, device_flip h2⟩
  | trans _ _ ih1 ih2 =>
    constructor
    · intro d hd
      obtain ⟨e, h1, h2⟩ := ih1.1 d hd
      obtain ⟨f, h3, h4⟩ := ih2.1 e h1
      exact ⟨f, h3, device_trans h2 h4⟩
    · intro d hd
      obtain ⟨e, h1, h2⟩ := ih2.2 d hd
      obtain ⟨f, h3, h4⟩ := ih1.2 e h1
      exact ⟨f, h3, device_trans h4 h2⟩

open Rearrange Shuffle in
/-- **C86**, for a document. -/
theorem C86_document (oc : Bool) (cfg : ParseConfig) {x y : Xml} (h : Rearranged x y) (pre post : List Xml) :
    (∀ d, parseDocument oc cfg (pre ++ x :: post) = .ok d →
      ∃ e, parseDocument oc cfg (pre ++ y :: post) = .ok e ∧ DeviceShuffled d e) ∧
    ∀ e, parseDocument oc cfg (pre ++ y :: post) = .ok e →
      ∃ d, parseDocument oc cfg (pre ++ x :: post) = .ok d ∧ DeviceShuffled d e := by
  have ht : ∀ k, x.hasTag k = y.hasTag k := rearranged_tag h
  unfold parseDocument
  rw [List.find?_append, List.find?_append, List.find?_cons, List.find?_cons, ht]
  cases pre.find? (hasTag "device") with
  | some z => exact ⟨fun d hd => ⟨d, hd, device_refl d⟩, fun d hd => ⟨d, hd, device_refl d⟩⟩
  | none =>
    cases y.hasTag "device" with
    | true => exact C86_read oc cfg h
    | false => exact ⟨fun d hd => ⟨d, hd, device_refl d⟩, fun d hd => ⟨d, hd, device_refl d⟩⟩

namespace Rearrange
open Shuffle

theorem fill_register {dflt : RegisterProperties} {r r' : Register} (h : RegisterShuffled r r') :
    RegisterShuffled (expandPropertiesRegister dflt r) (expandPropertiesRegister dflt r') := by
  obtain ⟨fs, h, rfl⟩ := h
  unfold expandPropertiesRegister
  rw [info_map]
  dsimp only
  split
  · exact ⟨fs, h, rfl⟩
  · refine ⟨fs, by rw [info_map]; exact h, ?_⟩
    cases r <;> rfl

mutual
theorem fill_rc {c c' : RegisterCluster} : RcShuffled c c' → ∀ dflt,
    RcShuffled (expandPropertiesRC dflt c) (expandPropertiesRC dflt c')
  | .register h, dflt => by
    unfold expandPropertiesRC
    exact .register (fill_register h)
  | .cluster (h := hd) h, dflt => by
    unfold expandPropertiesRC
    split
    · exact .cluster h
    · exact .cluster (rcs_iff.mpr (fill_rcs h _))
theorem fill_rcs {l m : List RegisterCluster} : RcsShuffled l m → ∀ dflt,
    Mixed RcShuffled (expandPropertiesRCs dflt l) (expandPropertiesRCs dflt m)
  | .nil, dflt => by
    unfold expandPropertiesRCs
    exact .nil
  | .cons (m₁ := m₁) (m₂ := m₂) h1 h2, dflt => by
    have h3 := fill_rcs h2 dflt
    have h4 := fill_rc h1 dflt
    have e : ∀ l, expandPropertiesRCs dflt l = l.map (expandPropertiesRC dflt) := by
      intro l
      induction l with
      | nil => rfl
      | cons a l ih => rw [expandPropertiesRCs, ih]; rfl
    simp only [e, List.map_append, List.map_cons] at h3 ⊢
    exact .cons h4 h3
end

theorem fill_device {d e : Device} (h : DeviceShuffled d e) : DeviceShuffled (expandProperties d) (expandProperties e) := by
  obtain ⟨ps, h, rfl⟩ := h
  refine ⟨_, ?_, rfl⟩
  refine map h fun p p' hp => ?_
  obtain ⟨rs, h1, rfl⟩ := hp
  unfold expandPropertiesPeripheral
  rw [info_map]
  dsimp only
  split
  · exact ⟨rs, h1, rfl⟩
  · refine ⟨rs.map (expandPropertiesRCs (p.info.defaultRegisterProperties.deriveFrom d.defaultRegisterProperties)), ?_, ?_⟩
    · rw [info_map]
      dsimp only
      generalize p.info.registers = o at h1
      cases h1 with
      | none => exact .none
      | some h => exact .some (rcs_iff.mpr (fill_rcs h _))
    · cases p <;> rfl

theorem fill_if {d e : Device} (b : Bool) (h : DeviceShuffled d e) :
    DeviceShuffled (if b then expandProperties d else d) (if b then expandProperties e else e) := by
  cases b
  · exact h
  · exact fill_device h

theorem unambiguous_if {d : Device} (b : Bool) (h : Unambiguous d) :
    Unambiguous (if b then expandProperties d else d) := by
  cases b
  · exact h
  · exact FillPaths.unambiguous h

end Rearrange

open Rearrange Shuffle in
/-- **C86**, with everything that can follow reading: if no path is ambiguous in the device that was read, both
documents give a device or neither does, and the devices differ in order only. -/
theorem C86_expanded (cfg : ParseConfig) {x y : Xml} (h : Rearranged x y) (pre post : List Xml)
    (hu : cfg.expand = true → ∀ d, parseDocument true cfg (pre ++ x :: post) = .ok d → Unambiguous d) :
    (∀ fuel d, parseWithConfig true fuel cfg (pre ++ x :: post) = .ok d →
      ∃ fuel' e, parseWithConfig true fuel' cfg (pre ++ y :: post) = .ok e ∧ DeviceShuffled d e) ∧
    ∀ fuel e, parseWithConfig true fuel cfg (pre ++ y :: post) = .ok e →
      ∃ fuel' d, parseWithConfig true fuel' cfg (pre ++ x :: post) = .ok d ∧ DeviceShuffled d e := by
  have hd := C86_document true cfg h pre post
  unfold parseWithConfig
  constructor
  · intro fuel d h
    obtain ⟨d0, h1, h2⟩ := bind_ok.mp h
    obtain ⟨e0, h3, h4⟩ := hd.1 d0 h1
    have h4 := fill_if cfg.expandProperties h4
    cases hx : cfg.expand with
    | false =>
      rw [hx] at h2
      cases h2
      exact ⟨0, _, bind_ok.mpr ⟨e0, h3, rfl⟩, h4⟩
    | true =>
      rw [hx] at h2
      obtain ⟨n, e, h5, h6⟩ := (C85_order _ _ d h4 (unambiguous_if _ (hu hx d0 h1))).1 fuel h2
      exact ⟨n, e, bind_ok.mpr ⟨e0, h3, h5⟩, h6⟩
  · intro fuel d h
    obtain ⟨e0, h1, h2⟩ := bind_ok.mp h
    obtain ⟨d0, h3, h4⟩ := hd.2 e0 h1
    have h4 := fill_if cfg.expandProperties h4
    cases hx : cfg.expand with
    | false =>
      rw [hx] at h2
      cases h2
      exact ⟨0, _, bind_ok.mpr ⟨d0, h3, rfl⟩, h4⟩
    | true =>
      rw [hx] at h2
      obtain ⟨n, e, h5, h6⟩ := (C85_order _ _ d h4 (unambiguous_if _ (hu hx d0 h3))).2 fuel h2
      exact ⟨n, e, bind_ok.mpr ⟨d0, h3, h5⟩, device_flip h6⟩

open Rearrange Shuffle in
/-- **C86**, the same without overflow checks, up to positions that may have overflowed. -/
theorem C86_unchecked (cfg : ParseConfig) {x y : Xml} (h : Rearranged x y) (pre post : List Xml)
    (hu : cfg.expand = true → ∀ d, parseDocument false cfg (pre ++ x :: post) = .ok d → Unambiguous d) :
    (∀ fuel d, parseWithConfig false fuel cfg (pre ++ x :: post) = .ok d →
      ∃ fuel' e, parseWithConfig false fuel' cfg (pre ++ y :: post) = .ok e ∧ DeviceShuffled (ground d) (ground e)) ∧
    ∀ fuel e, parseWithConfig false fuel cfg (pre ++ y :: post) = .ok e →
      ∃ fuel' d, parseWithConfig false fuel' cfg (pre ++ x :: post) = .ok d ∧ DeviceShuffled (ground d) (ground e) := by
  have hd := C86_document false cfg h pre post
  unfold parseWithConfig
  constructor
  · intro fuel d h
    obtain ⟨d0, h1, h2⟩ := bind_ok.mp h
    obtain ⟨e0, h3, h4⟩ := hd.1 d0 h1
    have h4 := fill_if cfg.expandProperties h4
    cases hx : cfg.expand with
    | false =>
      rw [hx] at h2
      cases h2
      exact ⟨0, _, bind_ok.mpr ⟨e0, h3, rfl⟩, device_ground h4⟩
    | true =>
      rw [hx] at h2
      obtain ⟨n, e, h5, h6, _⟩ := (C85_unchecked _ _ h4 (unambiguous_if _ (hu hx d0 h1))).1 fuel d h2
      exact ⟨n, e, bind_ok.mpr ⟨e0, h3, h5⟩, h6⟩
  · intro fuel d h
    obtain ⟨e0, h1, h2⟩ := bind_ok.mp h
    obtain ⟨d0, h3, h4⟩ := hd.2 e0 h1
    have h4 := fill_if cfg.expandProperties h4
    cases hx : cfg.expand with
    | false =>
      rw [hx] at h2
      cases h2
      exact ⟨0, _, bind_ok.mpr ⟨d0, h3, rfl⟩, device_ground h4⟩
    | true =>
      rw [hx] at h2
      obtain ⟨n, e, h5, h6, _⟩ := (C85_unchecked _ _ h4 (unambiguous_if _ (hu hx d0 h3))).2 fuel d h2
      exact ⟨n, e, bind_ok.mpr ⟨d0, h3, h5⟩, device_flip h6⟩

/-! ## Examples -/

/-- Two peripherals, the second derived from the first; its registers `R` with two fields and `S`, and a cluster with
a register and another cluster.  The flags say what is swapped. -/
def listDoc (ps rs cs fs : Bool) : Xml :=
  let sw (b : Bool) (l : List Xml) : List Xml := if b then l.reverse else l
  .elem "device" [] [leafOf "name" "dev", .elem "peripherals" [] (sw ps [
    .elem "peripheral" [] [leafOf "name" "P", leafOf "baseAddress" "0x10", .elem "registers" [] (sw rs
      [.elem "register" [] [leafOf "name" "R", leafOf "addressOffset" "4", .elem "fields" [] (sw fs
         [.elem "field" [] [leafOf "name" "F", leafOf "bitRange" "[1:0]"],
          .elem "field" [] [leafOf "name" "G", leafOf "bitRange" "[3:2]"]])],
       .elem "cluster" [] ([leafOf "name" "C", leafOf "addressOffset" "8"] ++ sw cs
         [.elem "cluster" [] [leafOf "name" "D", leafOf "addressOffset" "0",
           .elem "register" [] [leafOf "name" "T", leafOf "addressOffset" "4"]],
          .elem "register" [] [leafOf "name" "S", leafOf "addressOffset" "8"]])])],
    .elem "peripheral" [("derivedFrom", "P".toList)] [leafOf "name" "Q", leafOf "baseAddress" "0x100"]])]

theorem listDoc_rearranged : Rearranged (listDoc false false false false) (listDoc true true true true) := by
  have h1 : Swapped (listDoc false false false false) (listDoc true false false false) :=
    .inside [] [] [] [_] [] _ _ (by decide) (.items [] [] _ [] [] _ _ (.inl (by decide)))
  have h2 : Swapped (listDoc true false false false) (listDoc true true false false) :=
    .inside [] [] [] [_] [] _ _ (by decide) (.inside [] [] [] [_] [] _ _ (by decide)
      (.inside [] [] [] [_, _] [] _ _ (by decide) (.items [] [] _ [] [] _ _ (.inl (by decide)))))
  have h3 : Swapped (listDoc true true false false) (listDoc true true true false) :=
    .inside [] [] [] [_] [] _ _ (by decide) (.inside [] [] [] [_] [] _ _ (by decide)
      (.inside [] [] [] [_, _] [] _ _ (by decide) (.inside [] [] [] [] [_] _ _ (by decide)
        (.items [] [] _ [_, _] [] _ _ (.inr (by decide))))))
  have h4 : Swapped (listDoc true true true false) (listDoc true true true true) :=
    .inside [] [] [] [_] [] _ _ (by decide) (.inside [] [] [] [_] [] _ _ (by decide)
      (.inside [] [] [] [_, _] [] _ _ (by decide) (.inside [] [] [] [_] [] _ _ (by decide)
        (.inside [] [] [] [_, _] [] _ _ (by decide) (.items [] [] _ [] [] _ _ (.inl (by decide)))))))
  exact (.trans (.swapped h1) (.trans (.swapped h2) (.trans (.swapped h3) (.swapped h4))))

-- The two are read as devices that differ in order, which really do.
example : ∃ d e, parseDevice true {} (listDoc false false false false) = .ok d ∧
    parseDevice true {} (listDoc true true true true) = .ok e ∧ DeviceShuffled d e ∧ d ≠ e := by
  obtain ⟨d, h⟩ := ok_of_isOk (x := parseDevice true {} (listDoc false false false false)) (by decide +kernel)
  obtain ⟨e, h1, h2⟩ := (C86_read true {} listDoc_rearranged).1 d h
  refine ⟨d, e, h, h1, h2, ?_⟩
  rintro rfl
  exact absurd (h.trans h1.symm) (by decide +kernel)

/-- All paths in a device are different, computed. -/
def namesDiffer (d : Device) : Bool :=
  decide (((allPeripherals namesOf d).map (·.1)).Nodup ∧ ((allClusters namesOf d).map (·.1)).Nodup ∧
    ((allRegisterPaths namesOf d).map (·.1)).Nodup ∧ ((allFields namesOf d).map (·.1)).Nodup ∧
    ((allEnums namesOf d).map (·.1)).Nodup ∧
    ∀ r ∈ (allRegisterPaths namesOf d).map (·.2), ((r.info.fields.getD []).flatMap Shuffle.groupNames).Nodup)

theorem differ_unambiguous {d : Device} (h : namesDiffer d = true) : Unambiguous d := by
  obtain ⟨h1, h2, h3, h4, h5, h6⟩ := of_decide_eq_true h
  exact Shuffle.unambiguous h1 h2 h3 h4 h5 h6

-- And they are expanded alike.
example : ∃ fuel d e, parseWithConfig true 9 { expand := true, expandProperties := true } [listDoc false false false false] = .ok d ∧
    parseWithConfig true fuel { expand := true, expandProperties := true } [listDoc true true true true] = .ok e ∧
    DeviceShuffled d e := by
  obtain ⟨d, h⟩ := ok_of_isOk (x := parseWithConfig true 9 { expand := true, expandProperties := true }
    [listDoc false false false false]) (by decide +kernel)
  obtain ⟨n, e, h1, h2⟩ := (C86_expanded { expand := true, expandProperties := true } listDoc_rearranged [] [] (fun _ d hd => by
    have hc : ((parseDocument true { expand := true, expandProperties := true } [listDoc false false false false]).map
      namesDiffer) = .ok true := by decide +kernel
    change parseDocument true _ [listDoc false false false false] = .ok d at hd
    rw [hd] at hc
    exact differ_unambiguous (Except.ok.inj hc))).1 9 d h
  exact ⟨n, d, e, h, h1, h2⟩

-- The same without overflow checks.
example : ∃ fuel d e, parseWithConfig false 9 { expand := true, expandProperties := true } [listDoc false false false false] = .ok d ∧
    parseWithConfig false fuel { expand := true, expandProperties := true } [listDoc true true true true] = .ok e ∧
    DeviceShuffled (ground d) (ground e) := by
  obtain ⟨d, h⟩ := ok_of_isOk (x := parseWithConfig false 9 { expand := true, expandProperties := true }
    [listDoc false false false false]) (by decide +kernel)
  obtain ⟨n, e, h1, h2⟩ := (C86_unchecked { expand := true, expandProperties := true } listDoc_rearranged [] [] (fun _ d hd => by
    have hc : ((parseDocument false { expand := true, expandProperties := true } [listDoc false false false false]).map
      namesDiffer) = .ok true := by decide +kernel
    change parseDocument false _ [listDoc false false false false] = .ok d at hd
    rw [hd] at hc
    exact differ_unambiguous (Except.ok.inj hc))).1 9 d h
  exact ⟨n, d, e, h, h1, h2⟩

end Svd
