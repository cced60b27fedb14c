import Verif.Spec.Sample
import Verif.Props.Both
import Verif.Props.ExpandValid
import Verif.Props.RoundTripAll
import Verif.Props.Reread
import Verif.Props.Idempotent
import Verif.Props.Document
import Verif.Spec.Clean

/-!
# C68: a device is expanded, written and read back
-/

namespace Svd

open Spec

namespace ExpandWrite

/-! ## Texts with an index put in -/

theorem text_iff {s : Str} : Text s ↔ s ≠ [] ∧ (∀ c, s.head? = some c → isWhitespace c = false) ∧
    ∀ c, s.getLast? = some c → isWhitespace c = false := by
  constructor
  · rintro ⟨h, a, b, e, ha, hb, h1, h2⟩
    exact ⟨h, h1, h2⟩
  · rintro ⟨h, h1, h2⟩
    exact ⟨h, [], [], by simp, nofun, nofun, h1, h2⟩

theorem getLast?_append_ne {a b : Str} (hb : b ≠ []) : (a ++ b).getLast? = b.getLast? := by
  rw [List.getLast?_append]
  cases h : b.getLast? with
  | none => exact absurd (List.getLast?_eq_none_iff.mp h) hb
  | some c => rfl

theorem replaced_nil {pat new t : Str} (hp : pat ≠ []) (h : Replaced pat new [] t) : t = [] := by
  generalize hs : ([] : Str) = s at h
  cases h with
  | nil => rfl
  | hit _ => exact absurd (List.append_eq_nil_iff.mp hs.symm).1 hp
  | skip _ _ => cases hs

theorem replaced_ne {pat new s t : Str} (hn : new ≠ []) (h : Replaced pat new s t) (hs : s ≠ []) : t ≠ [] := by
  cases h with
  | nil => exact hs
  | hit _ => simp [hn]
  | skip _ _ => simp

theorem replaced_head {pat new s t : Str} (hn : Text new) (h : Replaced pat new s t)
    (hs : ∀ c, s.head? = some c → isWhitespace c = false) : ∀ c, t.head? = some c → isWhitespace c = false := by
  obtain ⟨h0, h1, _⟩ := text_iff.mp hn
  cases h with
  | nil => exact hs
  | hit _ =>
    intro c hc
    cases new with
    | nil => exact absurd rfl h0
    | cons a as => exact h1 c hc
  | skip _ _ => exact hs

theorem replaced_last {pat new s t : Str} (hp : pat ≠ []) (hn : Text new) (h : Replaced pat new s t)
    (hs : ∀ c, s.getLast? = some c → isWhitespace c = false) :
    ∀ c, t.getLast? = some c → isWhitespace c = false := by
  obtain ⟨h0, _, h2⟩ := text_iff.mp hn
  induction h with
  | nil => exact hs
  | @hit s t h ih =>
    by_cases he : s = []
    · subst he
      rw [replaced_nil hp h, List.append_nil]
      exact h2
    · have ht := replaced_ne h0 h he
      rw [getLast?_append_ne he] at hs
      rw [getLast?_append_ne ht]
      exact ih hs
  | @skip a s t _ h ih =>
    by_cases he : s = []
    · subst he
      rw [replaced_nil hp h]
      exact hs
    · have ht := replaced_ne h0 h he
      have e : ∀ {l : Str}, l ≠ [] → (a :: l).getLast? = l.getLast? := by
        intro l hl
        rw [← List.singleton_append, getLast?_append_ne hl]
      rw [e he] at hs
      rw [e ht]
      exact ih hs

theorem replaced_text {pat new s t : Str} (hp : pat ≠ []) (hn : Text new) (h : Replaced pat new s t) (hs : Text s) :
    Text t := by
  obtain ⟨h0, h1, h2⟩ := text_iff.mp hs
  exact text_iff.mpr ⟨replaced_ne hn.1 h h0, replaced_head hn h h1, replaced_last hp hn h h2⟩

theorem substituted_text {idx s t : Str} (hn : Text idx) (h : Substituted idx s t) (hs : Text s) : Text t := by
  obtain ⟨m, h1, h2⟩ := h
  exact replaced_text (by simp) hn h2 (replaced_text (by simp) hn h1 hs)

theorem substitutedOpt_text {idx : Str} {s t : Option Str} (hn : Text idx) (h : SubstitutedOpt idx s t)
    (hs : OptText s) : OptText t := by
  rcases h with ⟨_, rfl⟩ | ⟨a, b, rfl, rfl, h⟩
  · exact nofun
  · intro x hx
    cases hx
    exact substituted_text hn h (hs a rfl)

/-- The array, if it is one. -/
def ArrayClean (o : Option DimElement) : Prop := ∀ d, o = some d → CleanIndexes d

theorem arrayClean_of {α : Type} {x : MaybeArray α} (h : DimPart CleanIndexes x) : ArrayClean x.dim? := by
  intro d hd
  cases x with
  | single => cases hd
  | array i e =>
    cases hd
    exact h

/-- The texts of an array description that get into the instances. -/
def DimOk (o : Option DimElement) : Prop := ArrayClean o ∧
  ∀ d, o = some d → ∀ a, d.dimArrayIndex = some a → ∀ v ∈ a.values, EnumValueFits v

theorem decimal_text (n : Nat) : Text (decimal n) := by
  have hd : ∀ c ∈ decimal n, isWhitespace c = false := by
    intro c hc
    obtain ⟨h1, h2⟩ := decimal_digit hc
    have e : c = Char.ofNat c.toNat := (Char.ofNat_toNat c).symm
    generalize c.toNat = k at h1 h2 e
    subst e
    interval_cases k <;> decide
  have hne : decimal n ≠ [] := decimal_ne_nil n
  exact text_iff.mpr ⟨hne, fun c hc => hd c (List.mem_of_mem_head? hc),
    fun c hc => hd c (List.mem_of_mem_getLast? hc)⟩

theorem index_text {d : DimElement} (h : DimOk (some d)) {k : Nat} {idx : Str}
    (hk : (indexList d)[k]? = some idx) : Text idx := by
  have hm := List.mem_of_getElem? hk
  unfold indexList at hm
  cases hi : d.dimIndex with
  | none =>
    rw [hi] at hm
    obtain ⟨n, _, rfl⟩ := List.mem_map.mp hm
    exact decimal_text n
  | some l =>
    rw [hi] at hm
    exact (h.1 d rfl).2 l hi idx hm

theorem valueFor_fits {d : DimElement} (h : DimOk (some d)) {idx : Str} {e : EnumeratedValue}
    (hv : ValueFor d idx e) : EnumValueFits e := by
  obtain ⟨dai, pre, post, h1, h2, _⟩ := hv
  exact h.2 d rfl dai h1 e (by rw [h2]; simp)

theorem instanceName_text {d : DimElement} (h : DimOk (some d)) {idx name new : Str} (hi : Text idx)
    (hn : Text name) (hx : InstanceName d idx name new) : Text new := by
  rcases hx with ⟨e, he, rfl⟩ | ⟨_, hs⟩
  · exact (valueFor_fits h he).1
  · exact substituted_text hi hs hn

theorem instanceDescription_text {d : DimElement} (h : DimOk (some d)) {idx : Str} {s new : Option Str}
    (hi : Text idx) (hn : OptText s) (hx : InstanceDescription d idx s new) : OptText new := by
  rcases hx with ⟨e, s, he, hs, rfl⟩ | ⟨_, hs⟩
  · intro x hx
    cases hx
    exact (valueFor_fits h he).2 s hs
  · exact substitutedOpt_text hi hs hn

theorem text_join {a b : Str} (ha : Text a) (hb : Text b) : Text (a ++ "_".toList ++ b) := by
  obtain ⟨a0, a1, _⟩ := text_iff.mp ha
  obtain ⟨b0, _, b2⟩ := text_iff.mp hb
  refine text_iff.mpr ⟨by simp, ?_, ?_⟩
  · cases a with
    | nil => exact absurd rfl a0
    | cons x xs => exact a1
  · rw [getLast?_append_ne b0]
    exact b2

/-! ## What an element needs so that its instances can be written -/

structure FieldOk (f : Field) : Prop where
  name : Text f.info.name
  description : OptText f.info.description
  width : 1 ≤ f.info.bitRange.width.toNat
  enums : ∀ e ∈ f.info.enumeratedValues, EnumsFits e
  array : DimOk f.dim?

structure RegisterOk (r : Register) : Prop where
  name : Text r.info.name
  displayName : OptText r.info.displayName
  description : OptText r.info.description
  alternateGroup : OptText r.info.alternateGroup
  alternateRegister : OptText r.info.alternateRegister
  nonempty : r.info.fields ≠ some []
  fields : ∀ l, r.info.fields = some l → ∀ f ∈ l, FieldOk f
  array : DimOk r.dim?

def NodeOk : RegisterCluster → Prop
  | .register r => RegisterOk r
  | .cluster h d _ => Text h.name ∧ DimOk d

def TreeOk (l : List RegisterCluster) : Prop := ∀ n, InTree l n → NodeOk n

structure PeripheralOk (p : Peripheral) : Prop where
  name : Text p.info.name
  displayName : OptText p.info.displayName
  version : OptText p.info.version
  description : OptText p.info.description
  alternatePeripheral : OptText p.info.alternatePeripheral
  groupName : OptText p.info.groupName
  prependToName : OptText p.info.prependToName
  appendToName : OptText p.info.appendToName
  headerStructName : OptText p.info.headerStructName
  nonempty : p.info.addressBlock ≠ some []
  interrupts : ∀ i ∈ p.info.interrupt, Text i.name ∧ OptText i.description
  registers : ∀ l, p.info.registers = some l → TreeOk l
  array : DimOk p.dim?

def DeviceOk (d : Device) : Prop := ∀ p ∈ d.peripherals, PeripheralOk p

/-! ## Inheritance keeps it -/

theorem inh_text {a b c : Option Str} (h : Inh a b c) (ha : OptText a) (hb : OptText b) : OptText c := by
  cases a with
  | some v => rw [h.1 v rfl]; exact ha
  | none => rw [h.2 rfl]; exact hb

theorem inh_all {α : Type} {P : α → Prop} {a b c : Option α} (h : Inh a b c) (ha : ∀ x, a = some x → P x)
    (hb : ∀ x, b = some x → P x) : ∀ x, c = some x → P x := by
  cases a with
  | some v => rw [h.1 v rfl]; exact ha
  | none => rw [h.2 rfl]; exact hb

theorem inh_ne {α : Type} {a b c : Option (List α)} (h : Inh a b c) (ha : a ≠ some []) (hb : b ≠ some []) :
    c ≠ some [] := by
  cases a with
  | some v => rw [h.1 v rfl]; exact ha
  | none => rw [h.2 rfl]; exact hb

theorem inhList_all {α : Type} {P : α → Prop} {a b c : List α} (h : InhList a b c) (ha : ∀ x ∈ a, P x)
    (hb : ∀ x ∈ b, P x) : ∀ x ∈ c, P x := by
  by_cases hn : a = []
  · rw [h.2 hn]; exact hb
  · rw [h.1 hn]; exact ha

theorem dim_inherited {name : Str} {a b c : Option DimElement} (h : DimInherited name a b c) (ha : DimOk a)
    (hb : DimOk b) : DimOk c := by
  cases a with
  | some v => rw [h.1 v rfl]; exact ha
  | none =>
    by_cases hp : ∃ x y, name = x ++ '%' :: 's' :: y
    · rw [h.2.1 rfl hp]
      cases b with
      | none => exact hb
      | some e =>
        refine ⟨?_, ?_⟩
        · intro d hd
          cases hd
          exact hb.1 e rfl
        · intro d hd
          cases hd
          exact hb.2 e rfl
    · rw [h.2.2 rfl hp]
      exact ⟨nofun, nofun⟩

theorem field_from {a o t : Field} (h : FieldFrom a o t) (ha : FieldOk a) (ho : FieldOk o) : FieldOk t where
  name := by rw [h.1.name]; exact ha.name
  description := inh_text h.1.description ha.description ho.description
  width := by rw [h.1.bitRange]; exact ha.width
  enums := inhList_all h.1.enumeratedValues ha.enums ho.enums
  array := dim_inherited h.2 ha.array ho.array

theorem register_from {a o t : Register} (h : RegisterFrom a o t) (ha : RegisterOk a) (ho : RegisterOk o) :
    RegisterOk t where
  name := by rw [h.1.name]; exact ha.name
  displayName := by rw [h.1.displayName]; exact ha.displayName
  description := inh_text h.1.description ha.description ho.description
  alternateGroup := by rw [h.1.alternateGroup]; exact ha.alternateGroup
  alternateRegister := by rw [h.1.alternateRegister]; exact ha.alternateRegister
  nonempty := inh_ne h.1.fields ha.nonempty ho.nonempty
  fields := inh_all h.1.fields ha.fields ho.fields
  array := dim_inherited h.2 ha.array ho.array

/-- A cluster with its contents. -/
def ClusterOk (c : Cluster) : Prop := Text c.info.name ∧ DimOk c.dim? ∧ TreeOk c.info.children

theorem cluster_from {a o t : Cluster} (h : ClusterFrom a o t) (ha : ClusterOk a) (ho : ClusterOk o) :
    ClusterOk t := by
  refine ⟨by rw [h.1.name]; exact ha.1, dim_inherited h.2 ha.2.1 ho.2.1, ?_⟩
  by_cases hn : a.info.children = []
  · rw [h.1.children.2 hn]; exact ho.2.2
  · rw [h.1.children.1 hn]; exact ha.2.2

theorem peripheral_from {a o t : Peripheral} (h : PeripheralFrom a o t) (ha : PeripheralOk a)
    (ho : PeripheralOk o) : PeripheralOk t where
  name := by rw [h.1.name]; exact ha.name
  displayName := by rw [h.1.displayName]; exact ha.displayName
  version := inh_text h.1.version ha.version ho.version
  description := inh_text h.1.description ha.description ho.description
  alternatePeripheral := by rw [h.1.alternatePeripheral]; exact ha.alternatePeripheral
  groupName := inh_text h.1.groupName ha.groupName ho.groupName
  prependToName := inh_text h.1.prependToName ha.prependToName ho.prependToName
  appendToName := inh_text h.1.appendToName ha.appendToName ho.appendToName
  headerStructName := inh_text h.1.headerStructName ha.headerStructName ho.headerStructName
  nonempty := inh_ne h.1.addressBlock ha.nonempty ho.nonempty
  interrupts := inhList_all h.1.interrupt ha.interrupts ho.interrupts
  registers := inh_all h.1.registers ha.registers ho.registers
  array := dim_inherited h.2 ha.array ho.array

theorem field_unref {f : Field} (h : FieldOk f) : FieldOk (f.mapInfo fun i => { i with derivedFrom := none }) := by
  cases f <;> exact ⟨h.1, h.2, h.3, h.4, h.5⟩

theorem register_unref {r : Register} (h : RegisterOk r) :
    RegisterOk (r.mapInfo fun i => { i with derivedFrom := none }) := by
  cases r <;> exact ⟨h.1, h.2, h.3, h.4, h.5, h.6, h.7, h.8⟩

theorem peripheral_unref {p : Peripheral} (h : PeripheralOk p) :
    PeripheralOk (p.mapInfo fun i => { i with derivedFrom := none }) := by
  cases p <;> exact ⟨h.1, h.2, h.3, h.4, h.5, h.6, h.7, h.8, h.9, h.10, h.11, h.12, h.13⟩

theorem treeOk_inside {l : List RegisterCluster} {h : ClusterHead} {dim : Option DimElement}
    {cs : List RegisterCluster} (ht : TreeOk l) (hm : .cluster h dim cs ∈ l) : TreeOk cs :=
  fun n hn => ht n (.inside hm hn)

section
variable {d : Device} (hd : DeviceOk d)
include hd

theorem blockAt_ok {b : BlockPath} {cs : List RegisterCluster} (h : BlockAt d b cs) : TreeOk cs := by
  induction h with
  | peripheral h hr => exact (hd _ h.1).registers _ hr
  | cluster _ hm _ ih => exact treeOk_inside ih hm

theorem registerAt_ok {q : RegisterPath} {r : Register} (h : RegisterAt d q r) : RegisterOk r := by
  obtain ⟨cs, hb, hm, _⟩ := h
  exact blockAt_ok hd hb _ (.here hm)

theorem fieldAt_ok {q : FieldPath} {f : Field} (h : FieldAt d q f) : FieldOk f := by
  obtain ⟨r, fs, hr, hf, hm, _⟩ := h
  exact (registerAt_ok hd hr).fields _ hf _ hm

theorem enumAt_ok {q : EnumPath} {e : EnumeratedValues} (h : EnumAt d q e) : EnumsFits e := by
  obtain ⟨f, hf, hm, _⟩ := h
  exact (fieldAt_ok hd hf).enums _ hm

theorem resolved_field {b : RegisterPath} {f f' : Field} {home : FieldPath}
    (h : FieldResolved namesOf d b f f' home) (hf : FieldOk f) : FieldOk f' := by
  cases h with
  | own => exact hf
  | derived _ hi =>
    refine Both.inherits_all (P := FieldOk) ?_ hi (field_unref hf)
    rintro _ _ _ _ _ _ _ ⟨n, _, _, _, hl⟩ h3 ha
    exact field_from h3 ha (fieldAt_ok hd (mem_allFields.mp (lastAt_mem hl)))

theorem resolved_register {b : BlockPath} {r r' : Register} {home : RegisterPath}
    (h : RegisterResolved namesOf d b r r' home) (hr : RegisterOk r) : RegisterOk r' := by
  cases h with
  | own => exact hr
  | derived _ hi =>
    refine Both.inherits_all (P := RegisterOk) ?_ hi (register_unref hr)
    rintro _ _ _ _ _ _ _ ⟨n, _, _, _, hl⟩ h3 ha
    exact register_from h3 ha (registerAt_ok hd (mem_allRegisterPaths.mp (lastAt_mem hl)))

theorem resolved_cluster {b : BlockPath} {c c' : Cluster} {home : BlockPath}
    (h : ClusterResolved namesOf d b c c' home) (hc : ClusterOk c) : ClusterOk c' := by
  cases h with
  | own => exact hc
  | derived _ hi =>
    refine Both.inherits_all (P := ClusterOk) ?_ hi (by cases c <;> exact hc)
    rintro _ _ _ _ _ _ _ ⟨n, _, _, _, hl⟩ h3 ha
    obtain ⟨_, _, cs, hb, hm, _⟩ := mem_allClusters.mp (lastAt_mem hl)
    have ht := blockAt_ok hd hb
    have hn := ht _ (.here hm)
    exact cluster_from h3 ha ⟨hn.1, hn.2, treeOk_inside ht hm⟩

theorem resolved_peripheral {p p' : Peripheral} {home : BlockPath}
    (h : PeripheralResolved namesOf d p p' home) (hp : PeripheralOk p) : PeripheralOk p' := by
  cases h with
  | own => exact hp
  | derived _ hi =>
    refine Both.inherits_all (P := PeripheralOk) ?_ hi (peripheral_unref hp)
    rintro _ _ _ _ _ _ _ ⟨⟨_, hl⟩, _⟩ h3 ha
    exact peripheral_from h3 ha (hd _ (mem_allPeripherals.mp (lastAt_mem hl)).1)

theorem resolved_enums {b : FieldPath} {e q : EnumeratedValues} (h : EnumsResolved namesOf d b e q)
    (he : EnumsFits e) : EnumsFits q := by
  cases h with
  | own => exact he
  | derived hr hc hs =>
    have hall : ∀ x ∈ ‹List EnumeratedValues›, EnumsFits x := by
      clear hs hr
      induction hc with
      | last h1 _ =>
        intro x hx
        rw [List.mem_singleton] at hx
        subst hx
        rcases h1.2 with ⟨_, r, fs, pre, f, post, _, _, _, _, hl, _⟩ | ⟨n, _, _, hl⟩ <;>
          exact enumAt_ok hd (mem_allEnums.mp (lastAt_mem hl))
      | next h1 _ _ ih =>
        intro x hx
        rcases List.mem_cons.mp hx with rfl | hx
        · rcases h1.2 with ⟨_, r, fs, pre, f, post, _, _, _, _, hl, _⟩ | ⟨n, _, _, hl⟩ <;>
            exact enumAt_ok hd (mem_allEnums.mp (lastAt_mem hl))
        · exact ih x hx
    have hstart : EnumsFits { e with derivedFrom := none } := he
    revert hstart
    generalize { e with derivedFrom := none } = a at hs
    clear hc hr
    intro ha
    induction hs with
    | nil => exact ha
    | cons h1 _ ih =>
      refine ih (fun x hx => hall x (by simp [hx])) ⟨by rw [h1.name]; exact ha.1, ?_⟩
      exact inhList_all h1.values ha.2 (hall _ (by simp)).2

end

/-! ## The instances -/

/-- A field without array description that can be written, apart from its position. -/
theorem field_instance {i j : FieldInfo} {dim : DimElement} {k : Nat} (hi : FieldOk (.array i dim))
    (h : FieldInstance i dim k j) : FieldOk (.single j) := by
  obtain ⟨idx, h1, h2, h3, _, h5, _, h7⟩ := h
  have ht := index_text hi.array h1
  refine ⟨instanceName_text hi.array ht hi.name h2, instanceDescription_text hi.array ht hi.description h3, ?_, ?_,
    nofun, nofun⟩
  · show 1 ≤ j.bitRange.width.toNat
    rw [h5]; exact hi.width
  · show ∀ e ∈ j.enumeratedValues, EnumsFits e
    rw [h7]; exact hi.enums

theorem field_expanded {f : Field} {l : List Field} (hf : FieldOk f) (h : FieldExpanded f l) :
    l ≠ [] ∧ ∀ g ∈ l, FieldOk g ∧ g.dim? = none := by
  cases h with
  | single =>
    refine ⟨by simp, fun g hg => ?_⟩
    rw [List.mem_singleton] at hg
    subst hg
    exact ⟨hf, rfl⟩
  | array h =>
    refine ⟨fun he => instances_ne h (hf.array.1 _ rfl).1 (List.map_eq_nil_iff.mp he), fun g hg => ?_⟩
    obtain ⟨j, hj, rfl⟩ := List.mem_map.mp hg
    obtain ⟨k, hk⟩ := Both.instances_mem h hj
    exact ⟨field_instance hf hk, rfl⟩

theorem field_full {d : Device} (hd : DeviceOk d) {b : RegisterPath} {f : Field} {l : List Field} (hf : FieldOk f)
    (h : FieldFull namesOf d b f l) : l ≠ [] ∧ ∀ g ∈ l, FieldOk g ∧ g.dim? = none := by
  obtain ⟨f', home, evs, h1, h2, h3⟩ := h
  have h4 := resolved_field hd h1 hf
  refine field_expanded ?_ h3
  have he : ∀ e ∈ evs, EnumsFits e := by
    intro e he
    obtain ⟨e0, hm, hr⟩ := pairs_right h2 e he
    exact resolved_enums hd hr (h4.enums e0 hm)
  cases f' <;> exact ⟨h4.1, h4.2, h4.3, he, h4.5⟩

/-- Fields that can be written, apart from their positions. -/
def FieldsOk (o : Option (List Field)) : Prop :=
  o ≠ some [] ∧ ∀ l, o = some l → ∀ f ∈ l, FieldOk f ∧ f.dim? = none

theorem fields_full {d : Device} (hd : DeviceOk d) {b : RegisterPath} {o o' : Option (List Field)}
    (ho : o ≠ some []) (hf : ∀ l, o = some l → ∀ f ∈ l, FieldOk f) (h : FieldsFull namesOf d b o o') :
    FieldsOk o' := by
  cases h with
  | none => exact ⟨nofun, nofun⟩
  | @some fs ls h =>
    have hne : ls.flatten ≠ [] := pairs_flatten_ne h (by simpa using ho)
      fun f l hm hx => (field_full hd (hf fs rfl f hm) hx).1
    refine ⟨by simpa using hne, fun l hl g hg => ?_⟩
    cases hl
    obtain ⟨m, hm, hg⟩ := List.mem_flatten.mp hg
    obtain ⟨f, hfm, hx⟩ := pairs_right h m hm
    exact (field_full hd (hf fs rfl f hfm) hx).2 g hg

/-- A register that can be written, apart from the positions of its fields. -/
structure RegisterDone (r : RegisterInfo) : Prop where
  name : Text r.name
  displayName : OptText r.displayName
  description : OptText r.description
  alternateGroup : OptText r.alternateGroup
  alternateRegister : OptText r.alternateRegister
  fields : FieldsOk r.fields

theorem register_instances {r : Register} {fs : Option (List Field)} {l : List RegisterInfo} (hr : RegisterOk r)
    (hf : FieldsOk fs) (h : RegisterInstances (r.mapInfo fun i => { i with fields := fs }) l) :
    ∀ i ∈ l, RegisterDone i := by
  intro i hi
  cases r with
  | single r =>
    generalize hx : (MaybeArray.single r).mapInfo (fun i => { i with fields := fs }) = x at h
    cases h with
    | single =>
      rw [List.mem_singleton] at hi
      simp only [MaybeArray.mapInfo, MaybeArray.single.injEq] at hx
      subst hi
      subst hx
      exact ⟨hr.name, hr.displayName, hr.description, hr.alternateGroup, hr.alternateRegister, hf⟩
    | array => simp [MaybeArray.mapInfo] at hx
  | array r dim =>
    generalize hx : (MaybeArray.array r dim).mapInfo (fun i => { i with fields := fs }) = x at h
    cases h with
    | single => simp [MaybeArray.mapInfo] at hx
    | array h =>
      simp only [MaybeArray.mapInfo, MaybeArray.array.injEq] at hx
      obtain ⟨rfl, rfl⟩ := hx
      obtain ⟨k, idx, h1, h2, h3, _, h5, h6⟩ := Both.instances_mem h hi
      have ht := index_text hr.array h1
      refine ⟨instanceName_text hr.array ht hr.name h2, substitutedOpt_text ht h5 hr.displayName,
        instanceDescription_text hr.array ht hr.description h3, ?_, ?_, ?_⟩
      · rw [h6]; exact hr.alternateGroup
      · rw [h6]; exact hr.alternateRegister
      · rw [h6]; exact hf

theorem register_full {d : Device} (hd : DeviceOk d) {b : BlockPath} {r : Register} {l : List RegisterInfo}
    (hr : RegisterOk r) (h : RegisterFull namesOf d b r l) : ∀ i ∈ l, RegisterDone i := by
  obtain ⟨r', home, fs, h1, h2, h3⟩ := h
  have h4 := resolved_register hd h1 hr
  exact register_instances h4 (fields_full hd h4.nonempty h4.fields h2) h3

theorem placed_done {name : Str} {off : Nat} {r r' : RegisterInfo} (hn : Text name) (hr : RegisterDone r)
    (h : Placed name off r r') : RegisterDone r' := by
  obtain ⟨h1, _, h3⟩ := h
  refine ⟨by rw [h1]; exact text_join hn hr.name, ?_, ?_, ?_, ?_, ?_⟩
  · rw [h3]; exact hr.displayName
  · rw [h3]; exact hr.description
  · rw [h3]; exact hr.alternateGroup
  · rw [h3]; exact hr.alternateRegister
  · rw [h3]; exact hr.fields

theorem cluster_instances {c : Cluster} {l l' : List RegisterInfo} (hn : Text c.info.name) (hc : DimOk c.dim?)
    (hl : ∀ r ∈ l, RegisterDone r) (h : ClusterInstances l c l') : ∀ r ∈ l', RegisterDone r := by
  intro r hr
  cases h with
  | single h =>
    obtain ⟨r0, h0, hp⟩ := pairs_right h r hr
    exact placed_done hn (hl r0 h0) hp
  | array h =>
    obtain ⟨m, hm, hr⟩ := List.mem_flatten.mp hr
    obtain ⟨k, name, off, ⟨⟨idx, h1, h2⟩, _⟩, hps⟩ := Both.instances_mem h hm
    obtain ⟨r0, h0, hp⟩ := pairs_right hps r hr
    exact placed_done (instanceName_text hc (index_text hc h1) hn h2) (hl r0 h0) hp

mutual
theorem rc_full {d : Device} (hd : DeviceOk d) : ∀ {b : BlockPath} {c : RegisterCluster} {l : List RegisterInfo},
    RcFull namesOf d b c l → TreeOk [c] → ∀ r ∈ l, RegisterDone r
  | _, _, _, .register h, ht => register_full hd (ht _ (.here (List.mem_singleton.mpr rfl))) h
  | _, _, _, .cluster (h := head) (dim := dim) (cs := cs) h1 h2 h3, ht => by
    have hn := ht _ (.here (List.mem_singleton.mpr rfl))
    have hs := treeOk_inside ht (List.mem_singleton.mpr rfl)
    obtain ⟨hc1, hc2, hc3⟩ := resolved_cluster hd h1 (by cases dim <;> exact ⟨hn.1, hn.2, hs⟩)
    exact cluster_instances hc1 hc2 (rcs_full hd h2 hc3) h3
theorem rcs_full {d : Device} (hd : DeviceOk d) : ∀ {b : BlockPath} {cs : List RegisterCluster} {l : List RegisterInfo},
    RcsFull namesOf d b cs l → TreeOk cs → ∀ r ∈ l, RegisterDone r
  | _, _, _, .nil, _ => by intro r hr; cases hr
  | _, _, _, .cons h1 h2, ht => by
    intro r hr
    rcases List.mem_append.mp hr with hr | hr
    · exact rc_full hd h1 (fun x hx => ht x (Both.inTree_cons.mpr (.inl hx))) r hr
    · exact rcs_full hd h2 (fun x hx => ht x (Both.inTree_cons.mpr (.inr hx))) r hr
end

/-- The registers of an expanded peripheral. -/
def RegistersDone (o : Option (List RegisterCluster)) : Prop :=
  ∀ l, o = some l → ∃ rs : List RegisterInfo, l = rs.map (fun r => .register (.single r)) ∧ ∀ r ∈ rs, RegisterDone r

theorem registers_full {d : Device} (hd : DeviceOk d) {b : BlockPath} {o o' : Option (List RegisterCluster)}
    (ho : ∀ l, o = some l → TreeOk l) (h : RegistersFull namesOf d b o o') : RegistersDone o' := by
  intro l hl
  cases h with
  | none => cases hl
  | @some cs rs h =>
    cases hl
    exact ⟨rs, rfl, rcs_full hd h (ho cs rfl)⟩

/-- A peripheral that can be written, apart from the positions of its fields. -/
structure PeripheralDone (p : PeripheralInfo) : Prop where
  name : Text p.name
  displayName : OptText p.displayName
  version : OptText p.version
  description : OptText p.description
  alternatePeripheral : OptText p.alternatePeripheral
  groupName : OptText p.groupName
  prependToName : OptText p.prependToName
  appendToName : OptText p.appendToName
  headerStructName : OptText p.headerStructName
  nonempty : p.addressBlock ≠ some []
  interrupts : ∀ i ∈ p.interrupt, Text i.name ∧ OptText i.description
  registers : RegistersDone p.registers

theorem peripheral_instances {p : Peripheral} {rs : Option (List RegisterCluster)} {l : List Peripheral}
    (hp : PeripheralOk p) (hrs : RegistersDone rs)
    (h : PeripheralInstances (p.mapInfo fun i => { i with registers := rs }) l) :
    ∀ q ∈ l, ∃ i, q = .single i ∧ PeripheralDone i := by
  intro q hq
  cases p with
  | single p =>
    generalize hx : (MaybeArray.single p).mapInfo (fun i => { i with registers := rs }) = x at h
    cases h with
    | single =>
      rw [List.mem_singleton] at hq
      simp only [MaybeArray.mapInfo, MaybeArray.single.injEq] at hx
      refine ⟨_, hq, ?_⟩
      subst hx
      exact ⟨hp.1, hp.2, hp.3, hp.4, hp.5, hp.6, hp.7, hp.8, hp.9, hp.10, hp.11, hrs⟩
    | array => simp [MaybeArray.mapInfo] at hx
  | array p dim =>
    generalize hx : (MaybeArray.array p dim).mapInfo (fun i => { i with registers := rs }) = x at h
    cases h with
    | single => simp [MaybeArray.mapInfo] at hx
    | array h =>
      simp only [MaybeArray.mapInfo, MaybeArray.array.injEq] at hx
      obtain ⟨rfl, rfl⟩ := hx
      obtain ⟨i, hi, rfl⟩ := List.mem_map.mp hq
      obtain ⟨k, idx, h1, h2, h3, _, h5, h6⟩ := Both.instances_mem h hi
      have ht := index_text hp.array h1
      refine ⟨i, rfl, instanceName_text hp.array ht hp.name h2, substitutedOpt_text ht h5 hp.displayName, ?_,
        instanceDescription_text hp.array ht hp.description h3, ?_, ?_, ?_, ?_, ?_, ?_, ?_, ?_⟩
      · rw [h6]; exact hp.version
      · rw [h6]; exact hp.alternatePeripheral
      · rw [h6]; exact hp.groupName
      · rw [h6]; exact hp.prependToName
      · rw [h6]; exact hp.appendToName
      · rw [h6]; exact hp.headerStructName
      · rw [h6]; exact hp.nonempty
      · rw [h6]; exact hp.interrupts
      · rw [h6]; exact hrs

theorem device_full {d d' : Device} (hd : DeviceOk d) (h : DeviceFull namesOf d d') :
    ∀ q ∈ d'.peripherals, ∃ i, q = .single i ∧ PeripheralDone i := by
  obtain ⟨ls, h, rfl⟩ := h
  intro q hq
  obtain ⟨m, hm, hq⟩ := List.mem_flatten.mp hq
  obtain ⟨p, hp, p', home, rs, h1, h2, h3⟩ := pairs_right h m hm
  have h4 := resolved_peripheral hd h1 (hd p hp)
  exact peripheral_instances h4 (registers_full hd h4.registers h2) h3 q hq

/-! ## From and to the conditions for writing -/

theorem dimOk_of {lvl : ValidateLevel} {name : Str} {o : Option DimElement} (h : ArrayFits lvl name o)
    (hc : ArrayClean o) : DimOk o :=
  ⟨hc, fun d hd a ha v hv => (((h d hd).2.array a ha).2 v hv).1⟩

theorem fieldOk_of {lvl : ValidateLevel} {f : Field} (h : FieldFits lvl f) (hc : ArrayClean f.dim?) : FieldOk f :=
  ⟨h.name, h.description, h.range.1, h.enums, dimOk_of h.array hc⟩

theorem registerOk_of {lvl : ValidateLevel} {r : Register} (h : RegisterFits lvl r) (hc : RegisterParts (fun _ => True) CleanIndexes r) :
    RegisterOk r :=
  ⟨h.name, h.displayName, h.description, h.alternateGroup, h.alternateRegister, h.nonempty,
    fun l hl f hf => fieldOk_of (h.fields l hl f hf) (arrayClean_of (hc.1 l hl f hf).2), dimOk_of h.array (arrayClean_of hc.2)⟩

theorem rcsFits_mem {lvl : ValidateLevel} : ∀ {l : List RegisterCluster}, RcsFits lvl l → ∀ c ∈ l, RcFits lvl c
  | [], _, _, hc => by cases hc
  | a :: l, h, c, hc => by
    unfold RcsFits at h
    rcases List.mem_cons.mp hc with rfl | hc
    · exact h.1
    · exact rcsFits_mem h.2 c hc

theorem rcsFits_in {lvl : ValidateLevel} {l : List RegisterCluster} {n : RegisterCluster} (h : RcsFits lvl l)
    (hn : InTree l n) : RcFits lvl n := by
  induction hn with
  | here hm => exact rcsFits_mem h _ hm
  | inside hm _ ih =>
    have := rcsFits_mem h _ hm
    unfold RcFits at this
    exact ih this.2.2

theorem rcsParts_in {F : FieldInfo → Prop} {D : DimElement → Prop} {l : List RegisterCluster} {n : RegisterCluster}
    (h : RcsParts F D l) (hn : InTree l n) : RcParts F D n := by
  induction hn with
  | here hm => exact rcsParts_iff.mp h _ hm
  | inside hm _ ih =>
    have := rcsParts_iff.mp h _ hm
    unfold RcParts at this
    exact ih this.2

theorem treeOk_of {lvl : ValidateLevel} {l : List RegisterCluster} (h : RcsFits lvl l)
    (hc : RcsParts (fun _ => True) CleanIndexes l) : TreeOk l := by
  intro n hn
  have h1 := rcsFits_in h hn
  have h2 := rcsParts_in hc hn
  cases n with
  | register r =>
    unfold RcFits at h1
    unfold RcParts at h2
    exact registerOk_of h1 h2
  | cluster head dim cs =>
    unfold RcFits at h1
    unfold RcParts at h2
    exact ⟨h1.1.name, dimOk_of h1.2.1 h2.1⟩

theorem deviceOk_of {lvl : ValidateLevel} {d : Device} (h : Expressible lvl d) (hc : ArraysClean d) : DeviceOk d := by
  intro p hp
  have h1 := h.peripherals p hp
  obtain ⟨h3, h2⟩ := hc p hp
  exact ⟨h1.name, h1.displayName, h1.version, h1.description, h1.alternatePeripheral, h1.groupName,
    h1.prependToName, h1.appendToName, h1.headerStructName, h1.nonempty, h1.interrupts,
    fun l hl => treeOk_of (h1.registers l hl) (h3 l hl), dimOk_of h1.array (arrayClean_of h2)⟩

theorem arrayFits_none {lvl : ValidateLevel} {name : Str} : ArrayFits lvl name none := nofun

theorem registerFits_of {lvl : ValidateLevel} {r : RegisterInfo} (h : RegisterDone r)
    (he : ∀ fs, r.fields = some fs → ∀ f ∈ fs,
      f.info.bitRange.offset.toNat + f.info.bitRange.width.toNat < 2 ^ 32) : RegisterFits lvl (.single r) where
  name := h.name
  displayName := h.displayName
  description := h.description
  alternateGroup := h.alternateGroup
  alternateRegister := h.alternateRegister
  nonempty := h.fields.1
  fields := by
    intro l hl f hf
    obtain ⟨h1, h2⟩ := h.fields.2 l hl f hf
    exact ⟨h1.name, h1.description, ⟨h1.width, he l hl f hf⟩, h1.enums, by rw [h2]; exact arrayFits_none⟩
  array := arrayFits_none

theorem rcsFits_map {lvl : ValidateLevel} : ∀ (rs : List RegisterInfo), (∀ r ∈ rs, RegisterFits lvl (.single r)) →
    RcsFits lvl (rs.map fun r => .register (.single r))
  | [], _ => by simp [RcsFits]
  | r :: rs, h => by
    simp only [List.map_cons, RcsFits, RcFits]
    exact ⟨h r (by simp), rcsFits_map rs fun x hx => h x (by simp [hx])⟩

end ExpandWrite

open ExpandWrite

/-- **C68.** If a device can be written, its arrays have elements and indexes without whitespace around them,
and the expanded device is valid and the last bit of each of its fields has a number, then the expanded device
can be written, too. -/
theorem C68_expressible (lvl : ValidateLevel) (fuel : Nat) (d d' : Device) (h : Expressible lvl d)
    (hc : ArraysClean d) (he : expand true fuel d = .ok d') (hv : d'.validateAll lvl = .ok ())
    (hf : FieldsEnd d') : Expressible lvl d' := by
  have hx := (C56_expansion d d').mp ⟨fuel, he⟩
  have hp := device_full (deviceOk_of h hc) hx
  obtain ⟨ls, _, e⟩ := hx
  have hps : ∀ p ∈ d'.peripherals, PeripheralFits lvl p := by
    intro q hq
    obtain ⟨i, rfl, hi⟩ := hp q hq
    refine ⟨hi.name, hi.displayName, hi.version, hi.description, hi.alternatePeripheral, hi.groupName,
      hi.prependToName, hi.appendToName, hi.headerStructName, hi.nonempty, hi.interrupts, ?_, arrayFits_none⟩
    intro l hl
    obtain ⟨rs, rfl, hrs⟩ := hi.registers l hl
    refine rcsFits_map rs fun r hr => registerFits_of (hrs r hr) fun fs hfs f hm => ?_
    have := rcsParts_iff.mp ((hf _ hq).1 _ hl) _ (List.mem_map.mpr ⟨r, hr, rfl⟩)
    unfold RcParts at this
    exact (this.1 fs hfs f hm).1
  rw [C16_validate_all] at hv
  rw [e] at hps hv ⊢
  exact ⟨h.vendor, h.vendorId, h.name, h.series, h.version, h.description, h.licenseText, h.cpu,
    h.headerSystemFilename, h.headerDefinitionsPrefix, hps, hv⟩

/-- **C68.** Then writing the expanded device and reading the file back gives exactly the expanded device,
however the file is laid out. -/
theorem C68_round_trip (oc : Bool) (cc : IdentifierFormat → Str → Str) (pcfg : ParseConfig)
    (hi : pcfg.ignoreEnums = false) (fuel : Nat) (d d' : Device) (h : Expressible pcfg.validateLevel d)
    (hc : ArraysClean d) (he : expand true fuel d = .ok d') (hv : d'.validateAll pcfg.validateLevel = .ok ())
    (hf : FieldsEnd d') :
    ∃ x, encodeDevice oc cc {} d' = .ok x ∧ ∀ y, Reread x y → parseDevice oc pcfg y = .ok d' :=
  C26_lossless oc cc pcfg hi d' (C68_expressible _ fuel d d' h hc he hv hf)

/-- **C68.** Reading it with expansion gives the same: there is nothing left to expand. -/
theorem C68_stable (cc : IdentifierFormat → Str → Str) (cfg : ParseConfig)
    (hi : cfg.ignoreEnums = false) (hx : cfg.expandProperties = false) (fuel : Nat) (d d' : Device)
    (h : Expressible cfg.validateLevel d) (hc : ArraysClean d) (he : expand true fuel d = .ok d')
    (hv : d'.validateAll cfg.validateLevel = .ok ()) (hf : FieldsEnd d') :
    ∃ x, encodeDevice true cc {} d' = .ok x ∧
      ∀ y, Reread x y → parseWithConfig true 1 cfg [y] = .ok d' := by
  obtain ⟨x, h1, h2⟩ := C68_round_trip true cc cfg hi fuel d d' h hc he hv hf
  refine ⟨x, h1, fun y hy => ?_⟩
  have h3 := h2 y hy
  unfold parseWithConfig
  have hdoc : parseDocument true cfg [y] = .ok d' :=
    (C60_document true cfg [y] d').mpr ⟨[], y, [], rfl, nofun, (C60_device true cfg y d').mp h3⟩
  rw [hdoc]
  simp only [ok_bind, hx]
  cases cfg.expand with
  | false => rfl
  | true => exact C35_idempotent true true fuel 0 d d' he

/-! ## Without references: conditions on the device alone -/

namespace ExpandWrite

theorem field_ends {f : Field} {l : List Field} (hf : FieldEnds f) (h : FieldExpanded f l) :
    ∀ g ∈ l, RangeEnds g.info.bitRange := by
  intro g hg
  cases h with
  | single =>
    rw [List.mem_singleton] at hg
    subst hg
    exact hf
  | @array i d l h =>
    obtain ⟨j, hj, rfl⟩ := List.mem_map.mp hg
    obtain ⟨k, hk⟩ := List.mem_iff_getElem?.mp hj
    obtain ⟨idx, _, _, _, ho, hw, _⟩ := h.2 k j hk
    have hlt := (List.getElem?_eq_some_iff.mp hk).1
    rw [h.1] at hlt
    show j.bitRange.offset.toNat + j.bitRange.width.toNat < 2 ^ 32
    rw [ho, hw]
    have hm : k * d.dimIncrement.toNat ≤ (d.dim.toNat - 1) * d.dimIncrement.toNat :=
      Nat.mul_le_mul_right _ (by omega)
    have : i.bitRange.offset.toNat + (d.dim.toNat - 1) * d.dimIncrement.toNat + i.bitRange.width.toNat < 2 ^ 32 := hf
    omega

theorem expanded_ends {d d' : Device} (h : DeviceExpanded d d') (hf : FieldArraysEnd d) : FieldsEnd d' := by
  obtain ⟨ls, h, rfl⟩ := h
  intro q hq
  obtain ⟨m, hm, hq⟩ := List.mem_flatten.mp hq
  obtain ⟨p, hp, hx⟩ := pairs_right h m hm
  refine ⟨fun l hl => ?_, by cases q <;> trivial⟩
  obtain ⟨⟨n, dn, s, b, rs, hrs, e⟩, _⟩ := peripheralExpanded_like hx q hq
  rw [e] at hl
  change rs = some l at hl
  subst hl
  generalize ho : p.info.registers = o at hrs
  cases hrs with
  | @some cs rl hrl =>
    refine rcsParts_iff.mpr fun c hc => ?_
    obtain ⟨r', hr', rfl⟩ := List.mem_map.mp hc
    obtain ⟨r, hi, ⟨_, _, _, _, fs, hfs, e'⟩, _⟩ := rcsExpanded_like cs hrl r' hr'
    unfold RcParts
    refine ⟨fun l hl g hg => ⟨?_, by cases g <;> trivial⟩, trivial⟩
    change r'.fields = some l at hl
    rw [e'] at hl
    change fs = some l at hl
    subst hl
    generalize ho' : r.info.fields = o' at hfs
    cases hfs with
    | @some fs0 ls0 h0 =>
      obtain ⟨m0, hm0, hg⟩ := List.mem_flatten.mp hg
      obtain ⟨f, hfm, hfx⟩ := pairs_right h0 m0 hm0
      exact field_ends (hf p hp cs ho r hi fs0 ho' f hfm) hfx g hg

end ExpandWrite

/-- **C68.** For a device without references the conditions are about the device alone: it can be written at
level Weak, has a peripheral, its arrays have elements and clean indexes, and the bits of field arrays end
before bit 2^32 - 1. -/
theorem C68_weak (oc : Bool) (cc : IdentifierFormat → Str → Str) (fuel : Nat) (d d' : Device)
    (h : Expressible .weak d) (hr : DeviceNoRef d) (hc : ArraysClean d) (hf : FieldArraysEnd d)
    (he : expand true fuel d = .ok d') :
    ∃ x, encodeDevice oc cc {} d' = .ok x ∧
      ∀ y, Reread x y → parseDevice oc { validateLevel := .weak } y = .ok d' := by
  have hv : d.validateAll .weak = .ok () := (C16_validate_all d .weak).mpr h.valid
  have hx := (C36_exact d d' hr).mp ⟨fuel, he⟩
  refine C68_round_trip oc cc { validateLevel := .weak } rfl fuel d d' h hc he ?_ (expanded_ends hx hf)
  refine C57_weak fuel d d' hr he hv ?_
  obtain ⟨p, hp⟩ := List.exists_mem_of_ne_nil _ (h.valid.1.1 (by decide))
  exact ⟨p, hp, fun x hx => (arrayClean_of (hc p hp).2 x hx).1⟩

/-- **C68.** The same at level Strict, if the names of all elements are identifiers. -/
theorem C68_strict (oc : Bool) (cc : IdentifierFormat → Str → Str) (fuel : Nat) (d d' : Device)
    (h : Expressible .strict d) (hr : DeviceNoRef d) (hc : ArraysClean d) (hn : DeviceNamesFit d)
    (hf : FieldArraysEnd d) (he : expand true fuel d = .ok d') :
    ∃ x, encodeDevice oc cc {} d' = .ok x ∧
      ∀ y, Reread x y → parseDevice oc { validateLevel := .strict } y = .ok d' := by
  have hv : d.validateAll .strict = .ok () := (C16_validate_all d .strict).mpr h.valid
  have hx := (C36_exact d d' hr).mp ⟨fuel, he⟩
  exact C68_round_trip oc cc { validateLevel := .strict } rfl fuel d d' h hc he (C57_strict fuel d d' hr he hv hn)
    (expanded_ends hx hf)

/-! ## Examples, and what the conditions are for -/

instance (d : DimElement) : Decidable (CleanIndexes d) :=
  inferInstanceAs (Decidable (1 ≤ d.dim.toNat ∧ ∀ l, d.dimIndex = some l → ∀ p ∈ l, Text p))

instance (d : Device) : Decidable (ArraysClean d) := inferInstanceAs (Decidable (DeviceParts _ _ d))

instance (d : Device) : Decidable (FieldsEnd d) :=
  inferInstanceAs (Decidable (DeviceParts (fun f => f.bitRange.offset.toNat + f.bitRange.width.toNat < 2 ^ 32)
    (fun _ => True) d))

/-- Expand, write and read back, at level Disabled. -/
def expandedRewritten (d : Device) : M (Device × Device) := do
  let e ← expand true 9 d
  let r ← rewritten {} e
  .ok (e, r)

-- A device with a bit of everything (arrays, nested clusters, a derived peripheral) comes back expanded.
example : ∃ d', expand true 9 Sample.rich = .ok d' ∧ ∃ x, encodeDevice true (fun _ s => s) {} d' = .ok x ∧
    ∀ y, Reread x y → parseDevice true { validateLevel := .strict } y = .ok d' := by
  have h1 : (expand true 9 Sample.rich).isOk = true := by decide +kernel
  cases h : expand true 9 Sample.rich with
  | error e => rw [h] at h1; cases h1
  | ok d' =>
    have h2 : ((expand true 9 Sample.rich).map fun d => decide (d.validateAll .strict = .ok () ∧ FieldsEnd d)) =
        .ok true := by decide +kernel
    rw [h] at h2
    simp only [Except.map, Except.ok.injEq, decide_eq_true_eq] at h2
    exact ⟨d', rfl, C68_round_trip true _ { validateLevel := .strict } rfl 9 _ d' rich_expressible
      (by decide +kernel) h h2.1 h2.2⟩

open Sample in
/-- **C68.** What the conditions are for: an index with whitespace around it (as in `A, B`), which ends up at
the beginning of a name; an empty index, which leaves an empty description; and a field array of no elements. -/
theorem C68_conditions_needed :
    (∃ d e r, Expressible .weak d ∧ d.peripherals = [.array (peripheralInfo "%s_P" 0) (dim 2 4 (some ["A", " B"]))] ∧
      expandedRewritten d = .ok (e, r) ∧ r ≠ e) ∧
    (∃ d e r, Expressible .weak d ∧ d.peripherals = [.array { peripheralInfo "P%s" 0 with
        description := some "%s".toList } (dim 2 4 (some ["A", ""]))] ∧
      expandedRewritten d = .ok (e, r) ∧ r ≠ e) ∧
    (∃ d e r, Expressible .weak d ∧ d.peripherals = [.single (peripheralInfo "P" 0 none (some
        [.register (.single (registerInfo "R" 0 none (some [.array (fieldInfo "F%s" 0) (dim 0 1)])))]))] ∧
      expandedRewritten d = .ok (e, r) ∧ r ≠ e) := by
  refine ⟨⟨device [.array (peripheralInfo "%s_P" 0) (dim 2 4 (some ["A", " B"]))],
      device [.single (peripheralInfo "A_P" 0), .single (peripheralInfo " B_P" 4)],
      device [.single (peripheralInfo "A_P" 0), .single (peripheralInfo "B_P" 4)],
      by decide +kernel, rfl, by decide +kernel, by decide +kernel⟩,
    ⟨device [.array { peripheralInfo "P%s" 0 with description := some "%s".toList } (dim 2 4 (some ["A", ""]))],
      device [.single { peripheralInfo "PA" 0 with description := some "A".toList },
        .single { peripheralInfo "P" 4 with description := some [] }],
      device [.single { peripheralInfo "PA" 0 with description := some "A".toList },
        .single (peripheralInfo "P" 4)],
      by decide +kernel, rfl, by decide +kernel, by decide +kernel⟩,
    ⟨device [.single (peripheralInfo "P" 0 none (some
        [.register (.single (registerInfo "R" 0 none (some [.array (fieldInfo "F%s" 0) (dim 0 1)])))]))],
      device [.single (peripheralInfo "P" 0 none (some
        [.register (.single (registerInfo "R" 0 none (some [])))]))],
      device [.single (peripheralInfo "P" 0 none (some [.register (.single (registerInfo "R" 0))]))],
      by decide +kernel, rfl, by decide +kernel, by decide +kernel⟩⟩

-- The hypotheses of `C68_expressible` and `C68_stable` can be met.
example : ∃ d', expand true 9 Sample.rich = .ok d' ∧ Expressible .strict d' ∧
    ∃ x, encodeDevice true (fun _ s => s) {} d' = .ok x ∧
      ∀ y, Reread x y → parseWithConfig true 1 { validateLevel := .strict, expand := true } [y] = .ok d' := by
  obtain ⟨d', h⟩ := ok_of_isOk (x := expand true 9 Sample.rich) (by decide +kernel)
  have h2 : ((expand true 9 Sample.rich).map fun d => decide (d.validateAll .strict = .ok () ∧ FieldsEnd d)) =
      .ok true := by decide +kernel
  rw [h] at h2
  simp only [Except.map, Except.ok.injEq, decide_eq_true_eq] at h2
  exact ⟨d', h, C68_expressible .strict 9 _ d' rich_expressible (by decide +kernel) h h2.1 h2.2,
    C68_stable _ { validateLevel := .strict, expand := true } rfl rfl 9 _ d' rich_expressible
      (by decide +kernel) h h2.1 h2.2⟩

theorem namedArrays_ends : FieldArraysEnd namedArrays := by
  intro p hp l hl r hr fs hfs f hf
  cases List.mem_singleton.mp hp
  cases hl
  have key : fs = [.single (Sample.fieldInfo "F" 0 none [Sample.evs (some "E") none
      [⟨"on".toList, none, some 1, none⟩]])] := by
    cases hr with
    | here hm =>
      simp only [List.mem_cons, List.not_mem_nil, or_false, reduceCtorEq, false_or] at hm
      cases hm
      cases hfs
    | inside hm hr =>
      simp only [List.mem_cons, List.not_mem_nil, or_false, reduceCtorEq] at hm
      cases hm
      cases hr with
      | here hm => cases List.mem_singleton.mp hm
      | inside hm hr =>
        cases List.mem_singleton.mp hm
        cases hr with
        | here hm =>
          cases List.mem_singleton.mp hm
          exact (Option.some.inj hfs).symm
        | inside hm _ => cases List.mem_singleton.mp hm
  subst key
  cases List.mem_singleton.mp hf
  show _ < _
  decide

-- `C68_weak` and `C68_strict` on a device with arrays of peripherals, clusters and registers.
example : ∃ d', expand true 6 namedArrays = .ok d' ∧ ∃ x, encodeDevice true (fun _ s => s) {} d' = .ok x ∧
    ∀ y, Reread x y → parseDevice true { validateLevel := .weak } y = .ok d' ∧
      parseDevice true { validateLevel := .strict } y = .ok d' := by
  obtain ⟨d', h⟩ := ok_of_isOk (x := expand true 6 namedArrays) (by decide +kernel)
  have hc : ArraysClean namedArrays := by decide +kernel
  obtain ⟨x, hx, hw⟩ := C68_weak true (fun _ s => s) 6 _ d' (by decide +kernel) namedArrays_fit.1 hc
    namedArrays_ends h
  obtain ⟨x', hx', hs⟩ := C68_strict true (fun _ s => s) 6 _ d' (by decide +kernel) namedArrays_fit.1 hc
    namedArrays_fit.2 namedArrays_ends h
  cases hx.symm.trans hx'
  exact ⟨d', h, x, hx, fun y hy => ⟨hw y hy, hs y hy⟩⟩

end Svd
