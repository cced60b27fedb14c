import Verif.Spec.Sample
import Verif.Spec.Derive
import Verif.Model.Derive
import Verif.Lemmas.Subst

/-!
# C19, C20: inheritance
-/

namespace Svd

open Spec

theorem inh_or {α : Type} (a b : Option α) : Inh a b (a.or b) := by
  cases a <;> simp [Inh]

theorem inhList_ite {α : Type} (a b : List α) : InhList a b (if a.isEmpty then b else a) := by
  cases a <;> simp [InhList]

/-- **C19.** Inheritance of register properties. -/
theorem C19_properties (s o : RegisterProperties) : PropsInherited s o (s.deriveFrom o) :=
  ⟨inh_or .., inh_or .., inh_or .., inh_or .., inh_or ..⟩

example : PropsInherited ⟨some 8, none, none, some 1, none⟩ ⟨some 16, some .readOnly, none, none, some 3⟩
    ⟨some 8, some .readOnly, none, some 1, some 3⟩ := C19_properties _ _

/-- **C19.** Inheritance of clusters. -/
theorem C19_cluster (s o : ClusterInfo) : ClusterInherited s o (s.deriveFrom o) :=
  ⟨C19_properties .., inh_or .., inhList_ite .., rfl, rfl, rfl, rfl, rfl⟩

example : ClusterInherited ⟨Sample.clusterHead "C" 4 (some "D"), []⟩
    ⟨{ Sample.clusterHead "D" 8 with headerStructName := some "H".toList }, [.register (.single (Sample.registerInfo "R" 0))]⟩
    ⟨{ Sample.clusterHead "C" 4 (some "D") with headerStructName := some "H".toList },
      [.register (.single (Sample.registerInfo "R" 0))]⟩ := C19_cluster _ _

/-- **C19.** Inheritance of enumerated values. -/
theorem C19_enums (s o : EnumeratedValues) : EnumsInherited s o (s.deriveFrom o) :=
  ⟨inh_or .., inhList_ite .., rfl, rfl⟩

example : EnumsInherited (Sample.evs (some "E") (some "G")) ⟨some "G".toList, some .read, none, [⟨['A'], none, some 1, none⟩]⟩
    ⟨some "E".toList, some .read, some "G".toList, [⟨['A'], none, some 1, none⟩]⟩ := C19_enums _ _

/-- **C19.** Inheritance of peripherals. -/
theorem C19_peripheral (s o : PeripheralInfo) : PeripheralInherited s o (s.deriveFrom o) :=
  ⟨inh_or .., inh_or .., inh_or .., inh_or .., inh_or .., inh_or .., C19_properties .., inh_or ..,
    inh_or .., inhList_ite .., rfl, rfl, rfl, rfl, rfl⟩

example : PeripheralInherited (Sample.peripheralInfo "P" 0x1000 (some "Q"))
    { Sample.peripheralInfo "Q" 0x2000 none (some []) with groupName := some "G".toList }
    { Sample.peripheralInfo "P" 0x1000 (some "Q") (some []) with groupName := some "G".toList } := C19_peripheral _ _

/-- **C19.** Inheritance of registers. -/
theorem C19_register (s o : RegisterInfo) : RegisterInherited s o (s.deriveFrom o) :=
  ⟨inh_or .., C19_properties .., inh_or .., inh_or .., inh_or .., inh_or .., rfl, rfl, rfl, rfl, rfl,
    rfl, rfl⟩

example : RegisterInherited { Sample.registerInfo "R" 4 (some "S") with properties := { size := some 8 } }
    { Sample.registerInfo "S" 8 none (some []) with properties := { size := some 16, access := some .readOnly } }
    { Sample.registerInfo "R" 4 (some "S") (some []) with properties := { size := some 8, access := some .readOnly } } :=
  C19_register _ _

/-- **C19.** Inheritance of fields. -/
theorem C19_field (s o : FieldInfo) : FieldInherited s o (s.deriveFrom o) :=
  ⟨inh_or .., inh_or .., inhList_ite .., inh_or .., inh_or .., inh_or .., rfl, rfl, rfl⟩

example : FieldInherited (Sample.fieldInfo "F" 3 (some "G")) (Sample.fieldInfo "G" 5 none [Sample.evs (some "E")])
    (Sample.fieldInfo "F" 3 (some "G") [Sample.evs (some "E")]) := C19_field _ _

/-- **C19.** Arrays: the description is inherited as for single elements, the dimensions by their
own rule. -/
theorem C19_array {α : Type} (nm : α → Str) (df : α → α → α) (s o : MaybeArray α) :
    (MaybeArray.deriveFrom nm df s o).info = df s.info o.info ∧
      DimInherited (nm s.info) s.dim? o.dim? (MaybeArray.deriveFrom nm df s o).dim? := by
  have hc : ∀ i : α, containsSub "%s".toList (nm i) = true ↔ ∃ a b, nm i = a ++ '%' :: 's' :: b := by
    intro i; rw [containsSub_iff]; simp
  unfold DimInherited
  cases s with
  | single i =>
    simp only [MaybeArray.info, ← hc]
    cases o with
    | single o => simp [MaybeArray.deriveFrom, MaybeArray.dim?]
    | array o od =>
      simp only [MaybeArray.deriveFrom]
      by_cases h : containsSub "%s".toList (nm i) = true
      · rw [if_pos h]; simp_all [MaybeArray.dim?]
      · rw [if_neg h]; simp_all [MaybeArray.dim?]
  | array i d => cases o <;> simp [MaybeArray.deriveFrom, MaybeArray.dim?, MaybeArray.info]

/-- **C19.** The four kinds that can be arrays. -/
theorem C19_arrays :
    (∀ s o : Peripheral, PeripheralInherited s.info o.info (Peripheral.deriveFrom s o).info ∧
      DimInherited s.info.name s.dim? o.dim? (Peripheral.deriveFrom s o).dim?) ∧
    (∀ s o : Cluster, ClusterInherited s.info o.info (Cluster.deriveFrom s o).info ∧
      DimInherited s.info.name s.dim? o.dim? (Cluster.deriveFrom s o).dim?) ∧
    (∀ s o : Register, RegisterInherited s.info o.info (Register.deriveFrom s o).info ∧
      DimInherited s.info.name s.dim? o.dim? (Register.deriveFrom s o).dim?) ∧
    (∀ s o : Field, FieldInherited s.info o.info (Field.deriveFrom s o).info ∧
      DimInherited s.info.name s.dim? o.dim? (Field.deriveFrom s o).dim?) := by
  refine ⟨fun s o => ⟨?_, ?_⟩, fun s o => ⟨?_, ?_⟩, fun s o => ⟨?_, ?_⟩, fun s o => ⟨?_, ?_⟩⟩
  · unfold Peripheral.deriveFrom; rw [(C19_array ..).1]; exact C19_peripheral ..
  · exact (C19_array ..).2
  · unfold Cluster.deriveFrom; rw [(C19_array ..).1]; exact C19_cluster ..
  · exact (C19_array (fun c : ClusterInfo => c.name) ..).2
  · unfold Register.deriveFrom; rw [(C19_array ..).1]; exact C19_register ..
  · exact (C19_array ..).2
  · unfold Field.deriveFrom; rw [(C19_array ..).1]; exact C19_field ..
  · exact (C19_array ..).2

-- An element with a placeholder in its name becomes an array like the base.
example : DimInherited "R%s".toList none (some (Sample.dim 2 4)) (some (Sample.dim 2 4)) :=
  (C19_arrays.2.2.1 (.single (Sample.registerInfo "R%s" 4)) (.array (Sample.registerInfo "S%s" 8) (Sample.dim 2 4))).2

theorem or_idem {α : Type} (a b : Option α) : (a.or b).or b = a.or b := by cases a <;> cases b <;> rfl
theorem or_self' {α : Type} (a : Option α) : a.or a = a := by cases a <;> rfl
theorem ite_idem {α : Type} (a b : List α) :
    (if (if a.isEmpty then b else a).isEmpty then b else (if a.isEmpty then b else a)) =
      if a.isEmpty then b else a := by
  cases a <;> cases b <;> simp
theorem ite_assoc' {α : Type} (a b c : List α) :
    (if (if a.isEmpty then b else a).isEmpty then c else (if a.isEmpty then b else a)) =
      if a.isEmpty then (if b.isEmpty then c else b) else a := by
  cases a <;> simp

theorem props_idem (a b : RegisterProperties) : (a.deriveFrom b).deriveFrom b = a.deriveFrom b := by
  simp only [RegisterProperties.deriveFrom, or_idem]
theorem props_self (a : RegisterProperties) : a.deriveFrom a = a := by
  simp only [RegisterProperties.deriveFrom, or_self']
theorem props_assoc (a b c : RegisterProperties) :
    (a.deriveFrom b).deriveFrom c = a.deriveFrom (b.deriveFrom c) := by
  simp only [RegisterProperties.deriveFrom, Option.or_assoc]

/-- The three laws, for a derivation operation. -/
structure DeriveLaws {α : Type} (df : α → α → α) : Prop where
  idem : ∀ a b, df (df a b) b = df a b
  self : ∀ a, df a a = a
  assoc : ∀ a b c, df (df a b) c = df a (df b c)

/-- **C20.** Register properties. -/
theorem C20_properties : DeriveLaws RegisterProperties.deriveFrom :=
  ⟨props_idem, props_self, props_assoc⟩

example : let a : RegisterProperties := ⟨some 8, none, none, some 1, none⟩
    let b : RegisterProperties := ⟨some 16, some .readOnly, none, none, some 3⟩
    (a.deriveFrom b).deriveFrom b = a.deriveFrom b ∧ a.deriveFrom b ≠ a := ⟨C20_properties.idem _ _, by decide⟩

/-- **C20.** Clusters. -/
theorem C20_cluster : DeriveLaws ClusterInfo.deriveFrom where
  idem a b := by simp only [ClusterInfo.deriveFrom, or_idem, props_idem]; congr 1; exact ite_idem ..
  self a := by simp only [ClusterInfo.deriveFrom, or_self', ite_self, props_self]
  assoc a b c := by
    simp only [ClusterInfo.deriveFrom, Option.or_assoc, props_assoc]; congr 1; exact ite_assoc' ..

/-- **C20.** Enumerated values. -/
theorem C20_enums : DeriveLaws EnumeratedValues.deriveFrom where
  idem a b := by simp only [EnumeratedValues.deriveFrom, or_idem]; congr 1; exact ite_idem ..
  self a := by simp only [EnumeratedValues.deriveFrom, or_self', ite_self]
  assoc a b c := by
    simp only [EnumeratedValues.deriveFrom, Option.or_assoc]; congr 1; exact ite_assoc' ..

/-- **C20.** Peripherals. -/
theorem C20_peripheral : DeriveLaws PeripheralInfo.deriveFrom where
  idem a b := by simp only [PeripheralInfo.deriveFrom, or_idem, props_idem]; congr 1; exact ite_idem ..
  self a := by simp only [PeripheralInfo.deriveFrom, or_self', ite_self, props_self]
  assoc a b c := by
    simp only [PeripheralInfo.deriveFrom, Option.or_assoc, props_assoc]; congr 1; exact ite_assoc' ..

/-- **C20.** Registers. -/
theorem C20_register : DeriveLaws RegisterInfo.deriveFrom where
  idem a b := by simp only [RegisterInfo.deriveFrom, or_idem, props_idem]
  self a := by simp only [RegisterInfo.deriveFrom, or_self', props_self]
  assoc a b c := by simp only [RegisterInfo.deriveFrom, Option.or_assoc, props_assoc]

/-- **C20.** Fields. -/
theorem C20_field : DeriveLaws FieldInfo.deriveFrom where
  idem a b := by simp only [FieldInfo.deriveFrom, or_idem]; congr 1; exact ite_idem ..
  self a := by simp only [FieldInfo.deriveFrom, or_self', ite_self]
  assoc a b c := by
    simp only [FieldInfo.deriveFrom, Option.or_assoc]; congr 1; exact ite_assoc' ..

/-- **C20.** With arrays the first two laws still hold. -/
theorem C20_array {α : Type} (nm : α → Str) (df : α → α → α) (h : DeriveLaws df)
    (hn : ∀ a b, nm (df a b) = nm a) :
    (∀ a b, MaybeArray.deriveFrom nm df (MaybeArray.deriveFrom nm df a b) b =
      MaybeArray.deriveFrom nm df a b) ∧
    (∀ a, MaybeArray.deriveFrom nm df a a = a) := by
  constructor
  · intro a b
    cases a with
    | single a =>
      cases b with
      | single b => simp only [MaybeArray.deriveFrom, h.idem]
      | array b d =>
        simp only [MaybeArray.deriveFrom]
        by_cases hs : containsSub "%s".toList (nm a) = true
        · rw [if_pos hs]; simp only [h.idem]
        · rw [if_neg hs]; simp only [hn]; rw [if_neg hs, h.idem]
    | array a d => cases b <;> simp only [MaybeArray.deriveFrom, h.idem]
  · intro a
    cases a <;> simp only [MaybeArray.deriveFrom, h.self]

example : MaybeArray.deriveFrom FieldInfo.name FieldInfo.deriveFrom (.array (Sample.fieldInfo "F%s" 3) (Sample.dim 2 4))
    (.array (Sample.fieldInfo "F%s" 3) (Sample.dim 2 4)) = .array (Sample.fieldInfo "F%s" 3) (Sample.dim 2 4) :=
  (C20_array FieldInfo.name FieldInfo.deriveFrom C20_field fun _ _ => rfl).2 _

/-- **C20.** The four kinds that can be arrays. -/
theorem C20_arrays :
    ((∀ a b, Peripheral.deriveFrom (Peripheral.deriveFrom a b) b = Peripheral.deriveFrom a b) ∧
      (∀ a, Peripheral.deriveFrom a a = a)) ∧
    ((∀ a b, Cluster.deriveFrom (Cluster.deriveFrom a b) b = Cluster.deriveFrom a b) ∧
      (∀ a, Cluster.deriveFrom a a = a)) ∧
    ((∀ a b, Register.deriveFrom (Register.deriveFrom a b) b = Register.deriveFrom a b) ∧
      (∀ a, Register.deriveFrom a a = a)) ∧
    ((∀ a b, Field.deriveFrom (Field.deriveFrom a b) b = Field.deriveFrom a b) ∧
      (∀ a, Field.deriveFrom a a = a)) :=
  ⟨C20_array _ _ C20_peripheral fun _ _ => rfl, C20_array _ _ C20_cluster fun _ _ => rfl,
    C20_array _ _ C20_register fun _ _ => rfl, C20_array _ _ C20_field fun _ _ => rfl⟩

/-- **C20.** With arrays the third law fails: a single register with a placeholder in its name,
deriving from a single one without, itself derived from an array. -/
theorem C20_array_not_associative :
    ∃ a b c : Register, Register.deriveFrom (Register.deriveFrom a b) c ≠
      Register.deriveFrom a (Register.deriveFrom b c) := by
  let r (n : String) : RegisterInfo :=
    ⟨n.toList, none, none, none, none, 0, {}, none, none, none, none, none, none⟩
  refine ⟨.single (r "A%s"), .single (r "B"), .array (r "C%s") ⟨2, 4, none, none, none⟩, ?_⟩
  decide

example : RegisterProperties.deriveFrom ⟨some 8, none, none, some 1, none⟩
    ⟨some 16, some .readOnly, none, none, some 3⟩ = ⟨some 8, some .readOnly, none, some 1, some 3⟩ :=
  rfl
example : Register.deriveFrom
    (.single ⟨"A%s".toList, none, none, none, none, 4, {}, none, none, none, none, none, none⟩)
    (.array ⟨"B%s".toList, none, some ['d'], none, none, 8, { size := some 8 }, none, none, none,
      none, none, none⟩ ⟨2, 4, none, some ['n'], none⟩) =
    .array ⟨"A%s".toList, none, some ['d'], none, none, 4, { size := some 8 }, none, none, none,
      none, none, none⟩ ⟨2, 4, none, none, none⟩ := by decide

end Svd
