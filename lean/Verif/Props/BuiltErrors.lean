import Verif.Props.Built

/-!
# C61: which error a builder reports when no mandatory member is missing
-/

namespace Svd

open Spec Built

/-- The element, if it was found valid. -/
abbrev provided {α : Type} (check : M Unit) (t : α) : M α := check >>= fun _ => .ok t

theorem GivenOr.need {α : Type} {lvl : ValidateLevel} {given : Option α} {dflt t : α} {w : String}
    (h : GivenOr lvl given dflt t) : need (orDefault given lvl dflt) w = .ok t := by
  rcases h with h | ⟨h, hl, rfl⟩
  · subst h; rfl
  · subst h
    cases lvl
    · rfl
    · rfl
    · exact absurd rfl hl

/-- **C61.** With all mandatory members given, a builder of an element without properties reports what is wrong with the
element described. -/
theorem C61_errors_small (lvl : ValidateLevel) :
    (∀ b t, EnumValueBuilt b t → b.build lvl = provided (t.validate lvl) t) ∧
    (∀ b t, EnumsBuilt b t → b.build lvl = provided (t.validate lvl) t) ∧
    (∀ b t, FieldBuilt b t → b.build lvl = provided (t.validate lvl) t) ∧
    (∀ b t, DimBuilt b t → b.build lvl = .ok t) ∧
    (∀ b t, BlockBuilt b t → b.build lvl = .ok t) ∧
    (∀ b t, InterruptBuilt b t → b.build lvl = .ok t) ∧
    (∀ b t, CpuBuilt b t → b.build lvl = provided (t.validate lvl) t) := by
  refine ⟨?_, ?_, ?_, ?_, ?_, ?_, ?_⟩
  · rintro b t ⟨h1, h2, h3, h4⟩
    cases t
    simp only at *
    simp only [EnumeratedValueBuilder.build, h1, need_some, ok_bind, emptyToNone_eq, ← h2, ← h3, ← h4]
  · rintro b t ⟨h1, h2, h3, h4⟩
    cases t
    simp only at *
    simp only [EnumeratedValuesBuilder.build, emptyToNone_eq, ← h1, ← h2, ← h3, ← h4]
  · rintro b t ⟨h1, h2, h3, h4, h5, h6, h7, h8, h9⟩
    cases t
    simp only at *
    simp only [FieldInfoBuilder.build, h1, h3, need_some, ok_bind, emptyToNone_eq, ← h2, ← h4, ← h5, ← h6, ← h7, ← h8,
      ← h9]
  · exact fun b t h => ((C61_dim b lvl).1 t).mpr h
  · exact fun b t h => ((C61_addressBlock b lvl).1 t).mpr h
  · exact fun b t h => ((C61_interrupt b lvl).1 t).mpr h
  · rintro b t ⟨h1, h2, h3, h4, h5, h6, h7, h8, h9, h10, h11, h12, h13, h14, h15, h16⟩
    cases t
    simp only at *
    simp only [CpuBuilder.build, h1, h2, h3, h4, h5, h13, h14, need_some, ok_bind, ← h6, ← h7, ← h8, ← h9, ← h10, ← h11,
      ← h12, ← h15, ← h16]

theorem props_provided {α : Type} {p : RegisterProperties} {lvl : ValidateLevel} {f : RegisterProperties → M α} :
    (p.build lvl >>= f) = (p.validate lvl >>= fun _ => f p) := by
  unfold RegisterProperties.build
  cases p.validate lvl <;> rfl

/-- **C61.** With all mandatory members given, a builder of an element with properties reports what is wrong with the
properties, and then what is wrong with the element. -/
theorem C61_errors (lvl : ValidateLevel) :
    (∀ b t, RegisterBuilt b t → b.build lvl =
      provided (t.properties.validate lvl >>= fun _ => t.validate lvl) t) ∧
    (∀ b t, ClusterBuilt b t → b.build lvl =
      provided (t.defaultRegisterProperties.validate lvl >>= fun _ => t.validate lvl) t) ∧
    (∀ b t, PeripheralBuilt b t → b.build lvl =
      provided (t.defaultRegisterProperties.validate lvl >>= fun _ => t.validate lvl) t) ∧
    (∀ b t, DeviceBuilt lvl b t → b.build lvl =
      provided (t.defaultRegisterProperties.validate lvl >>= fun _ => t.validate lvl) t) := by
  refine ⟨?_, ?_, ?_, ?_⟩
  · rintro b t ⟨h1, h2, h3, h4, h5, h6, h7, h8, h9, h10, h11, h12, h13⟩
    cases t
    simp only at *
    simp only [RegisterInfoBuilder.build, h1, h6, need_some, ok_bind, props_provided, ← h2, ← h3, ← h4, ← h5, ← h7, ← h8,
      ← h9, ← h10, ← h11, ← h12, ← h13, provided]
    cases RegisterProperties.validate _ lvl <;> rfl
  · rintro b t ⟨h1, h2, h3, h4, h5, h6, h7, h8⟩
    cases t
    simp only at *
    simp only [ClusterInfoBuilder.build, h1, h5, h7, need_some, ok_bind, props_provided, emptyToNone_eq, ← h2, ← h3, ← h4,
      ← h6, ← h8, provided]
    cases RegisterProperties.validate _ lvl <;> rfl
  · rintro b t ⟨h1, h2, h3, h4, h5, h6, h7, h8, h9, h10, h11, h12, h13, h14, h15⟩
    cases t
    simp only at *
    simp only [PeripheralInfoBuilder.build, h1, h10, need_some, ok_bind, props_provided, emptyToNone_eq, ← h2, ← h3, ← h4,
      ← h5, ← h6, ← h7, ← h8, ← h9, ← h11, ← h12, ← h13, ← h14, ← h15, provided]
    cases RegisterProperties.validate _ lvl <;> rfl
  · rintro b t ⟨h1, h2, h3, h4, h5, h6, h7, h8, h9, h10, h11, h12, h13, h14, h15, h16, h17⟩
    cases t
    simp only at *
    have e2 : need (orDefault b.description lvl []) "description" = .ok _ := GivenOr.need h6
    simp only [DeviceBuilder.build, h3, h14, GivenOr.need h5, e2, GivenOr.need h11, GivenOr.need h12, need_some, ok_bind,
      props_provided, ← h1, ← h2, ← h4, ← h7, ← h8, ← h9, ← h10, ← h13, provided]
    have e3 : b.xmlnsXs.getD defaultXmlnsXs = _ := h15.symm
    have e4 : defaultNoNamespaceSchemaLocation = "CMSIS-SVD_Schema_1_1.xsd".toList := by decide
    have e5 : b.schemaVersion.getD defaultSchemaVersion = _ := h17.symm
    rw [e3, e4, e5, ← h16]
    cases RegisterProperties.validate _ lvl <;> rfl

/-! ### Examples -/

/-- The reset value is reported, not the empty list of fields. -/
example : (RegisterInfoBuilder.build
    { name := some "R".toList, addressOffset := some 0, properties := { size := some 8, resetValue := some 256 },
      fields := some [] } .weak) = .error (.err (.resetValueTooLarge 256 8)) := rfl

example : (RegisterInfoBuilder.build
    { name := some "R".toList, addressOffset := some 0, properties := { size := some 8, resetValue := some 255 },
      fields := some [] } .strict) = .error (.err .emptyFields) := rfl

example : RegisterBuilt
    { name := some "R".toList, addressOffset := some 0, properties := { size := some 8, resetValue := some 256 },
      fields := some [] }
    { name := "R".toList, displayName := none, description := none, alternateGroup := none, alternateRegister := none,
      addressOffset := 0, properties := { size := some 8, resetValue := some 256 }, datatype := none,
      modifiedWriteValues := none, writeConstraint := none, readAction := none, fields := some [], derivedFrom := none } :=
  ⟨rfl, rfl, rfl, rfl, rfl, rfl, rfl, rfl, rfl, rfl, rfl, rfl, rfl⟩

end Svd
