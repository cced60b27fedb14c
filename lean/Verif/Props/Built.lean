import Verif.Spec.Sample
import Verif.Spec.Built
import Verif.Props.Build
import Verif.Props.Validation

/-!
# C61: what a builder filled in by hand builds, and which member it reports as missing
-/

namespace Svd

open Spec

namespace Built

/-- The error for a missing member. -/
abbrev Missing (k : String) : Fault := .err (.uninitialized k)

theorem need_ok {α : Type} {o : Option α} {w : String} {a : α} : need o w = .ok a ↔ o = some a := by
  cases o <;> simp [need, okOr, fail]

@[simp] theorem need_none {α : Type} (w : String) : need (none : Option α) w = .error (Missing w) := rfl

theorem lacks_nil {k : String} : ¬ Lacks [] k := by
  rintro ⟨before, after, h, _⟩
  cases before <;> cases h

theorem lacks_false {l : List (String × Bool)} {n k : String} : Lacks ((n, false) :: l) k ↔ n = k := by
  constructor
  · rintro ⟨before, after, h, hb⟩
    cases before with
    | nil => cases h; rfl
    | cons q before =>
      cases h
      exact absurd (hb _ (List.mem_cons_self ..)) (by simp)
  · rintro rfl
    exact ⟨[], l, rfl, by simp⟩

theorem lacks_true {l : List (String × Bool)} {n k : String} : Lacks ((n, true) :: l) k ↔ Lacks l k := by
  constructor
  · rintro ⟨before, after, h, hb⟩
    cases before with
    | nil => cases h
    | cons q before =>
      cases h
      exact ⟨before, after, rfl, fun q hq => hb q (List.mem_cons_of_mem _ hq)⟩
  · rintro ⟨before, after, rfl, hb⟩
    refine ⟨(n, true) :: before, after, rfl, ?_⟩
    intro q hq
    rcases List.mem_cons.mp hq with rfl | hq
    · rfl
    · exact hb q hq

theorem error_missing {α : Type} {n k : String} :
    ((Except.error (Missing n) : M α) = .error (Missing k)) ↔ n = k := by
  constructor
  · intro h; cases h; rfl
  · rintro rfl; rfl

/-- Validation does not complain about missing members. -/
def Silent (x : M Unit) : Prop := ∀ k, x ≠ .error (Missing k)

theorem silent_ok : Silent (.ok ()) := fun _ h => by cases h

theorem silent_fail {e : Err} (h : ∀ k, e ≠ .uninitialized k) : Silent (fail e) := by
  intro k hk
  cases hk
  exact h k rfl

theorem silent_bind {x : M Unit} {f : Unit → M Unit} (hx : Silent x) (hf : Silent (f ())) :
    Silent (x >>= f) := by
  intro k h
  rcases x with e | ⟨⟩
  · exact hx k h
  · exact hf k h

theorem silent_when {c : Bool} {x : M Unit} (h : Silent x) : Silent (whenM c x) := by
  cases c
  · exact silent_ok
  · exact h

theorem silent_forOpt {α : Type} {o : Option α} {f : α → M Unit} (h : ∀ a, Silent (f a)) :
    Silent (forOpt o f) := by
  cases o
  · exact silent_ok
  · exact h _

theorem silent_forM {α : Type} {f : α → M Unit} (h : ∀ a, Silent (f a)) :
    ∀ l : List α, Silent (l.forM f)
  | [] => silent_ok
  | a :: l => silent_bind (h a) (silent_forM h l)

theorem silent_ite {c : Prop} [Decidable c] {x y : M Unit} (hx : Silent x) (hy : Silent y) :
    Silent (if c then x else y) := by
  split
  · exact hx
  · exact hy

theorem silent_props (p : RegisterProperties) (lvl : ValidateLevel) : Silent (p.validate lvl) := by
  unfold RegisterProperties.validate checkResetValue
  have hf : ∀ {e : Err}, (∀ k, e ≠ .uninitialized k) → Silent (fail e) := silent_fail
  refine silent_when (silent_bind ?_ (silent_when (silent_bind ?_ ?_)))
  · split
    · exact silent_ite (hf (by intro k h; cases h)) silent_ok
    · exact silent_ok
  · split
    · exact silent_ite (hf (by intro k h; cases h)) silent_ok
    · exact silent_ok
  · split
    · exact silent_ite (hf (by intro k h; cases h)) silent_ok
    · exact silent_ok

theorem silent_name (n : Str) (t : String) : Silent (checkName n t) :=
  silent_ite silent_ok (silent_fail (by intro k h; cases h))

theorem silent_dimable (n : Str) (t : String) : Silent (checkDimableName n t) :=
  silent_ite silent_ok (silent_fail (by intro k h; cases h))

theorem silent_derived (n : Str) (t : String) : Silent (checkDerivedName n t) :=
  silent_forM (fun x => silent_dimable x t) _

theorem silent_enumValue (e : EnumeratedValue) (lvl : ValidateLevel) : Silent (e.validate lvl) := by
  unfold EnumeratedValue.validate
  refine silent_ite (silent_bind (silent_when (silent_name _ _)) ?_) silent_ok
  split
  · exact silent_fail (by intro k h; cases h)
  · exact silent_ite (silent_fail (by intro k h; cases h)) silent_ok
  · exact silent_ok

theorem silent_enums (e : EnumeratedValues) (lvl : ValidateLevel) : Silent (e.validate lvl) := by
  unfold EnumeratedValues.validate
  refine silent_ite (silent_bind (silent_when (silent_forOpt fun _ => silent_name _ _)) ?_) silent_ok
  split
  · exact silent_when (silent_derived _ _)
  · exact silent_ite (silent_fail (by intro k h; cases h)) silent_ok

theorem silent_range (e : EnumeratedValue) (hi : U64) : Silent (e.checkRange hi) := by
  unfold EnumeratedValue.checkRange
  split
  · exact silent_ite (silent_fail (by intro k h; cases h)) silent_ok
  · exact silent_ok

theorem silent_constraint (r : WriteConstraintRange) (hi : U64) : Silent (r.checkRange hi) := by
  unfold WriteConstraintRange.checkRange
  repeat' first
    | exact silent_ok
    | exact silent_fail (by intro k h; cases h)
    | refine silent_ite ?_ ?_
    | refine silent_forM (fun v => ?_) _

theorem silent_field (f : FieldInfo) (lvl : ValidateLevel) : Silent (f.validate lvl) := by
  unfold FieldInfo.validate
  have hrest : ∀ {x : M Unit}, Silent x → Silent (x >>= fun _ => do
      whenM (f.bitRange.width.toNat < 64) (f.enumeratedValues.forM fun ev =>
        ev.checkRange (BitVec.ofNat 64 (2 ^ f.bitRange.width.toNat)))
      whenM lvl.isStrict
        (if compatibleEnums f.enumeratedValues then .ok () else fail .incompatibleEnumeratedValues)
      match f.writeConstraint with
      | some (.range r) =>
        whenM (f.bitRange.width.toNat < 64)
          (r.checkRange (BitVec.ofNat 64 (2 ^ f.bitRange.width.toNat)))
      | _ => .ok ()) := by
    intro x hx
    refine silent_bind hx (silent_bind
      (silent_when (silent_forM (fun ev => silent_forM (fun v => silent_range v _) _) _))
      (silent_bind (silent_when (silent_ite silent_ok ?_)) ?_))
    · exact silent_fail (by intro k h; cases h)
    · split
      · exact silent_when (silent_constraint _ _)
      · exact silent_ok
  refine silent_when (silent_bind (silent_when (silent_bind (silent_dimable _ _)
    (silent_forOpt fun _ => silent_derived _ _))) ?_)
  exact silent_ite (hrest (silent_fail (by intro k h; cases h))) (hrest silent_ok)

theorem silent_register (r : RegisterInfo) (lvl : ValidateLevel) : Silent (r.validate lvl) := by
  unfold RegisterInfo.validate
  refine silent_when (silent_bind (silent_when (silent_bind (silent_dimable _ _) (silent_bind
    (silent_forOpt fun _ => silent_name _ _) (silent_forOpt fun _ => silent_dimable _ _)))) ?_)
  split
  · exact silent_when (silent_derived _ _)
  · exact silent_forOpt fun _ => silent_ite (silent_fail (by intro k h; cases h)) silent_ok

theorem silent_cluster (c : ClusterInfo) (lvl : ValidateLevel) : Silent (c.validate lvl) := by
  unfold ClusterInfo.validate validateClusterParts
  refine silent_when (silent_bind (silent_when (silent_dimable _ _)) ?_)
  split
  · exact silent_when (silent_derived _ _)
  · exact silent_ite (silent_fail (by intro k h; cases h)) silent_ok

theorem silent_peripheral (p : PeripheralInfo) (lvl : ValidateLevel) : Silent (p.validate lvl) := by
  unfold PeripheralInfo.validate
  refine silent_when (silent_bind (silent_when (silent_dimable _ _)) ?_)
  split
  · exact silent_when (silent_dimable _ _)
  · exact silent_forOpt fun _ => silent_ite (silent_fail (by intro k h; cases h)) silent_ok

theorem silent_device (d : Device) (lvl : ValidateLevel) : Silent (d.validate lvl) :=
  silent_when (silent_ite (silent_fail (by intro k h; cases h)) silent_ok)

/-- The end of every `build`. -/
theorem silent_end {α : Type} {x : M Unit} {a : α} {k : String} (h : Silent x) :
    (x >>= fun _ => (.ok a : M α)) ≠ .error (Missing k) := by
  intro hk
  rcases x with e | ⟨⟩
  · cases hk; exact h k rfl
  · cases hk

theorem end_ok {α : Type} {x : M Unit} {a b : α} :
    (x >>= fun _ => (.ok a : M α)) = .ok b ↔ x = .ok () ∧ a = b := by
  rcases x with e | ⟨⟩ <;> simp [bind, Except.bind]

/-- One mandatory member: the first to be missing is it or a later one. -/
theorem step {α β : Type} {o : Option α} {w k : String} {f : α → M β} {l : List (String × Bool)}
    (h : ∀ a, o = some a → (f a = .error (Missing k) ↔ Lacks l k)) :
    (need o w >>= f) = .error (Missing k) ↔ Lacks ((w, o.isSome) :: l) k := by
  cases o with
  | none => rw [Option.isSome_none, lacks_false]; exact error_missing
  | some a => rw [Option.isSome_some, lacks_true]; exact h a rfl

theorem last {α β : Type} {o : Option α} {w k : String} {f : α → M β}
    (h : ∀ a, f a ≠ .error (Missing k)) :
    (need o w >>= f) = .error (Missing k) ↔ Lacks [(w, o.isSome)] k :=
  step fun a _ => ⟨fun hk => absurd hk (h a), fun hk => absurd hk lacks_nil⟩

theorem props_build {β : Type} {p : RegisterProperties} {lvl : ValidateLevel} {k : String}
    {f : RegisterProperties → M β} :
    (p.build lvl >>= f) = .error (Missing k) ↔ PropsValid p lvl ∧ f p = .error (Missing k) := by
  rw [← C12_reset_value_check]
  unfold RegisterProperties.build
  have := silent_props p lvl k
  rcases h : p.validate lvl with e | ⟨⟩
  · rw [h] at this
    simp only [error_bind]
    exact ⟨fun hk => absurd (by cases hk; rfl) this, fun hk => by cases hk.1⟩
  · simp

theorem props_ok {β : Type} {p : RegisterProperties} {lvl : ValidateLevel} {f : RegisterProperties → M β}
    {b : β} : (p.build lvl >>= f) = .ok b ↔ PropsValid p lvl ∧ f p = .ok b := by
  rw [← C12_reset_value_check]
  unfold RegisterProperties.build
  rcases h : p.validate lvl with e | ⟨⟩ <;> simp

theorem need_bind {α β : Type} {o : Option α} {w : String} {f : α → M β} {b : β} :
    (need o w >>= f) = .ok b ↔ ∃ a, o = some a ∧ f a = .ok b := by
  rw [bind_ok]; simp only [need_ok]

end Built

open Built

/-! ## The theorems

Each says when a builder builds, what it builds, and which missing member it reports. -/

/-- **C61.** Enumerated values. -/
theorem C61_enumValue (b : EnumeratedValueBuilder) (lvl : ValidateLevel) :
    (∀ t, b.build lvl = .ok t ↔ EnumValueBuilt b t ∧ EnumValueValid t lvl) ∧
    ∀ k, b.build lvl = .error (.err (.uninitialized k)) ↔ Lacks [("name", b.name.isSome)] k := by
  unfold EnumeratedValueBuilder.build
  refine ⟨fun t => ?_, fun k => last fun _ => silent_end (silent_enumValue _ _)⟩
  simp only [need_bind, end_ok, enumValue_validate, emptyToNone_eq]
  constructor
  · rintro ⟨n, hn, hv, rfl⟩; exact ⟨⟨hn, rfl, rfl, rfl⟩, hv⟩
  · obtain ⟨n, d, v, i⟩ := t
    rintro ⟨⟨h1, h2, h3, h4⟩, hv⟩
    dsimp only at h1 h2 h3 h4
    subst h2 h3 h4
    exact ⟨n, h1, hv, rfl⟩

/-- **C61.** Groups of enumerated values: no member is mandatory. -/
theorem C61_enums (b : EnumeratedValuesBuilder) (lvl : ValidateLevel) :
    (∀ t, b.build lvl = .ok t ↔ EnumsBuilt b t ∧ EnumsValid t lvl) ∧
    ∀ k, b.build lvl ≠ .error (.err (.uninitialized k)) := by
  unfold EnumeratedValuesBuilder.build
  refine ⟨fun t => ?_, fun k => silent_end (silent_enums _ _)⟩
  simp only [end_ok, enums_validate, emptyToNone_eq]
  constructor
  · rintro ⟨hv, rfl⟩; exact ⟨⟨rfl, rfl, rfl, rfl⟩, hv⟩
  · obtain ⟨n, d, v, i⟩ := t
    rintro ⟨⟨h1, h2, h3, h4⟩, hv⟩
    dsimp only at h1 h2 h3 h4
    subst h1 h2 h3 h4
    exact ⟨hv, rfl⟩

/-- **C61.** Dimensions. -/
theorem C61_dim (b : DimElementBuilder) (lvl : ValidateLevel) :
    (∀ t, b.build lvl = .ok t ↔ DimBuilt b t) ∧
    ∀ k, b.build lvl = .error (.err (.uninitialized k)) ↔
      Lacks [("dim", b.dim.isSome), ("dim_increment", b.dimIncrement.isSome)] k := by
  unfold DimElementBuilder.build
  refine ⟨fun t => ?_, fun k => step fun _ _ => last fun _ => silent_end silent_ok⟩
  simp only [need_bind, end_ok, DimElement.validate, emptyToNone_eq]
  constructor
  · rintro ⟨n, hn, i, hi, _, rfl⟩; exact ⟨hn, hi, rfl, rfl, rfl⟩
  · obtain ⟨n, d, v, i, a⟩ := t
    rintro ⟨h1, h2, h3, h4, h5⟩
    dsimp only at h1 h2 h3 h4 h5
    subst h3 h4 h5
    exact ⟨n, h1, d, h2, trivial, rfl⟩

/-- **C61.** Address blocks. -/
theorem C61_addressBlock (b : AddressBlockBuilder) (lvl : ValidateLevel) :
    (∀ t, b.build lvl = .ok t ↔ BlockBuilt b t) ∧
    ∀ k, b.build lvl = .error (.err (.uninitialized k)) ↔
      Lacks [("offset", b.offset.isSome), ("size", b.size.isSome), ("usage", b.usage.isSome)] k := by
  unfold AddressBlockBuilder.build
  refine ⟨fun t => ?_, fun k => step fun _ _ => step fun _ _ => last fun _ => silent_end silent_ok⟩
  simp only [need_bind, end_ok, AddressBlock.validate]
  constructor
  · rintro ⟨n, hn, i, hi, u, hu, _, rfl⟩; exact ⟨hn, hi, hu, rfl⟩
  · obtain ⟨n, d, v, i⟩ := t
    rintro ⟨h1, h2, h3, h4⟩
    dsimp only at h1 h2 h3 h4
    subst h4
    exact ⟨n, h1, d, h2, v, h3, trivial, rfl⟩

/-- **C61.** Interrupts. -/
theorem C61_interrupt (b : InterruptBuilder) (lvl : ValidateLevel) :
    (∀ t, b.build lvl = .ok t ↔ InterruptBuilt b t) ∧
    ∀ k, b.build lvl = .error (.err (.uninitialized k)) ↔
      Lacks [("name", b.name.isSome), ("value", b.value.isSome)] k := by
  unfold InterruptBuilder.build
  refine ⟨fun t => ?_, fun k => step fun _ _ => last fun _ => silent_end silent_ok⟩
  simp only [need_bind, end_ok, Interrupt.validate]
  constructor
  · rintro ⟨n, hn, i, hi, _, rfl⟩; exact ⟨hn, rfl, hi⟩
  · obtain ⟨n, d, v⟩ := t
    rintro ⟨h1, h2, h3⟩
    dsimp only at h1 h2 h3
    subst h2
    exact ⟨n, h1, v, h3, trivial, rfl⟩

/-- **C61.** Fields. -/
theorem C61_field (b : FieldInfoBuilder) (lvl : ValidateLevel) :
    (∀ t, b.build lvl = .ok t ↔ FieldBuilt b t ∧ FieldValid t lvl) ∧
    ∀ k, b.build lvl = .error (.err (.uninitialized k)) ↔
      Lacks [("name", b.name.isSome), ("bit_range", b.bitRange.isSome)] k := by
  unfold FieldInfoBuilder.build
  refine ⟨fun t => ?_, fun k => step fun _ _ => last fun _ => silent_end (silent_field _ _)⟩
  simp only [need_bind, end_ok, C13_field_validate, emptyToNone_eq]
  constructor
  · rintro ⟨n, hn, i, hi, hv, rfl⟩; exact ⟨⟨hn, rfl, hi, rfl, rfl, rfl, rfl, rfl, rfl⟩, hv⟩
  · obtain ⟨name, description, bitRange, access, mwv, wc, ra, evs, df⟩ := t
    rintro ⟨⟨h1, h2, h3, h4, h5, h6, h7, h8, h9⟩, hv⟩
    dsimp only at h1 h2 h3 h4 h5 h6 h7 h8 h9
    subst h2 h4 h5 h6 h7 h8 h9
    exact ⟨name, h1, bitRange, h3, hv, rfl⟩

/-- **C61.** Registers. -/
theorem C61_register (b : RegisterInfoBuilder) (lvl : ValidateLevel) :
    (∀ t, b.build lvl = .ok t ↔
      RegisterBuilt b t ∧ PropsValid t.properties lvl ∧ RegisterValid t lvl) ∧
    ∀ k, b.build lvl = .error (.err (.uninitialized k)) ↔
      Lacks [("name", b.name.isSome), ("address_offset", b.addressOffset.isSome)] k := by
  unfold RegisterInfoBuilder.build
  refine ⟨fun t => ?_, fun k => step fun _ _ => last fun _ h =>
    silent_end (silent_register _ _) (props_build.mp h).2⟩
  simp only [need_bind, props_ok, end_ok, register_validate]
  constructor
  · rintro ⟨n, hn, i, hi, hp, hv, rfl⟩
    exact ⟨⟨hn, rfl, rfl, rfl, rfl, hi, rfl, rfl, rfl, rfl, rfl, rfl, rfl⟩, hp, hv⟩
  · rintro ⟨⟨h1, h2, h3, h4, h5, h6, h7, h8, h9, h10, h11, h12, h13⟩, hp, hv⟩
    have e : t = RegisterInfo.mk t.name b.displayName b.description b.alternateGroup
        b.alternateRegister t.addressOffset b.properties b.datatype b.modifiedWriteValues
        b.writeConstraint b.readAction b.fields b.derivedFrom := by
      cases t; simp_all
    exact ⟨t.name, h1, t.addressOffset, h6, h7 ▸ hp, by rw [← e]; exact hv, e.symm⟩

/-- **C61.** Clusters: the properties are validated before the children are asked for. -/
theorem C61_cluster (b : ClusterInfoBuilder) (lvl : ValidateLevel) :
    (∀ t, b.build lvl = .ok t ↔
      ClusterBuilt b t ∧ PropsValid t.defaultRegisterProperties lvl ∧ ClusterValid t lvl) ∧
    ∀ k, b.build lvl = .error (.err (.uninitialized k)) ↔
      Lacks [("name", b.name.isSome), ("address_offset", b.addressOffset.isSome)] k ∨
      (b.name ≠ none ∧ b.addressOffset ≠ none ∧ b.children = none ∧ k = "children" ∧
        PropsValid b.defaultRegisterProperties lvl) := by
  unfold ClusterInfoBuilder.build
  constructor
  · intro t
    simp only [need_bind, props_ok, end_ok, cluster_validate, emptyToNone_eq]
    constructor
    · rintro ⟨n, hn, i, hi, hp, c, hc, hv, rfl⟩
      exact ⟨⟨hn, rfl, rfl, rfl, hi, rfl, hc, rfl⟩, hp, hv⟩
    · rintro ⟨⟨h1, h2, h3, h4, h5, h6, h7, h8⟩, hp, hv⟩
      refine ⟨t.name, h1, t.addressOffset, h5, h6 ▸ hp, t.children, h7, ?_⟩
      rw [← h2, ← h3, ← h4, ← h6, ← h8]
      exact ⟨hv, rfl⟩
  · intro k
    cases hn : b.name with
    | none => simp [lacks_false]
    | some n =>
      cases ho : b.addressOffset with
      | none => simp [lacks_true, lacks_false]
      | some o =>
        simp only [need_some, ok_bind, props_build, Option.isSome_some, lacks_true, lacks_nil,
          false_or]
        cases hc : b.children with
        | none => simp [and_comm, eq_comm]
        | some c =>
          simp only [need_some, ok_bind]
          refine ⟨fun h => absurd h.2 (silent_end (silent_cluster _ _)), fun h => ?_⟩
          exact absurd h.2.2.1 (by simp)

/-- **C61.** Peripherals. -/
theorem C61_peripheral (b : PeripheralInfoBuilder) (lvl : ValidateLevel) :
    (∀ t, b.build lvl = .ok t ↔
      PeripheralBuilt b t ∧ PropsValid t.defaultRegisterProperties lvl ∧ PeripheralValid t lvl) ∧
    ∀ k, b.build lvl = .error (.err (.uninitialized k)) ↔
      Lacks [("name", b.name.isSome), ("base_address", b.baseAddress.isSome)] k := by
  unfold PeripheralInfoBuilder.build
  refine ⟨fun t => ?_, fun k => step fun _ _ => last fun _ h =>
    silent_end (silent_peripheral _ _) (props_build.mp h).2⟩
  simp only [need_bind, props_ok, end_ok, peripheral_validate, emptyToNone_eq]
  constructor
  · rintro ⟨n, hn, i, hi, hp, hv, rfl⟩
    exact ⟨⟨hn, rfl, rfl, rfl, rfl, rfl, rfl, rfl, rfl, hi, rfl, rfl, rfl, rfl, rfl⟩, hp, hv⟩
  · rintro ⟨⟨h1, h2, h3, h4, h5, h6, h7, h8, h9, h10, h11, h12, h13, h14, h15⟩, hp, hv⟩
    refine ⟨t.name, h1, t.baseAddress, h10, h11 ▸ hp, ?_⟩
    rw [← h2, ← h3, ← h4, ← h5, ← h6, ← h7, ← h8, ← h9, ← h11, ← h12, ← h13, ← h14, ← h15]
    exact ⟨hv, rfl⟩

/-- **C61.** The processor. -/
theorem C61_cpu (b : CpuBuilder) (lvl : ValidateLevel) :
    (∀ t, b.build lvl = .ok t ↔ CpuBuilt b t) ∧
    ∀ k, b.build lvl = .error (.err (.uninitialized k)) ↔
      Lacks [("name", b.name.isSome), ("revision", b.revision.isSome), ("endian", b.endian.isSome),
        ("mpu_present", b.mpuPresent.isSome), ("fpu_present", b.fpuPresent.isSome),
        ("nvic_priority_bits", b.nvicPriorityBits.isSome),
        ("has_vendor_systick", b.hasVendorSystick.isSome)] k := by
  unfold CpuBuilder.build
  refine ⟨fun t => ?_, fun k => step fun _ _ => step fun _ _ => step fun _ _ => step fun _ _ =>
    step fun _ _ => step fun _ _ => last fun _ => silent_end silent_ok⟩
  simp only [need_bind, end_ok, Cpu.validate]
  constructor
  · rintro ⟨_, h1, _, h2, _, h3, _, h4, _, h5, _, h6, _, h7, _, rfl⟩
    exact ⟨h1, h2, h3, h4, h5, rfl, rfl, rfl, rfl, rfl, rfl, rfl, h6, h7, rfl, rfl⟩
  · rintro ⟨h1, h2, h3, h4, h5, h6, h7, h8, h9, h10, h11, h12, h13, h14, h15, h16⟩
    refine ⟨_, h1, _, h2, _, h3, _, h4, _, h5, _, h13, _, h14, trivial, ?_⟩
    rw [← h6, ← h7, ← h8, ← h9, ← h10, ← h11, ← h12, ← h15, ← h16]

theorem Built.orDefault_some {α : Type} {o : Option α} {lvl : ValidateLevel} {dflt a : α} :
    orDefault o lvl dflt = some a ↔ GivenOr lvl o dflt a := by
  unfold orDefault GivenOr
  cases o with
  | some b => simp
  | none => cases lvl <;> simp [ValidateLevel.isStrict] <;> exact eq_comm

theorem Built.orDefault_isSome {α : Type} (o : Option α) (lvl : ValidateLevel) (dflt : α) :
    (orDefault o lvl dflt).isSome = (o.isSome || lvl != .strict) := by
  unfold orDefault
  cases o <;> cases lvl <;> rfl

/-- **C61.** Devices: four members are mandatory at level Strict only, and the properties are
validated before the peripherals are asked for. -/
theorem C61_device (b : DeviceBuilder) (lvl : ValidateLevel) :
    (∀ t, b.build lvl = .ok t ↔
      DeviceBuilt lvl b t ∧ PropsValid t.defaultRegisterProperties lvl ∧ DeviceValid t lvl) ∧
    ∀ k, b.build lvl = .error (.err (.uninitialized k)) ↔
      Lacks [("name", b.name.isSome), ("version", b.version.isSome || lvl != .strict),
        ("description", b.description.isSome || lvl != .strict),
        ("addressUnitBits", b.addressUnitBits.isSome || lvl != .strict),
        ("width", b.width.isSome || lvl != .strict),
        ("peripherals", b.peripherals.isSome)] k ∧
      (k = "peripherals" → PropsValid b.defaultRegisterProperties lvl) := by
  unfold DeviceBuilder.build
  constructor
  · intro t
    simp only [need_bind, props_ok, end_ok, device_validate, orDefault_some]
    constructor
    · rintro ⟨_, h1, _, h2, _, h3, _, h4, _, h5, hp, _, h6, hv, rfl⟩
      exact ⟨⟨rfl, rfl, h1, rfl, h2, h3, rfl, rfl, rfl, rfl, h4, h5, rfl, h6, rfl, rfl, rfl⟩, hp, hv⟩
    · rintro ⟨⟨h1, h2, h3, h4, h5, h6, h7, h8, h9, h10, h11, h12, h13, h14, h15, h16, h17⟩, hp, hv⟩
      refine ⟨_, h3, _, h5, _, h6, _, h11, _, h12, h13 ▸ hp, _, h14, ?_⟩
      have e16 : b.noNamespaceSchemaLocation.getD defaultNoNamespaceSchemaLocation =
        t.noNamespaceSchemaLocation := h16.symm
      have e15 : b.xmlnsXs.getD defaultXmlnsXs = t.xmlnsXs := h15.symm
      have e17 : b.schemaVersion.getD defaultSchemaVersion = t.schemaVersion := h17.symm
      rw [e15, e16, e17, ← h1, ← h2, ← h4, ← h7, ← h8, ← h9, ← h10, ← h13]
      exact ⟨hv, rfl⟩
  · intro k
    simp only [← orDefault_isSome b.version lvl "1.0".toList,
      ← orDefault_isSome b.description lvl [],
      ← orDefault_isSome b.addressUnitBits lvl 8, ← orDefault_isSome b.width lvl 32]
    have stepP : ∀ {α : Type} {o : Option α} {w : String} {f : α → M Device}
        {l : List (String × Bool)} {P : Prop}, w ≠ "peripherals" →
        (∀ a, o = some a → (f a = .error (Missing k) ↔ Lacks l k ∧ (k = "peripherals" → P))) →
        ((need o w >>= f) = .error (Missing k) ↔
          Lacks ((w, o.isSome) :: l) k ∧ (k = "peripherals" → P)) := by
      intro α o w f l P hw h
      cases o with
      | none =>
        rw [Option.isSome_none, lacks_false]
        refine error_missing.trans ⟨fun e => ⟨e, fun e' => absurd (e.trans e') hw⟩, fun e => e.1⟩
      | some a => rw [Option.isSome_some, lacks_true]; exact h a rfl
    refine stepP (by decide) fun _ _ => stepP (by decide) fun _ _ => stepP (by decide) fun _ _ =>
      stepP (by decide) fun _ _ => stepP (by decide) fun _ _ => ?_
    rw [props_build, last fun _ => silent_end (silent_device _ _)]
    cases hp : b.peripherals with
    | none =>
      rw [Option.isSome_none, lacks_false]
      exact ⟨fun h => ⟨h.2, fun _ => h.1⟩, fun h => ⟨h.2 h.1.symm, h.1⟩⟩
    | some _ =>
      rw [Option.isSome_some, lacks_true]
      exact ⟨fun h => absurd h.2 lacks_nil, fun h => absurd h.1 lacks_nil⟩

/-! ## Examples -/

namespace BuiltExample

/-- A builder without peripherals builds nothing, whatever the level. -/
example (lvl : ValidateLevel) :
    DeviceBuilder.build
      { name := some "D".toList, version := some [], description := some [],
        addressUnitBits := some 8, width := some 32 } lvl =
      .error (.err (.uninitialized "peripherals")) := by
  refine ((C61_device _ _).2 _).mpr ⟨⟨[_, _, _, _, _], [], rfl, by simp⟩, fun _ => ?_⟩
  exact (C12_reset_value_check _ _).mp (by cases lvl <;> rfl)

/-- Of several missing members the first one is named. -/
example : CpuBuilder.build { name := some "CM0".toList, endian := some .little } .weak =
    .error (.err (.uninitialized "revision")) :=
  ((C61_cpu _ _).2 _).mpr ⟨[("name", true)], _, rfl, by simp⟩

/-- Invalid properties of a cluster are reported although the children are missing as well. -/
example : ¬ ∃ k, ClusterInfoBuilder.build
    { name := some "C".toList, addressOffset := some 0,
      defaultRegisterProperties := { size := some 8, resetValue := some 256 } } .weak =
      .error (.err (.uninitialized k)) := by
  rintro ⟨k, h⟩
  cases h

/-- Below level Strict a device needs a name and peripherals only. -/
example : ∃ t, DeviceBuilder.build { name := some "D".toList, peripherals := some [] } .disabled = .ok t ∧
    DeviceBuilt .disabled { name := some "D".toList, peripherals := some [] } t :=
  ⟨_, rfl, (((C61_device _ _).1 _).mp rfl).1⟩

/-- An interrupt with everything given. -/
example : InterruptBuilder.build { name := some "I".toList, value := some 3 } .strict =
    .ok ⟨"I".toList, none, 3⟩ :=
  ((C61_interrupt _ _).1 _).mpr ⟨rfl, rfl, rfl⟩

end BuiltExample

-- The other builders: what is built, and what is reported missing (`C61_enumValue`, `C61_enums`, `C61_dim`,
-- `C61_addressBlock`, `C61_field`, `C61_register`, `C61_cluster`, `C61_peripheral`).
example : EnumValueBuilt { name := some "on".toList, value := some 1 } ⟨"on".toList, none, some 1, none⟩ :=
  (((C61_enumValue _ .strict).1 _).mp (by decide)).1
example : EnumsBuilt { values := some [⟨['A'], none, some 1, none⟩] } ⟨none, none, none, [⟨['A'], none, some 1, none⟩]⟩ :=
  (((C61_enums _ .strict).1 _).mp (by decide)).1
example : DimBuilt { dim := some 2, dimIncrement := some 4 } (Sample.dim 2 4) := ((C61_dim _ .strict).1 _).mp (by decide)
example : AddressBlockBuilder.build { offset := some 0, usage := some .registers } .weak =
    .error (.err (.uninitialized "size")) :=
  ((C61_addressBlock _ _).2 _).mpr ⟨[("offset", true)], _, rfl, by simp⟩
example : FieldInfoBuilder.build { name := some "F".toList } .weak = .error (.err (.uninitialized "bit_range")) :=
  ((C61_field _ _).2 _).mpr ⟨[("name", true)], _, rfl, by simp⟩
example : RegisterBuilt { name := some "R".toList, addressOffset := some 4 } (Sample.registerInfo "R" 4) :=
  (((C61_register _ .strict).1 _).mp (by decide)).1
example : ClusterInfoBuilder.build { name := some "C".toList, addressOffset := some 4 } .weak =
    .error (.err (.uninitialized "children")) :=
  ((C61_cluster _ _).2 _).mpr (.inr ⟨nofun, nofun, rfl, rfl, nofun, nofun⟩)
example : PeripheralBuilt { name := some "P".toList, baseAddress := some 4 } (Sample.peripheralInfo "P" 4) :=
  (((C61_peripheral _ .strict).1 _).mp (by decide)).1

end Svd
