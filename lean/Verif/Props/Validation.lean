import Verif.Spec.Sample
import Verif.Spec.Valid
import Verif.Lemmas.Validate
import Verif.Props.Names

/-!
# C11, C12, C13, C16: validation

Each `validate` is first shown to accept exactly what `Spec/Valid.lean` demands.
-/

namespace Svd

open Spec

theorem level_cases (lvl : ValidateLevel) (weak strict : Prop) :
    AtLevel weak strict lvl ↔
      match lvl with
      | .disabled => True
      | .weak => weak
      | .strict => weak ∧ strict := by
  cases lvl <;> simp [AtLevel, strictness]

theorem atLevel_disabled {w s : Prop} : AtLevel w s .disabled := by simp [AtLevel, strictness]

theorem atLevel_mono {w s : Prop} {l l' : ValidateLevel} (h : strictness l ≤ strictness l') :
    AtLevel w s l' → AtLevel w s l := by
  unfold AtLevel
  exact fun h' => ⟨fun hl => h'.1 (Nat.le_trans hl h), fun hl => h'.2 (Nat.le_trans hl h)⟩

@[simp] theorem strict_isStrict : ValidateLevel.strict.isStrict = true := rfl
@[simp] theorem weak_isStrict : ValidateLevel.weak.isStrict = false := rfl
@[simp] theorem disabled_isStrict : ValidateLevel.disabled.isStrict = false := rfl
@[simp] theorem strict_isDisabled : ValidateLevel.strict.isDisabled = false := rfl
@[simp] theorem weak_isDisabled : ValidateLevel.weak.isDisabled = false := rfl
@[simp] theorem disabled_isDisabled : ValidateLevel.disabled.isDisabled = true := rfl

/-- **C12.** Validation of register properties accepts exactly when the arithmetic condition of the
level holds. -/
theorem C12_reset_value_check (p : RegisterProperties) (lvl : ValidateLevel) :
    p.validate lvl = .ok () ↔ PropsValid p lvl := by
  unfold PropsValid
  rw [level_cases]
  obtain ⟨size, access, protection, value, mask⟩ := p
  unfold RegisterProperties.validate checkResetValue
  cases lvl <;> cases size <;> cases value <;> cases mask <;>
    simp [whenM_ok, seq_ok, fail, bitLen_gt, ← and_eq_left] <;> grind

theorem enumValue_validate (e : EnumeratedValue) (lvl : ValidateLevel) :
    e.validate lvl = .ok () ↔ EnumValueValid e lvl := by
  unfold EnumValueValid
  rw [level_cases]
  obtain ⟨name, description, value, isDefault⟩ := e
  rcases isDefault with _ | _ | _ <;> cases lvl <;> cases value <;>
    simp [EnumeratedValue.validate, EnumeratedValue.isDefaultB, whenM_ok, seq_ok, fail,
      (C10_check_name _ _).1]

theorem enums_validate (e : EnumeratedValues) (lvl : ValidateLevel) :
    e.validate lvl = .ok () ↔ EnumsValid e lvl := by
  unfold EnumsValid
  rw [level_cases]
  obtain ⟨name, usage, derivedFrom, values⟩ := e
  cases lvl <;> cases derivedFrom <;>
    simp [EnumeratedValues.validate, whenM_ok, seq_ok, forOpt_ok, fail, and_comm,
      (C10_check_name _ _).1, C10_check_derived_name]

theorem noneOrRead_iff (e : EnumeratedValues) : noneOrRead e.usageOf = true ↔ MayBeRead e := by
  obtain ⟨name, usage, derivedFrom, values⟩ := e
  cases derivedFrom <;> rcases usage with _ | _ | _ | _ <;>
    simp [noneOrRead, EnumeratedValues.usageOf, MayBeRead]

theorem noneOrWrite_iff (e : EnumeratedValues) : noneOrWrite e.usageOf = true ↔ MayBeWrite e := by
  obtain ⟨name, usage, derivedFrom, values⟩ := e
  cases derivedFrom <;> rcases usage with _ | _ | _ | _ <;>
    simp [noneOrWrite, EnumeratedValues.usageOf, MayBeWrite]

theorem compatibleEnums_iff (l : List EnumeratedValues) :
    compatibleEnums l = true ↔ UsagesValid l := by
  unfold UsagesValid
  match l with
  | [] => simp [compatibleEnums]
  | [_] => simp [compatibleEnums]
  | [a, b] => simp [compatibleEnums, noneOrRead_iff, noneOrWrite_iff]
  | a :: b :: c :: l => simp [compatibleEnums]

theorem enumChecks_ok (f : FieldInfo) (hi : U64) :
    (f.enumeratedValues.forM fun ev => ev.checkRange hi) = .ok () ↔
      ∀ g ∈ f.enumeratedValues, ∀ e ∈ g.values, ∀ v, e.value = some v → v.toNat < hi.toNat := by
  rw [forM_ok]
  refine forall_congr' fun g => forall_congr' fun _ => ?_
  unfold EnumeratedValues.checkRange
  rw [forM_ok]
  refine forall_congr' fun e => forall_congr' fun _ => ?_
  unfold EnumeratedValue.checkRange
  cases e.value <;> simp [fail] <;> omega

theorem wcCheck_ok (r : WriteConstraintRange) (hi : U64) :
    r.checkRange hi = .ok () ↔ r.min.toNat ≤ r.max.toNat ∧ r.max.toNat < hi.toNat := by
  unfold WriteConstraintRange.checkRange
  split
  · rename_i h
    simp only [fail, reduceCtorEq, false_iff]
    omega
  · rw [forM_ok]
    simp only [List.mem_cons, List.not_mem_nil, or_false, forall_eq_or_imp, forall_eq, iteFail_ok,
      Bool.not_eq_true', decide_eq_false_iff_not, Classical.not_not]
    omega

/-- **C13.** Validation of a field accepts exactly when the field can hold its enumerated and
constrained values, and, at Strict, its names are well formed and its groups of enumerated values
fit together. -/
theorem C13_field_validate (f : FieldInfo) (lvl : ValidateLevel) :
    f.validate lvl = .ok () ↔ FieldValid f lvl := by
  unfold FieldValid
  rw [level_cases]
  have hw : f.bitRange.width = 0 ↔ ¬ 1 ≤ f.bitRange.width.toNat := by
    rw [← BitVec.toNat_inj]; simp
  have hp : f.bitRange.width.toNat < 64 →
      (BitVec.ofNat 64 (2 ^ f.bitRange.width.toNat)).toNat = 2 ^ f.bitRange.width.toNat := by
    intro h
    rw [BitVec.toNat_ofNat]
    exact Nat.mod_eq_of_lt (Nat.pow_lt_pow_right (by omega) h)
  have hwc : (match f.writeConstraint with
      | some (.range r) => whenM (f.bitRange.width.toNat < 64)
          (r.checkRange (BitVec.ofNat 64 (2 ^ f.bitRange.width.toNat)))
      | _ => .ok ()) = .ok () ↔ (f.bitRange.width.toNat < 64 →
        ∀ lo hi, f.writeConstraint = some (.range ⟨lo, hi⟩) →
          lo.toNat ≤ hi.toNat ∧ hi.toNat < 2 ^ f.bitRange.width.toNat) := by
    split
    · rename_i r hr
      rw [whenM_ok, wcCheck_ok, decide_eq_true_eq, hr]
      refine forall_congr' fun h => ?_
      rw [hp h]
      constructor
      · rintro h lo hi he; injection he with he; injection he with he; subst he; exact h
      · intro h; exact h _ _ rfl
    · rename_i h
      simp only [true_iff]
      intro _ lo hi he
      exact absurd he (h _)
  have hev : whenM (f.bitRange.width.toNat < 64) (f.enumeratedValues.forM fun ev =>
      ev.checkRange (BitVec.ofNat 64 (2 ^ f.bitRange.width.toNat))) = .ok () ↔
      (f.bitRange.width.toNat < 64 → ∀ g ∈ f.enumeratedValues, ∀ e ∈ g.values, ∀ v,
        e.value = some v → v.toNat < 2 ^ f.bitRange.width.toNat) := by
    rw [whenM_ok, enumChecks_ok, decide_eq_true_eq]
    refine forall_congr' fun h => ?_
    rw [hp h]
  unfold FieldInfo.validate
  cases lvl
  · simp [whenM_ok]
  · rw [whenM_ok]
    simp only [weak_isDisabled, Bool.not_false, forall_const, seq_ok, hev, iteBind_ok, hw,
      Classical.not_not]
    simp only [whenM_ok, weak_isStrict, Bool.false_eq_true, false_imp_iff, true_and]
    constructor
    · rintro ⟨h1, h2, h3⟩; exact ⟨h1, fun h => ⟨h2 h, hwc.mp h3 h⟩⟩
    · rintro ⟨h1, h2⟩; exact ⟨h1, fun h => (h2 h).1, hwc.mpr fun h => (h2 h).2⟩
  · rw [whenM_ok]
    simp only [strict_isDisabled, Bool.not_false, forall_const, seq_ok, hev, iteBind_ok, hw,
      Classical.not_not]
    simp only [whenM_ok, strict_isStrict, forall_const, iteFail_ok', compatibleEnums_iff, seq_ok,
      forOpt_ok, (C10_check_dimable_name _ _).1, C10_check_derived_name]
    constructor
    · rintro ⟨⟨h1, h2⟩, h3, h4, h5, h6⟩; exact ⟨⟨h3, fun h => ⟨h4 h, hwc.mp h6 h⟩⟩, h1, h2, h5⟩
    · rintro ⟨⟨h3, h4⟩, h1, h2, h5⟩
      exact ⟨⟨h1, h2⟩, h3, fun h => (h4 h).1, h5, hwc.mpr fun h => (h4 h).2⟩

theorem register_validate (r : RegisterInfo) (lvl : ValidateLevel) :
    r.validate lvl = .ok () ↔ RegisterValid r lvl := by
  unfold RegisterValid
  rw [level_cases]
  unfold RegisterInfo.validate
  cases lvl <;> cases r.derivedFrom <;> rcases r.fields with _ | _ | ⟨_, _⟩ <;>
    simp [whenM_ok, seq_ok, forOpt_ok, fail, and_assoc,
      (C10_check_name _ _).1, (C10_check_dimable_name _ _).1, C10_check_derived_name]

theorem clusterParts_validate (h : ClusterHead) (cs : List RegisterCluster) (lvl : ValidateLevel) :
    validateClusterParts h cs lvl = .ok () ↔ ClusterValid { h with children := cs } lvl := by
  unfold ClusterValid
  rw [level_cases]
  unfold validateClusterParts
  cases lvl <;> cases h.derivedFrom <;> cases cs <;>
    simp [whenM_ok, seq_ok, fail, (C10_check_dimable_name _ _).1, C10_check_derived_name]

theorem cluster_validate (c : ClusterInfo) (lvl : ValidateLevel) :
    c.validate lvl = .ok () ↔ ClusterValid c lvl := clusterParts_validate _ _ lvl

theorem peripheral_validate (p : PeripheralInfo) (lvl : ValidateLevel) :
    p.validate lvl = .ok () ↔ PeripheralValid p lvl := by
  unfold PeripheralValid
  rw [level_cases]
  unfold PeripheralInfo.validate
  cases lvl <;> cases p.derivedFrom <;> rcases p.registers with _ | _ | ⟨_, _⟩ <;>
    simp [whenM_ok, seq_ok, forOpt_ok, fail, (C10_check_dimable_name _ _).1]

theorem device_validate (d : Device) (lvl : ValidateLevel) :
    d.validate lvl = .ok () ↔ DeviceValid d lvl := by
  unfold DeviceValid
  rw [level_cases]
  unfold Device.validate
  cases lvl <;> cases d.peripherals <;> simp [whenM_ok, fail]

theorem field_validateAll (f : FieldInfo) (lvl : ValidateLevel) :
    f.validateAll lvl = .ok () ↔ ∀ p, FieldHas f p → p.Valid lvl := by
  unfold FieldInfo.validateAll EnumeratedValues.validateAll
  rw [seq_ok, forM_ok, C13_field_validate]
  simp only [seq_ok, forM_ok, enums_validate, enumValue_validate]
  constructor
  · rintro ⟨h1, h2⟩ p hp
    cases hp with
    | self => exact h2
    | enums h => exact (h1 _ h).2
    | enumValue h h' => exact (h1 _ h).1 _ h'
  · intro h
    exact ⟨fun g hg => ⟨fun e he => h _ (.enumValue hg he), h _ (.enums hg)⟩, h _ .self⟩

theorem fieldArray_validateAll (f : Field) (lvl : ValidateLevel) :
    Field.validateAll f lvl = f.info.validateAll lvl := by
  unfold Field.validateAll
  cases f <;> rfl

theorem registerInfo_validateAll (r : RegisterInfo) (lvl : ValidateLevel) :
    r.validateAll lvl = .ok () ↔ ∀ p, RegisterHas r p → p.Valid lvl := by
  unfold RegisterInfo.validateAll RegisterInfo.fieldList
  simp only [seq_ok, forM_ok, register_validate, C12_reset_value_check, fieldArray_validateAll,
    field_validateAll]
  constructor
  · rintro ⟨h1, h2, h3⟩ p hp
    cases hp with
    | self => exact h3
    | props => exact h1
    | field h h' h'' => exact h2 _ (by rw [h]; exact h') _ h''
  · intro h
    refine ⟨h _ .props, fun f hf p hp => ?_, h _ .self⟩
    cases hfs : r.fields with
    | none => rw [hfs] at hf; cases hf
    | some fs => rw [hfs] at hf; exact h _ (.field hfs hf hp)

theorem register_validateAll (r : Register) (lvl : ValidateLevel) :
    Register.validateAll r lvl = r.info.validateAll lvl := by
  unfold Register.validateAll
  cases r <;> rfl

theorem validateRegisters_ok (lvl : ValidateLevel) (l : List RegisterCluster) :
    validateRegisters lvl l = .ok () ↔
      ∀ r, RegisterCluster.register r ∈ l → r.info.validateAll lvl = .ok () := by
  induction l with
  | nil => simp [validateRegisters]
  | cons a l ih =>
    cases a with
    | register r =>
      unfold validateRegisters
      rw [seq_ok, ih, register_validateAll]
      simp only [List.mem_cons, RegisterCluster.register.injEq, forall_eq_or_imp]
    | cluster h d cs =>
      unfold validateRegisters
      rw [ih]
      simp

theorem validateClusters_ok (lvl : ValidateLevel) (l : List RegisterCluster) :
    validateClusters lvl l = .ok () ↔
      ∀ h d cs, RegisterCluster.cluster h d cs ∈ l →
        RegisterCluster.validateAll lvl (.cluster h d cs) = .ok () := by
  induction l with
  | nil => simp [validateClusters]
  | cons a l ih =>
    cases a with
    | register r =>
      unfold validateClusters
      rw [ih]
      simp
    | cluster h d cs =>
      unfold validateClusters
      rw [seq_ok, ih]
      simp only [List.mem_cons, RegisterCluster.cluster.injEq]
      constructor
      · rintro ⟨h1, h2⟩ h' d' cs' (⟨rfl, rfl, rfl⟩ | hm)
        · exact h1
        · exact h2 _ _ _ hm
      · intro hh
        exact ⟨hh _ _ _ (.inl ⟨rfl, rfl, rfl⟩), fun h' d' cs' hm => hh _ _ _ (.inr hm)⟩

mutual
theorem node_validateAll (lvl : ValidateLevel) : ∀ n : RegisterCluster,
    n.validateAll lvl = .ok () ↔ ∀ m, InTree [n] m → ∀ p, NodeHas m p → p.Valid lvl
  | .register r => by
    unfold RegisterCluster.validateAll
    rw [register_validateAll, registerInfo_validateAll]
    constructor
    · intro h m hm p hp
      cases hm with
      | here hm =>
        simp only [List.mem_cons, List.not_mem_nil, or_false] at hm; subst hm
        cases hp with | register hp => exact h p hp
      | inside hm _ => simp at hm
    · intro h p hp
      exact h _ (.here (by simp)) p (.register hp)
  | .cluster h d cs => by
    have ih := nodes_validateAll lvl cs
    unfold RegisterCluster.validateAll
    simp only [seq_ok, C12_reset_value_check, clusterParts_validate]
    have hd : (forOpt d fun d => d.validate lvl) = .ok () := by cases d <;> rfl
    constructor
    · rintro ⟨_, h1, h2, h3, h4⟩ m hm p hp
      cases hm with
      | here hm =>
        simp only [List.mem_cons, List.not_mem_nil, or_false] at hm; subst hm
        cases hp with
        | cluster => exact h4
        | props => exact h1
      | inside hm hm' =>
        simp only [List.mem_cons, List.not_mem_nil, or_false, RegisterCluster.cluster.injEq] at hm
        obtain ⟨rfl, rfl, rfl⟩ := hm
        exact ih.mp ⟨h2, h3⟩ m hm' p hp
    · intro hh
      have := ih.mpr fun m hm p hp => hh m (.inside (List.mem_singleton.mpr rfl) hm) p hp
      exact ⟨hd, hh _ (.here (List.mem_singleton.mpr rfl)) _ (.props (d := d) (cs := cs)), this.1, this.2,
        hh _ (.here (List.mem_singleton.mpr rfl)) _ (.cluster (d := d))⟩
theorem nodes_validateAll (lvl : ValidateLevel) : ∀ l : List RegisterCluster,
    (validateRegisters lvl l = .ok () ∧ validateClusters lvl l = .ok ()) ↔
      ∀ m, InTree l m → ∀ p, NodeHas m p → p.Valid lvl
  | [] => by
    simp only [validateRegisters, validateClusters, and_self, true_iff]
    intro m hm
    cases hm with
    | here h => cases h
    | inside h _ => cases h
  | n :: l => by
    have ih := nodes_validateAll lvl l
    have hn := node_validateAll lvl n
    have split : (validateRegisters lvl (n :: l) = .ok () ∧ validateClusters lvl (n :: l) = .ok ()) ↔
        n.validateAll lvl = .ok () ∧ validateRegisters lvl l = .ok () ∧
          validateClusters lvl l = .ok () := by
      cases n with
      | register r =>
        simp only [validateRegisters, validateClusters, RegisterCluster.validateAll, seq_ok,
          and_assoc]
      | cluster h d cs =>
        simp only [validateRegisters, validateClusters, seq_ok]
        constructor
        · rintro ⟨h1, h2, h3⟩; exact ⟨h2, h1, h3⟩
        · rintro ⟨h2, h1, h3⟩; exact ⟨h1, h2, h3⟩
    rw [split, hn, ih]
    constructor
    · rintro ⟨h1, h2⟩ m hm p hp
      cases hm with
      | here hm =>
        rcases List.mem_cons.mp hm with rfl | hm
        · exact h1 _ (.here (by simp)) p hp
        · exact h2 _ (.here hm) p hp
      | inside hm hm' =>
        rcases List.mem_cons.mp hm with rfl | hm
        · exact h1 _ (.inside (List.mem_singleton.mpr rfl) hm') p hp
        · exact h2 _ (.inside hm hm') p hp
    · intro h
      constructor
      · intro m hm p hp
        cases hm with
        | here hm => exact h _ (.here (by simp_all)) p hp
        | inside hm hm' => exact h _ (.inside (List.mem_cons.mpr (.inl (List.mem_singleton.mp hm))) hm') p hp
      · intro m hm p hp
        cases hm with
        | here hm => exact h _ (.here (by simp_all)) p hp
        | inside hm hm' => exact h _ (.inside (List.mem_cons_of_mem _ hm) hm') p hp
end

theorem peripheral_validateAll (p : PeripheralInfo) (lvl : ValidateLevel) :
    p.validateAll lvl = .ok () ↔ ∀ q, PeripheralHas p q → q.Valid lvl := by
  unfold PeripheralInfo.validateAll PeripheralInfo.children
  have h0 : (forOpt p.addressBlock fun abs => abs.forM fun ab => ab.validate lvl) = .ok () := by
    rw [forOpt_ok]; intro l _; rw [forM_ok]; intro _ _; rfl
  have h1 : (p.interrupt.forM fun i => i.validate lvl) = .ok () := by
    rw [forM_ok]; intro _ _; rfl
  simp only [seq_ok, h0, h1, true_and, peripheral_validate, C12_reset_value_check]
  have hn := nodes_validateAll lvl (p.registers.getD [])
  constructor
  · rintro ⟨h2, h3, h4, h5⟩ q hq
    cases hq with
    | self => exact h5
    | props => exact h2
    | node hr ht hq =>
      rw [hr] at h3 h4
      exact (nodes_validateAll lvl _).mp ⟨h3, h4⟩ _ ht q hq
  · intro h
    have := hn.mpr fun m hm q hq => by
      cases hr : p.registers with
      | none =>
        rw [hr] at hm
        cases hm with
        | here h => cases h
        | inside h _ => cases h
      | some l => rw [hr] at hm; exact h q (.node hr hm hq)
    exact ⟨h _ .props, this.1, this.2, h _ .self⟩

/-- **C16.** Recursive validation of a device succeeds exactly when the device and every one of its
parts, at any depth, satisfies the conditions of the level. -/
theorem C16_validate_all (d : Device) (lvl : ValidateLevel) :
    d.validateAll lvl = .ok () ↔
      DeviceValid d lvl ∧ ∀ p, DeviceHas d p → p.Valid lvl := by
  unfold Device.validateAll
  have h0 : (forOpt d.cpu fun c => c.validate lvl) = .ok () := by
    rw [forOpt_ok]; intro _ _; rfl
  have hp : ∀ p : Peripheral, Peripheral.validateAll p lvl = p.info.validateAll lvl := by
    intro p; cases p <;> rfl
  simp only [seq_ok, h0, true_and, forM_ok, hp, peripheral_validateAll, C12_reset_value_check,
    device_validate]
  constructor
  · rintro ⟨h1, h2, h3⟩
    refine ⟨h3, fun q hq => ?_⟩
    cases hq with
    | props => exact h1
    | peripheral hm hq => exact h2 _ hm _ hq
  · rintro ⟨h1, h2⟩
    exact ⟨h2 _ .props, fun p hp q hq => h2 _ (.peripheral hp hq), h1⟩

/-- **C16.** The conditions on the parts are what their own `validate` checks. -/
theorem C16_parts (p : Part) (lvl : ValidateLevel) :
    p.Valid lvl ↔ (match p with
      | .props p => p.validate lvl
      | .peripheral p => p.validate lvl
      | .cluster c => c.validate lvl
      | .register r => r.validate lvl
      | .field f => f.validate lvl
      | .enums e => e.validate lvl
      | .enumValue e => e.validate lvl) = .ok () := by
  cases p with
  | props p => exact (C12_reset_value_check p lvl).symm
  | peripheral p => exact (peripheral_validate p lvl).symm
  | cluster c => exact (cluster_validate c lvl).symm
  | register r => exact (register_validate r lvl).symm
  | field f => exact (C13_field_validate f lvl).symm
  | enums e => exact (enums_validate e lvl).symm
  | enumValue e => exact (enumValue_validate e lvl).symm

theorem part_mono {p : Part} {l l' : ValidateLevel} (h : strictness l ≤ strictness l') :
    p.Valid l' → p.Valid l := by
  cases p <;> exact atLevel_mono h

theorem part_disabled (p : Part) : p.Valid .disabled := by
  cases p <;> exact atLevel_disabled

/-- **C11.** Whatever passes at a level passes at every less strict level: each kind of element. -/
theorem C11_parts_monotone (l l' : ValidateLevel) (h : strictness l ≤ strictness l') :
    (∀ p : RegisterProperties, p.validate l' = .ok () → p.validate l = .ok ()) ∧
    (∀ p : EnumeratedValue, p.validate l' = .ok () → p.validate l = .ok ()) ∧
    (∀ p : EnumeratedValues, p.validate l' = .ok () → p.validate l = .ok ()) ∧
    (∀ p : FieldInfo, p.validate l' = .ok () → p.validate l = .ok ()) ∧
    (∀ p : RegisterInfo, p.validate l' = .ok () → p.validate l = .ok ()) ∧
    (∀ p : ClusterInfo, p.validate l' = .ok () → p.validate l = .ok ()) ∧
    (∀ p : PeripheralInfo, p.validate l' = .ok () → p.validate l = .ok ()) ∧
    (∀ p : Device, p.validate l' = .ok () → p.validate l = .ok ()) := by
  refine ⟨?_, ?_, ?_, ?_, ?_, ?_, ?_, ?_⟩
  · intro p; rw [C12_reset_value_check, C12_reset_value_check]; exact atLevel_mono h
  · intro p; rw [enumValue_validate, enumValue_validate]; exact atLevel_mono h
  · intro p; rw [enums_validate, enums_validate]; exact atLevel_mono h
  · intro p; rw [C13_field_validate, C13_field_validate]; exact atLevel_mono h
  · intro p; rw [register_validate, register_validate]; exact atLevel_mono h
  · intro p; rw [cluster_validate, cluster_validate]; exact atLevel_mono h
  · intro p; rw [peripheral_validate, peripheral_validate]; exact atLevel_mono h
  · intro p; rw [device_validate, device_validate]; exact atLevel_mono h

/-- **C11.** Recursive validation of a device is monotone in the level. -/
theorem C11_validate_all_monotone (d : Device) (l l' : ValidateLevel)
    (h : strictness l ≤ strictness l') (hd : d.validateAll l' = .ok ()) :
    d.validateAll l = .ok () := by
  rw [C16_validate_all] at hd ⊢
  exact ⟨atLevel_mono h hd.1, fun p hp => part_mono h (hd.2 p hp)⟩

/-- **C11.** At level Disabled nothing is rejected. -/
theorem C11_disabled (d : Device) : d.validateAll .disabled = .ok () := by
  rw [C16_validate_all]
  exact ⟨atLevel_disabled, fun p _ => part_disabled p⟩

example : (Sample.device [.single (Sample.peripheralInfo "" 0 none (some []))]).validateAll .disabled = .ok () :=
  C11_disabled _

/-- **C11.** At level Disabled no element of any kind is rejected. -/
theorem C11_parts_disabled :
    (∀ p : RegisterProperties, p.validate .disabled = .ok ()) ∧
    (∀ p : EnumeratedValue, p.validate .disabled = .ok ()) ∧
    (∀ p : EnumeratedValues, p.validate .disabled = .ok ()) ∧
    (∀ p : FieldInfo, p.validate .disabled = .ok ()) ∧
    (∀ p : RegisterInfo, p.validate .disabled = .ok ()) ∧
    (∀ p : ClusterInfo, p.validate .disabled = .ok ()) ∧
    (∀ p : PeripheralInfo, p.validate .disabled = .ok ()) ∧
    (∀ p : Device, p.validate .disabled = .ok ()) :=
  ⟨fun _ => rfl, fun _ => rfl, fun _ => rfl, fun _ => rfl, fun _ => rfl, fun _ => rfl,
    fun _ => rfl, fun _ => rfl⟩

/-- A field of four bits with a value that needs four bits. -/
def exampleField : FieldInfo where
  name := "F%s".toList
  description := none
  bitRange := ⟨3, 4, .bitRange⟩
  access := none
  modifiedWriteValues := none
  writeConstraint := some (.range ⟨1, 15⟩)
  readAction := none
  enumeratedValues := [⟨none, some .read, none, [⟨"A".toList, none, some 15, none⟩]⟩,
    ⟨none, some .write, none, [⟨"B".toList, none, none, some true⟩]⟩]
  derivedFrom := none

example : exampleField.validateAll .strict = .ok () ∧
    { exampleField with bitRange := ⟨3, 3, .bitRange⟩ }.validate .weak =
      .error (.err (.enumOutOfRange 15 0 8)) ∧
    { exampleField with bitRange := ⟨3, 3, .bitRange⟩ }.validate .disabled = .ok () := by decide
example : RegisterProperties.validate ⟨some 8, none, none, some 256, none⟩ .weak =
    .error (.err (.resetValueTooLarge 256 8)) ∧
    RegisterProperties.validate ⟨some 8, none, none, some 255, some 127⟩ .weak = .ok () ∧
    RegisterProperties.validate ⟨some 8, none, none, some 255, some 127⟩ .strict =
      .error (.err (.resetMaskConflict 255 127)) := by decide

-- The hypotheses of `C11_parts_monotone` and `C11_validate_all_monotone` can be met; `C13_field_validate`,
-- `C16_parts` and `C16_validate_all` on the same elements.
example : exampleField.validate .weak = .ok () ∧ FieldValid exampleField .strict ∧ (Part.field exampleField).Valid .strict :=
  ⟨(C11_parts_monotone .weak .strict (by decide)).2.2.2.1 _ (by decide +kernel),
    (C13_field_validate _ _).mp (by decide +kernel), (C16_parts (.field exampleField) .strict).mpr (by decide +kernel)⟩
example : let d := Sample.device [.single (Sample.peripheralInfo "P" 0x1000 none (some
      [.register (.single (Sample.registerInfo "R" 0 none (some [.single exampleField])))]))]
    d.validateAll .weak = .ok () ∧ ∀ p, DeviceHas d p → p.Valid .strict :=
  have h := by decide +kernel
  ⟨C11_validate_all_monotone _ .weak .strict (by decide) h, ((C16_validate_all _ .strict).mp h).2⟩

end Svd
