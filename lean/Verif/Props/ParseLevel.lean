import Verif.Lemmas.Refine
import Verif.Props.Validation
import Verif.Model.Parse

/-!
# C14, C15: parsing and validation levels
-/

namespace Svd

open Spec Xml

/-! ## C15 -/

/-- A configuration with another validation level. -/
def withLevel (cfg : ParseConfig) (lvl : ValidateLevel) : ParseConfig := { cfg with validateLevel := lvl }

section mono

variable {l l' : ValidateLevel} (h : strictness l ≤ strictness l')
include h

omit h in
/-- `validate` then return. -/
theorem refines_validate {α : Type} {v : ValidateLevel → M Unit} {a : α}
    (hv : v l' = .ok () → v l = .ok ()) :
    Refines (v l' >>= fun _ => .ok a) (v l >>= fun _ => .ok a) := by
  intro b hb
  obtain ⟨⟨⟩, h1, h2⟩ := bind_ok.mp hb
  exact bind_ok.mpr ⟨(), hv h1, h2⟩

theorem buildProps_mono (b : RegisterProperties) : Refines (b.build l') (b.build l) :=
  refines_validate ((C11_parts_monotone l l' h).1 b)

theorem buildEnumValue_mono (b : EnumeratedValueBuilder) : Refines (b.build l') (b.build l) := by
  unfold EnumeratedValueBuilder.build
  exact .bind (.refl _) fun _ _ => refines_validate ((C11_parts_monotone l l' h).2.1 _)

theorem buildEnums_mono (b : EnumeratedValuesBuilder) : Refines (b.build l') (b.build l) := by
  unfold EnumeratedValuesBuilder.build
  exact refines_validate ((C11_parts_monotone l l' h).2.2.1 _)

theorem buildField_mono (b : FieldInfoBuilder) : Refines (b.build l') (b.build l) := by
  unfold FieldInfoBuilder.build
  exact .bind (.refl _) fun _ _ => .bind (.refl _) fun _ _ =>
    refines_validate ((C11_parts_monotone l l' h).2.2.2.1 _)

theorem buildRegister_mono (b : RegisterInfoBuilder) : Refines (b.build l') (b.build l) := by
  unfold RegisterInfoBuilder.build
  exact .bind (.refl _) fun _ _ => .bind (.refl _) fun _ _ => .bind (buildProps_mono h _) fun _ _ =>
    refines_validate ((C11_parts_monotone l l' h).2.2.2.2.1 _)

theorem buildCluster_mono (b : ClusterInfoBuilder) : Refines (b.build l') (b.build l) := by
  unfold ClusterInfoBuilder.build
  exact .bind (.refl _) fun _ _ => .bind (.refl _) fun _ _ => .bind (buildProps_mono h _) fun _ _ =>
    .bind (.refl _) fun _ _ => refines_validate ((C11_parts_monotone l l' h).2.2.2.2.2.1 _)

theorem buildPeripheral_mono (b : PeripheralInfoBuilder) : Refines (b.build l') (b.build l) := by
  unfold PeripheralInfoBuilder.build
  exact .bind (.refl _) fun _ _ => .bind (.refl _) fun _ _ => .bind (buildProps_mono h _) fun _ _ =>
    refines_validate ((C11_parts_monotone l l' h).2.2.2.2.2.2.1 _)

theorem orDefault_mono {α : Type} (o : Option α) (d : α) (what : String) :
    Refines (need (orDefault o l' d) what) (need (orDefault o l d) what) := by
  cases o with
  | some a => exact .refl _
  | none =>
    unfold orDefault
    revert h
    cases l <;> cases l' <;> simp [strictness] <;>
      first | exact .refl _ | (intro a ha; cases ha)

theorem buildDevice_mono (b : DeviceBuilder) : Refines (b.build l') (b.build l) := by
  unfold DeviceBuilder.build
  exact .bind (.refl _) fun _ _ => .bind (orDefault_mono h _ _ _) fun _ _ =>
    .bind (orDefault_mono h _ _ _) fun _ _ => .bind (orDefault_mono h _ _ _) fun _ _ =>
    .bind (orDefault_mono h _ _ _) fun _ _ => .bind (buildProps_mono h _) fun _ _ =>
    .bind (.refl _) fun _ _ => refines_validate ((C11_parts_monotone l l' h).2.2.2.2.2.2.2 _)

variable (oc : Bool) (cfg : ParseConfig)

theorem parseProps_mono (t : Xml) :
    Refines (parseRegisterProperties (withLevel cfg l') t)
      (parseRegisterProperties (withLevel cfg l) t) := by
  unfold parseRegisterProperties
  exact .bind (.refl _) fun _ _ => .bind (.refl _) fun _ _ => .bind (.refl _) fun _ _ =>
    .bind (.refl _) fun _ _ => .bind (.refl _) fun _ _ => buildProps_mono h _

theorem parseEnumValue_mono (t : Xml) :
    Refines (parseEnumeratedValue (withLevel cfg l') t) (parseEnumeratedValue (withLevel cfg l) t) := by
  unfold parseEnumeratedValue
  refine .ite (fun _ => .refl _) fun _ => ?_
  exact .bind (.refl _) fun _ _ => .bind (.refl _) fun _ _ => .bind (.refl _) fun _ _ =>
    .bind (.refl _) fun _ _ => buildEnumValue_mono h _

theorem parseValueList_mono (skip : List String) (t : Xml) :
    Refines (parseValueList (withLevel cfg l') skip t) (parseValueList (withLevel cfg l) skip t) := by
  unfold parseValueList
  exact .mapM fun _ _ => .ite (fun _ => parseEnumValue_mono h cfg _) fun _ => .refl _

theorem parseEnums_mono (t : Xml) :
    Refines (parseEnumeratedValues (withLevel cfg l') t)
      (parseEnumeratedValues (withLevel cfg l) t) := by
  unfold parseEnumeratedValues
  refine .ite (fun _ => .refl _) fun _ => ?_
  refine .bind (.refl _) fun _ _ => .bind (.refl _) fun _ _ =>
    .bind (parseValueList_mono h cfg _ _) fun _ _ => ?_
  exact buildEnums_mono h _

theorem parseDimArrayIndex_mono (t : Xml) :
    Refines (parseDimArrayIndex (withLevel cfg l') t) (parseDimArrayIndex (withLevel cfg l) t) := by
  unfold parseDimArrayIndex
  exact .bind (.refl _) fun _ _ => .bind (parseValueList_mono h cfg _ _) fun _ _ => .refl _

theorem parseDim_mono (t : Xml) :
    Refines (parseDimElement (withLevel cfg l') t) (parseDimElement (withLevel cfg l) t) := by
  unfold parseDimElement
  exact .bind (.refl _) fun _ _ => .bind (.refl _) fun _ _ => .bind (.refl _) fun _ _ =>
    .bind (.refl _) fun _ _ => .bind (.optional fun _ => parseDimArrayIndex_mono h cfg _) fun _ _ =>
    .refl _

theorem parseArray_mono {α : Type} (tag : String) (nm : α → Str) (t : Xml) {m n : M α}
    (hmn : Refines m n) :
    Refines (parseArray (withLevel cfg l') tag nm t m) (parseArray (withLevel cfg l) tag nm t n) := by
  unfold parseArray
  refine .ite (fun _ => .refl _) fun _ => ?_
  refine .bind hmn fun _ _ => .ite (fun _ => ?_) fun _ => .refl _
  exact .bind (parseDim_mono h cfg t) fun _ _ => .refl _

theorem parseFieldInfo_mono (t : Xml) :
    Refines (parseFieldInfo oc (withLevel cfg l') t) (parseFieldInfo oc (withLevel cfg l) t) := by
  unfold parseFieldInfo
  refine .ite (fun _ => .refl _) fun _ => ?_
  refine .bind (.refl _) fun _ _ => .bind (.refl _) fun _ _ => .bind (.refl _) fun _ _ =>
    .bind (.refl _) fun _ _ => .bind (.refl _) fun _ _ => .bind (.refl _) fun _ _ =>
    .bind (.refl _) fun _ _ => .bind ?_ fun _ _ => buildField_mono h _
  exact .ite (fun _ => .mapM fun _ _ => parseEnums_mono h cfg _) fun _ => .refl _

theorem parseRegisterInfo_mono (t : Xml) :
    Refines (parseRegisterInfo oc (withLevel cfg l') t)
      (parseRegisterInfo oc (withLevel cfg l) t) := by
  unfold parseRegisterInfo
  refine .bind (.refl _) fun _ _ => .bind (.refl _) fun _ _ => .bind (.refl _) fun _ _ =>
    .bind (.refl _) fun _ _ => .bind (.refl _) fun _ _ => .bind (.refl _) fun _ _ =>
    .bind (parseProps_mono h cfg t) fun _ _ => .bind (.refl _) fun _ _ => .bind (.refl _) fun _ _ =>
    .bind (.refl _) fun _ _ => .bind (.refl _) fun _ _ => .bind ?_ fun _ _ => buildRegister_mono h _
  split
  · exact .bind (.mapM fun _ _ => parseArray_mono h cfg _ _ _ (parseFieldInfo_mono h oc cfg _))
      fun _ _ => .refl _
  · exact .refl _

theorem parseRegister_mono (t : Xml) :
    Refines (parseRegister oc (withLevel cfg l') t) (parseRegister oc (withLevel cfg l) t) :=
  parseArray_mono h cfg _ _ _ (parseRegisterInfo_mono h oc cfg t)

theorem parseClusterInfoWith_mono (t : Xml) {m n : M (List RegisterCluster)} (hmn : Refines m n) :
    Refines (parseClusterInfoWith (withLevel cfg l') t m)
      (parseClusterInfoWith (withLevel cfg l) t n) := by
  unfold parseClusterInfoWith
  exact .bind (.refl _) fun _ _ => .bind (.refl _) fun _ _ => .bind (.refl _) fun _ _ =>
    .bind (.refl _) fun _ _ => .bind (.refl _) fun _ _ => .bind (parseProps_mono h cfg t) fun _ _ =>
    .bind hmn fun _ _ => buildCluster_mono h _

set_option linter.unusedSectionVars false in
mutual
theorem parseRC_mono : ∀ t : Xml,
    Refines (parseRegisterCluster oc (withLevel cfg l') t)
      (parseRegisterCluster oc (withLevel cfg l) t)
  | .elem tag attrs kids => by
    unfold parseRegisterCluster
    refine .ite (fun _ => ?_) fun _ => .ite (fun _ => ?_) fun _ => .refl _
    · exact .bind (parseRegister_mono h oc cfg _) fun _ _ => .refl _
    · exact .bind (parseArray_mono h cfg _ _ _ (parseClusterInfoWith_mono h cfg _
        (parseKids_mono kids))) fun _ _ => .refl _
  | .text _ => by unfold parseRegisterCluster; exact .refl _
  | .other => by unfold parseRegisterCluster; exact .refl _
theorem parseKids_mono : ∀ ts : List Xml,
    Refines (parseClusterKids oc (withLevel cfg l') ts) (parseClusterKids oc (withLevel cfg l) ts)
  | [] => by unfold parseClusterKids; exact .refl _
  | x :: xs => by
    unfold parseClusterKids
    refine .ite (fun _ => ?_) fun _ => parseKids_mono xs
    exact .bind (parseRC_mono x) fun _ _ => .bind (parseKids_mono xs) fun _ _ => .refl _
end

theorem parsePeripheralInfo_mono (t : Xml) :
    Refines (parsePeripheralInfo oc (withLevel cfg l') t)
      (parsePeripheralInfo oc (withLevel cfg l) t) := by
  unfold parsePeripheralInfo
  refine .ite (fun _ => .refl _) fun _ => ?_
  refine .bind (.refl _) fun _ _ => .bind (.refl _) fun _ _ => .bind (.refl _) fun _ _ =>
    .bind (.refl _) fun _ _ => .bind (.refl _) fun _ _ => .bind (.refl _) fun _ _ =>
    .bind (.refl _) fun _ _ => .bind (.refl _) fun _ _ => .bind (.refl _) fun _ _ =>
    .bind (.refl _) fun _ _ => .bind (parseProps_mono h cfg t) fun _ _ =>
    .bind (.refl _) fun _ _ => .bind (.refl _) fun _ _ =>
    .bind ?_ fun _ _ => buildPeripheral_mono h _
  split
  · exact .bind (.mapM fun _ _ => parseRC_mono h oc cfg _) fun _ _ => .refl _
  · exact .refl _

theorem parseDevice_mono (t : Xml) :
    Refines (parseDevice oc (withLevel cfg l') t) (parseDevice oc (withLevel cfg l) t) := by
  unfold parseDevice
  refine .ite (fun _ => .refl _) fun _ => ?_
  exact .bind (.refl _) fun _ _ => .bind (.refl _) fun _ _ => .bind (.refl _) fun _ _ =>
    .bind (.refl _) fun _ _ => .bind (.refl _) fun _ _ => .bind (.refl _) fun _ _ =>
    .bind (.refl _) fun _ _ => .bind (.refl _) fun _ _ => .bind (parseProps_mono h cfg t) fun _ _ =>
    .bind (.refl _) fun _ _ =>
    .bind (.mapM fun _ _ => parseArray_mono h cfg _ _ _ (parsePeripheralInfo_mono h oc cfg _))
      fun _ _ => .bind (.refl _) fun _ _ => .bind (.refl _) fun _ _ => .bind (.refl _) fun _ _ =>
    .bind (.refl _) fun _ _ => buildDevice_mono h _

end mono

/-- **C15.** If parsing a document succeeds, it succeeds at every less strict level with the same
device, whatever the other settings. -/
theorem C15_parse_monotone (oc : Bool) (cfg : ParseConfig) (l l' : ValidateLevel)
    (h : strictness l ≤ strictness l') (doc : List Xml) (d : Device)
    (hd : parseDocument oc { cfg with validateLevel := l' } doc = .ok d) :
    parseDocument oc { cfg with validateLevel := l } doc = .ok d := by
  refine (?_ : Refines (parseDocument oc (withLevel cfg l') doc)
    (parseDocument oc (withLevel cfg l) doc)) d hd
  unfold parseDocument
  exact .bind (.refl _) fun _ _ => parseDevice_mono h oc cfg _

/-! ## C14 -/

theorem validated {α : Type} {v : M Unit} {a b : α} (h : (v >>= fun _ => .ok a) = .ok b) :
    v = .ok () ∧ a = b := by
  obtain ⟨⟨⟩, h1, h2⟩ := bind_ok.mp h
  injection h2 with h2
  exact ⟨h1, h2⟩

theorem buildProps_ok {b p : RegisterProperties} {lvl : ValidateLevel} (h : b.build lvl = .ok p) :
    p.validate lvl = .ok () ∧ b = p := by
  obtain ⟨h1, rfl⟩ := validated h
  exact ⟨h1, rfl⟩

theorem buildEnumValue_ok {b : EnumeratedValueBuilder} {e : EnumeratedValue} {lvl : ValidateLevel}
    (h : b.build lvl = .ok e) : e.validate lvl = .ok () := by
  unfold EnumeratedValueBuilder.build at h
  obtain ⟨_, _, h⟩ := bind_ok.mp h
  obtain ⟨h1, rfl⟩ := validated h
  exact h1

theorem buildEnums_ok {b : EnumeratedValuesBuilder} {e : EnumeratedValues} {lvl : ValidateLevel}
    (h : b.build lvl = .ok e) : e.validate lvl = .ok () ∧ e.values = b.values.getD [] := by
  unfold EnumeratedValuesBuilder.build at h
  obtain ⟨h1, rfl⟩ := validated h
  exact ⟨h1, rfl⟩

theorem buildField_ok {b : FieldInfoBuilder} {f : FieldInfo} {lvl : ValidateLevel}
    (h : b.build lvl = .ok f) :
    f.validate lvl = .ok () ∧ f.enumeratedValues = b.enumeratedValues.getD [] := by
  unfold FieldInfoBuilder.build at h
  obtain ⟨_, _, h⟩ := bind_ok.mp h
  obtain ⟨_, _, h⟩ := bind_ok.mp h
  obtain ⟨h1, rfl⟩ := validated h
  exact ⟨h1, rfl⟩

theorem buildRegister_ok {b : RegisterInfoBuilder} {r : RegisterInfo} {lvl : ValidateLevel}
    (h : b.build lvl = .ok r) :
    r.validate lvl = .ok () ∧ r.properties.validate lvl = .ok () ∧ r.fields = b.fields := by
  unfold RegisterInfoBuilder.build at h
  obtain ⟨_, _, h⟩ := bind_ok.mp h
  obtain ⟨_, _, h⟩ := bind_ok.mp h
  obtain ⟨p, hp, h⟩ := bind_ok.mp h
  obtain ⟨h1, rfl⟩ := validated h
  exact ⟨h1, (buildProps_ok hp).1, rfl⟩

theorem buildCluster_ok {b : ClusterInfoBuilder} {c : ClusterInfo} {lvl : ValidateLevel}
    (h : b.build lvl = .ok c) :
    c.validate lvl = .ok () ∧ c.defaultRegisterProperties.validate lvl = .ok () ∧
      b.children = some c.children := by
  unfold ClusterInfoBuilder.build at h
  obtain ⟨_, _, h⟩ := bind_ok.mp h
  obtain ⟨_, _, h⟩ := bind_ok.mp h
  obtain ⟨p, hp, h⟩ := bind_ok.mp h
  obtain ⟨cs, hcs, h⟩ := bind_ok.mp h
  obtain ⟨h1, rfl⟩ := validated h
  refine ⟨h1, (buildProps_ok hp).1, ?_⟩
  revert hcs
  cases b.children with
  | none => intro hcs; cases hcs
  | some l => intro hcs; injection hcs with hcs; rw [hcs]

theorem buildPeripheral_ok {b : PeripheralInfoBuilder} {p : PeripheralInfo} {lvl : ValidateLevel}
    (h : b.build lvl = .ok p) :
    p.validate lvl = .ok () ∧ p.defaultRegisterProperties.validate lvl = .ok () ∧
      p.registers = b.registers := by
  unfold PeripheralInfoBuilder.build at h
  obtain ⟨_, _, h⟩ := bind_ok.mp h
  obtain ⟨_, _, h⟩ := bind_ok.mp h
  obtain ⟨p, hp, h⟩ := bind_ok.mp h
  obtain ⟨h1, rfl⟩ := validated h
  exact ⟨h1, (buildProps_ok hp).1, rfl⟩

theorem buildDevice_ok {b : DeviceBuilder} {d : Device} {lvl : ValidateLevel}
    (h : b.build lvl = .ok d) :
    d.validate lvl = .ok () ∧ d.defaultRegisterProperties.validate lvl = .ok () ∧
      b.peripherals = some d.peripherals := by
  unfold DeviceBuilder.build at h
  obtain ⟨_, _, h⟩ := bind_ok.mp h
  obtain ⟨_, _, h⟩ := bind_ok.mp h
  obtain ⟨_, _, h⟩ := bind_ok.mp h
  obtain ⟨_, _, h⟩ := bind_ok.mp h
  obtain ⟨_, _, h⟩ := bind_ok.mp h
  obtain ⟨p, hp, h⟩ := bind_ok.mp h
  obtain ⟨ps, hps, h⟩ := bind_ok.mp h
  obtain ⟨h1, rfl⟩ := validated h
  refine ⟨h1, (buildProps_ok hp).1, ?_⟩
  revert hps
  cases b.peripherals with
  | none => intro hps; cases hps
  | some l => intro hps; injection hps with hps; rw [hps]

/-- The part of a `do` block after a guard that did not fire. -/
theorem guard_ok {α : Type} {c : Prop} [Decidable c] {e : Err} {m : M α} {a : α}
    (h : (if c then fail e else m) = .ok a) : ¬ c ∧ m = .ok a := by
  split at h
  · cases h
  · exact ⟨‹_›, h⟩

theorem parseEnumValue_ok {cfg : ParseConfig} {t : Xml} {e : EnumeratedValue}
    (h : parseEnumeratedValue cfg t = .ok e) : e.validate cfg.validateLevel = .ok () := by
  unfold parseEnumeratedValue at h
  obtain ⟨_, h⟩ := guard_ok h
  obtain ⟨_, _, h⟩ := bind_ok.mp h
  obtain ⟨_, _, h⟩ := bind_ok.mp h
  obtain ⟨_, _, h⟩ := bind_ok.mp h
  obtain ⟨_, _, h⟩ := bind_ok.mp h
  exact buildEnumValue_ok h

theorem parseValueList_ok {cfg : ParseConfig} {skip : List String} {t : Xml}
    {l : List EnumeratedValue} (h : parseValueList cfg skip t = .ok l) :
    ∀ e ∈ l, e.validate cfg.validateLevel = .ok () := by
  intro e he
  obtain ⟨c, _, hc⟩ := mapM_ok_mem' h he
  split at hc
  · exact parseEnumValue_ok hc
  · cases hc

theorem parseEnums_ok {cfg : ParseConfig} {t : Xml} {e : EnumeratedValues}
    (h : parseEnumeratedValues cfg t = .ok e) : e.validateAll cfg.validateLevel = .ok () := by
  unfold parseEnumeratedValues at h
  obtain ⟨_, h⟩ := guard_ok h
  obtain ⟨_, _, h⟩ := bind_ok.mp h
  obtain ⟨_, _, h⟩ := bind_ok.mp h
  obtain ⟨vs, hvs, h⟩ := bind_ok.mp h
  obtain ⟨h1, h2⟩ := buildEnums_ok h
  unfold EnumeratedValues.validateAll
  rw [seq_ok, forM_ok, h2]
  exact ⟨parseValueList_ok hvs, h1⟩

theorem parseFieldInfo_ok {oc : Bool} {cfg : ParseConfig} {t : Xml} {f : FieldInfo}
    (h : parseFieldInfo oc cfg t = .ok f) : f.validateAll cfg.validateLevel = .ok () := by
  unfold parseFieldInfo at h
  obtain ⟨_, h⟩ := guard_ok h
  obtain ⟨_, _, h⟩ := bind_ok.mp h
  obtain ⟨_, _, h⟩ := bind_ok.mp h
  obtain ⟨_, _, h⟩ := bind_ok.mp h
  obtain ⟨_, _, h⟩ := bind_ok.mp h
  obtain ⟨_, _, h⟩ := bind_ok.mp h
  obtain ⟨_, _, h⟩ := bind_ok.mp h
  obtain ⟨_, _, h⟩ := bind_ok.mp h
  obtain ⟨evs, hevs, h⟩ := bind_ok.mp h
  obtain ⟨h1, h2⟩ := buildField_ok h
  unfold FieldInfo.validateAll
  rw [seq_ok, forM_ok, h2]
  refine ⟨?_, h1⟩
  intro e he
  split at hevs
  · obtain ⟨c, _, hc⟩ := mapM_ok_mem' hevs he
    exact parseEnums_ok hc
  · injection hevs with hevs; subst hevs; cases he

theorem parseArray_ok {α : Type} {cfg : ParseConfig} {tag : String} {nm : α → Str} {t : Xml}
    {m : M α} {a : MaybeArray α} (h : parseArray cfg tag nm t m = .ok a) : m = .ok a.info := by
  unfold parseArray at h
  obtain ⟨_, h⟩ := guard_ok h
  obtain ⟨i, hi, h⟩ := bind_ok.mp h
  rw [hi]
  split at h
  · obtain ⟨d, _, h⟩ := bind_ok.mp h
    obtain ⟨_, _, h⟩ := bind_ok.mp h
    split at h
    · split at h
      · cases h
      · injection h with h; subst h; rfl
    · injection h with h; subst h; rfl
  · injection h with h; subst h; rfl

theorem parseRegisterInfo_ok {oc : Bool} {cfg : ParseConfig} {t : Xml} {r : RegisterInfo}
    (h : parseRegisterInfo oc cfg t = .ok r) : r.validateAll cfg.validateLevel = .ok () := by
  unfold parseRegisterInfo at h
  obtain ⟨_, _, h⟩ := bind_ok.mp h
  obtain ⟨_, _, h⟩ := bind_ok.mp h
  obtain ⟨_, _, h⟩ := bind_ok.mp h
  obtain ⟨_, _, h⟩ := bind_ok.mp h
  obtain ⟨_, _, h⟩ := bind_ok.mp h
  obtain ⟨_, _, h⟩ := bind_ok.mp h
  obtain ⟨_, _, h⟩ := bind_ok.mp h
  obtain ⟨_, _, h⟩ := bind_ok.mp h
  obtain ⟨_, _, h⟩ := bind_ok.mp h
  obtain ⟨_, _, h⟩ := bind_ok.mp h
  obtain ⟨_, _, h⟩ := bind_ok.mp h
  obtain ⟨fs, hfs, h⟩ := bind_ok.mp h
  obtain ⟨h1, h2, h3⟩ := buildRegister_ok h
  unfold RegisterInfo.validateAll RegisterInfo.fieldList
  rw [seq_ok, seq_ok, forM_ok, h3]
  refine ⟨h2, ?_, h1⟩
  intro f hf
  split at hfs
  · obtain ⟨l, hl, h⟩ := bind_ok.mp hfs
    injection h with h; subst h
    obtain ⟨c, _, hc⟩ := mapM_ok_mem' hl hf
    rw [fieldArray_validateAll]
    exact parseFieldInfo_ok (parseArray_ok hc)
  · injection hfs with h; subst h; cases hf

theorem parseClusterInfoWith_ok {cfg : ParseConfig} {t : Xml} {m : M (List RegisterCluster)}
    {c : ClusterInfo} (h : parseClusterInfoWith cfg t m = .ok c) :
    m = .ok c.children ∧ c.validate cfg.validateLevel = .ok () ∧
      c.defaultRegisterProperties.validate cfg.validateLevel = .ok () := by
  unfold parseClusterInfoWith at h
  obtain ⟨_, _, h⟩ := bind_ok.mp h
  obtain ⟨_, _, h⟩ := bind_ok.mp h
  obtain ⟨_, _, h⟩ := bind_ok.mp h
  obtain ⟨_, _, h⟩ := bind_ok.mp h
  obtain ⟨_, _, h⟩ := bind_ok.mp h
  obtain ⟨_, _, h⟩ := bind_ok.mp h
  obtain ⟨cs, hcs, h⟩ := bind_ok.mp h
  obtain ⟨h1, h2, h3⟩ := buildCluster_ok h
  injection h3 with h3; subst h3
  exact ⟨hcs, h1, h2⟩

mutual
theorem parseRC_ok {oc : Bool} {cfg : ParseConfig} : ∀ {t : Xml} {n : RegisterCluster},
    parseRegisterCluster oc cfg t = .ok n → n.validateAll cfg.validateLevel = .ok ()
  | .elem tag attrs kids, n => by
    intro h
    unfold parseRegisterCluster at h
    split at h
    · obtain ⟨r, hr, h⟩ := bind_ok.mp h
      injection h with h; subst h
      unfold RegisterCluster.validateAll
      rw [register_validateAll]
      exact parseRegisterInfo_ok (parseArray_ok hr)
    · split at h
      · obtain ⟨c, hc, h⟩ := bind_ok.mp h
        injection h with h; subst h
        obtain ⟨h1, h2, h3⟩ := parseClusterInfoWith_ok (parseArray_ok hc)
        obtain ⟨h4, h5⟩ := parseKids_ok h1
        cases c with
        | single i => 
          unfold RegisterCluster.ofCluster RegisterCluster.validateAll
          simp only [seq_ok]
          exact ⟨rfl, h3, h4, h5, h2⟩
        | array i d =>
          unfold RegisterCluster.ofCluster RegisterCluster.validateAll
          simp only [seq_ok]
          exact ⟨rfl, h3, h4, h5, h2⟩
      · cases h
  | .text _, n => by intro h; unfold parseRegisterCluster at h; cases h
  | .other, n => by intro h; unfold parseRegisterCluster at h; cases h
theorem parseKids_ok {oc : Bool} {cfg : ParseConfig} : ∀ {ts : List Xml} {l : List RegisterCluster},
    parseClusterKids oc cfg ts = .ok l →
      validateRegisters cfg.validateLevel l = .ok () ∧ validateClusters cfg.validateLevel l = .ok ()
  | [], l => by
    intro h
    unfold parseClusterKids at h
    injection h with h; subst h
    exact ⟨rfl, by unfold validateClusters; rfl⟩
  | x :: xs, l => by
    intro h
    unfold parseClusterKids at h
    split at h
    · obtain ⟨a, ha, h⟩ := bind_ok.mp h
      obtain ⟨r, hr, h⟩ := bind_ok.mp h
      injection h with h; subst h
      have h1 := parseRC_ok ha
      obtain ⟨h2, h3⟩ := parseKids_ok hr
      cases a with
      | register r =>
        unfold validateRegisters validateClusters
        unfold RegisterCluster.validateAll at h1
        exact ⟨seq_ok.mpr ⟨h1, h2⟩, h3⟩
      | cluster hd d cs =>
        unfold validateRegisters validateClusters
        exact ⟨h2, seq_ok.mpr ⟨h1, h3⟩⟩
    · exact parseKids_ok h
end

theorem nodes_ok {lvl : ValidateLevel} {l : List RegisterCluster}
    (h : ∀ n ∈ l, n.validateAll lvl = .ok ()) :
    validateRegisters lvl l = .ok () ∧ validateClusters lvl l = .ok () := by
  rw [validateRegisters_ok, validateClusters_ok]
  constructor
  · intro r hr
    have := h _ hr
    unfold RegisterCluster.validateAll at this
    rwa [register_validateAll] at this
  · intro hd d cs hm
    exact h _ hm

theorem parsePeripheralInfo_ok {oc : Bool} {cfg : ParseConfig} {t : Xml} {p : PeripheralInfo}
    (h : parsePeripheralInfo oc cfg t = .ok p) : p.validateAll cfg.validateLevel = .ok () := by
  unfold parsePeripheralInfo at h
  obtain ⟨_, h⟩ := guard_ok h
  obtain ⟨_, _, h⟩ := bind_ok.mp h
  obtain ⟨_, _, h⟩ := bind_ok.mp h
  obtain ⟨_, _, h⟩ := bind_ok.mp h
  obtain ⟨_, _, h⟩ := bind_ok.mp h
  obtain ⟨_, _, h⟩ := bind_ok.mp h
  obtain ⟨_, _, h⟩ := bind_ok.mp h
  obtain ⟨_, _, h⟩ := bind_ok.mp h
  obtain ⟨_, _, h⟩ := bind_ok.mp h
  obtain ⟨_, _, h⟩ := bind_ok.mp h
  obtain ⟨_, _, h⟩ := bind_ok.mp h
  obtain ⟨_, _, h⟩ := bind_ok.mp h
  obtain ⟨_, _, h⟩ := bind_ok.mp h
  obtain ⟨_, _, h⟩ := bind_ok.mp h
  obtain ⟨rs, hrs, h⟩ := bind_ok.mp h
  obtain ⟨h1, h2, h3⟩ := buildPeripheral_ok h
  have hn : validateRegisters cfg.validateLevel p.children = .ok () ∧
      validateClusters cfg.validateLevel p.children = .ok () := by
    unfold PeripheralInfo.children
    rw [h3]
    apply nodes_ok
    intro n hn
    split at hrs
    · obtain ⟨l, hl, h⟩ := bind_ok.mp hrs
      injection h with h; subst h
      obtain ⟨c, _, hc⟩ := mapM_ok_mem' hl hn
      exact parseRC_ok hc
    · injection hrs with h; subst h; cases hn
  unfold PeripheralInfo.validateAll
  simp only [seq_ok, forM_ok, forOpt_ok]
  exact ⟨fun _ _ _ _ => rfl, fun _ _ => rfl, h2, hn.1, hn.2, h1⟩

theorem parseDevice_ok {oc : Bool} {cfg : ParseConfig} {t : Xml} {d : Device}
    (h : parseDevice oc cfg t = .ok d) : d.validateAll cfg.validateLevel = .ok () := by
  unfold parseDevice at h
  obtain ⟨_, h⟩ := guard_ok h
  obtain ⟨_, _, h⟩ := bind_ok.mp h
  obtain ⟨_, _, h⟩ := bind_ok.mp h
  obtain ⟨_, _, h⟩ := bind_ok.mp h
  obtain ⟨_, _, h⟩ := bind_ok.mp h
  obtain ⟨_, _, h⟩ := bind_ok.mp h
  obtain ⟨_, _, h⟩ := bind_ok.mp h
  obtain ⟨_, _, h⟩ := bind_ok.mp h
  obtain ⟨_, _, h⟩ := bind_ok.mp h
  obtain ⟨_, _, h⟩ := bind_ok.mp h
  obtain ⟨_, _, h⟩ := bind_ok.mp h
  obtain ⟨ps, hps, h⟩ := bind_ok.mp h
  obtain ⟨_, _, h⟩ := bind_ok.mp h
  obtain ⟨_, _, h⟩ := bind_ok.mp h
  obtain ⟨_, _, h⟩ := bind_ok.mp h
  obtain ⟨_, _, h⟩ := bind_ok.mp h
  obtain ⟨h1, h2, h3⟩ := buildDevice_ok h
  injection h3 with h3; subst h3
  unfold Device.validateAll
  simp only [seq_ok, forM_ok, forOpt_ok]
  refine ⟨fun _ _ => rfl, h2, ?_, h1⟩
  intro p hp
  obtain ⟨c, _, hc⟩ := mapM_ok_mem' hps hp
  have := parsePeripheralInfo_ok (parseArray_ok hc)
  cases p <;> exact this

/-- **C14.** Whatever parsing produces passes recursive validation at the level of the parse, i.e.
satisfies the conditions of that level in every part. -/
theorem C14_parsed_is_valid (oc : Bool) (cfg : ParseConfig) (doc : List Xml) (d : Device)
    (h : parseDocument oc cfg doc = .ok d) :
    d.validateAll cfg.validateLevel = .ok () ∧
      DeviceValid d cfg.validateLevel ∧ ∀ p, DeviceHas d p → p.Valid cfg.validateLevel := by
  unfold parseDocument at h
  obtain ⟨_, _, h⟩ := bind_ok.mp h
  have := parseDevice_ok h
  exact ⟨this, (C16_validate_all d _).mp this⟩

/-- A small document: one peripheral with one register. -/
def exampleDoc (size : String) : List Xml :=
  let leaf (tag text : String) : Xml := .elem tag [] [.text text.toList]
  [.other, .elem "device" [("schemaVersion", "1.3".toList)]
    [leaf "name" "D", leaf "version" "1.0", leaf "description" "d", leaf "addressUnitBits" "8",
     leaf "width" "32", .text "\n ".toList,
     .elem "peripherals" []
      [.elem "peripheral" []
        [leaf "name" "P", leaf "baseAddress" "0x40000000",
         .elem "registers" []
          [.other, .elem "register" []
            [leaf "name" "R", leaf "addressOffset" "4", leaf "size" size,
             leaf "resetValue" "0xFF",
             .elem "fields" []
              [.elem "field" [] [leaf "name" "F", leaf "bitRange" "[3:2]"]]]]]]]]

example : (∃ d, parseDocument true { validateLevel := .strict } (exampleDoc "8") = .ok d ∧
      d.peripherals.length = 1) ∧
    parseDocument true { validateLevel := .weak } (exampleDoc "7") =
      .error (.err (.resetValueTooLarge 255 7)) ∧
    (∃ d, parseDocument true { validateLevel := .disabled } (exampleDoc "7") = .ok d) := by
  refine ⟨⟨_, rfl, by decide⟩, by decide, ⟨_, rfl⟩⟩

-- The hypotheses of `C15_parse_monotone` can be met.
example : ∃ d, parseDocument true { validateLevel := .strict } (exampleDoc "8") = .ok d ∧
    parseDocument true { validateLevel := .weak } (exampleDoc "8") = .ok d := by
  obtain ⟨d, h⟩ := ok_of_isOk (x := parseDocument true { validateLevel := .strict } (exampleDoc "8")) (by decide +kernel)
  exact ⟨d, h, C15_parse_monotone true {} .weak .strict (by decide) _ d h⟩

end Svd
