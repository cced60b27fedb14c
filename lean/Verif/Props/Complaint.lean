import Verif.Spec.Complaint
import Verif.Props.Validation
import Verif.Spec.Sample

/-! # C72: validation reports the first broken rule -/

namespace Svd
open Spec

/-- The computation checks the rules one after the other. -/
structure Checks (m : M Unit) (rules : List Rule) : Prop where
  ok : m = .ok () ↔ ∀ r ∈ rules, ¬ r.broken
  error : ∀ f, m = .error f ↔ ∃ e, f = .err e ∧ Reports rules e

namespace Checks

theorem reports_nil {e : Err} : ¬ Reports [] e := by
  rintro ⟨b, r, a, h, _⟩
  cases b <;> cases h

theorem reports_append {l l' : List Rule} {e : Err} :
    Reports (l ++ l') e ↔ Reports l e ∨ (∀ r ∈ l, ¬ r.broken) ∧ Reports l' e := by
  constructor
  · rintro ⟨b, r, a, h, hb, hr, he⟩
    rcases List.append_eq_append_iff.mp h with ⟨k, h1, h2⟩ | ⟨k, h1, h2⟩
    · exact .inr ⟨fun x hx => hb x (h1 ▸ List.mem_append_left _ hx),
        k, r, a, h2, fun x hx => hb x (h1 ▸ List.mem_append_right _ hx), hr, he⟩
    · cases k with
      | nil =>
        rw [List.append_nil] at h1
        rw [List.nil_append] at h2
        exact .inr ⟨h1 ▸ hb, [], r, a, h2.symm, by simp, hr, he⟩
      | cons x k =>
        rw [List.cons_append] at h2
        injection h2 with h2 h3
        subst h2
        exact .inl ⟨b, r, k, h1, hb, hr, he⟩
  · rintro (⟨b, r, a, h, hb, hr, he⟩ | ⟨hl, b, r, a, h, hb, hr, he⟩)
    · exact ⟨b, r, a ++ l', by rw [h]; simp, hb, hr, he⟩
    · refine ⟨l ++ b, r, a, by rw [h]; simp, fun x hx => ?_, hr, he⟩
      rcases List.mem_append.mp hx with hx | hx
      · exact hl x hx
      · exact hb x hx

theorem reports_one {r : Rule} {e : Err} : Reports [r] e ↔ r.broken ∧ r.error = e := by
  constructor
  · rintro ⟨b, x, a, h, _, hr, he⟩
    cases b with
    | nil => cases h; exact ⟨hr, he⟩
    | cons y b => cases b <;> cases h
  · rintro ⟨hr, he⟩
    exact ⟨[], r, [], rfl, by simp, hr, he⟩

theorem of_eq {m m' : M Unit} {l : List Rule} (h : Checks m l) (e : m' = m) : Checks m' l := e ▸ h

theorem nothing : Checks (.ok ()) [] :=
  ⟨by simp, fun f => ⟨fun h => (by cases h), fun ⟨e, _, h⟩ => absurd h reports_nil⟩⟩

theorem one {c : Prop} [Decidable c] {e : Err} {p : Prop} (h : c ↔ ¬ p) : Checks (if c then .ok () else fail e) [⟨e, p⟩] := by
  by_cases hc : c
  · rw [if_pos hc]
    refine ⟨by simpa using h.mp hc, fun f => ⟨fun h => (by cases h), fun ⟨x, _, hx⟩ => ?_⟩⟩
    exact absurd (reports_one.mp hx).1 (h.mp hc)
  · rw [if_neg hc]
    have hp : p := Classical.not_not.mp fun hn => hc (h.mpr hn)
    refine ⟨⟨fun h => (by cases h), fun h => absurd hp (h ⟨e, p⟩ (by simp))⟩, fun f => ⟨fun h => ?_, ?_⟩⟩
    · cases h; exact ⟨e, rfl, reports_one.mpr ⟨hp, rfl⟩⟩
    · rintro ⟨x, rfl, hx⟩
      rw [← (reports_one.mp hx).2]
      rfl

theorem flip {c : Prop} [Decidable c] {e : Err} {p : Prop} (h : c ↔ p) :
    Checks (if c then fail e else .ok ()) [⟨e, p⟩] := by
  have := one (c := ¬ c) (e := e) (p := p) (by rw [h])
  rwa [ite_not] at this

theorem bind {m m' : M Unit} {l l' : List Rule} (h : Checks m l) (h' : Checks m' l') :
    Checks (m >>= fun _ => m') (l ++ l') := by
  refine ⟨?_, fun f => ?_⟩
  · rw [bind_ok]
    simp only [List.mem_append]
    constructor
    · rintro ⟨⟨⟩, h1, h2⟩ r (hr | hr)
      · exact h.ok.mp h1 r hr
      · exact h'.ok.mp h2 r hr
    · exact fun hr => ⟨(), h.ok.mpr fun r h => hr r (.inl h), h'.ok.mpr fun r h => hr r (.inr h)⟩
  · rw [bind_error]
    constructor
    · rintro (h1 | ⟨⟨⟩, h1, h2⟩)
      · obtain ⟨e, rfl, he⟩ := (h.error f).mp h1
        exact ⟨e, rfl, reports_append.mpr (.inl he)⟩
      · obtain ⟨e, rfl, he⟩ := (h'.error f).mp h2
        exact ⟨e, rfl, reports_append.mpr (.inr ⟨h.ok.mp h1, he⟩)⟩
    · rintro ⟨e, rfl, he⟩
      rcases reports_append.mp he with he | ⟨hl, he⟩
      · exact .inl ((h.error _).mpr ⟨e, rfl, he⟩)
      · exact .inr ⟨(), h.ok.mpr hl, (h'.error _).mpr ⟨e, rfl, he⟩⟩

theorem forM {α : Type} {f : α → M Unit} {g : α → List Rule} (h : ∀ a, Checks (f a) (g a)) (l : List α) :
    Checks (l.forM f) (l.flatMap g) := by
  induction l with
  | nil => exact nothing
  | cons a l ih => rw [List.flatMap_cons]; exact (h a).bind ih

theorem forOpt {α : Type} {f : α → M Unit} {g : α → List Rule} (h : ∀ a, Checks (f a) (g a)) (o : Option α) :
    Checks (Svd.forOpt o f) (optRule o g) := by
  cases o with
  | none => exact nothing
  | some a =>
    have : optRule (some a) g = g a := by simp [optRule]
    rw [this]; exact h a

theorem strict {m : M Unit} {l : List Rule} {lvl : ValidateLevel} (h : Checks m l) :
    Checks (whenM lvl.isStrict m) (strictOnly lvl l) := by
  cases lvl
  · exact nothing
  · exact nothing
  · exact h

theorem enabled {m : M Unit} {l : List Rule} {lvl : ValidateLevel} (h : Checks m l) :
    Checks (whenM (!lvl.isDisabled) m) (Spec.enabled lvl l) := by
  cases lvl
  · exact nothing
  · exact h
  · exact h

theorem plain (k : String) (s : Str) : Checks (checkName s k) (plainRule k s) := by
  unfold checkName plainRule
  refine one ?_
  rw [Classical.not_not, ← (C10_check_name s k).1]
  unfold checkName
  split <;> simp_all [fail]

theorem dimable (k : String) (s : Str) : Checks (checkDimableName s k) (dimableRule k s) := by
  unfold checkDimableName dimableRule
  refine one ?_
  rw [Classical.not_not, ← (C10_check_dimable_name s k).1]
  unfold checkDimableName
  split <;> simp_all [fail]

theorem derived (k : String) (s : Str) : Checks (checkDerivedName s k) (derivedRule k s) :=
  forM (fun x => dimable k x) _

/-- Rules that cannot be broken can be added, and conditions replaced by equivalent ones. -/
theorem congr {m : M Unit} {l l' : List Rule} (h : Checks m l)
    (he : ∀ e, Reports l e ↔ Reports l' e) (ho : (∀ r ∈ l, ¬ r.broken) ↔ ∀ r ∈ l', ¬ r.broken) : Checks m l' :=
  ⟨h.ok.trans ho, fun f => by rw [h.error]; simp only [he]⟩

/-- Different rules in two cases. -/
theorem silent {l : List Rule} (h : ∀ r ∈ l, ¬ r.broken) : Checks (.ok ()) l :=
  ⟨⟨fun _ => h, fun _ => rfl⟩, fun f => ⟨fun h => (by cases h), fun ⟨e, _, b, r, a, hl, _, hr, _⟩ =>
    absurd hr (h r (hl ▸ by simp))⟩⟩

end Checks

open Checks

theorem props_checks (lvl : ValidateLevel) (p : RegisterProperties) : Checks (p.validate lvl) (propsRules lvl p) := by
  unfold RegisterProperties.validate checkResetValue propsRules
  refine .enabled (.bind ?_ (.strict (.bind ?_ ?_)))
  · rcases p.size with _ | s <;> rcases p.resetValue with _ | v <;> try exact .nothing
    simp only [optRule, Option.toList_some, List.flatMap_cons, List.flatMap_nil, List.append_nil]
    exact flip ((bitLen_gt _ _).trans Nat.not_lt)
  · rcases p.size with _ | s <;> rcases p.resetMask with _ | v <;> try exact .nothing
    simp only [optRule, Option.toList_some, List.flatMap_cons, List.flatMap_nil, List.append_nil]
    exact flip ((bitLen_gt _ _).trans Nat.not_lt)
  · rcases p.resetValue with _ | v <;> rcases p.resetMask with _ | m <;> try exact .nothing
    simp only [optRule, Option.toList_some, List.flatMap_cons, List.flatMap_nil, List.append_nil]
    refine flip ?_
    rw [Ne, and_eq_left, Classical.not_forall]
    constructor
    · rintro ⟨i, hi⟩
      obtain ⟨h1, h2⟩ := Classical.not_imp.mp hi
      exact ⟨i, h1, by simpa using h2⟩
    · rintro ⟨i, h1, h2⟩
      exact ⟨i, fun h => by rw [h h1] at h2; cases h2⟩

theorem enumValue_checks (lvl : ValidateLevel) (e : EnumeratedValue) :
    Checks (e.validate lvl) (enumValueRules lvl e) := by
  unfold EnumeratedValue.validate enumValueRules
  change Checks (whenM (!lvl.isDisabled) _) _
  rw [List.append_assoc]
  refine .enabled (.bind (.strict (plain _ _)) ?_)
  have hm : (match e.value.isSome, e.isDefaultB with
      | false, false => fail .enumAbsentValue
      | true, true => if lvl.isStrict then fail (.enumValueAndDefault e.value) else .ok ()
      | _, _ => .ok ()) =
      ((if e.value = none ∧ e.isDefault ≠ some true then fail .enumAbsentValue else .ok ()) >>= fun _ =>
        whenM lvl.isStrict (if e.value ≠ none ∧ e.isDefault = some true then
          fail (.enumValueAndDefault e.value) else .ok ()) : M Unit) := by
    unfold EnumeratedValue.isDefaultB whenM
    rcases e.value with _ | v <;> rcases e.isDefault with _ | (_ | _) <;> cases lvl <;> rfl
  have key := Checks.bind (flip (c := e.value = none ∧ e.isDefault ≠ some true) (e := .enumAbsentValue) Iff.rfl)
    (Checks.strict (lvl := lvl) (flip (c := e.value ≠ none ∧ e.isDefault = some true)
      (e := .enumValueAndDefault e.value) Iff.rfl))
  rw [← hm] at key
  exact key

theorem enums_checks (lvl : ValidateLevel) (e : EnumeratedValues) :
    Checks (e.validate lvl) (enumsRules lvl e) := by
  unfold EnumeratedValues.validate enumsRules
  change Checks (whenM (!lvl.isDisabled) _) _
  rw [List.append_assoc]
  refine .enabled (.bind (.strict (.forOpt (plain _) _)) ?_)
  have hm : (match e.derivedFrom with
      | some d => whenM lvl.isStrict (checkDerivedName d "derivedFrom")
      | none => if e.values.isEmpty then fail .enumEmpty else .ok ()) =
      (whenM lvl.isStrict (forOpt e.derivedFrom fun d => checkDerivedName d "derivedFrom") >>= fun _ =>
        if e.derivedFrom = none ∧ e.values = [] then fail .enumEmpty else .ok () : M Unit) := by
    rcases e.derivedFrom with _ | d
    · rcases e.values with _ | _ <;> cases lvl <;> rfl
    · unfold forOpt
      simp only [reduceCtorEq, false_and, if_false]
      cases whenM lvl.isStrict (checkDerivedName d "derivedFrom") <;> rfl
  have key := Checks.bind (Checks.strict (lvl := lvl) (Checks.forOpt (derived "derivedFrom") e.derivedFrom))
    (flip (c := e.derivedFrom = none ∧ e.values = []) (e := .enumEmpty) Iff.rfl)
  rw [← hm] at key
  exact key

/-- A check of the reference, or else of the contents. -/
theorem either_checks {lvl : ValidateLevel} {o : Option Str} {f : Str → M Unit} {g : Str → List Rule} {b : M Unit}
    {e : Err} {p : Prop} (h : ∀ s, Checks (f s) (g s)) (hb : lvl = .strict → Checks b [⟨e, p⟩])
    (hw : lvl ≠ .strict → b = .ok ()) :
    Checks (match o with | some n => whenM lvl.isStrict (f n) | none => b)
      (strictOnly lvl (optRule o g ++ [⟨e, o = none ∧ p⟩])) := by
  by_cases hl : lvl = .strict
  · subst hl
    cases o with
    | none =>
      refine (hb rfl).congr (fun e => ?_) ?_
      · simp [strictOnly, optRule, reports_one]
      · simp [strictOnly, optRule]
    | some n =>
      refine (h n).congr (fun e => ?_) ?_
      · simp [strictOnly, optRule, reports_append, reports_one]
      · simp only [strictOnly, optRule, if_true, Option.toList_some, List.flatMap_cons, List.flatMap_nil,
          List.append_nil, List.mem_append, List.mem_singleton]
        constructor
        · rintro h r (hr | rfl)
          · exact h r hr
          · rintro ⟨h, _⟩; cases h
        · exact fun h r hr => h r (.inl hr)
  · have hs : lvl.isStrict = false := by cases lvl <;> first | rfl | exact absurd rfl hl
    unfold strictOnly whenM
    rw [if_neg hl, hw hl, hs]
    cases o <;> exact nothing

theorem strictOnly_append (lvl : ValidateLevel) (a b : List Rule) :
    strictOnly lvl (a ++ b) = strictOnly lvl a ++ strictOnly lvl b := by
  unfold strictOnly; split <;> rfl

theorem enabled_strict {lvl : ValidateLevel} {l : List Rule} : Spec.enabled lvl (strictOnly lvl l) = strictOnly lvl l := by
  cases lvl <;> rfl

theorem empty_checks {α : Type} {o : Option (List α)} {e : Err} {lvl : ValidateLevel} :
    (lvl = .strict → Checks (forOpt o fun l => if l.isEmpty && lvl.isStrict then fail e else .ok ())
      [⟨e, o = some []⟩]) ∧
    (lvl ≠ .strict → (forOpt o fun l => if l.isEmpty && lvl.isStrict then fail e else .ok ()) = .ok ()) := by
  constructor
  · rintro rfl
    cases o with
    | none => exact silent (by simp)
    | some l =>
      refine flip ?_
      cases l <;> simp
  · intro h
    have hs : lvl.isStrict = false := by cases lvl <;> first | rfl | exact absurd rfl h
    cases o with
    | none => rfl
    | some l => simp [forOpt, hs]

theorem register_checks (lvl : ValidateLevel) (r : RegisterInfo) :
    Checks (r.validate lvl) (registerRules lvl r) := by
  unfold RegisterInfo.validate registerRules
  rw [← enabled_strict, List.append_assoc, strictOnly_append, List.append_assoc]
  refine .enabled (.bind (.strict (.bind (dimable _ _) (.bind (.forOpt (plain _) _) (.forOpt (dimable _) _)))) ?_)
  have := empty_checks (o := r.fields) (e := .emptyFields) (lvl := lvl)
  exact either_checks (derived _) this.1 this.2

theorem cluster_checks (lvl : ValidateLevel) (h : ClusterHead) (cs : List RegisterCluster) :
    Checks (validateClusterParts h cs lvl) (clusterRules lvl h cs) := by
  unfold validateClusterParts clusterRules
  rw [← enabled_strict, List.append_assoc, strictOnly_append]
  refine .enabled (.bind (.strict (dimable _ _)) (either_checks (derived _) ?_ ?_))
  · rintro rfl
    refine flip ?_
    cases cs <;> simp
  · intro hl
    have hs : lvl.isStrict = false := by cases lvl <;> first | rfl | exact absurd rfl hl
    simp [hs]

theorem peripheral_checks (lvl : ValidateLevel) (p : PeripheralInfo) :
    Checks (p.validate lvl) (peripheralRules lvl p) := by
  unfold PeripheralInfo.validate peripheralRules
  rw [← enabled_strict, List.append_assoc, strictOnly_append]
  have := empty_checks (o := p.registers) (e := .emptyRegisters) (lvl := lvl)
  exact .enabled (.bind (.strict (dimable _ _)) (either_checks (dimable _) this.1 this.2))

theorem device_checks (lvl : ValidateLevel) (d : Device) : Checks (d.validate lvl) (deviceRules lvl d) :=
  .enabled (flip (by simp))

theorem range_checks {w : Nat} (hw : w < 64) (v : U64) (mk : U64 → U64 → U64 → Err) :
    Checks (if !(v.toNat < (BitVec.ofNat 64 (2 ^ w)).toNat) then fail (mk v 0 (BitVec.ofNat 64 (2 ^ w))) else .ok ())
      [⟨mk v 0 (BitVec.ofNat 64 (2 ^ w)), w < 64 ∧ 2 ^ w ≤ v.toNat⟩] := by
  refine flip ?_
  have : (BitVec.ofNat 64 (2 ^ w)).toNat = 2 ^ w := by
    rw [BitVec.toNat_ofNat]
    exact Nat.mod_eq_of_lt (Nat.pow_lt_pow_right (by omega) hw)
  rw [this]
  simp [hw]

theorem values_checks (w : Nat) (gs : List EnumeratedValues) :
    Checks (whenM (w < 64) (gs.forM fun ev => ev.checkRange (BitVec.ofNat 64 (2 ^ w))))
      (gs.flatMap fun g => g.values.flatMap fun e => optRule e.value fun v =>
        [⟨.enumOutOfRange v 0 (BitVec.ofNat 64 (2 ^ w)), w < 64 ∧ 2 ^ w ≤ v.toNat⟩]) := by
  by_cases hw : w < 64
  · simp only [whenM, hw, decide_true, if_true]
    refine .forM (fun g => .forM (fun e => ?_) _) _
    unfold EnumeratedValue.checkRange optRule
    rcases e.value with _ | v
    · exact nothing
    · have := range_checks hw v .enumOutOfRange
      simp only [hw, true_and] at this
      simpa using this
  · simp only [whenM, hw, decide_false, false_and]
    refine silent ?_
    simp only [optRule, List.mem_flatMap, List.mem_singleton]
    rintro r ⟨g, _, e, _, v, _, rfl⟩ h
    exact h

theorem constraint_checks (w : Nat) (c : Option WriteConstraint) :
    Checks (match c with
      | some (.range r) => whenM (w < 64) (r.checkRange (BitVec.ofNat 64 (2 ^ w)))
      | _ => .ok ())
      (match c with
      | some (.range ⟨lo, hi⟩) => [⟨.wcReversedRange lo hi, w < 64 ∧ hi.toNat < lo.toNat⟩,
          ⟨.wcOutOfRange lo 0 (BitVec.ofNat 64 (2 ^ w)), w < 64 ∧ 2 ^ w ≤ lo.toNat⟩,
          ⟨.wcOutOfRange hi 0 (BitVec.ofNat 64 (2 ^ w)), w < 64 ∧ 2 ^ w ≤ hi.toNat⟩]
      | _ => []) := by
  match c with
  | none => exact nothing
  | some (.writeAsRead _) => exact nothing
  | some (.useEnumeratedValues _) => exact nothing
  | some (.range ⟨lo, hi⟩) =>
    by_cases hw : w < 64
    · simp only [whenM, hw, decide_true, if_true, true_and]
      have h1 := range_checks hw lo .wcOutOfRange
      have h2 := range_checks hw hi .wcOutOfRange
      have h0 : Checks (if lo.toNat > hi.toNat then fail (.wcReversedRange lo hi) else .ok ())
        [⟨.wcReversedRange lo hi, w < 64 ∧ hi.toNat < lo.toNat⟩] := flip (by simp [hw])
      have key := h0.bind (h1.bind (h2.bind nothing))
      simp only [hw, true_and] at key
      unfold WriteConstraintRange.checkRange
      refine key.of_eq ?_
      by_cases hr : lo.toNat > hi.toNat
      · simp only [if_pos hr]; rfl
      · simp only [if_neg hr]; rfl
    · simp only [whenM, hw, decide_false, false_and]
      refine silent ?_
      simp

theorem field_checks (lvl : ValidateLevel) (f : FieldInfo) : Checks (f.validate lvl) (fieldRules lvl f) := by
  unfold FieldInfo.validate fieldRules
  refine .enabled ?_
  have hz : Checks (if f.bitRange.width = 0 then fail .zeroWidth else .ok ())
      [⟨.zeroWidth, f.bitRange.width.toNat = 0⟩] := flip (by rw [BitVec.toNat_eq]; rfl)
  have hc : Checks (if compatibleEnums f.enumeratedValues then .ok () else fail .incompatibleEnumeratedValues)
      [⟨.incompatibleEnumeratedValues, ¬ UsagesValid f.enumeratedValues⟩] :=
    one (by rw [compatibleEnums_iff, Classical.not_not])
  have key := (Checks.strict (lvl := lvl) ((dimable "name" f.name).bind
    (.forOpt (derived "derivedFrom") f.derivedFrom))).bind (hz.bind ((values_checks f.bitRange.width.toNat
      f.enumeratedValues).bind ((Checks.strict (lvl := lvl) hc).bind
        (constraint_checks f.bitRange.width.toNat f.writeConstraint))))
  simp only [List.append_assoc]
  refine key.of_eq ?_
  refine congrArg _ (funext fun _ => ?_)
  by_cases hw : f.bitRange.width = 0
  · simp only [if_pos hw]; rfl
  · simp only [if_neg hw]; rfl

/-! ## The whole -/

theorem allField_checks (lvl : ValidateLevel) (f : FieldInfo) :
    Checks (f.validateAll lvl) (allFieldRules lvl f) :=
  .bind (.forM (fun g => .bind (.forM (enumValue_checks lvl) _) (enums_checks lvl g)) _) (field_checks lvl f)

theorem fieldAll_checks (lvl : ValidateLevel) (f : Field) : Checks (f.validateAll lvl) (allFieldRules lvl f.info) := by
  have : f.validateAll lvl = f.info.validateAll lvl := by
    unfold Field.validateAll DimElement.validate
    cases f.dim? <;> rfl
  rw [this]; exact allField_checks lvl f.info

theorem allRegister_checks (lvl : ValidateLevel) (r : RegisterInfo) :
    Checks (r.validateAll lvl) (allRegisterRules lvl r) := by
  unfold RegisterInfo.validateAll allRegisterRules
  rw [List.append_assoc]
  have : (optRule r.fields fun fs => fs.flatMap fun f => allFieldRules lvl f.info) =
      r.fieldList.flatMap fun f => allFieldRules lvl f.info := by
    unfold RegisterInfo.fieldList optRule
    cases r.fields <;> simp
  rw [this]
  exact .bind (props_checks lvl _) (.bind (.forM (fieldAll_checks lvl) _) (register_checks lvl r))

theorem registerAll_checks (lvl : ValidateLevel) (r : Register) :
    Checks (r.validateAll lvl) (allRegisterRules lvl r.info) := by
  have : r.validateAll lvl = r.info.validateAll lvl := by
    unfold Register.validateAll DimElement.validate
    cases r.dim? <;> rfl
  rw [this]; exact allRegister_checks lvl r.info

theorem ownRegisters_checks (lvl : ValidateLevel) (cs : List RegisterCluster) :
    Checks (validateRegisters lvl cs) (ownRegisterRules lvl cs) := by
  induction cs with
  | nil => exact nothing
  | cons c cs ih =>
    cases c with
    | register r => exact (registerAll_checks lvl r).bind ih
    | cluster h d ch => exact ih

mutual
theorem allCluster_checks (lvl : ValidateLevel) :
    (c : RegisterCluster) → (∀ r, c ≠ .register r) → Checks (c.validateAll lvl) (allClusterRules lvl c)
  | .register r, hr => absurd rfl (hr r)
  | .cluster h d cs, _ => by
    have key := (props_checks lvl h.defaultRegisterProperties).bind ((ownRegisters_checks lvl cs).bind
      ((clusters_checks lvl cs).bind (cluster_checks lvl h cs)))
    rw [RegisterCluster.validateAll, allClusterRules]
    simp only [List.append_assoc]
    refine key.of_eq ?_
    cases d <;> rfl
theorem clusters_checks (lvl : ValidateLevel) :
    (cs : List RegisterCluster) → Checks (validateClusters lvl cs) (clustersRules lvl cs)
  | [] => by rw [validateClusters, clustersRules]; exact nothing
  | .register r :: cs => by
    rw [validateClusters, clustersRules, allClusterRules]
    exact clusters_checks lvl cs
  | .cluster h d ch :: cs => by
    rw [validateClusters, clustersRules]
    exact (allCluster_checks lvl (.cluster h d ch) (fun _ h => by cases h)).bind (clusters_checks lvl cs)
end

theorem allPeripheral_checks (lvl : ValidateLevel) (p : PeripheralInfo) :
    Checks (p.validateAll lvl) (allPeripheralRules lvl p) := by
  unfold PeripheralInfo.validateAll allPeripheralRules
  simp only [List.append_assoc]
  have h1 : optRule p.registers (ownRegisterRules lvl) = ownRegisterRules lvl p.children := by
    unfold PeripheralInfo.children optRule ownRegisterRules
    cases p.registers <;> simp
  have h2 : optRule p.registers (clustersRules lvl) = clustersRules lvl p.children := by
    unfold PeripheralInfo.children optRule
    cases p.registers <;> simp [clustersRules]
  have h3 : (forOpt p.addressBlock fun abs => abs.forM fun ab => ab.validate lvl) = .ok () := by
    cases p.addressBlock with
    | none => rfl
    | some l => exact forM_ok.mpr fun _ _ => rfl
  have h4 : (p.interrupt.forM fun i => i.validate lvl) = .ok () := forM_ok.mpr fun _ _ => rfl
  rw [h1, h2, h3, h4]
  exact (props_checks lvl _).bind ((ownRegisters_checks lvl _).bind
    ((clusters_checks lvl _).bind (peripheral_checks lvl p)))

theorem peripheralAll_checks (lvl : ValidateLevel) (p : Peripheral) :
    Checks (p.validateAll lvl) (allPeripheralRules lvl p.info) := by
  have : p.validateAll lvl = p.info.validateAll lvl := by
    unfold Peripheral.validateAll DimElement.validate
    cases p.dim? <;> rfl
  rw [this]; exact allPeripheral_checks lvl p.info

theorem allDevice_checks (lvl : ValidateLevel) (d : Device) : Checks (d.validateAll lvl) (allDeviceRules lvl d) := by
  have key := (props_checks lvl d.defaultRegisterProperties).bind ((Checks.forM (peripheralAll_checks lvl)
    d.peripherals).bind (device_checks lvl d))
  unfold Device.validateAll allDeviceRules
  rw [List.append_assoc]
  refine key.of_eq ?_
  cases d.cpu <;> rfl

/-! ## The theorems -/

/-- Validation of a device fails exactly with the error of the first broken rule. -/
theorem C72_device (lvl : ValidateLevel) (d : Device) :
    (∀ f, d.validateAll lvl = .error f ↔ ∃ e, f = .err e ∧ Reports (allDeviceRules lvl d) e) ∧
    (d.validateAll lvl = .ok () ↔ ∀ r ∈ allDeviceRules lvl d, ¬ r.broken) :=
  ⟨(allDevice_checks lvl d).error, (allDevice_checks lvl d).ok⟩

theorem C72_peripheral (lvl : ValidateLevel) (p : Peripheral) :
    (∀ f, p.validateAll lvl = .error f ↔ ∃ e, f = .err e ∧ Reports (allPeripheralRules lvl p.info) e) ∧
    (p.validateAll lvl = .ok () ↔ ∀ r ∈ allPeripheralRules lvl p.info, ¬ r.broken) :=
  ⟨(peripheralAll_checks lvl p).error, (peripheralAll_checks lvl p).ok⟩

theorem C72_cluster (lvl : ValidateLevel) (h : ClusterHead) (dim : Option DimElement) (cs : List RegisterCluster) :
    let c : RegisterCluster := .cluster h dim cs
    (∀ f, c.validateAll lvl = .error f ↔ ∃ e, f = .err e ∧ Reports (allClusterRules lvl c) e) ∧
    (c.validateAll lvl = .ok () ↔ ∀ r ∈ allClusterRules lvl c, ¬ r.broken) :=
  have := allCluster_checks lvl (.cluster h dim cs) (fun _ h => by cases h)
  ⟨this.error, this.ok⟩

theorem C72_register (lvl : ValidateLevel) (r : Register) :
    (∀ f, r.validateAll lvl = .error f ↔ ∃ e, f = .err e ∧ Reports (allRegisterRules lvl r.info) e) ∧
    (r.validateAll lvl = .ok () ↔ ∀ x ∈ allRegisterRules lvl r.info, ¬ x.broken) :=
  ⟨(registerAll_checks lvl r).error, (registerAll_checks lvl r).ok⟩

theorem C72_field (lvl : ValidateLevel) (x : Field) :
    (∀ f, x.validateAll lvl = .error f ↔ ∃ e, f = .err e ∧ Reports (allFieldRules lvl x.info) e) ∧
    (x.validateAll lvl = .ok () ↔ ∀ r ∈ allFieldRules lvl x.info, ¬ r.broken) :=
  ⟨(fieldAll_checks lvl x).error, (fieldAll_checks lvl x).ok⟩

/-- The checks of one element alone, as used by the builders. -/
theorem C72_own (lvl : ValidateLevel) :
    (∀ (p : RegisterProperties) f, p.validate lvl = .error f ↔ ∃ e, f = .err e ∧ Reports (propsRules lvl p) e) ∧
    (∀ (v : EnumeratedValue) f, v.validate lvl = .error f ↔ ∃ e, f = .err e ∧ Reports (enumValueRules lvl v) e) ∧
    (∀ (g : EnumeratedValues) f, g.validate lvl = .error f ↔ ∃ e, f = .err e ∧ Reports (enumsRules lvl g) e) ∧
    (∀ (x : FieldInfo) f, x.validate lvl = .error f ↔ ∃ e, f = .err e ∧ Reports (fieldRules lvl x) e) ∧
    (∀ (r : RegisterInfo) f, r.validate lvl = .error f ↔ ∃ e, f = .err e ∧ Reports (registerRules lvl r) e) ∧
    (∀ (c : ClusterInfo) f, c.validate lvl = .error f ↔
      ∃ e, f = .err e ∧ Reports (clusterRules lvl c.toClusterHead c.children) e) ∧
    (∀ (p : PeripheralInfo) f, p.validate lvl = .error f ↔ ∃ e, f = .err e ∧ Reports (peripheralRules lvl p) e) ∧
    ∀ (d : Device) f, d.validate lvl = .error f ↔ ∃ e, f = .err e ∧ Reports (deviceRules lvl d) e :=
  ⟨fun p => (props_checks lvl p).error, fun v => (enumValue_checks lvl v).error, fun g => (enums_checks lvl g).error,
    fun x => (field_checks lvl x).error, fun r => (register_checks lvl r).error,
    fun c => (cluster_checks lvl c.toClusterHead c.children).error, fun p => (peripheral_checks lvl p).error,
    fun d => (device_checks lvl d).error⟩

/-- At most one error is the first. -/
theorem C72_unique {l : List Rule} {e e' : Err} (h : Reports l e) (h' : Reports l e') : e = e' := by
  induction l with
  | nil => exact absurd h reports_nil
  | cons r l ih =>
    have hc : r :: l = [r] ++ l := rfl
    rw [hc, reports_append, reports_one] at h h'
    rcases h with ⟨h1, h2⟩ | ⟨h1, h2⟩ <;> rcases h' with ⟨h3, h4⟩ | ⟨h3, h4⟩
    · exact h2 ▸ h4
    · exact absurd h1 (h3 r (by simp))
    · exact absurd h3 (h1 r (by simp))
    · exact ih h2 h4

/-! ## Examples -/

/-- A field with no bits and with two bad values: the value without a number is reported. -/
def complaintField : FieldInfo :=
  { Sample.fieldInfo "F" 0 none [Sample.evs none none [⟨"A".toList, none, none, none⟩]] with
    bitRange := ⟨0, 0, .offsetWidth⟩, writeConstraint := some (.range ⟨7, 3⟩) }

example : complaintField.validateAll .weak = .error (.err .enumAbsentValue) := by decide +kernel
example : complaintField.validate .weak = .error (.err .zeroWidth) := by decide +kernel
/-- The same with one bit: now the reversed range is the first broken rule. -/
example : { complaintField with bitRange := ⟨0, 1, .offsetWidth⟩, enumeratedValues := [] }.validateAll .weak =
    .error (.err (.wcReversedRange 7 3)) := by decide +kernel
example : Reports (fieldRules .weak complaintField) .zeroWidth := by
  obtain ⟨e, h, hr⟩ := ((field_checks .weak complaintField).error (.err .zeroWidth)).mp (by decide +kernel)
  cases h; exact hr

/-- The registers of a block come before its clusters, whatever the order in the document. -/
def complaintPeripheral : PeripheralInfo :=
  Sample.peripheralInfo "P" 0 none (some
    [.cluster (Sample.clusterHead "C" 0) none [], .register (.single (Sample.registerInfo "R" 0 none (some [])))])

example : complaintPeripheral.validateAll .strict = .error (.err .emptyFields) := by decide +kernel
example : complaintPeripheral.validateAll .weak = .ok () := by decide +kernel

-- `C72_field`, `C72_peripheral`, `C72_register`, `C72_own` and `C72_device` on the same elements.
example : Reports (allFieldRules .weak complaintField) .enumAbsentValue := by
  obtain ⟨e, h, hr⟩ := ((C72_field .weak (.single complaintField)).1 (.err .enumAbsentValue)).mp (by decide +kernel)
  cases h; exact hr
example : Reports (allPeripheralRules .strict complaintPeripheral) .emptyFields := by
  obtain ⟨e, h, hr⟩ := ((C72_peripheral .strict (.single complaintPeripheral)).1 (.err .emptyFields)).mp (by decide +kernel)
  cases h; exact hr
example : Reports (allDeviceRules .strict (Sample.device [.single complaintPeripheral])) .emptyFields ∧
    ∀ r ∈ allDeviceRules .weak (Sample.device [.single complaintPeripheral]), ¬ r.broken := by
  refine ⟨?_, (C72_device .weak _).2.mp (by decide +kernel)⟩
  obtain ⟨e, h, hr⟩ := ((C72_device .strict (Sample.device [.single complaintPeripheral])).1 (.err .emptyFields)).mp (by decide +kernel)
  cases h; exact hr
example : (∀ r ∈ allRegisterRules .strict (Sample.registerInfo "R" 4), ¬ r.broken) ∧
    Reports (propsRules .weak ⟨some 8, none, none, some 256, none⟩) (.resetValueTooLarge 256 8) := by
  refine ⟨(C72_register .strict (.single (Sample.registerInfo "R" 4))).2.mp (by decide +kernel), ?_⟩
  obtain ⟨e, h, hr⟩ := ((C72_own .weak).1 ⟨some 8, none, none, some 256, none⟩
    (.err (.resetValueTooLarge 256 8))).mp (by decide +kernel)
  cases h; exact hr

/-- A cluster in which the register of the inner cluster has an empty list of fields. -/
def complaintCluster : RegisterCluster := .cluster (Sample.clusterHead "C" 0) none
  [.cluster (Sample.clusterHead "D" 0) none [.register (.single (Sample.registerInfo "R" 0 none (some [])))]]

-- `C72_cluster`
example : Reports (allClusterRules .strict complaintCluster) .emptyFields := by
  obtain ⟨e, h, hr⟩ := ((C72_cluster .strict (Sample.clusterHead "C" 0) none
    [.cluster (Sample.clusterHead "D" 0) none [.register (.single (Sample.registerInfo "R" 0 none (some [])))]]).1
    (.err .emptyFields)).mp (by decide +kernel)
  cases h; exact hr

end Svd
