import Verif.Props.Shuffled
import Verif.Props.Validation
import Verif.Props.Iter
import Verif.Props.Edges

/-!
# C87: what else does not depend on the order of the elements

Validity, the registers that the recursive iteration visits, bit masks, and lookups of a name that occurs once.
-/

namespace Svd

open Spec

namespace Shuffle

/-! ## Validity -/

theorem mixed_nil {α β : Type} {R : α → β → Prop} {l : List α} {m : List β} (h : Mixed R l m) : m = [] ↔ l = [] := by
  cases h <;> simp

theorem inTree {n : RegisterCluster} {cs : List RegisterCluster} (h : InTree cs n) : ∀ {cs'}, RcsShuffled cs cs' →
    ∃ n', InTree cs' n' ∧ RcShuffled n n' := by
  induction h with
  | here hn =>
    intro cs' hs
    obtain ⟨b, hb, hr⟩ := mem (rcs_iff.mp hs) hn
    exact ⟨b, .here hb, hr⟩
  | inside hn _ ih =>
    intro cs' hs
    obtain ⟨b, hb, hr⟩ := mem (rcs_iff.mp hs) hn
    cases hr with
    | cluster hr =>
      obtain ⟨n', h1, h2⟩ := ih hr
      exact ⟨n', .inside hb h1, h2⟩

theorem fieldHas {f f' : Field} (h : FieldAlike f f') {p : Part} (hp : FieldHas f.info p) :
    ∃ p', FieldHas f'.info p' ∧ ∀ lvl, p'.Valid lvl ↔ p.Valid lvl := by
  obtain ⟨_, t, ht⟩ := alike_iff.mp h
  cases hp with
  | self =>
    refine ⟨_, .self, fun lvl => ?_⟩
    rw [ht]; exact Iff.rfl
  | enums hg => exact ⟨_, .enums (by rw [ht]; exact hg), fun _ => .rfl⟩
  | enumValue hg he => exact ⟨_, .enumValue (by rw [ht]; exact hg) he, fun _ => .rfl⟩

theorem registerHas {r r' : Register} (h : RegisterShuffled r r') {p : Part} (hp : RegisterHas r.info p) :
    ∃ p', RegisterHas r'.info p' ∧ ∀ lvl, p'.Valid lvl ↔ p.Valid lvl := by
  obtain ⟨_, fs', hf, ht⟩ := register_iff.mp h
  cases hp with
  | self =>
    refine ⟨_, .self, fun lvl => ?_⟩
    rw [ht]
    have : fs' = some [] ↔ r.info.fields = some [] := by
      generalize r.info.fields = o at hf
      cases hf with
      | none => simp
      | some hm => simp [mixed_nil hm]
    simp only [Part.Valid, RegisterValid, ne_eq, this]
  | props => exact ⟨_, .props, fun _ => by rw [ht]⟩
  | @field fs f p hfs hf' hp =>
    rw [hfs] at hf
    cases hf with
    | some hm =>
      obtain ⟨g, hg, ha⟩ := mem hm hf'
      obtain ⟨p', h1, h2⟩ := fieldHas ha hp
      exact ⟨p', .field (by rw [ht]) hg h1, h2⟩

theorem nodeHas {n n' : RegisterCluster} (h : RcShuffled n n') {p : Part} (hp : NodeHas n p) :
    ∃ p', NodeHas n' p' ∧ ∀ lvl, p'.Valid lvl ↔ p.Valid lvl := by
  cases h with
  | register h =>
    cases hp with
    | register hp =>
      obtain ⟨p', h1, h2⟩ := registerHas h hp
      exact ⟨p', .register h1, h2⟩
  | cluster h =>
    cases hp with
    | cluster =>
      refine ⟨_, .cluster, fun lvl => ?_⟩
      simp only [Part.Valid, ClusterValid, ne_eq, mixed_nil (rcs_iff.mp h)]
    | props => exact ⟨_, .props, fun _ => .rfl⟩

theorem peripheralHas {p p' : Peripheral} (h : PeripheralShuffled p p') {q : Part} (hq : PeripheralHas p.info q) :
    ∃ q', PeripheralHas p'.info q' ∧ ∀ lvl, q'.Valid lvl ↔ q.Valid lvl := by
  obtain ⟨_, rs, hr, ht⟩ := peripheral_iff.mp h
  cases hq with
  | self =>
    refine ⟨_, .self, fun lvl => ?_⟩
    rw [ht]
    have : rs = some [] ↔ p.info.registers = some [] := by
      generalize p.info.registers = o at hr
      cases hr with
      | none => simp
      | some hm => simp [mixed_nil (rcs_iff.mp hm)]
    simp only [Part.Valid, PeripheralValid, ne_eq, this]
  | props => exact ⟨_, .props, fun _ => by rw [ht]⟩
  | node hl hn hp =>
    rw [hl] at hr
    cases hr with
    | some hm =>
      obtain ⟨n', h1, h2⟩ := inTree hn hm
      obtain ⟨q', h3, h4⟩ := nodeHas h2 hp
      exact ⟨q', .node (by rw [ht]) h1 h3, h4⟩

theorem valid {d e : Device} (h : DeviceShuffled d e) {lvl : ValidateLevel} (hv : e.validateAll lvl = .ok ()) :
    d.validateAll lvl = .ok () := by
  rw [C16_validate_all] at hv ⊢
  obtain ⟨ps, hm, rfl⟩ := h
  refine ⟨?_, fun p hp => ?_⟩
  · have := hv.1
    simpa only [DeviceValid, ne_eq, mixed_nil hm] using this
  · cases hp with
    | props => exact hv.2 _ .props
    | peripheral hp hq =>
      obtain ⟨p', h1, h2⟩ := mem hm hp
      obtain ⟨q', h3, h4⟩ := peripheralHas h2 hq
      exact (h4 lvl).mp (hv.2 _ (.peripheral h1 h3))

/-! ## Registers -/

mutual
theorem registersIn_mixed {c c' : RegisterCluster} :
    RcShuffled c c' → Mixed RegisterShuffled (registersIn c) (registersIn c')
  | .register h => .cons (m₁ := []) h .nil
  | .cluster h => registersInAll_mixed h
theorem registersInAll_mixed {l m : List RegisterCluster} :
    RcsShuffled l m → Mixed RegisterShuffled (registersInAll l) (registersInAll m)
  | .nil => .nil
  | .cons (c' := c') (m₁ := m₁) (m₂ := m₂) h1 h2 => by
    have h3 := append (registersIn_mixed h1) (registersInAll_mixed h2)
    refine perm_right h3 ?_
    rw [registersInAll_append, registersInAll_append]
    simp only [registersInAll]
    rw [← List.append_assoc, ← List.append_assoc]
    exact List.perm_append_comm.append_right _
end

/-! ## Masks -/

theorem arith_outcomes {w : Nat} (oc : Bool) (P : Prop) [Decidable P] (x : BitVec w) :
    arith oc P x = .ok x ∨ arith oc P x = .error (.panic .overflow) := by
  unfold arith
  split
  · exact .inl rfl
  · cases oc
    · exact .inl rfl
    · exact .inr rfl

/-- The outcome is a value or the overflow panic. -/
def Plain {α : Type} (m : M α) : Prop := (∃ x, m = .ok x) ∨ m = .error (.panic .overflow)

theorem plain_arith {w : Nat} (oc : Bool) (P : Prop) [Decidable P] (x : BitVec w) : Plain (arith oc P x) :=
  (arith_outcomes oc P x).imp (fun h => ⟨x, h⟩) id

theorem plain_bind {α β : Type} {m : M α} {k : α → M β} (h : Plain m) (hk : ∀ x, Plain (k x)) : Plain (m >>= k) := by
  rcases h with ⟨x, rfl⟩ | rfl
  · exact hk x
  · exact .inr rfl

theorem plain_info (oc : Bool) (f : FieldInfo) : Plain (f.bitmask oc) :=
  plain_bind (plain_arith ..) fun _ => plain_bind (plain_arith ..) fun _ => plain_arith ..

theorem plain_loop (oc : Bool) (mask : U64) (inc : U32) (l : List Nat) : ∀ bits, Plain (maskLoop oc mask inc bits l) := by
  induction l with
  | nil => exact fun bits => .inl ⟨bits, rfl⟩
  | cons i l ih => exact fun bits => plain_bind (plain_arith ..) fun _ => plain_bind (plain_arith ..) fun _ => ih _

theorem plain_field (oc : Bool) (f : Field) : Plain (Field.bitmask oc f) := by
  cases f with
  | single f => exact plain_info oc f
  | array f d => exact plain_bind (plain_info oc f) fun _ => plain_loop ..

theorem field_mask (oc : Bool) {f f' : Field} (h : FieldAlike f f') : Field.bitmask oc f' = Field.bitmask oc f := by
  obtain ⟨t, rfl⟩ := h
  cases f <;> rfl

/-- One step of collecting the mask of a register. -/
def orMask (oc : Bool) (mask : U64) (f : Field) : M U64 := do
  let m ← Field.bitmask oc f
  .ok (mask ||| m)

theorem fold_perm (oc : Bool) {l l' : List Field} (h : l.Perm l') :
    ∀ a, l.foldlM (orMask oc) a = l'.foldlM (orMask oc) a := by
  induction h with
  | nil => exact fun _ => rfl
  | cons x _ ih =>
    intro a
    rw [List.foldlM_cons, List.foldlM_cons]
    exact congrArg _ (funext ih)
  | trans _ _ h1 h2 => exact fun a => (h1 a).trans (h2 a)
  | swap x y l =>
    intro a
    rw [List.foldlM_cons, List.foldlM_cons]
    unfold orMask
    rcases plain_field oc x with ⟨u, hu⟩ | hu <;> rcases plain_field oc y with ⟨v, hv⟩ | hv <;>
      simp only [hu, hv, ok_bind, List.foldlM_cons]
    · rw [BitVec.or_assoc, BitVec.or_comm v, ← BitVec.or_assoc]
    · rfl
    · rfl

theorem fold_pairs (oc : Bool) {l m : List Field} (h : Pairs FieldAlike l m) :
    ∀ a, m.foldlM (orMask oc) a = l.foldlM (orMask oc) a := by
  induction h with
  | nil => exact fun _ => rfl
  | @cons f f' _ _ h _ ih =>
    intro a
    rw [List.foldlM_cons, List.foldlM_cons]
    have : orMask oc a f' = orMask oc a f := by unfold orMask; rw [field_mask oc h]
    rw [this]
    exact congrArg _ (funext ih)

/-! ## Lookups -/

theorem mixed_filter {α β : Type} {R : α → β → Prop} {p : α → Bool} {q : β → Bool} {l : List α} {m : List β}
    (h : Mixed R l m) (hr : ∀ a b, R a b → p a = q b) : Mixed R (l.filter p) (m.filter q) := by
  induction h with
  | nil => exact .nil
  | cons h1 _ ih =>
    rw [List.filter_append] at ih ⊢
    rw [List.filter_cons, List.filter_cons, hr _ _ h1]
    split
    · exact .cons h1 ih
    · exact ih

theorem mixed_find {α β : Type} {R : α → β → Prop} {f : α → Str} {g : β → Str} {l : List α} {m : List β} {n : Str}
    (h : Mixed R l m) (hr : ∀ a b, R a b → f a = g b) (hn : (l.map f).count n ≤ 1) :
    Option.Rel R (l.find? fun a => f a == n) (m.find? fun b => g b == n) := by
  have h1 := mixed_filter (p := fun a => f a == n) (q := fun b => g b == n) h fun a b hab => by rw [hr a b hab]
  rw [← List.head?_filter, ← List.head?_filter]
  have h2 : (l.filter fun a => f a == n).length ≤ 1 := by
    rw [← List.countP_eq_length_filter]
    rw [List.count_eq_countP, List.countP_map] at hn
    exact hn
  revert h1 h2
  generalize l.filter (fun a => f a == n) = l'
  generalize m.filter (fun b => g b == n) = m'
  intro h1 h2
  cases h1 with
  | nil => exact .none
  | @cons a b l' m₁ m₂ hab h3 =>
    have : l' = [] := by
      cases l' with
      | nil => rfl
      | cons => simp at h2
    subst this
    have := (mixed_nil h3).mpr rfl
    obtain ⟨rfl, rfl⟩ := List.append_eq_nil_iff.mp this
    exact .some hab

theorem registersOf_append (a b : List RegisterCluster) : registersOf (a ++ b) = registersOf a ++ registersOf b := by
  induction a with
  | nil => rfl
  | cons c a ih => cases c <;> simp [registersOf, ih]

theorem clustersOf_append (a b : List RegisterCluster) : clustersOf (a ++ b) = clustersOf a ++ clustersOf b := by
  induction a with
  | nil => rfl
  | cons c a ih => cases c <;> simp [clustersOf, ih]

theorem registersOf_mixed {l m : List RegisterCluster} (h : Mixed RcShuffled l m) :
    Mixed RegisterShuffled (registersOf l) (registersOf m) := by
  induction h with
  | nil => exact .nil
  | cons h1 _ ih =>
    rw [registersOf_append] at ih ⊢
    cases h1 with
    | register h1 => exact .cons h1 ih
    | cluster => exact ih

theorem clustersOf_mixed {l m : List RegisterCluster} (h : Mixed RcShuffled l m) :
    Mixed ClusterShuffled (clustersOf l) (clustersOf m) := by
  induction h with
  | nil => exact .nil
  | cons h1 _ ih =>
    rw [clustersOf_append] at ih ⊢
    cases h1 with
    | register => exact ih
    | @cluster _ _ _ cs' h1 =>
      refine .cons ⟨?_, cs', ?_, ?_⟩ ih
      · rw [dim_mk, dim_mk]
      · rw [info_mk]; exact h1
      · rw [info_mk, info_mk]

end Shuffle

open Shuffle in
/-- **C87.** Validation accepts a device at a level if and only if it accepts it with its elements in another order. -/
theorem C87_valid (d e : Device) (h : DeviceShuffled d e) (lvl : ValidateLevel) :
    d.validateAll lvl = .ok () ↔ e.validateAll lvl = .ok () :=
  ⟨valid (device_flip h), valid h⟩

-- `C87_valid`
example : Sample.ordered.validateAll .strict = .ok () ∧ Sample.reordered.validateAll .strict = .ok () := by
  have h : Sample.ordered.validateAll .strict = .ok () := by decide +kernel
  exact ⟨h, (C87_valid _ _ ordered_reordered.1 .strict).mp h⟩

open Shuffle in
/-- **C87.** The recursive iteration over a peripheral or cluster in another order visits the same registers, each as
often. -/
theorem C87_registers (cs cs' : List RegisterCluster) (h : RcsShuffled cs cs') :
    Mixed RegisterShuffled (allRegisters cs) (allRegisters cs') := by
  rw [C24_all_registers, C24_all_registers]
  exact registersInAll_mixed h

namespace Sample

/-- A register with two fields, and the same with the fields in the other order and one range in another notation. -/
def twoFields : Register := .single (registerInfo "R" 0x0 none (some
  [.single (fieldInfo "F" 0), .array (fieldInfo "G%s" 1) (dim 2 1)]))
def twoFields' : Register := .single (registerInfo "R" 0x0 none (some
  [.array (fieldInfo "G%s" 1) (dim 2 1), .single { fieldInfo "F" 0 with bitRange := ⟨0, 1, .msbLsb⟩ }]))

/-- Two registers and a cluster. -/
def kids : List RegisterCluster := [.register (.single (registerInfo "S" 0x8)),
  .cluster (clusterHead "C" 0x10) none [.register (.single (registerInfo "T" 0))], .register twoFields]
def kids' : List RegisterCluster := [.register twoFields', .register (.single (registerInfo "S" 0x8)),
  .cluster (clusterHead "C" 0x10) none [.register (.single (registerInfo "T" 0))]]

theorem twoFields_shuffled : RegisterShuffled twoFields twoFields' :=
  ⟨_, .some (.cons (m₁ := [_]) (m₂ := []) ⟨.msbLsb, rfl⟩ (.cons (m₁ := []) (m₂ := []) ⟨.offsetWidth, rfl⟩ .nil)), rfl⟩

theorem kids_shuffled : RcsShuffled kids kids' :=
  .cons (m₁ := [_]) (m₂ := [_]) (.register ⟨_, .none, rfl⟩) (.cons (m₁ := [_]) (m₂ := [])
    (.cluster (.cons (m₁ := []) (.register ⟨_, .none, rfl⟩) .nil))
    (.cons (m₁ := []) (m₂ := []) (.register twoFields_shuffled) .nil))

end Sample

-- `C87_registers`
example : (allRegisters Sample.kids).map (fun r => r.info.name) = ["S".toList, "T".toList, "R".toList] ∧
    (allRegisters Sample.kids').map (fun r => r.info.name) = ["R".toList, "S".toList, "T".toList] ∧
    Mixed RegisterShuffled (allRegisters Sample.kids) (allRegisters Sample.kids') :=
  ⟨by rw [C24_all_registers]; decide +kernel, by rw [C24_all_registers]; decide +kernel,
    C87_registers _ _ Sample.kids_shuffled⟩

open Shuffle in
/-- **C87.** The bit mask of a register does not depend on the order of the fields and the notation of their ranges;
nor does whether computing it overflows. -/
theorem C87_mask (oc : Bool) (r r' : Register) (h : RegisterShuffled r r') :
    r'.info.bitmask oc = r.info.bitmask oc := by
  obtain ⟨_, fs, hf, ht⟩ := register_iff.mp h
  rw [ht]
  unfold RegisterInfo.bitmask RegisterInfo.fieldList
  generalize r.info.fields = o at hf
  cases hf with
  | none => rfl
  | some hm =>
    obtain ⟨m, h1, h2⟩ := shuffled_iff.mp hm
    exact ((fold_perm oc h2 0).symm).trans (fold_pairs oc h1 0)

-- `C87_mask`
example : Sample.twoFields.info.bitmask true = .ok 7 ∧ Sample.twoFields'.info.bitmask true = .ok 7 := by
  have h : Sample.twoFields.info.bitmask true = .ok 7 := by decide +kernel
  exact ⟨h, (C87_mask true _ _ Sample.twoFields_shuffled).trans h⟩

open Shuffle in
/-- **C87.** Looking up a peripheral, register, cluster or field by a name that no two of them share finds the same one
in either order, or none in both. -/
theorem C87_lookup :
    (∀ d e : Device, DeviceShuffled d e → ∀ n, (d.peripherals.map fun p => p.info.name).count n ≤ 1 →
      Option.Rel PeripheralShuffled (d.getPeripheral n) (e.getPeripheral n)) ∧
    (∀ cs cs', RcsShuffled cs cs' → ∀ n,
      (((registersOf cs).map fun r => r.info.name).count n ≤ 1 →
        Option.Rel RegisterShuffled (getRegister cs n) (getRegister cs' n)) ∧
      (((clustersOf cs).map fun c => c.info.name).count n ≤ 1 →
        Option.Rel ClusterShuffled (getCluster cs n) (getCluster cs' n))) ∧
    (∀ r r' : Register, RegisterShuffled r r' → ∀ n, (r.info.fieldList.map fun f => f.info.name).count n ≤ 1 →
      Option.Rel FieldAlike (r.info.getField n) (r'.info.getField n)) := by
  refine ⟨?_, fun cs cs' h n => ⟨fun hn => ?_, fun hn => ?_⟩, fun r r' h n hn => ?_⟩
  · rintro d e ⟨ps, h, rfl⟩ n hn
    refine mixed_find h (fun a b hab => ?_) hn
    obtain ⟨_, rs, _, ht⟩ := peripheral_iff.mp hab
    rw [ht]
  · refine mixed_find (registersOf_mixed (rcs_iff.mp h)) (fun a b hab => ?_) hn
    obtain ⟨_, rs, _, ht⟩ := register_iff.mp hab
    rw [ht]
  · refine mixed_find (clustersOf_mixed (rcs_iff.mp h)) (fun a b hab => ?_) hn
    obtain ⟨_, rs, _, ht⟩ := hab
    rw [ht]
  · obtain ⟨_, fs, hf, ht⟩ := register_iff.mp h
    unfold RegisterInfo.getField
    unfold RegisterInfo.fieldList at hn ⊢
    rw [ht]
    generalize r.info.fields = o at hf hn
    cases hf with
    | none => exact .none
    | some hm =>
      refine mixed_find hm (fun a b hab => ?_) hn
      obtain ⟨_, t, ht⟩ := alike_iff.mp hab
      rw [ht]

-- `C87_lookup`: a name that occurs once
example : Option.Rel PeripheralShuffled (Sample.ordered.getPeripheral "P".toList)
      (Sample.reordered.getPeripheral "P".toList) ∧ (Sample.ordered.getPeripheral "P".toList).isSome = true :=
  ⟨C87_lookup.1 _ _ ordered_reordered.1 _ (by decide +kernel), by decide +kernel⟩
example : Option.Rel RegisterShuffled (getRegister Sample.kids "R".toList) (getRegister Sample.kids' "R".toList) ∧
    Option.Rel ClusterShuffled (getCluster Sample.kids "C".toList) (getCluster Sample.kids' "C".toList) ∧
    Option.Rel FieldAlike (Sample.twoFields.info.getField "F".toList) (Sample.twoFields'.info.getField "F".toList) ∧
    (getRegister Sample.kids "R".toList).isSome = true ∧ (getCluster Sample.kids "C".toList).isSome = true ∧
    (Sample.twoFields.info.getField "F".toList).isSome = true :=
  ⟨(C87_lookup.2.1 _ _ Sample.kids_shuffled _).1 (by decide +kernel),
    (C87_lookup.2.1 _ _ Sample.kids_shuffled _).2 (by decide +kernel),
    C87_lookup.2.2 _ _ Sample.twoFields_shuffled _ (by decide +kernel), by decide +kernel, by decide +kernel,
    by decide +kernel⟩

open Shuffle in
/-- **C87**, the condition is needed: of two registers with one name the first is found. -/
theorem C87_first : ∃ cs cs' n, RcsShuffled cs cs' ∧
    ¬ Option.Rel RegisterShuffled (getRegister cs n) (getRegister cs' n) := by
  refine ⟨[.register (.single (Sample.registerInfo "R" 0)), .register (.single (Sample.registerInfo "R" 4))],
    [.register (.single (Sample.registerInfo "R" 4)), .register (.single (Sample.registerInfo "R" 0))], "R".toList,
    .cons (m₁ := [_]) (m₂ := []) (.register ⟨_, .none, rfl⟩) (.cons (m₁ := []) (m₂ := []) (.register ⟨_, .none, rfl⟩)
      .nil), fun h => ?_⟩
  have h : Option.Rel RegisterShuffled (some (.single (Sample.registerInfo "R" 0)))
    (some (.single (Sample.registerInfo "R" 4))) := h
  cases h with
  | some h =>
    obtain ⟨_, fs, _, ht⟩ := register_iff.mp h
    have ht : (4 : U32) = 0 := congrArg (fun i : RegisterInfo => i.addressOffset) ht
    exact absurd ht (by decide)

end Svd
