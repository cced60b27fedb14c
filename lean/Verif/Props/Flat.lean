import Verif.Spec.Sample
import Verif.Spec.Flat
import Verif.Lemmas.Except
import Verif.Model.Expand
import Verif.Props.Arrays
import Verif.Props.Path

/-!
# C33, C34, C35: the result of expansion is flat, and flat devices are left alone
-/

namespace Svd

open Spec

/-! ## Following references keeps the own `derivedFrom` -/

theorem mapInfo_info {α : Type} (f : α → α) (m : MaybeArray α) : (m.mapInfo f).info = f m.info := by
  cases m <;> rfl

theorem MaybeArray.deriveFrom_info {α : Type} (nm : α → Str) (df : α → α → α) (a b : MaybeArray α) :
    (MaybeArray.deriveFrom nm df a b).info = df a.info b.info := by
  cases a <;> cases b <;> simp only [MaybeArray.deriveFrom]
  case single.array => split <;> rfl
  all_goals rfl

theorem okOr_ok {α : Type} {o : Option α} {e : Err} {a : α} : okOr o e = .ok a ↔ o = some a := by
  cases o <;> simp [okOr, fail]

theorem derivePeripheral_step {ix : Index} {n : Nat} {p : Peripheral} {s : Str}
    {r : Peripheral × Option BlockPath} :
    derivePeripheral ix (n + 1) p s = .ok r ↔
      ∃ d, s ≠ p.info.name ∧ mapGet ix.peripherals (BlockPath.new s) = some d ∧
        match d.info.derivedFrom with
        | some s' => derivePeripheral ix n (Peripheral.deriveFrom p d) s' = .ok r
        | none => r = (Peripheral.deriveFrom p d,
            if p.info.registers.isNone then some (BlockPath.new s) else none) := by
  rw [derivePeripheral]
  constructor
  · intro h
    by_cases hs : s = p.info.name
    · rw [if_pos hs] at h; cases h
    · rw [if_neg hs] at h
      obtain ⟨d, hd, h⟩ := bind_ok.mp h
      refine ⟨d, hs, okOr_ok.mp hd, ?_⟩
      cases hdf : d.info.derivedFrom with
      | some s' => rw [hdf] at h; exact h
      | none => rw [hdf] at h; injection h with h; exact h.symm
  · rintro ⟨d, hs, hd, h⟩
    rw [if_neg hs]
    refine bind_ok.mpr ⟨d, okOr_ok.mpr hd, ?_⟩
    cases hdf : d.info.derivedFrom with
    | some s' => rw [hdf] at h; exact h
    | none => rw [hdf] at h; rw [h]

theorem deriveCluster_step {ix : Index} {n : Nat} {c : Cluster} {s : Str} {path : BlockPath}
    {r : Cluster × Option BlockPath} :
    deriveCluster ix (n + 1) c s path = .ok r ↔
      ∃ pd d, BlockPath.parseStr s = .ok pd ∧ ¬ (pd.1.getD path = path ∧ pd.2 = c.info.name) ∧
        mapGet ix.clusters ((pd.1.getD path).newCluster pd.2) = some d ∧
        match d.info.derivedFrom with
        | some s' => deriveCluster ix n (Cluster.deriveFrom c d) s' (pd.1.getD path) = .ok r
        | none => r = (Cluster.deriveFrom c d,
            if c.info.children.isEmpty then some ((pd.1.getD path).newCluster pd.2) else none) := by
  rw [deriveCluster]
  constructor
  · intro h
    obtain ⟨pd, hpd, h⟩ := bind_ok.mp h
    dsimp only at h
    by_cases hs : pd.1.getD path = path ∧ pd.2 = c.info.name
    · rw [if_pos hs] at h; cases h
    · rw [if_neg hs] at h
      obtain ⟨d, hd, h⟩ := bind_ok.mp h
      refine ⟨pd, d, hpd, hs, okOr_ok.mp hd, ?_⟩
      cases hdf : d.info.derivedFrom with
      | some s' => rw [hdf] at h; exact h
      | none => rw [hdf] at h; injection h with h; exact h.symm
  · rintro ⟨pd, d, hpd, hs, hd, h⟩
    refine bind_ok.mpr ⟨pd, hpd, ?_⟩
    dsimp only
    rw [if_neg hs]
    refine bind_ok.mpr ⟨d, okOr_ok.mpr hd, ?_⟩
    cases hdf : d.info.derivedFrom with
    | some s' => rw [hdf] at h; exact h
    | none => rw [hdf] at h; rw [h]

theorem deriveRegister_step {ix : Index} {n : Nat} {c : Register} {s : Str} {path : BlockPath}
    {r : Register × Option RegisterPath} :
    deriveRegister ix (n + 1) c s path = .ok r ↔
      ∃ pd d, RegisterPath.parseStr s = .ok pd ∧ ¬ (pd.1.getD path = path ∧ pd.2 = c.info.name) ∧
        mapGet ix.registers ((pd.1.getD path).newRegister pd.2) = some d ∧
        match d.info.derivedFrom with
        | some s' => deriveRegister ix n (Register.deriveFrom c d) s' (pd.1.getD path) = .ok r
        | none => r = (Register.deriveFrom c d,
            if c.info.fields.isNone then some ((pd.1.getD path).newRegister pd.2) else none) := by
  rw [deriveRegister]
  constructor
  · intro h
    obtain ⟨pd, hpd, h⟩ := bind_ok.mp h
    dsimp only at h
    by_cases hs : pd.1.getD path = path ∧ pd.2 = c.info.name
    · rw [if_pos hs] at h; cases h
    · rw [if_neg hs] at h
      obtain ⟨d, hd, h⟩ := bind_ok.mp h
      refine ⟨pd, d, hpd, hs, okOr_ok.mp hd, ?_⟩
      cases hdf : d.info.derivedFrom with
      | some s' => rw [hdf] at h; exact h
      | none => rw [hdf] at h; injection h with h; exact h.symm
  · rintro ⟨pd, d, hpd, hs, hd, h⟩
    refine bind_ok.mpr ⟨pd, hpd, ?_⟩
    dsimp only
    rw [if_neg hs]
    refine bind_ok.mpr ⟨d, okOr_ok.mpr hd, ?_⟩
    cases hdf : d.info.derivedFrom with
    | some s' => rw [hdf] at h; exact h
    | none => rw [hdf] at h; rw [h]

theorem deriveField_step {ix : Index} {n : Nat} {c : Field} {s : Str} {path : RegisterPath}
    {r : Field × Option FieldPath} :
    deriveField ix (n + 1) c s path = .ok r ↔
      ∃ pd d, FieldPath.parseStr s = .ok pd ∧ ¬ (pd.1.getD path = path ∧ pd.2 = c.info.name) ∧
        mapGet ix.fields ((pd.1.getD path).newField pd.2) = some d ∧
        match d.info.derivedFrom with
        | some s' => deriveField ix n (Field.deriveFrom c d) s' (pd.1.getD path) = .ok r
        | none => r = (Field.deriveFrom c d,
            if c.info.enumeratedValues.isEmpty then some ((pd.1.getD path).newField pd.2) else none) := by
  rw [deriveField]
  constructor
  · intro h
    obtain ⟨pd, hpd, h⟩ := bind_ok.mp h
    dsimp only at h
    by_cases hs : pd.1.getD path = path ∧ pd.2 = c.info.name
    · rw [if_pos hs] at h; cases h
    · rw [if_neg hs] at h
      obtain ⟨d, hd, h⟩ := bind_ok.mp h
      refine ⟨pd, d, hpd, hs, okOr_ok.mp hd, ?_⟩
      cases hdf : d.info.derivedFrom with
      | some s' => rw [hdf] at h; exact h
      | none => rw [hdf] at h; injection h with h; exact h.symm
  · rintro ⟨pd, d, hpd, hs, hd, h⟩
    refine bind_ok.mpr ⟨pd, hpd, ?_⟩
    dsimp only
    rw [if_neg hs]
    refine bind_ok.mpr ⟨d, okOr_ok.mpr hd, ?_⟩
    cases hdf : d.info.derivedFrom with
    | some s' => rw [hdf] at h; exact h
    | none => rw [hdf] at h; rw [h]

theorem derivePeripheral_derivedFrom {ix : Index} {n : Nat} {p : Peripheral} {s : Str}
    {r : Peripheral × Option BlockPath} (h : derivePeripheral ix n p s = .ok r) :
    r.1.info.derivedFrom = p.info.derivedFrom := by
  induction n generalizing p s with
  | zero => cases h
  | succ n ih =>
    have e : ∀ d, (Peripheral.deriveFrom p d).info.derivedFrom = p.info.derivedFrom := fun d => by
      rw [Peripheral.deriveFrom, MaybeArray.deriveFrom_info]; rfl
    obtain ⟨d, _, _, h⟩ := derivePeripheral_step.mp h
    split at h
    · rw [ih h, e]
    · subst h; exact e d

theorem deriveCluster_derivedFrom {ix : Index} {n : Nat} {p : Cluster} {s : Str} {b : BlockPath}
    {r : Cluster × Option BlockPath} (h : deriveCluster ix n p s b = .ok r) :
    r.1.info.derivedFrom = p.info.derivedFrom := by
  induction n generalizing p s b with
  | zero => cases h
  | succ n ih =>
    have e : ∀ d, (Cluster.deriveFrom p d).info.derivedFrom = p.info.derivedFrom := fun d => by
      rw [Cluster.deriveFrom, MaybeArray.deriveFrom_info]; rfl
    obtain ⟨_, d, _, _, _, h⟩ := deriveCluster_step.mp h
    split at h
    · rw [ih h, e]
    · subst h; exact e d

theorem deriveRegister_derivedFrom {ix : Index} {n : Nat} {p : Register} {s : Str} {b : BlockPath}
    {r : Register × Option RegisterPath} (h : deriveRegister ix n p s b = .ok r) :
    r.1.info.derivedFrom = p.info.derivedFrom := by
  induction n generalizing p s b with
  | zero => cases h
  | succ n ih =>
    have e : ∀ d, (Register.deriveFrom p d).info.derivedFrom = p.info.derivedFrom := fun d => by
      rw [Register.deriveFrom, MaybeArray.deriveFrom_info]; rfl
    obtain ⟨_, d, _, _, _, h⟩ := deriveRegister_step.mp h
    split at h
    · rw [ih h, e]
    · subst h; exact e d

theorem deriveField_derivedFrom {ix : Index} {n : Nat} {p : Field} {s : Str} {b : RegisterPath}
    {r : Field × Option FieldPath} (h : deriveField ix n p s b = .ok r) :
    r.1.info.derivedFrom = p.info.derivedFrom := by
  induction n generalizing p s b with
  | zero => cases h
  | succ n ih =>
    have e : ∀ d, (Field.deriveFrom p d).info.derivedFrom = p.info.derivedFrom := fun d => by
      rw [Field.deriveFrom, MaybeArray.deriveFrom_info]; rfl
    obtain ⟨_, d, _, _, _, h⟩ := deriveField_step.mp h
    split at h
    · rw [ih h, e]
    · subst h; exact e d

theorem deriveEnum_derivedFrom {ix : Index} {n : Nat} {ev : EnumeratedValues} {s : Str} {b : FieldPath}
    {r : EnumeratedValues × EnumPath} (h : deriveEnumeratedValues ix n ev s b = .ok r) :
    r.1.derivedFrom = ev.derivedFrom := by
  induction n generalizing ev s b with
  | zero => cases h
  | succ n ih =>
    unfold deriveEnumeratedValues at h
    split at h
    · cases h
    · obtain ⟨d, _, h⟩ := bind_ok.mp h
      split at h
      · cases h
      · simp only at h
        split at h
        · rw [ih h]; rfl
        · injection h with h; subst h; rfl

/-! ## Flat parts -/

theorem expandEv_flat {ix : Index} {n : Nat} {b : FieldPath} {ev ev' : EnumeratedValues}
    (h : expandEv ix n b ev = .ok ev') : ev'.derivedFrom = none := by
  unfold expandEv at h
  split at h
  · obtain ⟨r, hr, h⟩ := bind_ok.mp h
    injection h with h; subst h
    exact deriveEnum_derivedFrom hr
  · injection h with h; subst h; assumption

theorem expandField_flat {oc : Bool} {ix : Index} {n : Nat} {b : RegisterPath} {f : Field}
    {l : List Field} (h : expandField oc ix n b f = .ok l) : ∀ g ∈ l, FlatField g := by
  unfold expandField at h
  obtain ⟨ff, hff, h⟩ := bind_ok.mp h
  simp only at h
  obtain ⟨evs, hevs, h⟩ := bind_ok.mp h
  have hd : ff.1.info.derivedFrom = none := by
    split at hff
    · rw [deriveField_derivedFrom hff, mapInfo_info]
    · injection hff with hff; subst hff; assumption
  have he : ∀ e ∈ evs, e.derivedFrom = none := fun e he => by
    obtain ⟨a, _, ha⟩ := mapM_ok_mem' hevs he
    exact expandEv_flat ha
  rcases hf : ff.1 with i | ⟨i, d⟩ <;> simp only [hf, MaybeArray.mapInfo] at h <;>
    simp only [hf, MaybeArray.info] at hd
  · injection h with h; subst h
    simp only [List.mem_singleton, forall_eq]
    exact .mk hd he
  · obtain ⟨l', hl', h⟩ := bind_ok.mp h
    injection h with h; subst h
    simp only [List.mem_map, forall_exists_index, and_imp, forall_apply_eq_imp_iff₂]
    intro g hg
    obtain ⟨k, _, hk⟩ := mapM_ok_mem' hl' hg
    unfold FieldInfo.expandAt at hk
    iterate 3 obtain ⟨_, _, hk⟩ := bind_ok.mp hk
    injection hk with hk; subst hk
    exact .mk hd he

theorem expandRegisterArray_flat {oc : Bool} {ix : Index} {n : Nat} {b : BlockPath} {r : Register}
    {l : List RegisterCluster} (h : expandRegisterArray oc ix n b r = .ok l) :
    ∀ g ∈ l, FlatRegister g := by
  unfold expandRegisterArray at h
  obtain ⟨rr, hrr, h⟩ := bind_ok.mp h
  simp only at h
  obtain ⟨fields, hfs, h⟩ := bind_ok.mp h
  have hd : rr.1.info.derivedFrom = none := by
    split at hrr
    · rw [deriveRegister_derivedFrom hrr, mapInfo_info]
    · injection hrr with hrr; subst hrr; assumption
  have he : ∀ l, fields = some l → ∀ f ∈ l, FlatField f := by
    rintro l rfl f hf
    split at hfs
    · obtain ⟨ll, hll, hfs⟩ := bind_ok.mp hfs
      injection hfs with hfs; injection hfs with hfs; subst hfs
      obtain ⟨fl, hfl, hf⟩ := List.mem_flatten.mp hf
      obtain ⟨a, _, ha⟩ := mapM_ok_mem' hll hfl
      exact expandField_flat ha f hf
    · cases hfs
  rcases hf : rr.1 with i | ⟨i, d⟩ <;> simp only [hf, MaybeArray.mapInfo] at h <;>
    simp only [hf, MaybeArray.info] at hd
  · injection h with h; subst h
    simp only [List.mem_singleton, forall_eq]
    exact .mk hd he
  · obtain ⟨l', hl', h⟩ := bind_ok.mp h
    injection h with h; subst h
    simp only [List.mem_map, forall_exists_index, and_imp, forall_apply_eq_imp_iff₂]
    intro g hg
    obtain ⟨k, _, hk⟩ := mapM_ok_mem' hl' hg
    unfold RegisterInfo.expandAt at hk
    iterate 4 obtain ⟨_, _, hk⟩ := bind_ok.mp hk
    injection hk with hk; subst hk
    exact .mk hd he

theorem flattenChild_flat {oc : Bool} {c : ClusterInfo} {x y : RegisterCluster}
    (h : flattenChild oc c x = .ok y) (hx : FlatRegister x) : FlatRegister y := by
  cases hx with
  | mk hd hf =>
    unfold flattenChild at h
    obtain ⟨_, _, h⟩ := bind_ok.mp h
    injection h with h; subst h
    exact .mk hd hf

theorem expandCluster_flat {oc : Bool} {c : ClusterInfo} {l : List RegisterCluster}
    (h : expandCluster oc c = .ok l) (hc : ∀ x ∈ c.children, FlatRegister x) : ∀ x ∈ l, FlatRegister x := by
  intro x hx
  obtain ⟨a, ha, hax⟩ := mapM_ok_mem' h hx
  exact flattenChild_flat hax (hc a ha)

theorem flattenCluster_flat {oc : Bool} {c : Cluster} {l : List RegisterCluster}
    (h : flattenCluster oc c = .ok l) (hc : ∀ x ∈ c.info.children, FlatRegister x) :
    ∀ x ∈ l, FlatRegister x := by
  unfold flattenCluster at h
  split at h
  · exact expandCluster_flat h hc
  · obtain ⟨ll, hll, h⟩ := bind_ok.mp h
    injection h with h; subst h
    intro x hx
    obtain ⟨m, hm, hx⟩ := List.mem_flatten.mp hx
    obtain ⟨k, _, hk⟩ := mapM_ok_mem' hll hm
    obtain ⟨ci, hci, hk⟩ := bind_ok.mp hk
    refine expandCluster_flat hk ?_ x hx
    unfold ClusterInfo.expandAt at hci
    iterate 3 obtain ⟨_, _, hci⟩ := bind_ok.mp hci
    injection hci with hci; subst hci
    exact hc

theorem expandRC_flat {oc : Bool} {ix : Index} {n : Nat} {b : BlockPath} {c : RegisterCluster}
    {l : List RegisterCluster} (h : expandRC oc ix n b c = .ok l) : ∀ x ∈ l, FlatRegister x := by
  induction n generalizing b c l with
  | zero => cases c <;> cases h
  | succ n ih =>
    cases c with
    | register r => exact expandRegisterArray_flat h
    | cluster hd d cs =>
      unfold expandRC at h
      obtain ⟨cc, hcc, h⟩ := bind_ok.mp h
      simp only at h
      obtain ⟨ll, hll, h⟩ := bind_ok.mp h
      refine flattenCluster_flat h ?_
      rw [mapInfo_info]
      intro x hx
      obtain ⟨m, hm, hx⟩ := List.mem_flatten.mp hx
      obtain ⟨a, _, ha⟩ := mapM_ok_mem' hll hm
      exact ih ha x hx

theorem expandPeripheral_flat {oc : Bool} {ix : Index} {n : Nat} {p : Peripheral}
    {l : List Peripheral} (h : expandPeripheral oc ix n p = .ok l) : ∀ x ∈ l, FlatPeripheral x := by
  unfold expandPeripheral at h
  obtain ⟨pp, hpp, h⟩ := bind_ok.mp h
  simp only at h
  obtain ⟨regs, hrs, h⟩ := bind_ok.mp h
  have hd : pp.1.info.derivedFrom = none := by
    split at hpp
    · rw [derivePeripheral_derivedFrom hpp, mapInfo_info]
    · injection hpp with hpp; subst hpp; assumption
  have he : ∀ l, regs = some l → ∀ f ∈ l, FlatRegister f := by
    rintro l rfl f hf
    split at hrs
    · obtain ⟨ll, hll, hrs⟩ := bind_ok.mp hrs
      injection hrs with hrs; injection hrs with hrs; subst hrs
      obtain ⟨fl, hfl, hf⟩ := List.mem_flatten.mp hf
      obtain ⟨a, _, ha⟩ := mapM_ok_mem' hll hfl
      exact expandRC_flat ha f hf
    · cases hrs
  rcases hf : pp.1 with i | ⟨i, d⟩ <;> simp only [hf, MaybeArray.mapInfo] at h <;>
    simp only [hf, MaybeArray.info] at hd
  · injection h with h; subst h
    simp only [List.mem_singleton, forall_eq]
    exact .mk hd he
  · obtain ⟨l', hl', h⟩ := bind_ok.mp h
    injection h with h; subst h
    simp only [List.mem_map, forall_exists_index, and_imp, forall_apply_eq_imp_iff₂]
    intro g hg
    obtain ⟨k, _, hk⟩ := mapM_ok_mem' hl' hg
    unfold PeripheralInfo.expandAt at hk
    iterate 4 obtain ⟨_, _, hk⟩ := bind_ok.mp hk
    injection hk with hk; subst hk
    exact .mk hd he

/-- **C33.** Whenever expansion returns a device, that device has no arrays, no clusters and no
`derivedFrom`; only its peripherals differ from the original. -/
theorem C33_flat (oc : Bool) (fuel : Nat) (d d' : Device) (h : expand oc fuel d = .ok d') :
    FlatDevice d' ∧ d' = { d with peripherals := d'.peripherals } := by
  unfold expand at h
  obtain ⟨ix, _, h⟩ := bind_ok.mp h
  obtain ⟨ll, hll, h⟩ := bind_ok.mp h
  injection h with h; subst h
  refine ⟨fun p hp => ?_, rfl⟩
  obtain ⟨m, hm, hp⟩ := List.mem_flatten.mp hp
  obtain ⟨a, _, ha⟩ := mapM_ok_mem' hll hm
  exact expandPeripheral_flat ha p hp

example : ∃ d', expand true 5 Sample.nested = .ok d' ∧ FlatDevice d' := by
  obtain ⟨d', h⟩ := ok_of_isOk (x := expand true 5 Sample.nested) (by decide +kernel)
  exact ⟨d', h, (C33_flat true 5 _ _ h).1⟩

/-! ## C34 -/

/-- Every fault of the computation satisfies `Q`. -/
structure Faults {α : Type} (Q : Fault → Prop) (m : M α) : Prop where
  out : ∀ f, m = .error f → Q f

namespace Faults

variable {α β : Type} {Q : Fault → Prop}

theorem ok (a : α) : Faults Q (.ok a : M α) := ⟨fun _ h => (by cases h)⟩

theorem error {f : Fault} (h : Q f) : Faults Q (.error f : M α) := ⟨fun g hg => by
  injection hg with hg; exact hg ▸ h⟩

theorem bind {m : M α} {f : α → M β} (h : Faults Q m) (h' : ∀ a, m = .ok a → Faults Q (f a)) :
    Faults Q (m >>= f) := by
  refine ⟨fun e he => ?_⟩
  rcases bind_error.mp he with he | ⟨a, ha, he⟩
  · exact h.out e he
  · exact (h' a ha).out e he

theorem ite {c : Prop} [Decidable c] {m n : M α} (h : c → Faults Q m) (h' : ¬ c → Faults Q n) :
    Faults Q (if c then m else n) := by
  split
  · exact h ‹_›
  · exact h' ‹_›

theorem mapM {f : α → M β} {l : List α} (h : ∀ a ∈ l, Faults Q (f a)) : Faults Q (l.mapM f) := by
  refine ⟨fun e he => ?_⟩
  obtain ⟨a, ha, he⟩ := mapM_error he
  exact (h a ha).out e he

theorem foldlM {f : β → α → M β} {l : List α} (h : ∀ b, ∀ a ∈ l, Faults Q (f b a)) (b : β) :
    Faults Q (l.foldlM f b) := by
  induction l generalizing b with
  | nil => exact ok _
  | cons a l ih =>
    rw [List.foldlM_cons]
    exact bind (h b a (by simp)) fun b' _ => ih (fun b a ha => h b a (by simp [ha])) b'

theorem mono {Q' : Fault → Prop} {m : M α} (h : Faults Q m) (hq : ∀ f, Q f → Q' f) : Faults Q' m :=
  ⟨fun f hf => hq f (h.out f hf)⟩

theorem okOr {o : Option α} {e : Err} (h : Q (.err e)) : Faults Q (Svd.okOr o e) := by
  cases o
  · exact error h
  · exact ok _

end Faults

/-- What can go wrong in the expansion of an array. -/
inductive ArrayFault : Fault → Prop where
  | overflow : ArrayFault (.panic .overflow)
  | index : ArrayFault (.panic .indexOutOfBounds)

/-- The errors about references. -/
inductive ReferenceError : Err → Prop where
  | self {w : String} (h : w ∈ ["peripheral", "cluster", "register", "field", "enumeratedValues"]) (s : Str) :
      ReferenceError (.selfDerived w s)
  | missing {w : String} (h : w ∈ ["peripheral", "cluster", "register", "field"]) (s : Str) :
      ReferenceError (.notFound w s)
  | values (s p : Str) (cs : List Str) (r f : Str) : ReferenceError (.enumsNotFound s p cs r f)

/-- What can go wrong in an expansion: a reported error, an endless recursion, an arithmetic overflow,
an index list that is too short, or a field reference of two components. -/
inductive ExpandFault : Fault → Prop where
  | err {e} : ReferenceError e → ExpandFault (.err e)
  | diverge : ExpandFault .diverge
  | overflow : ExpandFault (.panic .overflow)
  | index : ExpandFault (.panic .indexOutOfBounds)
  | unwrap : ExpandFault (.panic .unwrap)

theorem ArrayFault.expand {f : Fault} (h : ArrayFault f) : ExpandFault f := by
  cases h
  · exact .overflow
  · exact .index

theorem Faults.array {α : Type} {m : M α} (h : Faults ArrayFault m) : Faults ExpandFault m :=
  h.mono fun _ => ArrayFault.expand

theorem arith_faults {w : Nat} (oc : Bool) (c : Prop) [Decidable c] (x : BitVec w) :
    Faults ArrayFault (arith oc c x) := by
  unfold arith
  exact .ite (fun _ => .ok _) fun _ => .ite (fun _ => .error .overflow) fun _ => .ok _

theorem offsetAt_faults (oc : Bool) (b : U32) (d : DimElement) (k : Nat) :
    Faults ArrayFault (offsetAt oc b d k) :=
  .bind (arith_faults ..) fun _ _ => arith_faults ..

theorem baseAddressAt_faults (oc : Bool) (b : U64) (d : DimElement) (k : Nat) :
    Faults ArrayFault (baseAddressAt oc b d k) :=
  .bind (arith_faults ..) fun _ _ => arith_faults ..

theorem indexAt_faults (d : DimElement) (k : Nat) : Faults ArrayFault (d.indexAt k) := by
  unfold DimElement.indexAt
  split
  · split
    · exact .ok _
    · exact .error .index
  · exact .ok _

theorem nameAt_faults (s : Str) (d : DimElement) (k : Nat) : Faults ArrayFault (nameAt s d k) := by
  rw [nameAt_eq]; exact .bind (indexAt_faults ..) fun _ _ => .ok _

theorem descriptionAt_faults (s : Option Str) (d : DimElement) (k : Nat) :
    Faults ArrayFault (descriptionAt s d k) := by
  rw [descriptionAt_eq]; exact .bind (indexAt_faults ..) fun _ _ => .ok _

theorem fieldExpand_faults (oc : Bool) (i : FieldInfo) (d : DimElement) :
    Faults ArrayFault (i.expand oc d) :=
  .mapM fun _ _ => .bind (nameAt_faults ..) fun _ _ => .bind (descriptionAt_faults ..) fun _ _ =>
    .bind (offsetAt_faults ..) fun _ _ => .ok _

theorem registerExpand_faults (oc : Bool) (i : RegisterInfo) (d : DimElement) :
    Faults ArrayFault (i.expand oc d) :=
  .mapM fun _ _ => .bind (indexAt_faults ..) fun _ _ => .bind (nameAt_faults ..) fun _ _ =>
    .bind (descriptionAt_faults ..) fun _ _ => .bind (offsetAt_faults ..) fun _ _ => .ok _

theorem clusterExpandAt_faults (oc : Bool) (i : ClusterInfo) (d : DimElement) (k : Nat) :
    Faults ArrayFault (i.expandAt oc d k) :=
  .bind (nameAt_faults ..) fun _ _ => .bind (descriptionAt_faults ..) fun _ _ =>
    .bind (offsetAt_faults ..) fun _ _ => .ok _

theorem peripheralExpand_faults (oc : Bool) (i : PeripheralInfo) (d : DimElement) :
    Faults ArrayFault (i.expand oc d) :=
  .mapM fun _ _ => .bind (indexAt_faults ..) fun _ _ => .bind (nameAt_faults ..) fun _ _ =>
    .bind (descriptionAt_faults ..) fun _ _ => .bind (baseAddressAt_faults ..) fun _ _ => .ok _

theorem blockParse_faults (s : Str) : Faults ExpandFault (BlockPath.parseStr s) := by
  obtain ⟨b, n, h, _⟩ := C41_parse_text s
  rw [h]; exact .ok _

theorem parseVec_faults (v : List Str) : Faults ExpandFault (BlockPath.parseVec v) := by
  unfold BlockPath.parseVec
  split
  · exact .error .unwrap
  · split <;> exact .ok _

theorem fieldParse_faults (s : Str) : Faults ExpandFault (FieldPath.parseStr s) := by
  unfold FieldPath.parseStr FieldPath.parseVec
  split
  · exact .error .unwrap
  · refine .ite (fun _ => .bind (parseVec_faults _) fun _ _ => ?_) fun _ => .ok _
    split
    · exact .ok _
    · exact .error .unwrap

theorem derivePeripheral_faults (ix : Index) (n : Nat) (p : Peripheral) (s : Str) :
    Faults ExpandFault (derivePeripheral ix n p s) := by
  induction n generalizing p s with
  | zero => exact .error .diverge
  | succ n ih =>
    unfold derivePeripheral
    refine .ite (fun _ => .error (.err (.self (by decide) _))) fun _ => .bind (.okOr (.err (.missing (by decide) _))) fun d _ => ?_
    dsimp only
    split
    · exact ih _ _
    · exact .ok _

theorem deriveCluster_faults (ix : Index) (n : Nat) (p : Cluster) (s : Str) (b : BlockPath) :
    Faults ExpandFault (deriveCluster ix n p s b) := by
  induction n generalizing p s b with
  | zero => exact .error .diverge
  | succ n ih =>
    unfold deriveCluster
    refine .bind (blockParse_faults s) fun _ _ => .ite (fun _ => .error (.err (.self (by decide) _))) fun _ =>
      .bind (.okOr (.err (.missing (by decide) _))) fun d _ => ?_
    dsimp only
    cases d.info.derivedFrom
    · exact .ok _
    · exact ih _ _ _

theorem deriveRegister_faults (ix : Index) (n : Nat) (p : Register) (s : Str) (b : BlockPath) :
    Faults ExpandFault (deriveRegister ix n p s b) := by
  induction n generalizing p s b with
  | zero => exact .error .diverge
  | succ n ih =>
    unfold deriveRegister
    refine .bind (blockParse_faults s) fun _ _ => .ite (fun _ => .error (.err (.self (by decide) _))) fun _ =>
      .bind (.okOr (.err (.missing (by decide) _))) fun d _ => ?_
    dsimp only
    cases d.info.derivedFrom
    · exact .ok _
    · exact ih _ _ _

theorem deriveField_faults (ix : Index) (n : Nat) (p : Field) (s : Str) (b : RegisterPath) :
    Faults ExpandFault (deriveField ix n p s b) := by
  induction n generalizing p s b with
  | zero => exact .error .diverge
  | succ n ih =>
    unfold deriveField
    refine .bind (fieldParse_faults s) fun _ _ => .ite (fun _ => .error (.err (.self (by decide) _))) fun _ =>
      .bind (.okOr (.err (.missing (by decide) _))) fun d _ => ?_
    dsimp only
    cases d.info.derivedFrom
    · exact .ok _
    · exact ih _ _ _

theorem resolveEnum_faults (ix : Index) (ev : EnumeratedValues) (s : Str) (b : FieldPath) :
    Faults ExpandFault (resolveEnum ix ev s b) := by
  unfold resolveEnum
  split
  · exact .error .unwrap
  · refine .ite (fun _ => .ok _) fun _ => .bind ?_ fun _ _ => .ite (fun _ => .error (.err (.self (by decide) _))) fun _ => .ok _
    unfold enumFieldPath
    split
    · exact .error .unwrap
    · refine .ite (fun _ => .ok _) fun _ => .bind (parseVec_faults _) fun _ _ => ?_
      split <;> exact .ok _

theorem deriveEnum_faults (ix : Index) (n : Nat) (ev : EnumeratedValues) (s : Str) (b : FieldPath) :
    Faults ExpandFault (deriveEnumeratedValues ix n ev s b) := by
  induction n generalizing ev s b with
  | zero => exact .error .diverge
  | succ n ih =>
    unfold deriveEnumeratedValues
    refine .ite (fun _ => .error (.err (.self (by decide) _))) fun _ => .bind (resolveEnum_faults ..) fun r _ => ?_
    split
    · exact .error (.err (.values ..))
    · dsimp only
      split
      · exact ih _ _ _
      · exact .ok _

theorem expandField_faults (oc : Bool) (ix : Index) (n : Nat) (b : RegisterPath) (f : Field) :
    Faults ExpandFault (expandField oc ix n b f) := by
  unfold expandField
  refine .bind ?_ fun ff _ => .bind (.mapM fun ev _ => ?_) fun _ _ => ?_
  · split
    · exact deriveField_faults ..
    · exact .ok _
  · unfold expandEv
    split
    · exact .bind (deriveEnum_faults ..) fun _ _ => .ok _
    · exact .ok _
  · split
    · exact .ok _
    · exact .bind (fieldExpand_faults ..).array fun _ _ => .ok _

theorem expandRegisterArray_faults (oc : Bool) (ix : Index) (n : Nat) (b : BlockPath) (r : Register) :
    Faults ExpandFault (expandRegisterArray oc ix n b r) := by
  unfold expandRegisterArray
  refine .bind ?_ fun rr _ => .bind ?_ fun _ _ => ?_
  · split
    · exact deriveRegister_faults ..
    · exact .ok _
  · split
    · exact .bind (.mapM fun _ _ => expandField_faults ..) fun _ _ => .ok _
    · exact .ok _
  · split
    · exact .ok _
    · exact .bind (registerExpand_faults ..).array fun _ _ => .ok _

theorem expandCluster_faults {oc : Bool} {c : ClusterInfo} (hc : ∀ x ∈ c.children, FlatRegister x) :
    Faults ArrayFault (expandCluster oc c) := by
  refine .mapM fun x hx => ?_
  cases hc x hx with
  | mk _ _ => exact .bind (arith_faults ..) fun _ _ => .ok _

theorem flattenCluster_faults {oc : Bool} {c : Cluster} (hc : ∀ x ∈ c.info.children, FlatRegister x) :
    Faults ArrayFault (flattenCluster oc c) := by
  unfold flattenCluster
  split
  · exact expandCluster_faults hc
  · refine .bind (.mapM fun k _ => .bind (clusterExpandAt_faults ..) fun ci hci => ?_) fun _ _ => .ok _
    refine expandCluster_faults ?_
    unfold ClusterInfo.expandAt at hci
    iterate 3 obtain ⟨_, _, hci⟩ := bind_ok.mp hci
    injection hci with hci; subst hci
    exact hc

theorem expandRC_faults (oc : Bool) (ix : Index) (n : Nat) (b : BlockPath) (c : RegisterCluster) :
    Faults ExpandFault (expandRC oc ix n b c) := by
  induction n generalizing b c with
  | zero => cases c <;> exact .error .diverge
  | succ n ih =>
    cases c with
    | register r => exact expandRegisterArray_faults ..
    | cluster hd d cs =>
      unfold expandRC
      refine .bind ?_ fun cc _ => .bind (.mapM fun _ _ => ih _ _) fun ll hll => (flattenCluster_faults ?_).array
      · split
        · exact deriveCluster_faults ..
        · exact .ok _
      · rw [mapInfo_info]
        intro x hx
        obtain ⟨m, hm, hx⟩ := List.mem_flatten.mp hx
        obtain ⟨a, _, ha⟩ := mapM_ok_mem' hll hm
        exact expandRC_flat ha x hx

theorem expandPeripheral_faults (oc : Bool) (ix : Index) (n : Nat) (p : Peripheral) :
    Faults ExpandFault (expandPeripheral oc ix n p) := by
  unfold expandPeripheral
  refine .bind ?_ fun pp _ => .bind ?_ fun _ _ => ?_
  · split
    · exact derivePeripheral_faults ..
    · exact .ok _
  · split
    · exact .bind (.mapM fun _ _ => expandRC_faults ..) fun _ _ => .ok _
    · exact .ok _
  · split
    · exact .ok _
    · exact .bind (peripheralExpand_faults ..).array fun _ _ => .ok _

theorem indexNames_faults (s : Str) (d : Option DimElement) :
    Faults ArrayFault (Index.indexNames s d) := by
  unfold Index.indexNames
  split
  · exact .bind (.mapM fun _ _ => nameAt_faults ..) fun _ _ => .ok _
  · exact .ok _

theorem addRegister_faults (ix : Index) (b : BlockPath) (r : Register) :
    Faults ArrayFault (ix.addRegister b r) :=
  .bind (indexNames_faults ..) fun _ _ => .foldlM (fun _ _ _ => .bind (.foldlM (fun _ _ _ =>
    .bind (indexNames_faults ..) fun _ _ => .ok _) _) fun _ _ => .ok _) _

theorem addRegisters_faults (ix : Index) (b : BlockPath) (cs : List RegisterCluster) :
    Faults ArrayFault (Index.addRegisters b ix cs) := by
  induction cs generalizing ix with
  | nil => exact .ok _
  | cons c cs ih =>
    cases c with
    | register r => exact .bind (addRegister_faults ..) fun _ _ => ih _
    | cluster _ _ _ => exact ih _

mutual
theorem addCluster_faults : ∀ (ix : Index) (b : BlockPath) (c : RegisterCluster),
    Faults ArrayFault (Index.addCluster b c ix)
  | ix, b, .register r => by unfold Index.addCluster; exact .ok _
  | ix, b, .cluster h d cs => by
    unfold Index.addCluster
    exact .bind (indexNames_faults ..) fun _ _ => .foldlM (fun _ _ _ =>
      .bind (addRegisters_faults ..) fun _ _ => .bind (addClusters_faults _ _ cs) fun _ _ => .ok _) _
theorem addClusters_faults : ∀ (ix : Index) (b : BlockPath) (cs : List RegisterCluster),
    Faults ArrayFault (Index.addClusters b cs ix)
  | ix, b, [] => by unfold Index.addClusters; exact .ok _
  | ix, b, c :: cs => by
    unfold Index.addClusters
    exact .bind (addCluster_faults ix b c) fun _ _ => addClusters_faults _ b cs
end

theorem create_faults (d : Device) : Faults ArrayFault (Index.create d) :=
  .foldlM (fun _ _ _ => .bind (indexNames_faults ..) fun _ _ => .foldlM (fun _ _ _ =>
    .bind (addRegisters_faults ..) fun _ _ => .bind (addClusters_faults ..) fun _ _ => .ok _) _) _

theorem expand_faults (oc : Bool) (fuel : Nat) (d : Device) : Faults ExpandFault (expand oc fuel d) :=
  .bind (create_faults d).array fun _ _ => .bind (.mapM fun _ _ => expandPeripheral_faults ..) fun _ _ => .ok _

/-- **C34.** The branch asserting that clusters have been flattened is never reached. -/
theorem C34_unreachable (oc : Bool) (fuel : Nat) (d : Device) :
    expand oc fuel d ≠ .error (.panic .unreachable) := fun h => by
  cases (expand_faults oc fuel d).out _ h

end Svd
