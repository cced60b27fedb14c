import Verif.Spec.Sample
import Verif.Spec.Depth
import Verif.Props.Chain
import Verif.Props.Fails
import Verif.Props.Ground

/-!
# C83: a bound for the recursion of an expansion
-/

namespace Svd

open Spec

namespace Depth

/-! ## Sets that shrink -/

open Classical in
theorem count_le {σ : Type} {P Q : σ → Prop} {L : List σ} (h : ∀ s ∈ L, P s → Q s) :
    L.countP (fun s => decide (P s)) ≤ L.countP (fun s => decide (Q s)) := by
  induction L with
  | nil => simp
  | cons a L ih =>
    have ih := ih fun s hs => h s (by simp [hs])
    have ha := h a (by simp)
    simp only [List.countP_cons, decide_eq_true_eq]
    split
    · rename_i hp; rw [if_pos (ha hp)]; omega
    · omega

open Classical in
theorem count_eq {σ : Type} {P Q : σ → Prop} {L : List σ} (h : ∀ s ∈ L, P s → Q s)
    (he : L.countP (fun s => decide (Q s)) ≤ L.countP (fun s => decide (P s))) : ∀ s ∈ L, Q s → P s := by
  induction L with
  | nil => simp
  | cons a L ih =>
    have hL : ∀ s ∈ L, P s → Q s := fun s hs => h s (by simp [hs])
    have hc := count_le hL
    have ha := h a (by simp)
    simp only [List.countP_cons, decide_eq_true_eq] at he
    intro s hs hq
    rcases List.mem_cons.mp hs with rfl | hs
    · by_cases hp : P s
      · exact hp
      · rw [if_pos hq, if_neg hp] at he; omega
    · refine ih hL ?_ s hs hq
      by_cases hp : P a
      · rw [if_pos (ha hp), if_pos hp] at he; omega
      · rw [if_neg hp] at he; split at he <;> omega

/-- A set of members of a list that never grows stays the same for one step, at the latest after as
many steps as there are members. -/
theorem pause {σ : Type} (L : List σ) (D : Nat → σ → Prop) (anti : ∀ n s, D (n + 1) s → D n s) :
    ∃ j, j ≤ L.length ∧ ∀ s ∈ L, D j s → D (j + 1) s := by
  classical
  refine Classical.byContradiction fun hno => ?_
  have hlt : ∀ j, j ≤ L.length →
      L.countP (fun s => decide (D (j + 1) s)) < L.countP (fun s => decide (D j s)) := by
    intro j hj
    refine Nat.lt_of_not_le fun hle => hno ⟨j, hj, ?_⟩
    exact count_eq (fun s _ => anti j s) hle
  have : ∀ j, j ≤ L.length + 1 → L.countP (fun s => decide (D j s)) + j ≤ L.length := by
    intro j
    induction j with
    | zero => intro _; simpa using List.countP_le_length
    | succ j ih => intro hj; have := ih (by omega); have := hlt j (by omega); omega
  have := this _ (Nat.le_refl _)
  omega

/-! ## Chains of references -/

theorem chain_stable {κ K α β σ : Type} {f : Nat → α → Str → κ → M β} (name : α → σ) (keys : List K)
    (ref : K → Str) (home : K → κ) (h0 : ∀ a s p, f 0 a s p = .error .diverge)
    (hext : ∀ n a s p, Extends (f n a s p) (f (n + 1) a s p))
    (hstep : ∀ self s p, (∀ a, name a = self → ∃ r, r ≠ .error .diverge ∧ ∀ n, f (n + 1) a s p = r) ∨
      ∃ k ∈ keys, ∀ a, name a = self → ∃ a', name a' = self ∧
        ∀ n, f (n + 1) a s p = f n a' (ref k) (home k))
    {n m : Nat} (hn : keys.length + 1 ≤ n) (hm : keys.length + 1 ≤ m) (a : α) (s : Str) (p : κ) :
    f n a s p = f m a s p := by
  have same : ∀ n a a' s p, name a = name a' → f n a s p = .error .diverge → f n a' s p = .error .diverge := by
    intro n
    induction n with
    | zero => intros; exact h0 ..
    | succ n ih =>
      intro a a' s p hn h
      rcases hstep (name a) s p with h' | ⟨k, _, h'⟩
      · obtain ⟨r, hr, h'⟩ := h' a rfl
        exact absurd ((h' n).symm.trans h) hr
      · obtain ⟨b, hb, hb'⟩ := h' a rfl
        obtain ⟨c, hc, hc'⟩ := h' a' hn.symm
        rw [hc']
        exact ih b c _ _ (hb.trans hc.symm) ((hb' n).symm.trans h)
  have key : ∀ self, ∃ j, j ≤ keys.length ∧ ∀ k ∈ keys, ∀ a, name a = self →
      f j a (ref k) (home k) = f (j + 1) a (ref k) (home k) := by
    intro self
    obtain ⟨j, hj, h⟩ := pause keys (fun n k => ∃ a, name a = self ∧ f n a (ref k) (home k) = .error .diverge)
      (by
        rintro n k ⟨a, ha, h⟩
        refine ⟨a, ha, Classical.byContradiction fun hne => hne ?_⟩
        rw [← (hext n a (ref k) (home k)).out hne, h])
    refine ⟨j, hj, fun k hk a ha => ?_⟩
    by_cases hd : f j a (ref k) (home k) = .error .diverge
    · obtain ⟨b, hb, hb'⟩ := h k hk ⟨a, ha, hd⟩
      rw [hd, same _ b a _ _ (hb.trans ha.symm) hb']
    · exact ((hext ..).out hd).symm
  have main : ∀ n, keys.length + 1 ≤ n → ∀ a s p, f n a s p = f (n + 1) a s p := by
    intro n hn a s p
    obtain ⟨j, hj, h⟩ := key (name a)
    have later : ∀ i, ∀ k ∈ keys, ∀ b, name b = name a →
        f (j + i) b (ref k) (home k) = f (j + i + 1) b (ref k) (home k) := by
      intro i
      induction i with
      | zero => exact h
      | succ i ih =>
        intro k hk b hb
        rcases hstep (name a) (ref k) (home k) with h' | ⟨k', hk', h'⟩
        · obtain ⟨r, _, h'⟩ := h' b hb
          rw [show j + (i + 1) = (j + i) + 1 from rfl, h', h']
        · obtain ⟨b', hb', h'⟩ := h' b hb
          rw [show j + (i + 1) = (j + i) + 1 from rfl, h', h']
          exact ih k' hk' b' hb'
    obtain ⟨i, rfl⟩ : ∃ i, n = j + i + 1 := ⟨n - j - 1, by omega⟩
    rcases hstep (name a) s p with h' | ⟨k', hk', h'⟩
    · obtain ⟨r, _, h'⟩ := h' a rfl
      rw [h', h']
    · obtain ⟨b', hb', h'⟩ := h' a rfl
      rw [h', h']
      exact later i k' hk' b' hb'
  have up : ∀ n, keys.length + 1 ≤ n → f n a s p = f (keys.length + 1) a s p := by
    intro n hn
    induction hn with
    | refl => rfl
    | step hle ih => rw [← main _ hle, ih]
  rw [up n hn, up m hm]

theorem mapGet_key {κ α : Type} [DecidableEq κ] {m : List (κ × α)} {k : κ} {a : α} (h : mapGet m k = some a) :
    k ∈ m.map (·.1) := by
  unfold mapGet at h
  obtain ⟨x, hx, _⟩ := Option.map_eq_some_iff.mp h
  have := List.find?_some hx
  exact List.mem_map.mpr ⟨x, List.mem_of_find?_eq_some hx, by simpa using this⟩

section
variable (ix : Index)

theorem derivePeripheral_stable {n m : Nat} (hn : ix.peripherals.length + 1 ≤ n)
    (hm : ix.peripherals.length + 1 ≤ m) (a : Peripheral) (s : Str) :
    derivePeripheral ix n a s = derivePeripheral ix m a s := by
  refine chain_stable (f := fun n a s (_ : Unit) => derivePeripheral ix n a s) (fun a => a.info.name)
    (ix.peripherals.map (·.1)) (fun k => ((mapGet ix.peripherals k).bind (·.info.derivedFrom)).getD [])
    (fun _ => ()) (fun _ _ _ => rfl) (fun n a s _ => derivePeripheral_extends ix n a s) ?_
    (by rwa [List.length_map]) (by rwa [List.length_map]) a s ()
  intro self s _
  by_cases hs : s = self
  · refine .inl fun a ha => ⟨.error (.err (.selfDerived "peripheral" s)), by simp, fun n => ?_⟩
    simp only [derivePeripheral, hs, ha, ↓reduceIte, fail]
  cases hg : mapGet ix.peripherals (BlockPath.new s) with
  | none =>
    refine .inl fun a ha => ⟨.error (.err (.notFound "peripheral" s)), by simp, fun n => ?_⟩
    simp only [derivePeripheral, ha, hs, ↓reduceIte, hg, okOr, fail, error_bind]
  | some d =>
    cases hd : d.info.derivedFrom with
    | none =>
      refine .inl fun a ha => ⟨.ok (Peripheral.deriveFrom a d,
        if a.info.registers.isNone then some (BlockPath.new s) else none), by simp, fun n => ?_⟩
      simp only [derivePeripheral, ha, hs, ↓reduceIte, hg, okOr, ok_bind, hd]
    | some s' =>
      refine .inr ⟨_, mapGet_key hg, fun a ha => ⟨Peripheral.deriveFrom a d, (peripheral_name ..).trans ha,
        fun n => ?_⟩⟩
      simp only [derivePeripheral, ha, hs, ↓reduceIte, hg, okOr, ok_bind, hd, Option.bind_some, Option.getD_some]

theorem deriveCluster_stable {n m : Nat} (hn : ix.clusters.length + 1 ≤ n)
    (hm : ix.clusters.length + 1 ≤ m) (a : Cluster) (s : Str) (p : BlockPath) :
    deriveCluster ix n a s p = deriveCluster ix m a s p := by
  refine chain_stable (f := fun n a s p => deriveCluster ix n a s p) (fun a => a.info.name)
    (ix.clusters.map (·.1)) (fun k => ((mapGet ix.clusters k).bind (·.info.derivedFrom)).getD [])
    (fun k => ⟨k.peripheral, k.path.dropLast⟩) (fun _ _ _ => rfl)
    (fun n a s p => deriveCluster_extends ix n a s p) ?_
    (by rwa [List.length_map]) (by rwa [List.length_map]) a s p
  intro self s p
  obtain ⟨b, nm, hp, _⟩ := C41_parse_text s
  by_cases hs : b.getD p = p ∧ nm = self
  · refine .inl fun a ha => ⟨.error (.err (.selfDerived "cluster" ((b.getD p).newCluster nm).display)), by simp,
      fun n => ?_⟩
    simp only [deriveCluster, hp, ok_bind, ha, if_pos hs, fail]
  cases hg : mapGet ix.clusters ((b.getD p).newCluster nm) with
  | none =>
    refine .inl fun a ha => ⟨.error (.err (.notFound "cluster" s)), by simp, fun n => ?_⟩
    simp only [deriveCluster, hp, ok_bind, ha, if_neg hs, hg, okOr, fail, error_bind]
  | some d =>
    cases hd : d.info.derivedFrom with
    | none =>
      refine .inl fun a ha => ⟨.ok (Cluster.deriveFrom a d,
        if a.info.children.isEmpty then some ((b.getD p).newCluster nm) else none), by simp, fun n => ?_⟩
      simp only [deriveCluster, hp, ok_bind, ha, if_neg hs, hg, okOr, hd]
    | some s' =>
      refine .inr ⟨_, mapGet_key hg, fun a ha => ⟨Cluster.deriveFrom a d, (cluster_name ..).trans ha,
        fun n => ?_⟩⟩
      simp only [deriveCluster, hp, ok_bind, ha, if_neg hs, hg, okOr, hd, Option.bind_some, Option.getD_some]
      simp only [BlockPath.newCluster, List.dropLast_concat]

theorem deriveRegister_stable {n m : Nat} (hn : ix.registers.length + 1 ≤ n)
    (hm : ix.registers.length + 1 ≤ m) (a : Register) (s : Str) (p : BlockPath) :
    deriveRegister ix n a s p = deriveRegister ix m a s p := by
  refine chain_stable (f := fun n a s p => deriveRegister ix n a s p) (fun a => a.info.name)
    (ix.registers.map (·.1)) (fun k => ((mapGet ix.registers k).bind (·.info.derivedFrom)).getD [])
    (fun k => k.block) (fun _ _ _ => rfl)
    (fun n a s p => deriveRegister_extends ix n a s p) ?_
    (by rwa [List.length_map]) (by rwa [List.length_map]) a s p
  intro self s p
  obtain ⟨b, nm, _, hp, _⟩ := C41_parse_text s
  by_cases hs : b.getD p = p ∧ nm = self
  · refine .inl fun a ha => ⟨.error (.err (.selfDerived "register" ((b.getD p).newRegister nm).display)), by simp,
      fun n => ?_⟩
    simp only [deriveRegister, hp, ok_bind, ha, if_pos hs, fail]
  cases hg : mapGet ix.registers ((b.getD p).newRegister nm) with
  | none =>
    refine .inl fun a ha => ⟨.error (.err (.notFound "register" s)), by simp, fun n => ?_⟩
    simp only [deriveRegister, hp, ok_bind, ha, if_neg hs, hg, okOr, fail, error_bind]
  | some d =>
    cases hd : d.info.derivedFrom with
    | none =>
      refine .inl fun a ha => ⟨.ok (Register.deriveFrom a d,
        if a.info.fields.isNone then some ((b.getD p).newRegister nm) else none), by simp, fun n => ?_⟩
      simp only [deriveRegister, hp, ok_bind, ha, if_neg hs, hg, okOr, hd]
    | some s' =>
      refine .inr ⟨_, mapGet_key hg, fun a ha => ⟨Register.deriveFrom a d, (register_name ..).trans ha,
        fun n => ?_⟩⟩
      simp only [deriveRegister, hp, ok_bind, ha, if_neg hs, hg, okOr, hd, Option.bind_some, Option.getD_some]
      rfl

theorem deriveField_stable {n m : Nat} (hn : ix.fields.length + 1 ≤ n)
    (hm : ix.fields.length + 1 ≤ m) (a : Field) (s : Str) (p : RegisterPath) :
    deriveField ix n a s p = deriveField ix m a s p := by
  refine chain_stable (f := fun n a s p => deriveField ix n a s p) (fun a => a.info.name)
    (ix.fields.map (·.1)) (fun k => ((mapGet ix.fields k).bind (·.info.derivedFrom)).getD [])
    (fun k => k.register) (fun _ _ _ => rfl)
    (fun n a s p => deriveField_extends ix n a s p) ?_
    (by rwa [List.length_map]) (by rwa [List.length_map]) a s p
  intro self s p
  rcases Fails.fieldParse_cases s with ⟨_, hp⟩ | ⟨_, ⟨b, nm⟩, hp⟩
  · refine .inl fun a ha => ⟨.error (.panic .unwrap), by simp, fun n => ?_⟩
    simp only [deriveField, hp, error_bind]
  by_cases hs : b.getD p = p ∧ nm = self
  · refine .inl fun a ha => ⟨.error (.err (.selfDerived "field" ((b.getD p).newField nm).display)), by simp,
      fun n => ?_⟩
    simp only [deriveField, hp, ok_bind, ha, if_pos hs, fail]
  cases hg : mapGet ix.fields ((b.getD p).newField nm) with
  | none =>
    refine .inl fun a ha => ⟨.error (.err (.notFound "field" s)), by simp, fun n => ?_⟩
    simp only [deriveField, hp, ok_bind, ha, if_neg hs, hg, okOr, fail, error_bind]
  | some d =>
    cases hd : d.info.derivedFrom with
    | none =>
      refine .inl fun a ha => ⟨.ok (Field.deriveFrom a d,
        if a.info.enumeratedValues.isEmpty then some ((b.getD p).newField nm) else none), by simp, fun n => ?_⟩
      simp only [deriveField, hp, ok_bind, ha, if_neg hs, hg, okOr, hd]
    | some s' =>
      refine .inr ⟨_, mapGet_key hg, fun a ha => ⟨Field.deriveFrom a d, (field_name ..).trans ha,
        fun n => ?_⟩⟩
      simp only [deriveField, hp, ok_bind, ha, if_neg hs, hg, okOr, hd, Option.bind_some, Option.getD_some]
      rfl

/-- What a reference to enumerated values leads to is found in the index. -/
theorem resolveEnum_key {a : EnumeratedValues} {s : Str} {p : FieldPath} {d : EnumeratedValues} {k : EnumPath}
    (h : resolveEnum ix a s p = .ok (some (d, k))) : mapGet ix.evs k = some d := by
  unfold resolveEnum at h
  cases hl : (splitOn '.' s).getLast? with
  | none => rw [hl] at h; cases h
  | some nm =>
    rw [hl] at h
    dsimp only at h
    split at h
    · injection h with h
      unfold findEnumInRegister at h
      cases hr : mapGet ix.registers p.register with
      | none => rw [hr] at h; cases h
      | some r =>
        rw [hr] at h
        obtain ⟨f, _, hf⟩ := List.exists_of_findSome?_eq_some h
        obtain ⟨x, hx, he⟩ := Option.map_eq_some_iff.mp hf
        cases he
        exact hx
    · obtain ⟨q, _, h⟩ := bind_ok.mp h
      split at h
      · cases h
      · injection h with h
        obtain ⟨x, hx, he⟩ := Option.map_eq_some_iff.mp h
        cases he
        exact hx

/-- Only the name of the referring enumerated values matters. -/
theorem resolveEnum_name {a a' : EnumeratedValues} (h : a.name = a'.name) (s : Str) (p : FieldPath) :
    resolveEnum ix a s p = resolveEnum ix a' s p := by
  unfold resolveEnum
  rw [h]

theorem deriveEnum_stable {n m : Nat} (hn : ix.evs.length + 1 ≤ n)
    (hm : ix.evs.length + 1 ≤ m) (a : EnumeratedValues) (s : Str) (p : FieldPath) :
    deriveEnumeratedValues ix n a s p = deriveEnumeratedValues ix m a s p := by
  refine chain_stable (f := fun n a s p => deriveEnumeratedValues ix n a s p) (fun a => a.name)
    (ix.evs.map (·.1)) (fun k => ((mapGet ix.evs k).bind (·.derivedFrom)).getD [])
    (fun k => k.field) (fun _ _ _ => rfl)
    (fun n a s p => deriveEnum_extends ix n a s p) ?_
    (by rwa [List.length_map]) (by rwa [List.length_map]) a s p
  intro self s p
  by_cases hs : some s = self
  · refine .inl fun a ha => ⟨.error (.err (.selfDerived "enumeratedValues" (p.display ++ ['.'] ++ s))), by simp,
      fun n => ?_⟩
    simp only [deriveEnumeratedValues, ha, if_pos hs, fail]
  by_cases hex : ¬ ∃ a : EnumeratedValues, a.name = self
  · exact .inl fun a ha => absurd ⟨a, ha⟩ hex
  have hex := Classical.not_not.mp hex
  obtain ⟨a0, ha0⟩ := hex
  have hr : ∀ a : EnumeratedValues, a.name = self → resolveEnum ix a s p = resolveEnum ix a0 s p :=
    fun a ha => resolveEnum_name ix (ha.trans ha0.symm) s p
  cases hg : resolveEnum ix a0 s p with
  | error e =>
    refine .inl fun a ha => ⟨.error e, ?_, fun n => ?_⟩
    · rcases Fails.resolveEnum_cases (ix := ix) a0 s p with ⟨_, _, _, h⟩ | ⟨_, o, h⟩ <;> rw [hg] at h <;> cases h
      simp
    · simp only [deriveEnumeratedValues, ha, if_neg hs, hr a ha, hg, error_bind]
  | ok o =>
    rcases o with _ | ⟨d, k⟩
    · refine .inl fun a ha => ⟨.error (.err (.enumsNotFound s p.register.block.peripheral p.register.block.path
        p.register.name p.name)), by simp, fun n => ?_⟩
      simp only [deriveEnumeratedValues, ha, if_neg hs, hr a ha, hg, ok_bind, fail]
    · have hk := resolveEnum_key ix hg
      cases hd : d.derivedFrom with
      | none =>
        refine .inl fun a ha => ⟨.ok (a.deriveFrom d, k), by simp, fun n => ?_⟩
        simp only [deriveEnumeratedValues, ha, if_neg hs, hr a ha, hg, ok_bind, hd]
      | some s' =>
        refine .inr ⟨_, mapGet_key hk, fun a ha => ⟨a.deriveFrom d, ha, fun n => ?_⟩⟩
        simp only [deriveEnumeratedValues, ha, if_neg hs, hr a ha, hg, ok_bind, hd, hk, Option.bind_some,
          Option.getD_some]

end

/-! ## Everything below a register -/

/-- Depth `C` is enough for all chains of references. -/
structure Enough (ix : Index) (C : Nat) : Prop where
  peripherals : ix.peripherals.length + 1 ≤ C
  clusters : ix.clusters.length + 1 ≤ C
  registers : ix.registers.length + 1 ≤ C
  fields : ix.fields.length + 1 ≤ C
  evs : ix.evs.length + 1 ≤ C

theorem Enough.mono {ix : Index} {C n : Nat} (h : Enough ix C) (hn : C ≤ n) : Enough ix n :=
  ⟨Nat.le_trans h.1 hn, Nat.le_trans h.2 hn, Nat.le_trans h.3 hn, Nat.le_trans h.4 hn, Nat.le_trans h.5 hn⟩

section
variable {ix : Index} {n m : Nat} (hn : Enough ix n) (hm : Enough ix m)
include hn hm

theorem expandEv_stable (b : FieldPath) (x : EnumeratedValues) : expandEv ix n b x = expandEv ix m b x := by
  unfold expandEv
  cases x.derivedFrom with
  | none => rfl
  | some s => simp only [deriveEnum_stable ix hn.evs hm.evs]

theorem expandField_stable (oc : Bool) (b : RegisterPath) (f : Field) :
    expandField oc ix n b f = expandField oc ix m b f := by
  have he : ∀ b, expandEv ix n b = expandEv ix m b := fun b => funext (expandEv_stable hn hm b)
  unfold expandField
  cases f.info.derivedFrom with
  | none => simp only [he]
  | some s => simp only [deriveField_stable ix hn.fields hm.fields, he]

theorem expandRegister_stable (oc : Bool) (b : BlockPath) (r : Register) :
    expandRegisterArray oc ix n b r = expandRegisterArray oc ix m b r := by
  have he : ∀ b, expandField oc ix n b = expandField oc ix m b := fun b => funext (expandField_stable hn hm oc b)
  unfold expandRegisterArray
  cases r.info.derivedFrom with
  | none => simp only [he]
  | some s => simp only [deriveRegister_stable ix hn.registers hm.registers, he]

end

/-! ## Outside of all blocks nothing is found -/

/-- The same outcome, or two faults that are not a lack of depth. -/
def Alike {α : Type} (m n : M α) : Prop :=
  m = n ∨ ∃ e e', m = .error e ∧ n = .error e' ∧ e ≠ .diverge ∧ e' ≠ .diverge

namespace Alike

variable {α β : Type}

theorem refl (m : M α) : Alike m m := .inl rfl

theorem faults {e e' : Fault} (h : e ≠ .diverge) (h' : e' ≠ .diverge) : Alike (.error e : M α) (.error e') :=
  .inr ⟨e, e', rfl, rfl, h, h'⟩

theorem bind {m m' : M α} {f f' : α → M β} (h : Alike m m') (h' : ∀ a, m = .ok a → Alike (f a) (f' a)) :
    Alike (m >>= f) (m' >>= f') := by
  rcases h with rfl | ⟨e, e', rfl, rfl, h1, h2⟩
  · cases m with
    | error e => exact .refl _
    | ok a => exact h' a rfl
  · exact faults h1 h2

theorem mapM {f f' : α → M β} {l : List α} (h : ∀ a ∈ l, Alike (f a) (f' a)) : Alike (l.mapM f) (l.mapM f') := by
  induction l with
  | nil => exact .refl _
  | cons a l ih =>
    rw [mapM_cons, mapM_cons]
    exact bind (h a (by simp)) fun _ _ => bind (ih fun a ha => h a (by simp [ha])) fun _ _ => .refl _

theorem diverge {m m' : M α} (h : Alike m m') (hm : m = .error .diverge) : m' = .error .diverge := by
  rcases h with rfl | ⟨e, e', rfl, rfl, h1, h2⟩
  · exact hm
  · injection hm with hm; exact absurd hm h1

end Alike

/-- The blocks of the index are among `B`. -/
structure Blocks (ix : Index) (B : List BlockPath) : Prop where
  cluster : ∀ b n c, mapGet ix.clusters (b.newCluster n) = some c → b ∈ B
  register : ∀ q r, mapGet ix.registers q = some r → q.block ∈ B
  field : ∀ q f, mapGet ix.fields q = some f → q.register.block ∈ B
  enum : ∀ q e, mapGet ix.evs q = some e → q.field.register.block ∈ B
  inner : ∀ b n, b.newCluster n ∈ B → b ∈ B

section
variable {ix : Index} {B : List BlockPath} (hB : Blocks ix B)
include hB

theorem deriveCluster_lost (n : Nat) {c : Cluster} {s : Str} {p : BlockPath} {o : Option BlockPath} {nm : Str}
    (h : BlockPath.parseStr s = .ok (o, nm)) (hb : (o.getD p) ∉ B) :
    ∃ e, e ≠ Fault.diverge ∧ deriveCluster ix (n + 1) c s p = .error e := by
  have hnone : mapGet ix.clusters ((o.getD p).newCluster nm) = none := by
    cases h : mapGet ix.clusters ((o.getD p).newCluster nm) with
    | none => rfl
    | some c => exact absurd (hB.cluster _ _ _ h) hb
  simp only [deriveCluster, h, ok_bind]
  by_cases hs : o.getD p = p ∧ nm = c.info.name
  · rw [if_pos hs]; exact ⟨_, by simp, rfl⟩
  · rw [if_neg hs, hnone]; exact ⟨.err (.notFound "cluster" s), by simp, rfl⟩

theorem deriveRegister_lost (n : Nat) {c : Register} {s : Str} {p : BlockPath} {o : Option BlockPath} {nm : Str}
    (h : RegisterPath.parseStr s = .ok (o, nm)) (hb : (o.getD p) ∉ B) :
    ∃ e, e ≠ Fault.diverge ∧ deriveRegister ix (n + 1) c s p = .error e := by
  have hnone : mapGet ix.registers ((o.getD p).newRegister nm) = none := by
    cases h : mapGet ix.registers ((o.getD p).newRegister nm) with
    | none => rfl
    | some c => exact absurd (hB.register _ _ h) hb
  simp only [deriveRegister, h, ok_bind]
  by_cases hs : o.getD p = p ∧ nm = c.info.name
  · rw [if_pos hs]; exact ⟨_, by simp, rfl⟩
  · rw [if_neg hs, hnone]; exact ⟨.err (.notFound "register" s), by simp, rfl⟩

theorem deriveField_lost (n : Nat) {c : Field} {s : Str} {p : RegisterPath} {o : Option RegisterPath} {nm : Str}
    (h : FieldPath.parseStr s = .ok (o, nm)) (hb : (o.getD p).block ∉ B) :
    ∃ e, e ≠ Fault.diverge ∧ deriveField ix (n + 1) c s p = .error e := by
  have hnone : mapGet ix.fields ((o.getD p).newField nm) = none := by
    cases h : mapGet ix.fields ((o.getD p).newField nm) with
    | none => rfl
    | some c => exact absurd (hB.field _ _ h) hb
  simp only [deriveField, h, ok_bind]
  by_cases hs : o.getD p = p ∧ nm = c.info.name
  · rw [if_pos hs]; exact ⟨_, by simp, rfl⟩
  · rw [if_neg hs, hnone]; exact ⟨.err (.notFound "field" s), by simp, rfl⟩

variable {p q : BlockPath} (hp : p ∉ B) (hq : q ∉ B)
include hp hq

theorem deriveCluster_alike (n : Nat) (c : Cluster) (s : Str) :
    Alike (deriveCluster ix n c s p) (deriveCluster ix n c s q) := by
  cases n with
  | zero => exact .refl _
  | succ n =>
    obtain ⟨o, nm, h, _⟩ := C41_parse_text s
    have two : (o.getD p) ∉ B → (o.getD q) ∉ B →
        Alike (deriveCluster ix (n + 1) c s p) (deriveCluster ix (n + 1) c s q) := by
      intro h1 h2
      obtain ⟨e, he, h1⟩ := deriveCluster_lost hB n (c := c) h h1
      obtain ⟨e', he', h2⟩ := deriveCluster_lost hB n (c := c) h h2
      rw [h1, h2]
      exact .faults he he'
    cases o with
    | none => exact two hp hq
    | some b =>
      by_cases hb : b ∈ B
      · have h1 : ¬ (b = p ∧ nm = c.info.name) := fun h => hp (by rw [h.1] at hb; exact hb)
        have h2 : ¬ (b = q ∧ nm = c.info.name) := fun h => hq (by rw [h.1] at hb; exact hb)
        simp only [deriveCluster, h, ok_bind, Option.getD_some, if_neg h1, if_neg h2]
        exact .refl _
      · exact two hb hb

theorem deriveRegister_alike (n : Nat) (c : Register) (s : Str) :
    Alike (deriveRegister ix n c s p) (deriveRegister ix n c s q) := by
  cases n with
  | zero => exact .refl _
  | succ n =>
    obtain ⟨o, nm, _, h, _⟩ := C41_parse_text s
    have two : (o.getD p) ∉ B → (o.getD q) ∉ B →
        Alike (deriveRegister ix (n + 1) c s p) (deriveRegister ix (n + 1) c s q) := by
      intro h1 h2
      obtain ⟨e, he, h1⟩ := deriveRegister_lost hB n (c := c) h h1
      obtain ⟨e', he', h2⟩ := deriveRegister_lost hB n (c := c) h h2
      rw [h1, h2]
      exact .faults he he'
    cases o with
    | none => exact two hp hq
    | some b =>
      by_cases hb : b ∈ B
      · have h1 : ¬ (b = p ∧ nm = c.info.name) := fun h => hp (by rw [h.1] at hb; exact hb)
        have h2 : ¬ (b = q ∧ nm = c.info.name) := fun h => hq (by rw [h.1] at hb; exact hb)
        simp only [deriveRegister, h, ok_bind, Option.getD_some, if_neg h1, if_neg h2]
        exact .refl _
      · exact two hb hb

theorem deriveField_alike (n : Nat) (c : Field) (s x : Str) :
    Alike (deriveField ix n c s ⟨p, x⟩) (deriveField ix n c s ⟨q, x⟩) := by
  cases n with
  | zero => exact .refl _
  | succ n =>
    rcases Fails.fieldParse_cases s with ⟨_, h⟩ | ⟨_, ⟨o, nm⟩, h⟩
    · simp only [deriveField, h, error_bind]; exact .refl _
    have two : (o.getD ⟨p, x⟩).block ∉ B → (o.getD ⟨q, x⟩).block ∉ B →
        Alike (deriveField ix (n + 1) c s ⟨p, x⟩) (deriveField ix (n + 1) c s ⟨q, x⟩) := by
      intro h1 h2
      obtain ⟨e, he, h1⟩ := deriveField_lost hB n (c := c) h h1
      obtain ⟨e', he', h2⟩ := deriveField_lost hB n (c := c) h h2
      rw [h1, h2]
      exact .faults he he'
    cases o with
    | none => exact two hp hq
    | some b =>
      by_cases hb : b.block ∈ B
      · have h1 : ¬ (b = ⟨p, x⟩ ∧ nm = c.info.name) := fun h => hp (by rw [h.1] at hb; exact hb)
        have h2 : ¬ (b = ⟨q, x⟩ ∧ nm = c.info.name) := fun h => hq (by rw [h.1] at hb; exact hb)
        simp only [deriveField, h, ok_bind, Option.getD_some, if_neg h1, if_neg h2]
        exact .refl _
      · exact two hb hb

omit hB hp hq in
/-- Where a reference to enumerated values leads: to the same field from everywhere, or to a field in the
same block. -/
theorem enumFieldPath_from {v : List Str} (hv : v ≠ []) (x y : Str) :
    (∃ z, enumFieldPath ⟨⟨p, x⟩, y⟩ v = .ok z ∧ enumFieldPath ⟨⟨q, x⟩, y⟩ v = .ok z) ∨
      ∃ r f, enumFieldPath ⟨⟨p, x⟩, y⟩ v = .ok ⟨⟨p, r⟩, f⟩ ∧ enumFieldPath ⟨⟨q, x⟩, y⟩ v = .ok ⟨⟨q, r⟩, f⟩ := by
  rcases List.eq_nil_or_concat v with rfl | ⟨i, x, rfl⟩
  · exact absurd rfl hv
  · simp only [List.concat_eq_append]
    unfold enumFieldPath
    rw [List.getLast?_concat, List.dropLast_concat]
    dsimp only
    rcases List.eq_nil_or_concat i with rfl | ⟨j, y, rfl⟩
    · exact .inr ⟨_, _, rfl, rfl⟩
    · simp only [List.concat_eq_append]
      have e : (j ++ [y]).isEmpty = false := by simp
      simp only [e, Bool.false_eq_true, ↓reduceIte, RegisterPath.parseVec, blockParse_concat, ok_bind]
      cases j with
      | nil => exact .inr ⟨_, _, rfl, rfl⟩
      | cons p ps => exact .inl ⟨_, rfl, rfl⟩

omit hp hq in
theorem resolveEnum_lost {ev : EnumeratedValues} {s nm : Str} {v : List Str} (hv : splitOn '.' s = v ++ [nm])
    {k : FieldPath} (hk : k.register.block ∉ B)
    (h : v = [] ∨ ∃ z, enumFieldPath k v = .ok z ∧ z.register.block ∉ B) :
    resolveEnum ix ev s k = .ok none ∨ ∃ e, e ≠ Fault.diverge ∧ resolveEnum ix ev s k = .error e := by
  unfold resolveEnum
  rw [hv, List.getLast?_concat, List.dropLast_concat]
  dsimp only
  rcases h with rfl | ⟨z, hz, hzB⟩
  · left
    have : mapGet ix.registers k.register = none := by
      cases h : mapGet ix.registers k.register with
      | none => rfl
      | some r => exact absurd (hB.register _ _ h) hk
    simp only [List.isEmpty_nil, ↓reduceIte, findEnumInRegister, this]
  · by_cases he : v = []
    · subst he; cases hz
    · have e0 : v.isEmpty = false := by simpa using he
      simp only [e0, Bool.false_eq_true, ↓reduceIte, hz, ok_bind]
      split
      · exact .inr ⟨_, by simp, rfl⟩
      · left
        have : mapGet ix.evs (z.newEnum nm) = none := by
          cases h : mapGet ix.evs (z.newEnum nm) with
          | none => rfl
          | some r => exact absurd (hB.enum _ _ h) hzB
        rw [this]; rfl

omit hB hp hq in
theorem deriveEnum_lost (n : Nat) {ev : EnumeratedValues} {s : Str} {k : FieldPath}
    (h : resolveEnum ix ev s k = .ok none ∨ ∃ e, e ≠ Fault.diverge ∧ resolveEnum ix ev s k = .error e) :
    ∃ e, e ≠ Fault.diverge ∧ deriveEnumeratedValues ix (n + 1) ev s k = .error e := by
  unfold deriveEnumeratedValues
  split
  · exact ⟨_, by simp, rfl⟩
  · rcases h with h | ⟨e, he, h⟩
    · rw [h, ok_bind]; exact ⟨.err (.enumsNotFound _ _ _ _ _), by simp, rfl⟩
    · rw [h, error_bind]; exact ⟨e, he, rfl⟩

theorem deriveEnum_alike (n : Nat) (ev : EnumeratedValues) (s x y : Str) :
    Alike (deriveEnumeratedValues ix n ev s ⟨⟨p, x⟩, y⟩) (deriveEnumeratedValues ix n ev s ⟨⟨q, x⟩, y⟩) := by
  cases n with
  | zero => exact .refl _
  | succ n =>
    obtain ⟨v, nm, hv⟩ : ∃ v nm, splitOn '.' s = v ++ [nm] := by
      rcases List.eq_nil_or_concat (splitOn '.' s) with h | ⟨v, nm, h⟩
      · exact absurd h (splitOn_ne_nil '.' s)
      · exact ⟨v, nm, by rw [h, List.concat_eq_append]⟩
    have two : (v = [] ∨ ∃ z, enumFieldPath ⟨⟨p, x⟩, y⟩ v = .ok z ∧ z.register.block ∉ B) →
        (v = [] ∨ ∃ z, enumFieldPath ⟨⟨q, x⟩, y⟩ v = .ok z ∧ z.register.block ∉ B) →
        Alike (deriveEnumeratedValues ix (n + 1) ev s ⟨⟨p, x⟩, y⟩)
          (deriveEnumeratedValues ix (n + 1) ev s ⟨⟨q, x⟩, y⟩) := by
      intro h1 h2
      obtain ⟨e, he, h1⟩ := deriveEnum_lost n (resolveEnum_lost hB (ev := ev) hv (k := ⟨⟨p, x⟩, y⟩) hp h1)
      obtain ⟨e', he', h2⟩ := deriveEnum_lost n (resolveEnum_lost hB (ev := ev) hv (k := ⟨⟨q, x⟩, y⟩) hq h2)
      rw [h1, h2]
      exact .faults he he'
    by_cases h0 : v = []
    · exact two (.inl h0) (.inl h0)
    · rcases enumFieldPath_from (p := p) (q := q) h0 x y with ⟨z, h1, h2⟩ | ⟨r, f, h1, h2⟩
      · by_cases hz : z.register.block ∈ B
        · have h3 : ¬ (z = ⟨⟨p, x⟩, y⟩ ∧ some nm = ev.name) := fun h => hp (by rw [h.1] at hz; exact hz)
          have h4 : ¬ (z = ⟨⟨q, x⟩, y⟩ ∧ some nm = ev.name) := fun h => hq (by rw [h.1] at hz; exact hz)
          have e0 : v.isEmpty = false := by simpa using h0
          by_cases hs : some s = ev.name
          · simp only [deriveEnumeratedValues, if_pos hs]
            exact .faults (by simp) (by simp)
          · simp only [deriveEnumeratedValues, if_neg hs, resolveEnum, hv, List.getLast?_concat,
              List.dropLast_concat, e0, Bool.false_eq_true, ↓reduceIte, h1, h2, ok_bind, if_neg h3, if_neg h4]
            cases (mapGet ix.evs (z.newEnum nm)) with
            | none => exact .faults (by simp) (by simp)
            | some d => exact .refl _
        · exact two (.inr ⟨z, h1, hz⟩) (.inr ⟨z, h2, hz⟩)
      · exact two (.inr ⟨_, h1, hp⟩) (.inr ⟨_, h2, hq⟩)

theorem expandEv_alike (n : Nat) (x y : Str) (ev : EnumeratedValues) :
    Alike (expandEv ix n ⟨⟨p, x⟩, y⟩ ev) (expandEv ix n ⟨⟨q, x⟩, y⟩ ev) := by
  unfold expandEv
  cases ev.derivedFrom with
  | none => exact .refl _
  | some s => exact .bind (deriveEnum_alike hB hp hq ..) fun _ _ => .refl _

theorem expandField_alike (oc : Bool) (n : Nat) (x : Str) (f : Field) :
    Alike (expandField oc ix n ⟨p, x⟩ f) (expandField oc ix n ⟨q, x⟩ f) := by
  unfold expandField
  refine .bind ?_ fun ff _ => ?_
  · cases f.info.derivedFrom with
    | none => exact .refl _
    | some s => exact deriveField_alike hB hp hq ..
  · refine .bind ?_ fun _ _ => .refl _
    obtain ⟨f', o⟩ := ff
    cases o with
    | none => exact .mapM fun ev _ => expandEv_alike hB hp hq ..
    | some k => exact .refl _

theorem expandRegister_alike (oc : Bool) (n : Nat) (r : Register) :
    Alike (expandRegisterArray oc ix n p r) (expandRegisterArray oc ix n q r) := by
  unfold expandRegisterArray
  refine .bind ?_ fun rr _ => ?_
  · cases r.info.derivedFrom with
    | none => exact .refl _
    | some s => exact deriveRegister_alike hB hp hq ..
  · refine .bind ?_ fun _ _ => .refl _
    obtain ⟨r', o⟩ := rr
    dsimp only
    cases r'.info.fields with
    | none => exact .refl _
    | some fs =>
      refine .bind ?_ fun _ _ => .refl _
      cases o with
      | none => exact .mapM fun f _ => expandField_alike hB hp hq ..
      | some k => exact .refl _

end

theorem expandRC_alike {ix : Index} {B : List BlockPath} (hB : Blocks ix B) (oc : Bool) (n : Nat)
    (c : RegisterCluster) : ∀ {p q : BlockPath}, p ∉ B → q ∉ B → Alike (expandRC oc ix n p c) (expandRC oc ix n q c) := by
  induction n generalizing c with
  | zero => intro p q _ _; cases c <;> exact .refl _
  | succ n ih =>
    intro p q hp hq
    cases c with
    | register r => exact expandRegister_alike hB hp hq ..
    | cluster h d cs =>
      rw [expandRC, expandRC]
      refine .bind ?_ fun cc _ => .bind ?_ fun _ _ => .refl _
      · cases h.derivedFrom with
        | none => exact .refl _
        | some s => exact deriveCluster_alike hB hp hq ..
      · obtain ⟨c', o⟩ := cc
        cases o with
        | none => exact .mapM fun c _ => ih c (fun h => hp (hB.inner _ _ h)) (fun h => hq (hB.inner _ _ h))
        | some k => exact .refl _

/-! ## Descending into clusters -/

/-- The registers and clusters that an expansion meets are among `U`. -/
structure Closed (ix : Index) (U : List RegisterCluster) : Prop where
  inside : ∀ h d cs, .cluster h d cs ∈ U → ∀ c ∈ cs, c ∈ U
  cluster : ∀ k c, mapGet ix.clusters k = some c → ∀ x ∈ c.info.children, x ∈ U
  peripheral : ∀ k p, mapGet ix.peripherals k = some p → ∀ cs, p.info.registers = some cs → ∀ x ∈ cs, x ∈ U

theorem deriveCluster_closed {ix : Index} {U : List RegisterCluster} (hU : Closed ix U) (n : Nat) :
    ∀ (c : Cluster) (s : Str) (p : BlockPath) (c' : Cluster) (o : Option BlockPath),
      deriveCluster ix n c s p = .ok (c', o) → (∀ x ∈ c.info.children, x ∈ U) →
      ∀ x ∈ c'.info.children, x ∈ U := by
  induction n with
  | zero => intro c s p c' o h; cases h
  | succ n ih =>
    intro c s p c' o h hc
    obtain ⟨b, nm, hp, _⟩ := C41_parse_text s
    simp only [deriveCluster, hp, ok_bind] at h
    split at h
    · cases h
    · cases hg : mapGet ix.clusters ((b.getD p).newCluster nm) with
      | none => rw [hg] at h; cases h
      | some d =>
        simp only [hg, okOr, ok_bind] at h
        have hd : ∀ x ∈ (Cluster.deriveFrom c d).info.children, x ∈ U := by
          unfold Cluster.deriveFrom
          rw [MaybeArray.deriveFrom_info]
          unfold ClusterInfo.deriveFrom
          dsimp only
          split
          · exact hU.cluster _ _ hg
          · exact hc
        cases hr : d.info.derivedFrom with
        | none => simp only [hr] at h; injection h with h; cases h; exact hd
        | some s' => simp only [hr] at h; exact ih _ _ _ _ _ h hd

theorem derivePeripheral_closed {ix : Index} {U : List RegisterCluster} (hU : Closed ix U) (n : Nat) :
    ∀ (c : Peripheral) (s : Str) (c' : Peripheral) (o : Option BlockPath),
      derivePeripheral ix n c s = .ok (c', o) → (∀ cs, c.info.registers = some cs → ∀ x ∈ cs, x ∈ U) →
      ∀ cs, c'.info.registers = some cs → ∀ x ∈ cs, x ∈ U := by
  induction n with
  | zero => intro c s c' o h; cases h
  | succ n ih =>
    intro c s c' o h hc
    unfold derivePeripheral at h
    split at h
    · cases h
    · dsimp only at h
      cases hg : mapGet ix.peripherals (BlockPath.new s) with
      | none => rw [hg] at h; cases h
      | some d =>
        simp only [hg, okOr, ok_bind] at h
        have hd : ∀ cs, (Peripheral.deriveFrom c d).info.registers = some cs → ∀ x ∈ cs, x ∈ U := by
          unfold Peripheral.deriveFrom
          rw [MaybeArray.deriveFrom_info]
          unfold PeripheralInfo.deriveFrom
          dsimp only
          cases hr : c.info.registers with
          | none => exact hU.peripheral _ _ hg
          | some l => intro cs h; exact hc cs (hr.trans h)
        cases hr : d.info.derivedFrom with
        | none => simp only [hr] at h; injection h with h; cases h; exact hd
        | some s' => simp only [hr] at h; exact ih _ _ _ _ h hd

theorem pairs_length {α β : Type} (l : List α) (m : List β) :
    (l.flatMap fun a => m.map fun b => (a, b)).length = l.length * m.length := by
  induction l with
  | nil => simp
  | cons a l ih => simp only [List.flatMap_cons, List.length_append, List.length_map, ih, List.length_cons,
      Nat.succ_mul, Nat.add_comm]

theorem bind_same {α β : Type} {m m' : M α} {f f' : α → M β} (h : m = m') (h' : ∀ a, m = .ok a → f a = f' a) :
    (m >>= f) = (m' >>= f') := by
  subst h
  cases m with
  | error e => rfl
  | ok a => exact h' a rfl

theorem expandRC_next {ix : Index} {U : List RegisterCluster} (hU : Closed ix U) (oc : Bool) {C n : Nat}
    (hC : Enough ix C) (hn : C ≤ n)
    (h : ∀ p, ∀ c ∈ U, expandRC oc ix n p c = expandRC oc ix (n + 1) p c) (p : BlockPath) (c : RegisterCluster)
    (hc : c ∈ U) : expandRC oc ix (n + 1) p c = expandRC oc ix (n + 2) p c := by
  have h1 : Enough ix (n + 1) := hC.mono (by omega)
  have h2 : Enough ix (n + 2) := hC.mono (by omega)
  cases c with
  | register r => exact expandRegister_stable h1 h2 oc p r
  | cluster hd d cs =>
    rw [expandRC, expandRC]
    have own : ∀ x ∈ (MaybeArray.mk' { hd with derivedFrom := none, children := cs } d : Cluster).info.children,
        x ∈ U := by
      rw [Fails.mk'_info]
      exact hU.inside _ _ _ hc
    refine bind_same ?_ fun cc hcc => bind_same (mapM_congr fun x hx => h _ x ?_) fun _ _ => rfl
    · cases hr : hd.derivedFrom with
      | none => rfl
      | some s => exact deriveCluster_stable ix h1.clusters h2.clusters ..
    · revert hx
      cases hr : hd.derivedFrom with
      | none => rw [hr] at hcc; injection hcc with hcc; subst hcc; exact own x
      | some s =>
        rw [hr] at hcc
        exact deriveCluster_closed hU _ _ _ _ _ _ hcc own x

theorem expandRC_stable {ix : Index} {B : List BlockPath} {U : List RegisterCluster} (hB : Blocks ix B)
    (hU : Closed ix U) (oc : Bool) {C n m : Nat} (hC : Enough ix C)
    (hn : C + (B.length + 1) * U.length ≤ n) (hm : C + (B.length + 1) * U.length ≤ m) (p : BlockPath)
    (c : RegisterCluster) (hc : c ∈ U) : expandRC oc ix n p c = expandRC oc ix m p c := by
  obtain ⟨j, hj, h⟩ := pause ((none :: B.map some).flatMap fun o => U.map fun c => (o, c))
    (fun n x => ∃ p, (match x.1 with | some b => p = b | none => p ∉ B) ∧
      expandRC oc ix (C + n) p x.2 = .error .diverge) (by
    rintro n x ⟨p, hp, h⟩
    refine ⟨p, hp, Classical.byContradiction fun hne => hne ?_⟩
    rw [← (expandRC_extends oc ix (C + n) p x.2).out hne, ← h]
    rfl)
  rw [pairs_length, List.length_cons, List.length_map] at hj
  have base : ∀ p, ∀ c ∈ U, expandRC oc ix (C + j) p c = expandRC oc ix (C + j + 1) p c := by
    intro p c hc
    by_cases hd : expandRC oc ix (C + j) p c = .error .diverge
    · rw [hd]
      by_cases hp : p ∈ B
      · obtain ⟨p', hp', h'⟩ := h (some p, c) (List.mem_flatMap.mpr ⟨some p, by simp [hp],
          List.mem_map.mpr ⟨c, hc, rfl⟩⟩) ⟨p, rfl, hd⟩
        cases hp'
        exact h'.symm
      · obtain ⟨p', hp', h'⟩ := h (none, c) (List.mem_flatMap.mpr ⟨none, by simp,
          List.mem_map.mpr ⟨c, hc, rfl⟩⟩) ⟨p, hp, hd⟩
        exact ((expandRC_alike hB oc _ c hp' hp).diverge h').symm
    · exact ((expandRC_extends ..).out hd).symm
  have later : ∀ i, ∀ p, ∀ c ∈ U, expandRC oc ix (C + j + i) p c = expandRC oc ix (C + j + i + 1) p c := by
    intro i
    induction i with
    | zero => exact base
    | succ i ih => exact fun p c hc => expandRC_next hU oc hC (by omega) ih p c hc
  have up : ∀ i, expandRC oc ix (C + j + i) p c = expandRC oc ix (C + j) p c := by
    intro i
    induction i with
    | zero => rfl
    | succ i ih => rw [← ih, later i p c hc]; rfl
  have e1 := up (n - (C + j))
  have e2 := up (m - (C + j))
  rw [show C + j + (n - (C + j)) = n by omega] at e1
  rw [show C + j + (m - (C + j)) = m by omega] at e2
  rw [e1, e2]

theorem expandPeripheral_stable {ix : Index} {B : List BlockPath} {U : List RegisterCluster} (hB : Blocks ix B)
    (hU : Closed ix U) (oc : Bool) {C n m : Nat} (hC : Enough ix C)
    (hn : C + (B.length + 1) * U.length ≤ n) (hm : C + (B.length + 1) * U.length ≤ m) (p : Peripheral)
    (hp : ∀ cs, p.info.registers = some cs → ∀ x ∈ cs, x ∈ U) :
    expandPeripheral oc ix n p = expandPeripheral oc ix m p := by
  have h1 : Enough ix n := hC.mono (by omega)
  have h2 : Enough ix m := hC.mono (by omega)
  unfold expandPeripheral
  refine bind_same ?_ fun pp hpp => bind_same ?_ fun _ _ => rfl
  · cases hr : p.info.derivedFrom with
    | none => rfl
    | some s => exact derivePeripheral_stable ix h1.peripherals h2.peripherals ..
  · have hin : ∀ cs, pp.1.info.registers = some cs → ∀ x ∈ cs, x ∈ U := by
      cases hr : p.info.derivedFrom with
      | none => rw [hr] at hpp; injection hpp with hpp; subst hpp; exact hp
      | some s =>
        rw [hr] at hpp
        exact derivePeripheral_closed hU _ _ _ _ _ hpp (by rw [mapInfo_info]; exact hp)
    cases hr : pp.1.info.registers with
    | none => rfl
    | some rs =>
      exact bind_same (mapM_congr fun x hx => expandRC_stable hB hU oc hC hn hm _ x (hin rs hr x hx)) fun _ _ => rfl

/-! ## Counting -/

theorem parts_self (c : RegisterCluster) : c ∈ parts c := by cases c <;> simp [parts]

theorem mem_partsAll {x : RegisterCluster} : ∀ {cs : List RegisterCluster}, x ∈ partsAll cs ↔ ∃ c ∈ cs, x ∈ parts c
  | [] => by simp [partsAll]
  | c :: cs => by
    simp only [partsAll, List.mem_append, mem_partsAll (cs := cs), List.mem_cons]
    constructor
    · rintro (h | ⟨c', hc, h⟩)
      · exact ⟨c, .inl rfl, h⟩
      · exact ⟨c', .inr hc, h⟩
    · rintro ⟨c', rfl | hc, h⟩
      · exact .inl h
      · exact .inr ⟨c', hc, h⟩

mutual
theorem parts_inside (x : RegisterCluster) : ∀ (c : RegisterCluster) {h : ClusterHead} {d : Option DimElement}
    {cs : List RegisterCluster}, .cluster h d cs ∈ parts c → x ∈ cs → x ∈ parts c
  | .register r, h, d, cs, hc, _ => by simp [parts] at hc
  | .cluster h' d' cs', h, d, cs, hc, hx => by
    simp only [parts, List.mem_cons] at hc ⊢
    right
    rcases hc with hc | hc
    · injection hc with _ _ hc
      subst hc
      exact mem_partsAll.mpr ⟨x, hx, parts_self x⟩
    · exact partsAll_inside x cs' hc hx
theorem partsAll_inside (x : RegisterCluster) : ∀ (l : List RegisterCluster) {h : ClusterHead} {d : Option DimElement}
    {cs : List RegisterCluster}, .cluster h d cs ∈ partsAll l → x ∈ cs → x ∈ partsAll l
  | [], _, _, _, hc, _ => by simp [partsAll] at hc
  | c :: l, _, _, _, hc, hx => by
    simp only [partsAll, List.mem_append] at hc ⊢
    rcases hc with hc | hc
    · exact .inl (parts_inside x c hc hx)
    · exact .inr (partsAll_inside x l hc hx)
end

theorem registerClusters_top {d : Device} {p : Peripheral} (hp : p ∈ d.peripherals) {cs : List RegisterCluster}
    (hcs : p.info.registers = some cs) {x : RegisterCluster} (hx : x ∈ cs) : x ∈ registerClusters d :=
  List.mem_flatMap.mpr ⟨p, hp, by rw [hcs]; exact mem_partsAll.mpr ⟨x, hx, parts_self x⟩⟩

theorem registerClusters_inside {d : Device} {h : ClusterHead} {dim : Option DimElement}
    {cs : List RegisterCluster} (hc : .cluster h dim cs ∈ registerClusters d) {x : RegisterCluster} (hx : x ∈ cs) :
    x ∈ registerClusters d := by
  obtain ⟨p, hp, hc⟩ := List.mem_flatMap.mp hc
  exact List.mem_flatMap.mpr ⟨p, hp, partsAll_inside x _ hc hx⟩

theorem block_closed {d : Device} {b : BlockPath} {cs : List RegisterCluster} (h : BlockAt d b cs) :
    ∀ x ∈ cs, x ∈ registerClusters d := by
  induction h with
  | peripheral h1 h2 => exact fun x hx => registerClusters_top h1.1 h2 hx
  | cluster _ h2 _ ih => exact fun x hx => registerClusters_inside (ih _ h2) hx

theorem block_mem {d : Device} {b : BlockPath} {sub : List RegisterCluster} (h : BlockAt d b sub) :
    b ∈ blocks namesOf d := by
  unfold blocks
  cases h with
  | peripheral h1 _ =>
    exact List.mem_append_left _ (List.mem_map.mpr ⟨_, mem_allPeripherals.mpr h1, rfl⟩)
  | @cluster b cs h dim _ n h1 h2 h3 =>
    refine List.mem_append_right _ (List.mem_map.mpr ⟨(_, MaybeArray.mk' { h with children := sub } dim),
      mem_allClusters.mpr ⟨b, n, cs, h1, ?_, ?_, rfl⟩, rfl⟩)
    · rw [Fails.mk'_info, Fails.mk'_dim]; exact h2
    · rw [Fails.mk'_info, Fails.mk'_dim]; exact h3

theorem create_blocks {d : Device} {ix : Index} (h : Index.create d = .ok ix) : Blocks ix (blocks namesOf d) := by
  obtain ⟨_, h2, h3, h4, h5⟩ := C43_last d ix h
  have cl : ∀ b n c, (BlockPath.newCluster b n, c) ∈ allClusters namesOf d → b ∈ blocks namesOf d := by
    intro b n c hc
    obtain ⟨b0, n0, cs, h1, _, _, he⟩ := mem_allClusters.mp hc
    obtain ⟨bp, bs⟩ := b
    simp only [BlockPath.newCluster, BlockPath.mk.injEq] at he
    obtain ⟨rfl, he⟩ := he
    obtain ⟨rfl, _⟩ := List.append_inj' he rfl
    exact block_mem h1
  refine ⟨fun b n c hc => cl b n c (lastAt_mem ((h2 _ _).mp hc)), ?_, ?_, ?_, ?_⟩
  · intro q r hq
    obtain ⟨cs, h, _⟩ := mem_allRegisterPaths.mp (lastAt_mem ((h3 _ _).mp hq))
    exact block_mem h
  · intro q r hq
    obtain ⟨r, l, ⟨cs, h, _⟩, _⟩ := mem_allFields.mp (lastAt_mem ((h4 _ _).mp hq))
    exact block_mem h
  · intro q r hq
    obtain ⟨f, ⟨r, l, ⟨cs, h, _⟩, _⟩, _⟩ := mem_allEnums.mp (lastAt_mem ((h5 _ _).mp hq))
    exact block_mem h
  · intro b n hb
    rcases List.mem_append.mp hb with hb | hb
    · obtain ⟨⟨k, p⟩, hp, he⟩ := List.mem_map.mp hb
      have := (mem_allPeripherals.mp hp).2.1
      dsimp only at he
      rw [he] at this
      simp [BlockPath.newCluster] at this
    · obtain ⟨⟨k, c⟩, hc, he⟩ := List.mem_map.mp hb
      dsimp only at he
      subst he
      exact cl b n c hc

theorem create_closed {d : Device} {ix : Index} (h : Index.create d = .ok ix) : Closed ix (registerClusters d) := by
  obtain ⟨h1, h2, _⟩ := C43_last d ix h
  refine ⟨fun _ _ _ hc x hx => registerClusters_inside hc hx, ?_, ?_⟩
  · intro k c hc
    obtain ⟨b0, n0, cs, hb, hin, _⟩ := mem_allClusters.mp (lastAt_mem ((h2 _ _).mp hc))
    exact fun x hx => registerClusters_inside (block_closed hb _ hin) hx
  · intro k p hp cs hcs x hx
    exact registerClusters_top (mem_allPeripherals.mp (lastAt_mem ((h1 _ _).mp hp))).1 hcs hx

theorem create_enough {d : Device} {ix : Index} (h : Index.create d = .ok ix) :
    Enough ix (longestChain namesOf d + 1) := by
  have ha := Index.create_adds h
  have he : ix.evs.length = (allEnums namesOf d).length := by rw [ha.evs, List.length_reverse]; rfl
  unfold longestChain
  constructor
  · rw [ha.peripherals, List.length_reverse]; omega
  · rw [ha.clusters, List.length_reverse]; omega
  · rw [ha.registers, List.length_reverse]; omega
  · rw [ha.fields, List.length_reverse]; omega
  · rw [he]; omega

end Depth

/-- **C83.** The expansion of a device does not go deeper than `depth`, unless it never ends: at this depth
and at all larger ones the outcome is the same. -/
theorem C83_depth (oc : Bool) (d : Device) (n : Nat) (h : depth namesOf d ≤ n) :
    expand oc n d = expand oc (depth namesOf d) d := by
  unfold expand
  cases hix : Index.create d with
  | error e => rfl
  | ok ix =>
    simp only [ok_bind]
    rw [mapM_congr fun p hp => Depth.expandPeripheral_stable (Depth.create_blocks hix) (Depth.create_closed hix) oc
      (Depth.create_enough hix) h (Nat.le_refl _) p fun cs hcs x hx => Depth.registerClusters_top hp hcs hx]
    rfl

/-- Three clusters in each other. -/
def threeDeep : Device := Sample.device
  [.single (Sample.peripheralInfo "P" 0x1000 none (some
    [.cluster (Sample.clusterHead "A" 0) none [.cluster (Sample.clusterHead "B" 4) none
      [.cluster (Sample.clusterHead "C" 4) none [.register (.single (Sample.registerInfo "R" 0))]]]]))]

/-- Depth 3 is not enough, and from the bound on the expansion returns. -/
example : expand true 3 threeDeep = .error .diverge ∧ depth namesOf threeDeep = 24 ∧
    ∀ n, 24 ≤ n → ∃ d', expand true n threeDeep = .ok d' := by
  have h : depth namesOf threeDeep = 24 := by decide +kernel
  refine ⟨by decide +kernel, h, fun n hn => ?_⟩
  rw [C83_depth true threeDeep n (by rw [h]; exact hn), h]
  exact ok_of_isOk (by decide +kernel)

/-- **C83.** Whether the expansion of a device returns can be found out by running it to this depth. -/
theorem C83_returns (oc : Bool) (d : Device) :
    (∃ fuel, expand oc fuel d ≠ .error .diverge) ↔ expand oc (depth namesOf d) d ≠ .error .diverge := by
  refine ⟨?_, fun h => ⟨_, h⟩⟩
  rintro ⟨n, h⟩ he
  rcases Nat.le_total n (depth namesOf d) with hn | hn
  · exact h (by rw [← (expand_extends oc hn d).out h, he])
  · exact h (by rw [C83_depth oc d n hn, he])

/-- A cluster derived from the cluster it is in, and references in a circle: running to the depth shows that
the expansion never returns. -/
example : (∀ fuel, expand true fuel ancestorDevice = .error .diverge) ∧
    (∀ fuel, expand false fuel circleDevice = .error .diverge) := by
  have h1 : ¬ ∃ fuel, expand true fuel ancestorDevice ≠ .error .diverge := by
    rw [C83_returns]; decide +kernel
  have h2 : ¬ ∃ fuel, expand false fuel circleDevice ≠ .error .diverge := by
    rw [C83_returns]; decide +kernel
  exact ⟨fun n => Classical.byContradiction fun h => h1 ⟨n, h⟩, fun n => Classical.byContradiction fun h => h2 ⟨n, h⟩⟩

/-- `E` is derived from `F` and contains `Y`, which is derived from `E`. A chain of two references does not keep the
place where the children are from, so `Y` is expanded in `P.E`, `P.E.Y`, `P.E.Y.Y` and so on: no two steps of the
descent are the same. -/
def growing : Device := Sample.device
  [.single (Sample.peripheralInfo "P" 0x1000 none (some
    [.cluster (Sample.clusterHead "F" 0) none [],
     .cluster (Sample.clusterHead "E" 0 (some "F")) none
      [.cluster (Sample.clusterHead "Y" 0 (some "P.E")) none []]]))]

example : ∀ fuel, expand true fuel growing = .error .diverge := by
  have h : ¬ ∃ fuel, expand true fuel growing ≠ .error .diverge := by
    rw [C83_returns]; decide +kernel
  exact fun n => Classical.byContradiction fun h' => h ⟨n, h'⟩

/-- **C83, C39.** What happens at this depth is what happens: the first fault of the device, if there is
one (C63), also if it is an endless recursion. -/
theorem C83_fault (d : Device) (e : Fault) :
    expand true (depth namesOf d) d = .error e ↔ DeviceFails namesOf d e := by
  rw [← C63_fails]
  constructor
  · exact fun h => ⟨_, fun n hn => (C83_depth true d n hn).trans h⟩
  · rintro ⟨N, h⟩
    rw [← h (max N (depth namesOf d)) (Nat.le_max_left ..)]
    exact (C83_depth true d _ (Nat.le_max_right ..)).symm

example : DeviceFails namesOf circleDevice .diverge :=
  (C83_fault _ _).mp (by decide +kernel)

/-- **C83.** The same without overflow checks: the first fault of the device with all positions zero. -/
theorem C83_fault_unchecked (d : Device) (e : Fault) :
    expand false (depth namesOf d) d = .error e ↔ DeviceFails namesOf (ground d) e := by
  rw [← C79_fails]
  constructor
  · exact fun h => ⟨_, fun n hn => (C83_depth false d n hn).trans h⟩
  · rintro ⟨N, h⟩
    rw [← h (max N (depth namesOf d)) (Nat.le_max_left ..)]
    exact (C83_depth false d _ (Nat.le_max_right ..)).symm

example : DeviceFails namesOf (ground ancestorDevice) .diverge :=
  (C83_fault_unchecked _ _).mp (by decide +kernel)

/-- **C83, C56.** If there is no fault, the result at this depth is the expansion of the device. -/
theorem C83_result (d d' : Device) : expand true (depth namesOf d) d = .ok d' ↔ DeviceFull namesOf d d' := by
  rw [← C56_expansion]
  refine ⟨fun h => ⟨_, h⟩, ?_⟩
  rintro ⟨n, h⟩
  rcases Nat.le_total n (depth namesOf d) with hn | hn
  · exact (expand_extends true hn d).ok h
  · rw [← C83_depth true d n hn, h]

example : ∃ d', DeviceFull namesOf threeDeep d' := by
  obtain ⟨d', h⟩ := ok_of_isOk (x := expand true (depth namesOf threeDeep) threeDeep) (by decide +kernel)
  exact ⟨d', (C83_result _ _).mp h⟩

end Svd
