import Verif.Spec.Sample
import Verif.Props.BadRefs
import Verif.Spec.Rank

/-!
# C39: termination of expansion

The model counts recursion depth; a computation that never returns is one that runs out of every depth.
-/

namespace Svd

open Spec

/-! ## Computations that return -/

/-- From some depth on the outcome is fixed and is not "out of depth". -/
def Ends {α : Type} (f : Nat → M α) : Prop :=
  ∃ N r, r ≠ .error .diverge ∧ ∀ n, N ≤ n → f n = r

namespace Ends

variable {α β : Type}

theorem const {m : M α} (h : m ≠ .error .diverge) : Ends fun _ => m := ⟨0, m, h, fun _ _ => rfl⟩

theorem ofExtends {f : Nat → M α} (h : ∀ n, Extends (f n) (f (n + 1))) {n : Nat}
    (hn : f n ≠ .error .diverge) : Ends f :=
  ⟨n, f n, hn, fun _ hm => (extends_le h hm).out hn⟩

theorem bind {f : Nat → M α} {g : Nat → α → M β} (hf : Ends f)
    (hg : ∀ a, (∃ n, f n = .ok a) → Ends fun n => g n a) : Ends fun n => f n >>= g n := by
  obtain ⟨N, r, hr, h⟩ := hf
  cases r with
  | error e =>
    refine ⟨N, .error e, fun he => hr (by injection he with he; rw [he]), fun n hn => ?_⟩
    show f n >>= g n = _
    rw [h n hn]; rfl
  | ok a =>
    obtain ⟨N', r', hr', h'⟩ := hg a ⟨N, h N (Nat.le_refl _)⟩
    refine ⟨max N N', r', hr', fun n hn => ?_⟩
    show f n >>= g n = _
    rw [h n (by omega), ok_bind]
    exact h' n (by omega)

theorem mapM {f : Nat → α → M β} {l : List α} (h : ∀ a ∈ l, Ends fun n => f n a) :
    Ends fun n => l.mapM (f n) := by
  induction l with
  | nil => exact const (m := .ok []) (by simp)
  | cons a l ih =>
    simp only [mapM_cons]
    exact bind (h a (by simp)) fun _ _ => bind (ih fun a ha => h a (by simp [ha])) fun _ _ =>
      const (by simp)

theorem succ {f : Nat → M α} (h : Ends fun n => f (n + 1)) : Ends f := by
  obtain ⟨N, r, hr, h⟩ := h
  refine ⟨N + 1, r, hr, fun n hn => ?_⟩
  obtain ⟨n, rfl⟩ : ∃ k, n = k + 1 := ⟨n - 1, by omega⟩
  exact h n (by omega)

theorem pred {f : Nat → M α} (h : Ends f) : Ends fun n => f (n + 1) := by
  obtain ⟨N, r, hr, h⟩ := h
  exact ⟨N, r, hr, fun n hn => h (n + 1) (by omega)⟩

end Ends

theorem Faults.returns {α : Type} {m : M α} (h : Faults ArrayFault m) : m ≠ .error .diverge :=
  fun he => by cases h.out _ he

/-! ## Following references -/

section
variable {d : Device} {ix : Index} {rk : Ranks}

theorem lookup_peripheral (hix : Index.create d = .ok ix) {b : BlockPath} {p : Peripheral}
    (h : mapGet ix.peripherals b = some p) : PeripheralAt d b p :=
  mem_allPeripherals.mp (lastAt_mem ((C43_last d ix hix).1 _ _ |>.mp h))

theorem lookup_cluster (hix : Index.create d = .ok ix) {b : BlockPath} {c : Cluster}
    (h : mapGet ix.clusters b = some c) : ClusterAt d b c :=
  mem_allClusters.mp (lastAt_mem ((C43_last d ix hix).2.1 _ _ |>.mp h))

theorem lookup_register (hix : Index.create d = .ok ix) {b : RegisterPath} {c : Register}
    (h : mapGet ix.registers b = some c) : RegisterAt d b c :=
  mem_allRegisterPaths.mp (lastAt_mem ((C43_last d ix hix).2.2.1 _ _ |>.mp h))

theorem lookup_field (hix : Index.create d = .ok ix) {b : FieldPath} {c : Field}
    (h : mapGet ix.fields b = some c) : FieldAt d b c :=
  mem_allFields.mp (lastAt_mem ((C43_last d ix hix).2.2.2.1 _ _ |>.mp h))

theorem lookup_enums (hix : Index.create d = .ok ix) {b : EnumPath} {c : EnumeratedValues}
    (h : mapGet ix.evs b = some c) : EnumAt d b c :=
  mem_allEnums.mp (lastAt_mem ((C43_last d ix hix).2.2.2.2 _ _ |>.mp h))

theorem derivePeripheral_returns (hix : Index.create d = .ok ix) (hr : Ranked d rk) (k : Nat)
    (p : Peripheral) (s : Str) (hk : ∀ t, PeripheralAt d ⟨s, []⟩ t → rk.peripheral ⟨s, []⟩ < k) :
    derivePeripheral ix (k + 1) p s ≠ .error .diverge := by
  induction k generalizing p s with
  | zero =>
    rw [derivePeripheral]
    split
    · simp [fail]
    · dsimp only
      cases hg : mapGet ix.peripherals (BlockPath.new s) with
      | none => simp [okOr, fail, error_bind]
      | some t => exact absurd (hk t (lookup_peripheral hix hg)) (by omega)
  | succ k ih =>
    rw [derivePeripheral]
    split
    · simp [fail]
    · dsimp only
      cases hg : mapGet ix.peripherals (BlockPath.new s) with
      | none => simp [okOr, fail, error_bind]
      | some t =>
        have ht := lookup_peripheral hix hg
        have h1 := hk t ht
        simp only [okOr, ok_bind]
        cases hd : t.info.derivedFrom with
        | none => simp
        | some s' =>
          refine ih _ _ fun t' ht' => ?_
          have := hr.peripheral _ _ _ _ ht hd ht'
          exact Nat.lt_of_lt_of_le this (by simpa [BlockPath.new] using Nat.le_of_lt_succ h1)

theorem deriveCluster_returns (hix : Index.create d = .ok ix) (hr : Ranked d rk) (k : Nat)
    (c : Cluster) (s : Str) (b : BlockPath)
    (hk : ∀ b' m t, BlockRef b s b' m → ClusterAt d ⟨b'.peripheral, b'.path ++ [m]⟩ t →
      rk.block ⟨b'.peripheral, b'.path ++ [m]⟩ < k) :
    deriveCluster ix (k + 1) c s b ≠ .error .diverge := by
  induction k generalizing c s b with
  | zero =>
    obtain ⟨pb, pn, hp, _⟩ := C41_parse_text s
    rw [deriveCluster, hp, ok_bind]
    dsimp only
    split
    · simp [fail]
    · cases hg : mapGet ix.clusters ((pb.getD b).newCluster pn) with
      | none => simp [okOr, fail, error_bind]
      | some t =>
        exact absurd (hk _ _ t (blockRef_iff.mpr ⟨_, hp, rfl, rfl⟩) (lookup_cluster hix hg)) (by omega)
  | succ k ih =>
    obtain ⟨pb, pn, hp, _⟩ := C41_parse_text s
    rw [deriveCluster, hp, ok_bind]
    dsimp only
    split
    · simp [fail]
    · cases hg : mapGet ix.clusters ((pb.getD b).newCluster pn) with
      | none => simp [okOr, fail, error_bind]
      | some t =>
        have ht := lookup_cluster hix hg
        have h1 := hk _ _ t (blockRef_iff.mpr ⟨_, hp, rfl, rfl⟩) ht
        simp only [okOr, ok_bind]
        cases hd : t.info.derivedFrom with
        | none => simp
        | some s' =>
          refine ih _ _ _ fun b' m t' hb ht' => ?_
          have := hr.cluster (pb.getD b) pn _ _ _ _ _ ht hd hb ht'
          simp only at h1
          omega

theorem deriveRegister_returns (hix : Index.create d = .ok ix) (hr : Ranked d rk) (k : Nat)
    (c : Register) (s : Str) (b : BlockPath)
    (hk : ∀ b' m t, BlockRef b s b' m → RegisterAt d ⟨b', m⟩ t → rk.register ⟨b', m⟩ < k) :
    deriveRegister ix (k + 1) c s b ≠ .error .diverge := by
  induction k generalizing c s b with
  | zero =>
    obtain ⟨pb, pn, hp, hp', _⟩ := C41_parse_text s
    rw [deriveRegister, hp', ok_bind]
    dsimp only
    split
    · simp [fail]
    · cases hg : mapGet ix.registers ((pb.getD b).newRegister pn) with
      | none => simp [okOr, fail, error_bind]
      | some t =>
        exact absurd (hk _ _ t (blockRef_iff.mpr ⟨_, hp, rfl, rfl⟩) (lookup_register hix hg)) (by omega)
  | succ k ih =>
    obtain ⟨pb, pn, hp, hp', _⟩ := C41_parse_text s
    rw [deriveRegister, hp', ok_bind]
    dsimp only
    split
    · simp [fail]
    · cases hg : mapGet ix.registers ((pb.getD b).newRegister pn) with
      | none => simp [okOr, fail, error_bind]
      | some t =>
        have ht := lookup_register hix hg
        have h1 := hk _ _ t (blockRef_iff.mpr ⟨_, hp, rfl, rfl⟩) ht
        simp only [okOr, ok_bind]
        cases hd : t.info.derivedFrom with
        | none => simp
        | some s' =>
          refine ih _ _ _ fun b' m t' hb ht' => ?_
          have := hr.register _ _ _ _ _ _ ht hd hb ht'
          simp only [BlockPath.newRegister] at h1 this
          omega

theorem fieldParse_returns (s : Str) : FieldPath.parseStr s ≠ .error .diverge := by
  have hv : ∀ v : List Str, Faults (· ≠ .diverge) (BlockPath.parseVec v) := by
    intro v
    unfold BlockPath.parseVec
    split
    · exact .error (by simp)
    · split <;> exact .ok _
  have : Faults (· ≠ .diverge) (FieldPath.parseStr s) := by
    unfold FieldPath.parseStr FieldPath.parseVec
    split
    · exact .error (by simp)
    · refine .ite (fun _ => .bind (hv _) fun _ _ => ?_) fun _ => .ok _
      split
      · exact .ok _
      · exact .error (by simp)
  exact fun h => this.out _ h rfl

theorem deriveField_returns (hix : Index.create d = .ok ix) (hr : Ranked d rk) (k : Nat)
    (c : Field) (s : Str) (b : RegisterPath)
    (hk : ∀ b' m t, FieldRef b s b' m → FieldAt d ⟨b', m⟩ t → rk.field ⟨b', m⟩ < k) :
    deriveField ix (k + 1) c s b ≠ .error .diverge := by
  induction k generalizing c s b with
  | zero =>
    rw [deriveField]
    cases hp : FieldPath.parseStr s with
    | error e => rw [error_bind]; exact fun he => fieldParse_returns s (hp.trans (by injection he with he; rw [he]))
    | ok pd =>
    rw [ok_bind]
    dsimp only
    split
    · simp [fail]
    · cases hg : mapGet ix.fields ((pd.1.getD b).newField pd.2) with
      | none => simp [okOr, fail, error_bind]
      | some t =>
        exact absurd (hk _ _ t (fieldRef_iff.mpr ⟨_, hp, rfl, rfl⟩) (lookup_field hix hg)) (by omega)
  | succ k ih =>
    rw [deriveField]
    cases hp : FieldPath.parseStr s with
    | error e => rw [error_bind]; exact fun he => fieldParse_returns s (hp.trans (by injection he with he; rw [he]))
    | ok pd =>
    rw [ok_bind]
    dsimp only
    split
    · simp [fail]
    · cases hg : mapGet ix.fields ((pd.1.getD b).newField pd.2) with
      | none => simp [okOr, fail, error_bind]
      | some t =>
        have ht := lookup_field hix hg
        have h1 := hk _ _ t (fieldRef_iff.mpr ⟨_, hp, rfl, rfl⟩) ht
        simp only [okOr, ok_bind]
        cases hd : t.info.derivedFrom with
        | none => simp
        | some s' =>
          refine ih _ _ _ fun b' m t' hb ht' => ?_
          have := hr.field _ _ _ _ _ _ ht hd hb ht'
          simp only [RegisterPath.newField] at h1 this
          omega

theorem resolveEnum_target (hix : Index.create d = .ok ix) {ev : EnumeratedValues} {s : Str}
    {b : FieldPath} {e : EnumeratedValues} {q : EnumPath}
    (h : resolveEnum ix ev s b = .ok (some (e, q))) : EnumTarget b s q ∧ EnumAt d q e := by
  unfold resolveEnum at h
  cases hl : (splitOn '.' s).getLast? with
  | none => rw [hl] at h; cases h
  | some n =>
    rw [hl] at h
    dsimp only at h
    obtain ⟨v, hv⟩ := List.getLast?_eq_some_iff.mp hl
    obtain ⟨hd1, hd2⟩ := (split_dotted_iff (l := v ++ [n])).mp hv |>.2
    rw [hv, List.dropLast_concat] at h
    by_cases hv0 : v.isEmpty
    · rw [if_pos hv0] at h
      have hv0 : v = [] := by simpa using hv0
      subst hv0
      have hs : s = n := by rw [hd1]; exact dotted_one n
      injection h with h
      unfold findEnumInRegister at h
      split at h
      · cases h
      · obtain ⟨f, _, hf⟩ := List.exists_of_findSome?_eq_some h
        obtain ⟨e', he, hf⟩ := Option.map_eq_some_iff.mp hf
        injection hf with h1 h2
        subst h1 h2
        refine ⟨.inl ⟨?_, rfl, hs.symm⟩, lookup_enums hix he⟩
        rw [hs]; exact hd2 n (by simp)
    · rw [if_neg hv0] at h
      have hv0 : v ≠ [] := by simpa using hv0
      obtain ⟨fd, hfd, h⟩ := bind_ok.mp h
      split at h
      · cases h
      · injection h with h
        obtain ⟨e', he, hf⟩ := Option.map_eq_some_iff.mp h
        injection hf with h1 h2
        subst h1 h2
        exact ⟨.inr ⟨v, hd1, hd2, (enumFieldPath_iff hv0).mp hfd⟩, lookup_enums hix he⟩

theorem deriveEnum_returns (hix : Index.create d = .ok ix) (hr : Ranked d rk) (k : Nat)
    (c : EnumeratedValues) (s : Str) (b : FieldPath)
    (hk : ∀ q t, EnumTarget b s q → EnumAt d q t → rk.enums q < k) :
    deriveEnumeratedValues ix (k + 1) c s b ≠ .error .diverge := by
  induction k generalizing c s b with
  | zero =>
    rw [deriveEnumeratedValues]
    split
    · simp [fail]
    · cases hp : resolveEnum ix c s b with
      | error e =>
        obtain ⟨y, rfl⟩ := resolveEnum_error hp
        simp [error_bind]
      | ok o =>
        rcases o with _ | ⟨e, q⟩
        · simp [ok_bind, fail]
        · obtain ⟨h1, h2⟩ := resolveEnum_target hix hp
          exact absurd (hk _ _ h1 h2) (by omega)
  | succ k ih =>
    rw [deriveEnumeratedValues]
    split
    · simp [fail]
    · cases hp : resolveEnum ix c s b with
      | error e =>
        obtain ⟨y, rfl⟩ := resolveEnum_error hp
        simp [error_bind]
      | ok o =>
        rcases o with _ | ⟨e, q⟩
        · simp [ok_bind, fail]
        · obtain ⟨h1, h2⟩ := resolveEnum_target hix hp
          have h3 := hk _ _ h1 h2
          simp only [ok_bind]
          cases hd : e.derivedFrom with
          | none => simp
          | some s' =>
            refine ih _ _ _ fun q' t' hb ht' => ?_
            have := hr.enums _ _ _ _ _ h2 hd hb ht'
            omega

/-! ## Expanding an element -/

theorem expandEv_ends (hix : Index.create d = .ok ix) (hr : Ranked d rk) (b : FieldPath)
    (e : EnumeratedValues) : Ends fun n => expandEv ix n b e := by
  unfold expandEv
  cases hd : e.derivedFrom with
  | none => exact .const (by simp)
  | some s =>
    refine .bind ?_ fun _ _ => .const (by simp)
    obtain ⟨k, hk⟩ : ∃ k, ∀ q t, EnumTarget b s q → EnumAt d q t → rk.enums q < k := by
      obtain ⟨k, hk⟩ := exists_bound (P := fun x n => rk.enums x.1 < n) (l := allEnums namesOf d)
        fun x _ => ⟨rk.enums x.1 + 1, fun n hn => hn⟩
      exact ⟨k, fun q t _ ht => hk (q, t) (mem_allEnums.mpr ht) k (Nat.le_refl k)⟩
    exact .ofExtends (fun n => deriveEnum_extends ix n _ s b) (deriveEnum_returns hix hr k _ s b hk)

theorem expandField_ends (hix : Index.create d = .ok ix) (hr : Ranked d rk) (oc : Bool) (b : RegisterPath)
    (f : Field) : Ends fun n => expandField oc ix n b f := by
  unfold expandField
  refine .bind ?_ fun ff _ => .bind (.mapM fun e _ => expandEv_ends hix hr _ e) fun evs _ => ?_
  · cases hd : f.info.derivedFrom with
    | none => exact .const (by simp)
    | some s =>
      refine .ofExtends (fun n => deriveField_extends ix n _ s b) (n := ?k + 1) ?_
      case k => exact match FieldPath.parseStr s with
        | .ok pd => rk.field ⟨pd.1.getD b, pd.2⟩ + 1
        | .error _ => 0
      refine deriveField_returns hix hr _ _ s b fun b' m t hb ht => ?_
      obtain ⟨pd, hp, rfl, rfl⟩ := fieldRef_iff.mp hb
      rw [hp]; exact Nat.lt_succ_self _
  · split
    · exact .const (by simp)
    · exact .bind (.const (fieldExpand_faults ..).returns) fun _ _ => .const (by simp)

theorem blockTarget_bound {g : BlockPath → Str → Nat} (b : BlockPath) (s : Str) :
    ∃ k, ∀ b' m, BlockRef b s b' m → g b' m < k := by
  obtain ⟨pb, pn, hp, _⟩ := C41_parse_text s
  refine ⟨g (pb.getD b) pn + 1, fun b' m hb => ?_⟩
  obtain ⟨pd, hp', rfl, rfl⟩ := blockRef_iff.mp hb
  rw [hp] at hp'
  injection hp' with hp'
  subst hp'
  exact Nat.lt_succ_self _

theorem expandRegisterArray_ends (hix : Index.create d = .ok ix) (hr : Ranked d rk) (oc : Bool)
    (b : BlockPath) (r : Register) : Ends fun n => expandRegisterArray oc ix n b r := by
  unfold expandRegisterArray
  refine .bind ?_ fun rr _ => .bind ?_ fun fs _ => ?_
  · cases hd : r.info.derivedFrom with
    | none => exact .const (by simp)
    | some s =>
      obtain ⟨k, hk⟩ := blockTarget_bound (g := fun b m => rk.register ⟨b, m⟩) b s
      exact .ofExtends (fun n => deriveRegister_extends ix n _ s b)
        (deriveRegister_returns hix hr k _ s b fun b' m _ hb _ => hk b' m hb)
  · cases rr.1.info.fields with
    | none => exact .const (by simp)
    | some fs => exact .bind (.mapM fun f _ => expandField_ends hix hr oc _ f) fun _ _ => .const (by simp)
  · split
    · exact .const (by simp)
    · exact .bind (.const (registerExpand_faults ..).returns) fun _ _ => .const (by simp)

/-- Where the children of a resolved cluster come from. -/
theorem deriveCluster_origin (hix : Index.create d = .ok ix) (hr : Ranked d rk) {n : Nat} {c : Cluster}
    {s : Str} {b : BlockPath} {x : Cluster × Option BlockPath} (h : deriveCluster ix n c s b = .ok x)
    {k : Nat} (hk : ∀ b' m t, BlockRef b s b' m → ClusterAt d ⟨b'.peripheral, b'.path ++ [m]⟩ t →
      rk.block ⟨b'.peripheral, b'.path ++ [m]⟩ < k) :
    (x.1.info.children = c.info.children ∨
      ∃ q t, ClusterAt d q t ∧ rk.block q < k ∧ x.1.info.children = t.info.children) ∧
    (∀ q, x.2 = some q → rk.block q < k) ∧ x.1.info.name = c.info.name := by
  induction n generalizing c s b k with
  | zero => cases h
  | succ n ih =>
    obtain ⟨pd, t, hp, _, hg, h⟩ := deriveCluster_step.mp h
    have ht := lookup_cluster hix hg
    have hlt := hk _ _ t (blockRef_iff.mpr ⟨_, hp, rfl, rfl⟩) ht
    have hq : (Cluster.deriveFrom c t).info.children = c.info.children ∨
        (Cluster.deriveFrom c t).info.children = t.info.children := by
      unfold Cluster.deriveFrom
      rw [MaybeArray.deriveFrom_info]
      unfold ClusterInfo.deriveFrom
      dsimp only
      split
      · exact .inr rfl
      · exact .inl rfl
    split at h
    · rename_i s' hd
      obtain ⟨h1, h2, h3⟩ := ih h (k := k) fun b' m t' hb ht' =>
        Nat.lt_trans (hr.cluster (pd.1.getD b) pd.2 _ _ _ _ _ ht hd hb ht') hlt
      refine ⟨?_, h2, h3.trans (cluster_name c t)⟩
      rcases h1 with h1 | h1
      · rcases hq with hq | hq
        · exact .inl (h1.trans hq)
        · exact .inr ⟨_, t, ht, hlt, h1.trans hq⟩
      · exact .inr h1
    · subst h
      refine ⟨?_, ?_, cluster_name c t⟩
      · rcases hq with hq | hq
        · exact .inl hq
        · exact .inr ⟨_, t, ht, hlt, hq⟩
      · intro q hq
        dsimp only at hq
        split at hq
        · injection hq with hq
          subst hq
          exact hlt
        · cases hq

theorem clusterAt_block {b : BlockPath} {c : Cluster} (h : ClusterAt d b c) : BlockAt d b c.info.children := by
  obtain ⟨b0, n, cs, h1, h2, h3, rfl⟩ := h
  exact .cluster h1 h2 h3

theorem blockAt_child {b : BlockPath} {cs : List RegisterCluster} (h : BlockAt d b cs) {hd dim sub}
    (hm : RegisterCluster.cluster hd dim sub ∈ cs) :
    ClusterAt d ⟨b.peripheral, b.path ++ [hd.name]⟩ (MaybeArray.mk' { hd with children := sub } dim) := by
  refine ⟨b, hd.name, cs, h, ?_, .inl ?_, rfl⟩
  · cases dim <;> exact hm
  · cases dim <;> rfl

theorem clusterAt_parent {b : BlockPath} {n m : Str} {c : Cluster}
    (h : ClusterAt d ⟨b.peripheral, b.path ++ [n] ++ [m]⟩ c) :
    ∃ c', ClusterAt d ⟨b.peripheral, b.path ++ [n]⟩ c' := by
  obtain ⟨b0, x, cs, h1, _, _, h4⟩ := h
  obtain ⟨hp, ha⟩ := BlockPath.mk.inj h4
  obtain ⟨ha, _⟩ := List.append_inj' ha rfl
  cases h1 with
  | peripheral h5 _ => rw [h5.2.1] at ha; simp at ha
  | @cluster b1 cs1 hd dim sub y h5 h6 h7 =>
    simp only at ha hp
    obtain ⟨ha, hy⟩ := List.append_inj' ha rfl
    injection hy with hy
    refine ⟨MaybeArray.mk' { hd with children := cs } dim, b1, n, cs1, h5, ?_, ?_, ?_⟩
    · cases dim <;> exact h6
    · subst hy; cases dim <;> exact h7
    · rw [hp, ha]

theorem expandRC_ends (hix : Index.create d = .ok ix) (hr : Ranked d rk) (oc : Bool) (k : Nat)
    (b u : BlockPath) (x : RegisterCluster) (us : List RegisterCluster) (hu : BlockAt d u us) (hx : x ∈ us)
    (huk : rk.block u ≤ k)
    (hb : ∀ n t, ClusterAt d ⟨b.peripheral, b.path ++ [n]⟩ t → rk.block ⟨b.peripheral, b.path ++ [n]⟩ < k) :
    Ends fun n => expandRC oc ix n b x := by
  induction k generalizing b u x us with
  | zero =>
    cases x with
    | register r => exact .succ (.pred (expandRegisterArray_ends hix hr oc b r))
    | cluster hd dim sub =>
      have := hr.inside u _ _ (blockAt_child hu hx)
      omega
  | succ k ih =>
    cases x with
    | register r => exact .succ (.pred (expandRegisterArray_ends hix hr oc b r))
    | cluster hd dim sub =>
      have he := blockAt_child hu hx
      have hlt := hr.inside u _ _ he
      have hmk : ∀ i : ClusterInfo, (MaybeArray.mk' i dim).info = i := by intro i; cases dim <;> rfl
      have hk : ∀ s, hd.derivedFrom = some s → ∀ b' m t, BlockRef b s b' m →
          ClusterAt d ⟨b'.peripheral, b'.path ++ [m]⟩ t →
          rk.block ⟨b'.peripheral, b'.path ++ [m]⟩ < k + 1 := by
        intro s hs b' m t href ht
        rcases href with ⟨h1, rfl, rfl⟩ | h1
        · exact hb _ t ht
        · have := hr.cluster u hd.name _ s b' m t he (by rw [hmk]; exact hs) (.inr h1) ht
          omega
      refine .succ ?_
      unfold expandRC
      refine .bind (f := fun n => match hd.derivedFrom with
        | some dpath => deriveCluster ix (n + 1)
            (MaybeArray.mk' { hd with derivedFrom := none, children := sub } dim) dpath b
        | none => .ok (MaybeArray.mk' { hd with derivedFrom := none, children := sub } dim, none))
        ?_ fun cc hcc => ?_
      · cases hs : hd.derivedFrom with
        | none => exact .const (by simp)
        | some s =>
          exact .pred (.ofExtends (fun n => deriveCluster_extends ix n _ s b)
            (deriveCluster_returns hix hr (k + 1) _ s b (hk s hs)))
      · have horigin : (cc.1.info.children = sub ∨
            ∃ q t, ClusterAt d q t ∧ rk.block q < k + 1 ∧ cc.1.info.children = t.info.children) ∧
            (∀ q, cc.2 = some q → rk.block q < k + 1) ∧ cc.1.info.name = hd.name := by
          obtain ⟨n, hcc⟩ := hcc
          revert hcc
          cases hs : hd.derivedFrom with
          | none =>
            intro hcc
            injection hcc with hcc
            subst hcc
            simp only [hmk]
            exact ⟨.inl trivial, by simp, trivial⟩
          | some s =>
            intro hcc
            have := deriveCluster_origin hix hr hcc (hk s hs)
            simp only [hmk] at this
            exact this
        obtain ⟨ho, hp, hn⟩ := horigin
        refine .bind (.mapM fun y hy => ?_) fun l hl => .const ?_
        · have hctx : ∀ n t, ClusterAt d ⟨(cc.2.getD (b.newCluster cc.1.info.name)).peripheral,
              (cc.2.getD (b.newCluster cc.1.info.name)).path ++ [n]⟩ t →
              rk.block ⟨(cc.2.getD (b.newCluster cc.1.info.name)).peripheral,
                (cc.2.getD (b.newCluster cc.1.info.name)).path ++ [n]⟩ < k := by
            intro n t ht
            cases hc : cc.2 with
            | some q =>
              rw [hc] at ht
              have h1 := hr.inside q n t ht
              have h2 := hp q hc
              simp only [Option.getD_some]
              omega
            | none =>
              rw [hc] at ht
              simp only [Option.getD_none, BlockPath.newCluster] at ht ⊢
              obtain ⟨t', ht'⟩ := clusterAt_parent ht
              have h1 := hr.inside ⟨b.peripheral, b.path ++ [cc.1.info.name]⟩ n t ht
              have h2 := hb _ t' ht'
              simp only at h1
              omega
          rcases ho with ho | ⟨q, t, ht, hq, ho⟩
          · rw [ho] at hy
            have hb' := clusterAt_block he
            rw [hmk] at hb'
            exact ih _ _ y sub hb' hy (by omega) hctx
          · rw [ho] at hy
            exact ih _ q y _ (clusterAt_block ht) hy (by omega) hctx
        · refine (flattenCluster_faults ?_).returns
          rw [mapInfo_info]
          intro y hy
          obtain ⟨m, hm, hy⟩ := List.mem_flatten.mp hy
          obtain ⟨n, hl⟩ := hl
          obtain ⟨a, _, ha⟩ := mapM_ok_mem' hl hm
          exact expandRC_flat ha y hy

theorem derivePeripheral_origin (hix : Index.create d = .ok ix) {n : Nat} {p : Peripheral} {s : Str}
    {x : Peripheral × Option BlockPath} (h : derivePeripheral ix n p s = .ok x) :
    x.1.info.registers = p.info.registers ∨ ∃ t ∈ d.peripherals, x.1.info.registers = t.info.registers := by
  induction n generalizing p s with
  | zero => cases h
  | succ n ih =>
    obtain ⟨t, _, hg, h⟩ := derivePeripheral_step.mp h
    have ht := (lookup_peripheral hix hg).1
    have hq : (Peripheral.deriveFrom p t).info.registers = p.info.registers ∨
        (Peripheral.deriveFrom p t).info.registers = t.info.registers := by
      unfold Peripheral.deriveFrom
      rw [MaybeArray.deriveFrom_info]
      unfold PeripheralInfo.deriveFrom
      dsimp only
      cases p.info.registers
      · exact .inr rfl
      · exact .inl rfl
    split at h
    · rcases ih h with h1 | h1
      · rcases hq with hq | hq
        · exact .inl (h1.trans hq)
        · exact .inr ⟨t, ht, h1.trans hq⟩
      · exact .inr h1
    · subst h
      rcases hq with hq | hq
      · exact .inl hq
      · exact .inr ⟨t, ht, hq⟩

theorem expandPeripheral_ends (hix : Index.create d = .ok ix) (hr : Ranked d rk) (oc : Bool)
    {p : Peripheral} (hp : p ∈ d.peripherals) : Ends fun n => expandPeripheral oc ix n p := by
  simp only [expandPeripheral_eq]
  refine .bind (f := fun n => match p.info.derivedFrom with
    | some dpath => derivePeripheral ix n (p.mapInfo fun i => { i with derivedFrom := none }) dpath
    | none => .ok (p, none)) ?_ fun pp hpp => ?_
  · cases hd : p.info.derivedFrom with
    | none => exact .const (by simp)
    | some s =>
      exact .ofExtends (fun n => derivePeripheral_extends ix n _ s)
        (derivePeripheral_returns hix hr (rk.peripheral ⟨s, []⟩ + 1) _ s fun _ _ => Nat.lt_succ_self _)
  · have ho : ∃ t ∈ d.peripherals, pp.1.info.registers = t.info.registers := by
      obtain ⟨n, hpp⟩ := hpp
      revert hpp
      cases p.info.derivedFrom with
      | none => intro hpp; injection hpp with hpp; subst hpp; exact ⟨p, hp, rfl⟩
      | some s =>
        intro hpp
        rcases derivePeripheral_origin hix hpp with h | h
        · rw [mapInfo_info] at h; exact ⟨p, hp, h⟩
        · exact h
    obtain ⟨t, ht, ho⟩ := ho
    unfold peripheralTail
    refine .bind ?_ fun _ _ => ?_
    · cases hs : pp.1.info.registers with
      | none => exact .const (by simp)
      | some cs =>
        refine .bind (.mapM fun y hy => ?_) fun _ _ => .const (by simp)
        generalize pp.2.getD (BlockPath.new pp.1.info.name) = b
        refine expandRC_ends hix hr oc (max (rk.block b) (rk.block ⟨t.info.name, []⟩)) b ⟨t.info.name, []⟩ y cs
          (.peripheral ⟨ht, rfl, .inl rfl⟩ (ho.symm.trans hs)) hy (by omega) fun n t ht => ?_
        have := hr.inside b n t ht
        omega
    · split
      · exact .const (by simp)
      · exact .bind (.const (peripheralExpand_faults ..).returns) fun _ _ => .const (by simp)

/-- **C39 (partial).** If the elements of a device can be numbered so that references, and the
containment of clusters, lead to smaller numbers, then expansion returns a device or an error.
Missing: devices without such a numbering; the property is false for some of them (below). -/
theorem C39_partial (oc : Bool) (d : Device) (hr : ∃ rk, Ranked d rk) :
    ∃ r, r ≠ .error .diverge ∧ ∃ N, ∀ n, N ≤ n → expand oc n d = r := by
  obtain ⟨rk, hr⟩ := hr
  have : Ends fun n => expand oc n d := by
    unfold expand
    refine .bind (.const (create_faults d).returns) fun ix hix => ?_
    obtain ⟨_, hix⟩ := hix
    exact .bind (.mapM fun p hp => expandPeripheral_ends hix hr oc hp) fun _ _ => .const (by simp)
  obtain ⟨N, r, h, h'⟩ := this
  exact ⟨r, h, N, h'⟩

/-! ## Devices whose expansion does not return -/

/-- A set of peripheral names each of which refers to a name of the set: derivation from any of them by
a peripheral of another name never ends. -/
theorem derivePeripheral_endless (hix : Index.create d = .ok ix) (S : Str → Prop)
    (hS : ∀ s, S s → ∃ p s', LastAt (allPeripherals namesOf d) ⟨s, []⟩ p ∧ p.info.derivedFrom = some s' ∧
      S s') (n : Nat) (p : Peripheral) (hp : ¬ S p.info.name) (s : Str) (hs : S s) :
    derivePeripheral ix n p s = .error .diverge := by
  induction n generalizing p s with
  | zero => rfl
  | succ n ih =>
    obtain ⟨t, s', ht, hd, hs'⟩ := hS s hs
    have hg : mapGet ix.peripherals (BlockPath.new s) = some t := ((C43_last d ix hix).1 _ _).mpr ht
    rw [derivePeripheral, if_neg (show ¬ s = p.info.name from fun h => hp (h ▸ hs))]
    simp only [hg, okOr, ok_bind, hd]
    exact ih _ (by rw [peripheral_name]; exact hp) _ hs'

/-- **C39 is violated**: references that run into a circle not containing the start. If the first
peripheral refers into a set of names that only refer among themselves and does not contain its own
name, expansion never returns. -/
theorem C39_violated (oc : Bool) (fuel : Nat) (d : Device) (ix : Index) (hix : Index.create d = .ok ix)
    (S : Str → Prop)
    (hS : ∀ s, S s → ∃ p s', LastAt (allPeripherals namesOf d) ⟨s, []⟩ p ∧ p.info.derivedFrom = some s' ∧
      S s')
    (p : Peripheral) (ps : List Peripheral) (hd : d.peripherals = p :: ps) (s : Str)
    (hs : p.info.derivedFrom = some s) (hin : S s) (hout : ¬ S p.info.name) :
    expand oc fuel d = .error .diverge := by
  unfold expand
  rw [hix, ok_bind, hd, mapM_cons, expandPeripheral_eq, hs]
  simp only
  rw [derivePeripheral_endless hix S hS fuel _ (by rw [mapInfo_info]; exact hout) s hin]
  rfl

end

/-- Three peripherals: the first refers to the second, the second and third to each other. -/
def circleDevice : Device := Sample.device
  [.single (Sample.peripheralInfo "A" 0x1000 (some "B")),
   .single (Sample.peripheralInfo "B" 0x2000 (some "C")),
   .single (Sample.peripheralInfo "C" 0x3000 (some "B"))]

/-- An array that refers to one of its own instances. -/
def instanceDevice : Device := Sample.device
  [.array (Sample.peripheralInfo "P%s" 0x1000 (some "P0")) (Sample.dim 2 0x100)]

/-- A cluster inside `C` derived from `C`: each level contains one more. -/
def ancestorDevice : Device := Sample.device
  [.single (Sample.peripheralInfo "P" 0x1000 none (some
    [.cluster (Sample.clusterHead "C" 0) none [.cluster (Sample.clusterHead "D" 4 (some "P.C")) none []]]))]

example (oc : Bool) (fuel : Nat) : expand oc fuel circleDevice = .error .diverge := by
  obtain ⟨ix, hix⟩ : ∃ ix, Index.create circleDevice = .ok ix := ⟨_, rfl⟩
  refine C39_violated oc fuel _ ix hix (fun s => s = "B".toList ∨ s = "C".toList) ?_ _ _ rfl _ rfl
    (.inl rfl) (by decide)
  rintro s (rfl | rfl)
  · exact ⟨_, _, mapGet_reverse.mp (by rfl), rfl, .inr rfl⟩
  · exact ⟨_, _, mapGet_reverse.mp (by rfl), rfl, .inl rfl⟩

example (oc : Bool) (fuel : Nat) : expand oc fuel instanceDevice = .error .diverge := by
  obtain ⟨ix, hix⟩ : ∃ ix, Index.create instanceDevice = .ok ix := ⟨_, rfl⟩
  refine C39_violated oc fuel _ ix hix (fun s => s = "P0".toList) ?_ _ _ rfl _ rfl rfl (by decide)
  rintro s rfl
  exact ⟨_, _, mapGet_reverse.mp (by rfl), rfl, rfl⟩

/-- The index of `ancestorDevice`. -/
def ancestorIndex : Index :=
  match Index.create ancestorDevice with
  | .ok ix => ix
  | .error _ => {}

theorem ancestor_endless (oc : Bool) (n : Nat) :
    expandRC oc ancestorIndex n ⟨"P".toList, ["C".toList]⟩
      (.cluster (Sample.clusterHead "D" 4 (some "P.C")) none []) = .error .diverge := by
  induction n with
  | zero => rfl
  | succ n ih =>
    have hd : deriveCluster ancestorIndex (n + 1)
        (MaybeArray.mk' { Sample.clusterHead "D" 4 with children := [] } none) "P.C".toList
        ⟨"P".toList, ["C".toList]⟩ =
        .ok (.single { Sample.clusterHead "D" 4 with
          children := [.cluster (Sample.clusterHead "D" 4 (some "P.C")) none []] },
          some ⟨"P".toList, ["C".toList]⟩) := rfl
    unfold expandRC
    have h1 : (Sample.clusterHead "D" 4 (some "P.C")).derivedFrom = some "P.C".toList := rfl
    simp only [h1]
    erw [hd, ok_bind]
    simp only [MaybeArray.info, Option.getD_some, mapM_cons]
    rw [ih]
    rfl

/-- **C39 is violated**: a cluster derived from the cluster it is in. -/
theorem C39_violated_ancestor (oc : Bool) (fuel : Nat) : expand oc fuel ancestorDevice = .error .diverge := by
  have hix : Index.create ancestorDevice = .ok ancestorIndex := rfl
  unfold expand
  rw [hix, ok_bind]
  have hc : expandRC oc ancestorIndex fuel ⟨"P".toList, []⟩ (.cluster (Sample.clusterHead "C" 0) none
      [.cluster (Sample.clusterHead "D" 4 (some "P.C")) none []]) = .error .diverge := by
    cases fuel with
    | zero => rfl
    | succ n =>
      unfold expandRC
      have h1 : (Sample.clusterHead "C" 0).derivedFrom = none := rfl
      simp only [h1]
      rw [ok_bind]
      simp only [MaybeArray.mk', MaybeArray.info, Option.getD_none, mapM_cons]
      erw [ancestor_endless oc n]
      rfl
  have hp : expandPeripheral oc ancestorIndex fuel (.single (Sample.peripheralInfo "P" 0x1000 none (some
      [.cluster (Sample.clusterHead "C" 0) none
        [.cluster (Sample.clusterHead "D" 4 (some "P.C")) none []]]))) = .error .diverge := by
    rw [expandPeripheral_eq]
    have h1 : (Sample.peripheralInfo "P" 0x1000 none (some
      [.cluster (Sample.clusterHead "C" 0) none
        [.cluster (Sample.clusterHead "D" 4 (some "P.C")) none []]])).derivedFrom = none := rfl
    simp only [MaybeArray.info, h1]
    rw [ok_bind]
    simp only [peripheralTail, MaybeArray.info, Sample.peripheralInfo, mapM_cons]
    erw [hc]
    rfl
  show ([_] : List Peripheral).mapM _ >>= _ = _
  rw [mapM_cons, hp]
  rfl

/-! ## Finding a numbering -/

/-- A check of a numbering of a given device. -/
def rankedCheck (d : Device) (rk : Ranks) : Bool :=
  ((allPeripherals namesOf d).all fun x => match x.2.info.derivedFrom with
    | none => true
    | some s => (allPeripherals namesOf d).all fun y =>
      !decide (y.1 = ⟨s, []⟩) || decide (rk.peripheral y.1 < rk.peripheral x.1)) &&
  ((allClusters namesOf d).all fun x =>
    decide (rk.block x.1 < rk.block ⟨x.1.peripheral, x.1.path.dropLast⟩) &&
    match x.2.info.derivedFrom with
    | none => true
    | some s => match BlockPath.parseStr s with
      | .error _ => true
      | .ok pd => (allClusters namesOf d).all fun y =>
        !decide (y.1 = (pd.1.getD ⟨x.1.peripheral, x.1.path.dropLast⟩).newCluster pd.2) ||
          decide (rk.block y.1 < rk.block x.1)) &&
  ((allRegisterPaths namesOf d).all fun x => match x.2.info.derivedFrom with
    | none => true
    | some s => match BlockPath.parseStr s with
      | .error _ => true
      | .ok pd => (allRegisterPaths namesOf d).all fun y =>
        !decide (y.1 = (pd.1.getD x.1.block).newRegister pd.2) ||
          decide (rk.register y.1 < rk.register x.1)) &&
  ((allFields namesOf d).all fun x => match x.2.info.derivedFrom with
    | none => true
    | some s => match FieldPath.parseStr s with
      | .error _ => true
      | .ok pd => (allFields namesOf d).all fun y =>
        !decide (y.1 = (pd.1.getD x.1.register).newField pd.2) ||
          decide (rk.field y.1 < rk.field x.1)) &&
  ((allEnums namesOf d).all fun x => match x.2.derivedFrom with
    | none => true
    | some s => (allEnums namesOf d).all fun y =>
      !decide (some y.1.name = (splitOn '.' s).getLast?) || decide (rk.enums y.1 < rk.enums x.1))

theorem ranked_of_check {d : Device} {rk : Ranks} (h : rankedCheck d rk = true) : Ranked d rk := by
  unfold rankedCheck at h
  simp only [Bool.and_eq_true, List.all_eq_true] at h
  obtain ⟨⟨⟨⟨h1, h2⟩, h3⟩, h4⟩, h5⟩ := h
  refine ⟨?_, ?_, ?_, ?_, ?_, ?_⟩
  · intro b p s t hp hs ht
    have := h1 (b, p) (mem_allPeripherals.mpr hp)
    simp only [hs, List.all_eq_true] at this
    simpa using this (⟨s, []⟩, t) (mem_allPeripherals.mpr ht)
  · intro b n c hc
    simpa using (h2 (_, c) (mem_allClusters.mpr hc)).1
  · intro b n c s b' m t hc hs hb ht
    have := (h2 (_, c) (mem_allClusters.mpr hc)).2
    obtain ⟨pd, hp, rfl, rfl⟩ := blockRef_iff.mp hb
    simp only [hs, hp, List.all_eq_true] at this
    simpa [BlockPath.newCluster] using this (_, t) (mem_allClusters.mpr ht)
  · intro q r s b m t hq hs hb ht
    have := h3 (_, r) (mem_allRegisterPaths.mpr hq)
    obtain ⟨pd, hp, rfl, rfl⟩ := blockRef_iff.mp hb
    simp only [hs, hp, List.all_eq_true] at this
    simpa [BlockPath.newRegister] using this (_, t) (mem_allRegisterPaths.mpr ht)
  · intro q r s b m t hq hs hb ht
    have := h4 (_, r) (mem_allFields.mpr hq)
    obtain ⟨pd, hp, rfl, rfl⟩ := fieldRef_iff.mp hb
    simp only [hs, hp, List.all_eq_true] at this
    simpa [RegisterPath.newField] using this (_, t) (mem_allFields.mpr ht)
  · intro q e s t x hq hs ht hx
    have := h5 (_, e) (mem_allEnums.mpr hq)
    simp only [hs, List.all_eq_true] at this
    have := this (_, x) (mem_allEnums.mpr hx)
    have hn : some t.name = (splitOn '.' s).getLast? := by
      rcases ht with ⟨h1, _, h2⟩ | ⟨v, h1, h2, _⟩
      · have : splitOn '.' s = [s] := split_dotted_iff.mpr
          ⟨by simp, (dotted_one s).symm, by simp [NoDots, h1]⟩
        rw [this, h2]; rfl
      · have : splitOn '.' s = v ++ [t.name] := split_dotted_iff.mpr ⟨by simp, h1, h2⟩
        rw [this, List.getLast?_concat]
    simpa [hn] using this

/-- References at every level: a peripheral, a cluster outside and one inside a cluster, a register, a
field and enumerated values. -/
def rankedDevice : Device := Sample.device
  [.single (Sample.peripheralInfo "A" 0x1000 (some "B")),
   .single (Sample.peripheralInfo "B" 0x2000 none (some
    [.cluster (Sample.clusterHead "C" 0) none
      [.cluster (Sample.clusterHead "D" 4 (some "B.E")) none []],
     .cluster (Sample.clusterHead "E" 0x10) none
      [.register (.single (Sample.registerInfo "R" 0 none (some
        [.single (Sample.fieldInfo "F" 0 none [Sample.evs (some "X"), Sample.evs (some "Y") (some "X")]),
         .single (Sample.fieldInfo "G" 1 (some "F"))]))),
       .register (.single (Sample.registerInfo "S" 4 (some "R")))]]))]
/-- A numbering for it. -/
def rankedNumbers : Ranks where
  peripheral b := if b.peripheral = "A".toList then 1 else 0
  block b := if b.path = [] then 5 else if b.path = ["C".toList] then 4 else
    if b.path = ["C".toList, "D".toList] then 3 else 2
  register q := if q.name = "S".toList then 1 else 0
  field q := if q.name = "G".toList then 1 else 0
  enums q := if q.name = "Y".toList then 1 else 0
example : Ranked rankedDevice rankedNumbers := ranked_of_check (by decide +kernel)
example : (expand true 6 rankedDevice).map sampleRegisters = .ok
    ((["A", "B"] : List String).map fun p => (p.toList,
      [("C_D_R".toList, 4), ("C_D_S".toList, 8), ("E_R".toList, 0x10), ("E_S".toList, 0x14)])) := by
  decide +kernel

-- The hypotheses of `C39_partial` can be met.
example (oc : Bool) : ∃ r, r ≠ .error .diverge ∧ ∃ N, ∀ n, N ≤ n → expand oc n rankedDevice = r :=
  C39_partial oc _ ⟨_, ranked_of_check (d := rankedDevice) (rk := rankedNumbers) (by decide +kernel)⟩

end Svd
