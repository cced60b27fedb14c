import Verif.Spec.Sample
import Verif.Props.Idempotent
import Verif.Lemmas.Fuel
import Verif.Lemmas.Refine
import Verif.Spec.Expanded

/-!
# C36: expanded registers are the hardware registers
-/

namespace Svd

open Spec

theorem pairs_mapM {α β : Type} {f : α → M β} {R : α → β → Prop} {l : List α} {l' : List β}
    (h : ∀ a ∈ l, ∀ b, f a = .ok b ↔ R a b) : l.mapM f = .ok l' ↔ Pairs R l l' := by
  induction l generalizing l' with
  | nil =>
    constructor
    · intro h; injection h with h; subst h; exact .nil
    · intro h; cases h; rfl
  | cons a l ih =>
    rw [mapM_cons]
    constructor
    · intro hm
      obtain ⟨b, hb, hm⟩ := bind_ok.mp hm
      obtain ⟨bs, hbs, hm⟩ := bind_ok.mp hm
      injection hm with hm; subst hm
      exact .cons ((h a (by simp) b).mp hb) ((ih fun a ha => h a (by simp [ha])).mp hbs)
    · intro hm
      cases hm with
      | cons h1 h2 =>
        rw [(h a (by simp) _).mpr h1, ok_bind, (ih fun a ha => h a (by simp [ha])).mpr h2]; rfl

theorem expandField_iff {ix : Index} {n : Nat} {b : RegisterPath} {f : Field} (h : FieldNoRef f)
    (l : List Field) : expandField true ix n b f = .ok l ↔ FieldExpanded f l := by
  obtain ⟨hd, he⟩ := h
  have hm : ∀ p, f.info.enumeratedValues.mapM (expandEv ix n p) = .ok f.info.enumeratedValues := by
    intro p
    rw [mapM_ok]
    refine List.map_congr_left fun e he' => ?_
    simp [expandEv, he e he']
  unfold expandField
  simp only [hd, ok_bind, Option.getD_none, hm]
  cases f with
  | single i =>
    constructor
    · intro h; injection h with h; subst h; exact .single
    · intro h; cases h; rfl
  | array i d =>
    simp only [MaybeArray.mapInfo, MaybeArray.info]
    constructor
    · intro h
      obtain ⟨l', hl, h⟩ := bind_ok.mp h
      injection h with h; subst h
      exact .array ((C21_fields _ _ _).mp hl)
    · intro h
      cases h with
      | array hl => rw [(C21_fields _ _ _).mpr hl]; rfl

theorem expandRegister_iff {ix : Index} {n : Nat} {b : BlockPath} {r : Register}
    (h : RegisterNoRef r) (rl : List RegisterCluster) :
    expandRegisterArray true ix n b r = .ok rl ↔
      ∃ l, RegisterExpanded r l ∧ rl = l.map fun i => .register (.single i) := by
  obtain ⟨hd, hf⟩ := h
  have hfs : ∀ p, ∀ o : Option (List Field),
      ((match r.info.fields with
        | some fs => do
          let l ← fs.mapM (expandField true ix n p)
          .ok (some l.flatten)
        | none => .ok none : M (Option (List Field))) = .ok o) ↔ FieldsExpanded r.info.fields o := by
    intro p o
    cases hl : r.info.fields with
    | none =>
      constructor
      · intro h; injection h with h; subst h; exact .none
      · intro h; cases h; rfl
    | some fs =>
      have hm := fun l' => pairs_mapM (l' := l') fun f hf' l =>
        expandField_iff (ix := ix) (n := n) (b := p) (hf fs hl f hf') l
      constructor
      · intro h
        obtain ⟨ll, hll, h⟩ := bind_ok.mp h
        injection h with h; subst h
        exact .some ((hm _).mp hll)
      · intro h
        cases h with
        | some h => exact bind_ok.mpr ⟨_, (hm _).mpr h, rfl⟩
  unfold expandRegisterArray
  simp only [hd, ok_bind, Option.getD_none]
  constructor
  · intro h
    obtain ⟨o, ho, h⟩ := bind_ok.mp h
    have ho := (hfs _ _).mp ho
    cases r with
    | single i =>
      injection h with h; subst h
      exact ⟨_, .single ho, rfl⟩
    | array i d =>
      obtain ⟨l, hl, h⟩ := bind_ok.mp h
      injection h with h; subst h
      exact ⟨_, .array ho ((C21_registers _ _ _).mp hl), rfl⟩
  · rintro ⟨l, hl, rfl⟩
    cases hl with
    | single ho => exact bind_ok.mpr ⟨_, (hfs _ _).mpr ho, rfl⟩
    | array ho hl =>
      refine bind_ok.mpr ⟨_, (hfs _ _).mpr ho, ?_⟩
      simp only [MaybeArray.mapInfo]
      rw [(C21_registers _ _ _).mpr hl]; rfl

theorem flattenChild_iff {c : ClusterInfo} {r : RegisterInfo} {y : RegisterCluster} :
    flattenChild true c (.register (.single r)) = .ok y ↔
      ∃ r', Placed c.name c.addressOffset.toNat r r' ∧ y = .register (.single r') := by
  unfold flattenChild addC arith Placed
  simp only [MaybeArray.info, MaybeArray.mapInfo]
  by_cases hfit : r.addressOffset.toNat + c.addressOffset.toNat < 2 ^ 32
  · rw [if_pos hfit, ok_bind]
    constructor
    · intro h
      injection h with h; subst h
      refine ⟨_, ⟨rfl, ?_, rfl⟩, rfl⟩
      simp only [BitVec.toNat_add]
      omega
    · rintro ⟨r', ⟨h1, h2, h3⟩, rfl⟩
      have : r'.addressOffset = r.addressOffset + c.addressOffset := by
        apply BitVec.eq_of_toNat_eq
        rw [h2, BitVec.toNat_add]
        omega
      rw [h1, this] at h3
      rw [h3]; rfl
  · rw [if_neg hfit]
    constructor
    · intro h; cases h
    · rintro ⟨r', ⟨_, h2, _⟩, _⟩
      have := r'.addressOffset.isLt
      omega

theorem expandCluster_iff {c : ClusterInfo} {l : List RegisterInfo}
    (hc : c.children = l.map fun i => .register (.single i)) (y : List RegisterCluster) :
    expandCluster true c = .ok y ↔
      ∃ l', Pairs (Placed c.name c.addressOffset.toNat) l l' ∧
        y = l'.map fun i => .register (.single i) := by
  unfold expandCluster
  rw [hc]
  clear hc
  induction l generalizing y with
  | nil =>
    constructor
    · intro h; injection h with h; subst h; exact ⟨[], .nil, rfl⟩
    · rintro ⟨l', hl, rfl⟩; cases hl; rfl
  | cons r l ih =>
    rw [List.map_cons, mapM_cons]
    constructor
    · intro h
      obtain ⟨b, hb, h⟩ := bind_ok.mp h
      obtain ⟨bs, hbs, h⟩ := bind_ok.mp h
      injection h with h; subst h
      obtain ⟨r', hr, rfl⟩ := flattenChild_iff.mp hb
      obtain ⟨l', hl, rfl⟩ := (ih _).mp hbs
      exact ⟨r' :: l', .cons hr hl, rfl⟩
    · rintro ⟨l', hl, rfl⟩
      cases hl with
      | cons h1 h2 =>
        rw [flattenChild_iff.mpr ⟨_, h1, rfl⟩, (ih _).mpr ⟨_, h2, rfl⟩]; rfl

theorem clusterAt_iff {i : ClusterInfo} {d : DimElement} {k : Nat} (hk : k < d.dim.toNat)
    {l : List RegisterInfo} (hc : i.children = l.map fun i => .register (.single i))
    (y : List RegisterCluster) :
    ((do let ci ← i.expandAt true d k; expandCluster true ci : M (List RegisterCluster)) = .ok y) ↔
      ∃ l', (∃ name off, ClusterPlace i.toClusterHead d k name off ∧ Pairs (Placed name off) l l') ∧
        y = l'.map fun i => .register (.single i) := by
  unfold ClusterInfo.expandAt ClusterPlace
  rw [nameAt_eq, descriptionAt_eq, indexAt_eq d hk, offsetAt_true _ _ hk]
  cases (indexList d)[k]? with
  | none => simp [panics]
  | some idx =>
    simp only [ok_bind, Option.some.injEq, exists_eq_left', ← nameFor_iff]
    split
    · next hlt =>
      simp only [ok_bind]
      rw [expandCluster_iff (by exact hc)]
      simp only [BitVec.toNat_ofNat, Nat.mod_eq_of_lt hlt]
      constructor
      · rintro ⟨l', h1, h2⟩
        exact ⟨l', ⟨_, _, ⟨rfl, rfl, hlt⟩, h1⟩, h2⟩
      · rintro ⟨l', ⟨_, _, ⟨rfl, rfl, _⟩, h1⟩, h2⟩
        exact ⟨l', h1, h2⟩
    · next hlt =>
      simp only [panics, error_bind, reduceCtorEq, false_iff]
      rintro ⟨_, ⟨_, _, ⟨_, h3, h4⟩, _⟩, _⟩
      exact hlt (h3 ▸ h4)

theorem forall_get_map {α β : Type} {g : α → β} {P : Nat → α → Prop} {ys : List β} :
    (∀ k y, ys[k]? = some y → ∃ a, P k a ∧ y = g a) ↔
      ∃ ls : List α, (∀ k a, ls[k]? = some a → P k a) ∧ ys = ls.map g := by
  constructor
  · intro h
    induction ys generalizing P with
    | nil => exact ⟨[], by simp, rfl⟩
    | cons y ys ih =>
      obtain ⟨a, ha, rfl⟩ := h 0 y rfl
      obtain ⟨ls, h1, rfl⟩ := ih (P := fun k => P (k + 1)) fun k y hk => h (k + 1) y hk
      refine ⟨a :: ls, fun k b hk => ?_, rfl⟩
      cases k with
      | zero => injection hk with hk; exact hk ▸ ha
      | succ k => exact h1 k b hk
  · rintro ⟨ls, h, rfl⟩ k y hk
    rw [List.getElem?_map] at hk
    obtain ⟨a, ha, rfl⟩ := Option.map_eq_some_iff.mp hk
    exact ⟨a, h k a ha, rfl⟩

theorem instances_map {α β : Type} {g : α → β} {P : Nat → α → Prop} {d : DimElement} {ys : List β} :
    Instances (fun k y => ∃ a, P k a ∧ y = g a) d ys ↔
      ∃ ls, Instances P d ls ∧ ys = ls.map g := by
  unfold Instances
  rw [forall_get_map]
  constructor
  · rintro ⟨h1, ls, h2, rfl⟩; exact ⟨ls, ⟨by simpa using h1, h2⟩, rfl⟩
  · rintro ⟨ls, ⟨h1, h2⟩, rfl⟩; exact ⟨by simpa using h1, ls, h2, rfl⟩

theorem flattenCluster_iff {h : ClusterHead} {dim : Option DimElement} {cs : List RegisterCluster}
    {l : List RegisterInfo} (hl : RcsExpanded cs l) (hcs : ∀ l', RcsExpanded cs l' → l' = l)
    (y : List RegisterCluster) :
    flattenCluster true (MaybeArray.mk'
        { h with children := l.map fun i => .register (.single i) } dim) = .ok y ↔
      ∃ l', RcExpanded (.cluster h dim cs) l' ∧ y = l'.map fun i => .register (.single i) := by
  cases dim with
  | none =>
    unfold flattenCluster MaybeArray.mk'
    rw [expandCluster_iff (l := l) rfl]
    constructor
    · rintro ⟨l', h1, h2⟩; exact ⟨l', .cluster hl h1, h2⟩
    · rintro ⟨l', h1, h2⟩
      cases h1 with
      | cluster h3 h4 => exact ⟨l', hcs _ h3 ▸ h4, h2⟩
  | some d =>
    unfold flattenCluster MaybeArray.mk'
    dsimp only
    have key := fun ys => expand_iff (d := d) (fun k hk y => clusterAt_iff (d := d) (k := k)
      (i := { h with children := l.map fun i => .register (.single i) }) hk (l := l) rfl y) ys
    constructor
    · intro hy
      obtain ⟨ys, hys, hy⟩ := bind_ok.mp hy
      injection hy with hy; subst hy
      obtain ⟨ls, h1, rfl⟩ := instances_map.mp ((key _).mp hys)
      exact ⟨ls.flatten, .clusters hl h1, by rw [List.map_flatten]⟩
    · rintro ⟨l', h1, rfl⟩
      cases h1 with
      | clusters h3 h4 =>
        rw [hcs _ h3] at h4
        refine bind_ok.mpr ⟨_, (key _).mpr (instances_map.mpr ⟨_, h4, rfl⟩), ?_⟩
        rw [List.map_flatten]

theorem map_register_inj {l l' : List RegisterInfo}
    (h : (l.map fun i => RegisterCluster.register (.single i)) = l'.map fun i => .register (.single i)) :
    l = l' := by
  refine (List.map_inj_right ?_).mp h
  intro a b hab
  injection hab with hab
  injection hab

mutual
theorem expandRC_iff : ∀ c : RegisterCluster, RcNoRef c → ∃ N, ∀ n, N ≤ n → ∀ ix b rl,
    (expandRC true ix n b c = .ok rl ↔
      ∃ l, RcExpanded c l ∧ rl = l.map fun i => .register (.single i))
  | .register r, h => by
    refine ⟨1, fun n hn ix b rl => ?_⟩
    obtain ⟨n, rfl⟩ : ∃ m, n = m + 1 := ⟨n - 1, by omega⟩
    rw [expandRC, expandRegister_iff (by unfold RcNoRef at h; exact h)]
    constructor
    · rintro ⟨l, h1, h2⟩; exact ⟨l, .register h1, h2⟩
    · rintro ⟨l, h1, h2⟩
      cases h1 with
      | register h1 => exact ⟨l, h1, h2⟩
  | .cluster hd dim cs, h => by
    unfold RcNoRef at h
    obtain ⟨N, hN⟩ := expandRCs_iff cs h.2
    refine ⟨N + 1, fun n hn ix b rl => ?_⟩
    obtain ⟨n, rfl⟩ : ∃ m, n = m + 1 := ⟨n - 1, by omega⟩
    have hN := fun b rl => hN n (by omega) ix b rl
    have hmk : ∀ i : ClusterInfo, (MaybeArray.mk' i dim).info = i := by intro i; cases dim <;> rfl
    have hmap : ∀ (i : ClusterInfo) f, (MaybeArray.mk' i dim).mapInfo f = MaybeArray.mk' (f i) dim := by
      intro i f; cases dim <;> rfl
    have e : ({ hd with derivedFrom := none } : ClusterHead) = hd := by rw [← h.1]
    rw [expandRC]
    simp only [h.1, ok_bind, Option.getD_none, hmk, hmap]
    have uniq : ∀ l, RcsExpanded cs l → ∀ l', RcsExpanded cs l' → l' = l := by
      intro l hl l' hl'
      obtain ⟨ys, h1, h2⟩ := (hN b _).mpr ⟨l, hl, rfl⟩
      obtain ⟨ys', h1', h2'⟩ := (hN b _).mpr ⟨l', hl', rfl⟩
      rw [h1] at h1'
      injection h1' with h1'
      subst h1'
      exact map_register_inj (h2'.trans h2.symm)
    constructor
    · intro hy
      obtain ⟨ys, hys, hy⟩ := bind_ok.mp hy
      obtain ⟨l, h1, h2⟩ := (hN _ _).mp ⟨ys, hys, rfl⟩
      rw [h2] at hy
      have := (flattenCluster_iff (h := { hd with derivedFrom := none }) (dim := dim) h1 (uniq l h1) rl).mp hy
      rw [e] at this
      exact this
    · rintro ⟨l', h1, rfl⟩
      have : ∃ l, RcsExpanded cs l := by cases h1 <;> exact ⟨_, by assumption⟩
      obtain ⟨l, hl⟩ := this
      obtain ⟨ys, hys, hy⟩ := (hN (b.newCluster hd.name) _).mpr ⟨l, hl, rfl⟩
      refine bind_ok.mpr ⟨ys, hys, ?_⟩
      rw [← hy]
      refine (flattenCluster_iff (h := { hd with derivedFrom := none }) (dim := dim) hl (uniq l hl) _).mpr
        ⟨l', ?_, rfl⟩
      rw [e]; exact h1
theorem expandRCs_iff : ∀ cs : List RegisterCluster, RcsNoRef cs → ∃ N, ∀ n, N ≤ n → ∀ ix b rl,
    ((∃ ys, cs.mapM (expandRC true ix n b) = .ok ys ∧ rl = ys.flatten) ↔
      ∃ l, RcsExpanded cs l ∧ rl = l.map fun i => .register (.single i))
  | [], _ => by
    refine ⟨0, fun n _ ix b rl => ?_⟩
    constructor
    · rintro ⟨ys, h1, rfl⟩
      injection h1 with h1; subst h1
      exact ⟨[], .nil, rfl⟩
    · rintro ⟨l, h1, rfl⟩
      cases h1
      exact ⟨[], rfl, rfl⟩
  | c :: cs, h => by
    unfold RcsNoRef at h
    obtain ⟨N, hN⟩ := expandRC_iff c h.1
    obtain ⟨N', hN'⟩ := expandRCs_iff cs h.2
    refine ⟨max N N', fun n hn ix b rl => ?_⟩
    have hN := hN n (by omega) ix b
    have hN' := hN' n (by omega) ix b
    rw [mapM_cons]
    constructor
    · rintro ⟨ys, h1, rfl⟩
      obtain ⟨y, hy, h1⟩ := bind_ok.mp h1
      obtain ⟨ys', hys, h1⟩ := bind_ok.mp h1
      injection h1 with h1; subst h1
      obtain ⟨l, hl, rfl⟩ := (hN _).mp hy
      obtain ⟨l', hl', e⟩ := (hN' _).mp ⟨_, hys, rfl⟩
      exact ⟨l ++ l', .cons hl hl', by simp [e]⟩
    · rintro ⟨l, h1, rfl⟩
      cases h1 with
      | @cons _ _ l1 _ h1 h2 =>
        obtain ⟨ys, hys, e⟩ := (hN' _).mpr ⟨_, h2, rfl⟩
        refine ⟨l1.map (fun i => .register (.single i)) :: ys, ?_, ?_⟩
        · rw [(hN _).mpr ⟨_, h1, rfl⟩, hys]; rfl
        · simp [e]
end

/-- What happens to a peripheral after its reference is resolved. -/
def peripheralTail (oc : Bool) (ix : Index) (n : Nat) (path : BlockPath) (p : Peripheral) :
    M (List Peripheral) := do
  let registers ← (match p.info.registers with
    | some rs => do
      let l ← rs.mapM (expandRC oc ix n path)
      .ok (some l.flatten)
    | none => .ok none : M (Option (List RegisterCluster)))
  match p.mapInfo fun i => { i with registers := registers } with
  | .single i => .ok [.single i]
  | .array i d => do
    let l ← PeripheralInfo.expand oc i d
    .ok (l.map .single)

theorem peripheralTail_iff (p : Peripheral) (hr : ∀ l, p.info.registers = some l → RcsNoRef l) :
    ∃ N, ∀ n, N ≤ n → ∀ ix path l,
      (peripheralTail true ix n path p = .ok l ↔ PeripheralExpanded p l) := by
  have hrs : ∃ N, ∀ n, N ≤ n → ∀ ix path, ∀ o : Option (List RegisterCluster),
      ((match p.info.registers with
        | some rs => do
          let l ← rs.mapM (expandRC true ix n path)
          .ok (some l.flatten)
        | none => .ok none : M (Option (List RegisterCluster))) = .ok o) ↔
      RegistersExpanded p.info.registers o := by
    cases hl : p.info.registers with
    | none =>
      refine ⟨0, fun n _ ix path o => ?_⟩
      constructor
      · intro h; injection h with h; subst h; exact .none
      · intro h; cases h; rfl
    | some cs =>
      obtain ⟨N, hN⟩ := expandRCs_iff cs (hr cs hl)
      refine ⟨N, fun n hn ix path o => ?_⟩
      constructor
      · intro h
        obtain ⟨ll, hll, h⟩ := bind_ok.mp h
        injection h with h; subst h
        obtain ⟨l, h1, h2⟩ := (hN n hn ix path _).mp ⟨_, hll, rfl⟩
        rw [h2]; exact .some h1
      · intro h
        cases h with
        | some h =>
          obtain ⟨ys, h1, h2⟩ := (hN n hn ix path _).mpr ⟨_, h, rfl⟩
          rw [h2]
          exact bind_ok.mpr ⟨_, h1, rfl⟩
  obtain ⟨N, hN⟩ := hrs
  refine ⟨N, fun n hn ix path l => ?_⟩
  have hrs := hN n hn ix
  unfold peripheralTail
  constructor
  · intro h
    obtain ⟨o, ho, h⟩ := bind_ok.mp h
    have ho := (hrs _ _).mp ho
    cases p with
    | single i =>
      injection h with h; subst h
      exact .single ho
    | array i d =>
      obtain ⟨l, hl, h⟩ := bind_ok.mp h
      injection h with h; subst h
      exact .array ho ((C21_peripherals _ _ _).mp hl)
  · intro hl
    cases hl with
    | single ho => exact bind_ok.mpr ⟨_, (hrs _ _).mpr ho, rfl⟩
    | array ho hl =>
      refine bind_ok.mpr ⟨_, (hrs _ _).mpr ho, ?_⟩
      simp only [MaybeArray.mapInfo]
      rw [(C21_peripherals _ _ _).mpr hl]; rfl

theorem expandPeripheral_iff (p : Peripheral) (h : PeripheralNoRef p) : ∃ N, ∀ n, N ≤ n → ∀ ix l,
    (expandPeripheral true ix n p = .ok l ↔ PeripheralExpanded p l) := by
  obtain ⟨hd, hr⟩ := h
  obtain ⟨N, hN⟩ := peripheralTail_iff p hr
  refine ⟨N, fun n hn ix l => ?_⟩
  unfold expandPeripheral
  simp only [hd, ok_bind, Option.getD_none]
  exact hN n hn ix _ l

theorem exists_bound {α : Type} {P : α → Nat → Prop} {l : List α}
    (h : ∀ a ∈ l, ∃ N, ∀ n, N ≤ n → P a n) : ∃ N, ∀ a ∈ l, ∀ n, N ≤ n → P a n := by
  induction l with
  | nil => exact ⟨0, by simp⟩
  | cons a l ih =>
    obtain ⟨N, hN⟩ := h a (by simp)
    obtain ⟨N', hN'⟩ := ih fun a ha => h a (by simp [ha])
    refine ⟨max N N', fun b hb n hn => ?_⟩
    rcases List.mem_cons.mp hb with rfl | hb
    · exact hN n (by omega)
    · exact hN' b hb n (by omega)

/-! ## The array descriptions of a device that expands are complete -/

theorem instances_enough {α : Type} {P : Nat → α → Prop} {d : DimElement} {l : List α}
    (h : Instances P d l) (hp : ∀ k a, P k a → ∃ idx, (indexList d)[k]? = some idx) :
    Spec.EnoughIndexes d := by
  intro il hil
  rcases Nat.eq_zero_or_pos d.dim.toNat with h0 | h0
  · omega
  · obtain ⟨a, ha⟩ : ∃ a, l[d.dim.toNat - 1]? = some a :=
      ⟨_, List.getElem?_eq_getElem (by rw [h.1]; omega)⟩
    obtain ⟨idx, hidx⟩ := hp _ _ (h.2 _ _ ha)
    have := (List.getElem?_eq_some_iff.mp hidx).1
    unfold indexList at this
    rw [hil] at this
    simp only at this
    omega

theorem fieldExpanded_parts {f : Field} {l : List Field} (h : FieldExpanded f l) :
    FieldParts (fun _ => True) Spec.EnoughIndexes f := by
  cases h with
  | single => exact ⟨trivial, trivial⟩
  | array h => exact ⟨trivial, instances_enough h fun _ _ ⟨idx, h, _⟩ => ⟨idx, h⟩⟩

theorem pairs_left {α β : Type} {R : α → β → Prop} {l : List α} {l' : List β} (h : Pairs R l l') :
    ∀ a ∈ l, ∃ b ∈ l', R a b := by
  induction h with
  | nil => simp
  | @cons a b as bs h _ ih =>
    intro x hx
    rcases List.mem_cons.mp hx with rfl | hx
    · exact ⟨b, by simp, h⟩
    · obtain ⟨y, hy, hr⟩ := ih x hx
      exact ⟨y, by simp [hy], hr⟩

theorem fieldsExpanded_parts {o o' : Option (List Field)} (h : FieldsExpanded o o') :
    ∀ l, o = some l → ∀ f ∈ l, FieldParts (fun _ => True) Spec.EnoughIndexes f := by
  rintro l rfl f hf
  cases h with
  | some h =>
    obtain ⟨_, _, h⟩ := pairs_left h f hf
    exact fieldExpanded_parts h

theorem registerExpanded_parts {r : Register} {l : List RegisterInfo} (h : RegisterExpanded r l) :
    RegisterParts (fun _ => True) Spec.EnoughIndexes r := by
  cases h with
  | single h => exact ⟨fieldsExpanded_parts h, trivial⟩
  | array h h' =>
    exact ⟨fieldsExpanded_parts h, instances_enough h' fun _ _ ⟨idx, h, _⟩ => ⟨idx, h⟩⟩

mutual
theorem rcExpanded_parts : ∀ (c : RegisterCluster) {l : List RegisterInfo}, RcExpanded c l →
    RcParts (fun _ => True) Spec.EnoughIndexes c
  | .register r, l, h => by
    cases h with
    | register h => unfold RcParts; exact registerExpanded_parts h
  | .cluster hd d cs, l, h => by
    unfold RcParts
    cases h with
    | cluster h => exact ⟨by simp, rcsExpanded_parts cs h⟩
    | clusters h h' =>
      refine ⟨fun x hx => ?_, rcsExpanded_parts cs h⟩
      injection hx with hx; subst hx
      exact instances_enough h' fun _ _ ⟨_, _, ⟨⟨idx, h, _⟩, _⟩, _⟩ => ⟨idx, h⟩
theorem rcsExpanded_parts : ∀ (cs : List RegisterCluster) {l : List RegisterInfo}, RcsExpanded cs l →
    RcsParts (fun _ => True) Spec.EnoughIndexes cs
  | [], _, _ => by unfold RcsParts; trivial
  | c :: cs, l, h => by
    cases h with
    | cons h h' => unfold RcsParts; exact ⟨rcExpanded_parts c h, rcsExpanded_parts cs h'⟩
end

theorem expanded_indexable {d d' : Device} (h : DeviceExpanded d d') : Indexable d := by
  obtain ⟨ls, h, _⟩ := h
  intro p hp
  obtain ⟨_, _, h⟩ := pairs_left h p hp
  have hr : ∀ {o o'}, RegistersExpanded o o' → ∀ l, o = some l →
      RcsParts (fun _ => True) Spec.EnoughIndexes l := by
    rintro o o' h l rfl
    cases h with
    | some h => exact rcsExpanded_parts l h
  cases h with
  | single h => exact ⟨hr h, trivial⟩
  | array h h' => exact ⟨hr h, instances_enough h' fun _ _ ⟨idx, h, _⟩ => ⟨idx, h⟩⟩

/-! ## Without overflow checks -/

theorem arith_refines {w : Nat} (oc : Bool) (c : Prop) [Decidable c] (x : BitVec w) :
    Refines (arith true c x) (arith oc c x) := by
  unfold arith
  split
  · exact .refl _
  · intro a h; cases h

theorem offsetAt_refines (oc : Bool) (b : U32) (d : DimElement) (k : Nat) :
    Refines (offsetAt true b d k) (offsetAt oc b d k) :=
  .bind (arith_refines _ _ _) fun _ _ => arith_refines _ _ _

theorem baseAddressAt_refines (oc : Bool) (b : U64) (d : DimElement) (k : Nat) :
    Refines (baseAddressAt true b d k) (baseAddressAt oc b d k) :=
  .bind (arith_refines _ _ _) fun _ _ => arith_refines _ _ _

theorem expandField_refines (oc : Bool) (ix : Index) (n : Nat) (b : RegisterPath) (f : Field) :
    Refines (expandField true ix n b f) (expandField oc ix n b f) := by
  unfold expandField
  refine .bind (.refl _) fun ff _ => .bind (.refl _) fun evs _ => ?_
  cases ff.1 with
  | single i => exact .refl _
  | array i d =>
    exact .bind (.mapM fun k _ => .bind (.refl _) fun _ _ => .bind (.refl _) fun _ _ =>
      .bind (offsetAt_refines _ _ _ _) fun _ _ => .refl _) fun _ _ => .refl _

theorem expandRegisterArray_refines (oc : Bool) (ix : Index) (n : Nat) (b : BlockPath) (r : Register) :
    Refines (expandRegisterArray true ix n b r) (expandRegisterArray oc ix n b r) := by
  unfold expandRegisterArray
  refine .bind (.refl _) fun rr _ => .bind ?_ fun fs _ => ?_
  · cases rr.1.info.fields
    · exact .refl _
    · exact .bind (.mapM fun _ _ => expandField_refines _ _ _ _ _) fun _ _ => .refl _
  · cases rr.1 with
    | single i => exact .refl _
    | array i d =>
      exact .bind (.mapM fun k _ => .bind (.refl _) fun _ _ => .bind (.refl _) fun _ _ =>
        .bind (.refl _) fun _ _ => .bind (offsetAt_refines _ _ _ _) fun _ _ => .refl _) fun _ _ => .refl _

theorem expandCluster_refines (oc : Bool) (c : ClusterInfo) :
    Refines (expandCluster true c) (expandCluster oc c) := by
  refine .mapM fun x _ => ?_
  unfold flattenChild
  cases x
  · exact .bind (arith_refines _ _ _) fun _ _ => .refl _
  · exact .refl _

theorem flattenCluster_refines (oc : Bool) (c : Cluster) :
    Refines (flattenCluster true c) (flattenCluster oc c) := by
  cases c with
  | single i => exact expandCluster_refines _ _
  | array i d =>
    exact .bind (.mapM fun k _ => .bind (.bind (.refl _) fun _ _ => .bind (.refl _) fun _ _ =>
      .bind (offsetAt_refines _ _ _ _) fun _ _ => .refl _) fun _ _ => expandCluster_refines _ _)
      fun _ _ => .refl _

theorem expandRC_refines (oc : Bool) (ix : Index) (n : Nat) (b : BlockPath) (c : RegisterCluster) :
    Refines (expandRC true ix n b c) (expandRC oc ix n b c) := by
  induction n generalizing b c with
  | zero => cases c <;> exact .refl _
  | succ n ih =>
    cases c with
    | register r => exact expandRegisterArray_refines _ _ _ _ _
    | cluster h d cs =>
      rw [expandRC, expandRC]
      exact .bind (.refl _) fun cc _ => .bind (.mapM fun c _ => ih _ c) fun _ _ =>
        flattenCluster_refines _ _

theorem expandPeripheral_refines (oc : Bool) (ix : Index) (n : Nat) (p : Peripheral) :
    Refines (expandPeripheral true ix n p) (expandPeripheral oc ix n p) := by
  unfold expandPeripheral
  refine .bind (.refl _) fun pp _ => .bind ?_ fun fs _ => ?_
  · cases pp.1.info.registers
    · exact .refl _
    · exact .bind (.mapM fun _ _ => expandRC_refines _ _ _ _ _) fun _ _ => .refl _
  · cases pp.1 with
    | single i => exact .refl _
    | array i d =>
      exact .bind (.mapM fun k _ => .bind (.refl _) fun _ _ => .bind (.refl _) fun _ _ =>
        .bind (.refl _) fun _ _ => .bind (baseAddressAt_refines _ _ _ _) fun _ _ => .refl _) fun _ _ => .refl _

/-- What expansion returns with overflow checks, it also returns without. -/
theorem expand_refines (oc : Bool) (n : Nat) (d : Device) : Refines (expand true n d) (expand oc n d) :=
  .bind (.refl _) fun _ _ => .bind (.mapM fun _ _ => expandPeripheral_refines _ _ _ _) fun _ _ => .refl _

/-! ## C36 -/

/-- **C36.** A device without `derivedFrom` expands to exactly the device described level by level, if
all addresses are representable; if not, it expands to nothing (overflow checks on). -/
theorem C36_exact (d d' : Device) (h : DeviceNoRef d) :
    (∃ fuel, expand true fuel d = .ok d') ↔ DeviceExpanded d d' := by
  obtain ⟨N, hN⟩ := exists_bound (l := d.peripherals) fun p hp => expandPeripheral_iff p (h p hp)
  have key : ∀ n, N ≤ n → ∀ ix ls, d.peripherals.mapM (expandPeripheral true ix n) = .ok ls ↔
      Pairs PeripheralExpanded d.peripherals ls :=
    fun n hn ix ls => pairs_mapM fun p hp l => hN p hp n hn ix l
  constructor
  · rintro ⟨fuel, hf⟩
    have hf := (expand_extends true (Nat.le_max_left fuel N) d).ok hf
    obtain ⟨ix, _, hf⟩ := bind_ok.mp hf
    obtain ⟨ls, hls, hf⟩ := bind_ok.mp hf
    injection hf with hf
    exact ⟨ls, (key _ (Nat.le_max_right _ _) ix ls).mp hls, hf.symm⟩
  · intro hd
    obtain ⟨ix, hix⟩ := (C43_builds d).mpr (expanded_indexable hd)
    obtain ⟨ls, hls, rfl⟩ := hd
    exact ⟨N, bind_ok.mpr ⟨ix, hix, bind_ok.mpr ⟨ls, (key N (Nat.le_refl _) ix ls).mpr hls, rfl⟩⟩⟩

/-- **C36.** The overflow checks make no difference to a device whose addresses are representable. -/
theorem C36_unchecked (oc : Bool) (d d' : Device) (h : DeviceNoRef d) (hd : DeviceExpanded d d') :
    ∃ fuel, ∀ n, fuel ≤ n → expand oc n d = .ok d' := by
  obtain ⟨fuel, hf⟩ := (C36_exact d d' h).mpr hd
  exact ⟨fuel, fun n hn => (expand_extends oc hn d).ok (expand_refines oc fuel d d' hf)⟩

/-! ### Register by register -/

/-- The register `r'` is `r` under the joined names and at the sum of the offsets of the way. -/
def Joined (way : List (Str × Nat)) (r r' : RegisterInfo) : Prop :=
  r'.name = "_".toList.intercalate (way.map (·.1)) ∧ r'.addressOffset.toNat = (way.map (·.2)).sum ∧
    r' = { r with name := r'.name, addressOffset := r'.addressOffset }

theorem leaf_ne {cs : List RegisterCluster} {way : List (Str × Nat)} {r : RegisterInfo}
    (h : Leaf cs way r) : way ≠ [] := by cases h <;> simp

theorem leaf_cons {c : RegisterCluster} {cs : List RegisterCluster} {way : List (Str × Nat)}
    {r : RegisterInfo} : Leaf (c :: cs) way r ↔ Leaf [c] way r ∨ Leaf cs way r := by
  constructor
  · intro h
    cases h with
    | register h1 h2 h3 =>
      rcases List.mem_cons.mp h1 with rfl | h1
      · exact .inl (.register (by simp) h2 h3)
      · exact .inr (.register h1 h2 h3)
    | cluster h1 h2 =>
      rcases List.mem_cons.mp h1 with rfl | h1
      · exact .inl (.cluster (by simp) h2)
      · exact .inr (.cluster h1 h2)
    | clusters h1 h2 h3 h4 =>
      rcases List.mem_cons.mp h1 with rfl | h1
      · exact .inl (.clusters (by simp) h2 h3 h4)
      · exact .inr (.clusters h1 h2 h3 h4)
  · rintro (h | h)
    · cases h with
      | register h1 h2 h3 => exact .register (by simp_all) h2 h3
      | cluster h1 h2 => exact .cluster (by simp_all) h2
      | clusters h1 h2 h3 h4 => exact .clusters (by simp_all) h2 h3 h4
    · cases h with
      | register h1 h2 h3 => exact .register (by simp_all) h2 h3
      | cluster h1 h2 => exact .cluster (by simp_all) h2
      | clusters h1 h2 h3 h4 => exact .clusters (by simp_all) h2 h3 h4

theorem pairs_right {α β : Type} {R : α → β → Prop} {l : List α} {l' : List β} (h : Pairs R l l') :
    ∀ b ∈ l', ∃ a ∈ l, R a b := by
  induction h with
  | nil => simp
  | @cons a b as bs h _ ih =>
    intro x hx
    rcases List.mem_cons.mp hx with rfl | hx
    · exact ⟨a, by simp, h⟩
    · obtain ⟨y, hy, hr⟩ := ih x hx
      exact ⟨y, by simp [hy], hr⟩

theorem joined_cons {name : Str} {off : Nat} {way : List (Str × Nat)} {r r1 r' : RegisterInfo}
    (hw : way ≠ []) (h : Joined way r r1) (hp : Placed name off r1 r') :
    Joined ((name, off) :: way) r r' := by
  obtain ⟨h1, h2, h3⟩ := h
  obtain ⟨h4, h5, h6⟩ := hp
  refine ⟨?_, ?_, ?_⟩
  · rw [h4, h1]
    obtain ⟨w, ws, rfl⟩ : ∃ w ws, way = w :: ws := by cases way; contradiction; exact ⟨_, _, rfl⟩
    simp [List.intercalate, List.append_assoc]
  · rw [h5, h2]; simp
  · rw [h6, h3]

theorem joined_uncons {name : Str} {off : Nat} {way : List (Str × Nat)} {r r' : RegisterInfo}
    (hw : way ≠ []) (h : Joined ((name, off) :: way) r r') :
    ∃ r1, Joined way r r1 ∧ Placed name off r1 r' := by
  obtain ⟨h1, h2, h3⟩ := h
  simp only [List.map_cons, List.sum_cons] at h2
  have hlt : (way.map (·.2)).sum < 2 ^ 32 := by have := r'.addressOffset.isLt; omega
  refine ⟨{ r with
    name := "_".toList.intercalate (way.map (·.1))
    addressOffset := BitVec.ofNat 32 (way.map (·.2)).sum }, ⟨rfl, ?_, rfl⟩, ?_, ?_, ?_⟩
  · simp only [BitVec.toNat_ofNat, Nat.mod_eq_of_lt hlt]
  · rw [h1]
    obtain ⟨w, ws, rfl⟩ : ∃ w ws, way = w :: ws := by cases way; contradiction; exact ⟨_, _, rfl⟩
    simp [List.intercalate, List.append_assoc]
  · rw [h2]; simp only [BitVec.toNat_ofNat, Nat.mod_eq_of_lt hlt]
  · rw [h3]

/-- A register is determined by the way. -/
theorem joined_unique {way : List (Str × Nat)} {r r1 r2 : RegisterInfo} (h1 : Joined way r r1)
    (h2 : Joined way r r2) : r1 = r2 := by
  rw [h1.2.2, h2.2.2, h1.1, h2.1, BitVec.eq_of_toNat_eq (h1.2.1.trans h2.2.1.symm)]

theorem placed_unique {name : Str} {off : Nat} {r r1 r2 : RegisterInfo} (h1 : Placed name off r r1)
    (h2 : Placed name off r r2) : r1 = r2 := by
  rw [h1.2.2, h2.2.2, h1.1, h2.1, BitVec.eq_of_toNat_eq (h1.2.1.trans h2.2.1.symm)]

theorem instances_get {α : Type} {P : Nat → α → Prop} {d : DimElement} {l : List α}
    (h : Instances P d l) {k : Nat} (hk : k < d.dim.toNat) : ∃ a ∈ l, P k a := by
  have hk : k < l.length := by rw [h.1]; exact hk
  exact ⟨l[k], List.getElem_mem hk, h.2 k _ (List.getElem?_eq_getElem hk)⟩

theorem instances_mem {α : Type} {P : Nat → α → Prop} {d : DimElement} {l : List α}
    (h : Instances P d l) {a : α} (ha : a ∈ l) : ∃ k < d.dim.toNat, P k a := by
  obtain ⟨k, hk, rfl⟩ := List.mem_iff_getElem.mp ha
  exact ⟨k, h.1 ▸ hk, h.2 k _ (List.getElem?_eq_getElem hk)⟩

theorem registerExpanded_unique {r : Register} {l l' : List RegisterInfo} (h : RegisterNoRef r)
    (h1 : RegisterExpanded r l) (h2 : RegisterExpanded r l') : l = l' := by
  have e1 := (expandRegister_iff (ix := {}) (n := 0) (b := ⟨[], []⟩) h _).mpr ⟨l, h1, rfl⟩
  have e2 := (expandRegister_iff (ix := {}) (n := 0) (b := ⟨[], []⟩) h _).mpr ⟨l', h2, rfl⟩
  rw [e1] at e2
  injection e2 with e2
  exact map_register_inj e2

theorem clusterPlace_unique {h : ClusterHead} {d : DimElement} {k : Nat} {n n' : Str} {o o' : Nat}
    (h1 : ClusterPlace h d k n o) (h2 : ClusterPlace h d k n' o') : n = n' ∧ o = o' := by
  obtain ⟨⟨i, hi, hn⟩, ho, _⟩ := h1
  obtain ⟨⟨j, hj, hn'⟩, ho', _⟩ := h2
  rw [hi] at hj
  injection hj with hj
  subst hj
  exact ⟨((nameFor_iff ..).mpr hn).symm.trans ((nameFor_iff ..).mpr hn'), ho.trans ho'.symm⟩

mutual
theorem rcLeaves : ∀ (c : RegisterCluster), RcNoRef c → ∀ {l : List RegisterInfo}, RcExpanded c l →
    ∀ r', r' ∈ l ↔ ∃ way r, Leaf [c] way r ∧ Joined way r r'
  | .register r, hr, l, h, r' => by
    cases h with
    | register h =>
      constructor
      · intro hm
        exact ⟨_, _, .register (by simp) h hm, by simp [List.intercalate], by simp, rfl⟩
      · rintro ⟨way, i, hl, hj⟩
        cases hl with
        | @register _ r2 l2 _ h1 h2 h3 =>
          simp only [List.mem_singleton, RegisterCluster.register.injEq] at h1
          subst h1
          unfold RcNoRef at hr
          rw [registerExpanded_unique hr h h2]
          have : Joined [(i.name, i.addressOffset.toNat)] i i :=
            ⟨by simp [List.intercalate], by simp, rfl⟩
          rw [joined_unique hj this]; exact h3
        | cluster h1 => simp at h1
        | clusters h1 => simp at h1
  | .cluster hd d cs, hr, l, h, r' => by
    unfold RcNoRef at hr
    cases h with
    | @cluster _ _ l0 _ h h' =>
      have ih := rcsLeaves cs hr.2 h
      constructor
      · intro hm
        obtain ⟨r1, h1, hp⟩ := pairs_right h' r' hm
        obtain ⟨way, r, hl, hj⟩ := (ih r1).mp h1
        exact ⟨_, r, .cluster (by simp) hl, joined_cons (leaf_ne hl) hj hp⟩
      · rintro ⟨way, r, hl, hj⟩
        cases hl with
        | register h1 => simp at h1
        | clusters h1 => simp at h1
        | @cluster _ _ _ way _ h1 h2 =>
          simp only [List.mem_singleton, RegisterCluster.cluster.injEq, true_and] at h1
          obtain ⟨rfl, rfl⟩ := h1
          obtain ⟨r1, hj1, hp⟩ := joined_uncons (leaf_ne h2) hj
          obtain ⟨r2, hr2, hp2⟩ := pairs_left h' r1 ((ih r1).mpr ⟨_, _, h2, hj1⟩)
          exact placed_unique hp hp2 ▸ hr2
    | @clusters _ dim _ l0 ls h h' =>
      have ih := rcsLeaves cs hr.2 h
      constructor
      · intro hm
        obtain ⟨l1, hl1, hm⟩ := List.mem_flatten.mp hm
        obtain ⟨k, hk, name, off, hpl, hps⟩ := instances_mem h' hl1
        obtain ⟨r1, h1, hp⟩ := pairs_right hps r' hm
        obtain ⟨way, r, hl, hj⟩ := (ih r1).mp h1
        exact ⟨_, r, .clusters (by simp) hk hpl hl, joined_cons (leaf_ne hl) hj hp⟩
      · rintro ⟨way, r, hl, hj⟩
        cases hl with
        | register h1 => simp at h1
        | cluster h1 => simp at h1
        | @clusters _ _ _ _ k name off way _ h1 hk hpl h2 =>
          simp only [List.mem_singleton, RegisterCluster.cluster.injEq, Option.some.injEq] at h1
          obtain ⟨rfl, rfl, rfl⟩ := h1
          obtain ⟨r1, hj1, hp⟩ := joined_uncons (leaf_ne h2) hj
          obtain ⟨l1, hl1, name', off', hpl', hps⟩ := instances_get h' hk
          obtain ⟨rfl, rfl⟩ := clusterPlace_unique hpl hpl'
          obtain ⟨r2, hr2, hp2⟩ := pairs_left hps r1 ((ih r1).mpr ⟨_, _, h2, hj1⟩)
          exact List.mem_flatten.mpr ⟨l1, hl1, placed_unique hp hp2 ▸ hr2⟩
theorem rcsLeaves : ∀ (cs : List RegisterCluster), RcsNoRef cs → ∀ {l : List RegisterInfo},
    RcsExpanded cs l → ∀ r', r' ∈ l ↔ ∃ way r, Leaf cs way r ∧ Joined way r r'
  | [], _, l, h, r' => by
    cases h
    constructor
    · simp
    · rintro ⟨way, r, hl, _⟩
      cases hl with
      | register h1 => simp at h1
      | cluster h1 => simp at h1
      | clusters h1 => simp at h1
  | c :: cs, hr, l, h, r' => by
    unfold RcsNoRef at hr
    cases h with
    | cons h h' =>
      rw [List.mem_append, rcLeaves c hr.1 h, rcsLeaves cs hr.2 h']
      simp only [leaf_cons (c := c) (cs := cs), or_and_right, exists_or]
end


/-- **C36.** The expanded registers of a peripheral are exactly those found by going down through
instances of the clusters to an instance of a register, named by joining the names of the instances
with underscores and located at the sum of their offsets. -/
theorem C36_registers (cs : List RegisterCluster) (l : List RegisterInfo) (hr : RcsNoRef cs)
    (h : RcsExpanded cs l) (r' : RegisterInfo) :
    r' ∈ l ↔ ∃ way r, Leaf cs way r ∧
      r'.name = "_".toList.intercalate (way.map (·.1)) ∧
      r'.addressOffset.toNat = (way.map (·.2)).sum ∧
      r' = { r with name := r'.name, addressOffset := r'.addressOffset } :=
  rcsLeaves cs hr h r'

-- A device with arrays at every level.
example : ∃ d', (expand true 5 Sample.nested).map sampleRegisters = .ok (sampleRegisters d') ∧
    DeviceExpanded Sample.nested d' := by
  have hn : DeviceNoRef Sample.nested := by
    unfold DeviceNoRef Sample.nested Sample.device
    simp only [List.mem_singleton, forall_eq]
    refine ⟨rfl, ?_⟩
    intro l hl
    simp only [MaybeArray.info, Sample.peripheralInfo, Option.some.injEq] at hl
    subst hl
    simp [RcsNoRef, RcNoRef, RegisterNoRef, FieldNoRef, MaybeArray.info, Sample.clusterHead,
      Sample.registerInfo, Sample.fieldInfo, Sample.evs]
  cases h : expand true 5 Sample.nested with
  | ok d' => exact ⟨d', rfl, (C36_exact _ d' hn).mp ⟨5, h⟩⟩
  | error e =>
    have : (match expand true 5 Sample.nested with | .ok _ => true | .error _ => false) = true := by
      decide +kernel
    rw [h] at this; cases this

-- The hypotheses of `C36_unchecked` can be met.
example : ∃ d', ∃ fuel, ∀ n, fuel ≤ n → expand false n Sample.nested = .ok d' := by
  have hn : DeviceNoRef Sample.nested := by
    simp [DeviceNoRef, PeripheralNoRef, RcsNoRef, RcNoRef, RegisterNoRef, FieldNoRef, Sample.nested, Sample.device,
      Sample.peripheralInfo, Sample.clusterHead, Sample.registerInfo, Sample.fieldInfo, Sample.evs, MaybeArray.info]
  obtain ⟨d', h⟩ := ok_of_isOk (x := expand true 5 Sample.nested) (by decide +kernel)
  exact ⟨d', C36_unchecked false _ _ hn ((C36_exact _ _ hn).mp ⟨5, h⟩)⟩

end Svd
