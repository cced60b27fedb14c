import Verif.Spec.Sample
import Verif.Props.Chain
import Verif.Spec.Full

/-!
# C56: expansion with references at any level
-/

namespace Svd

open Spec

set_option linter.unusedSectionVars false

/-! ## Following references, with the home of the children -/

theorem follows_inherits {κ α π σ : Type} {f : Nat → α → Str → κ → M (α × Option π)} {name : α → σ}
    {base : σ → κ → Str → κ → π → α → Prop} {ref : α → Option Str} {from' : α → α → α → Prop}
    {der : α → α → α} {childless : α → Prop} [DecidablePred childless]
    (hfrom : ∀ a o b, from' a o b ↔ b = der a o) (hname : ∀ a o, name (der a o) = name a)
    (h0 : ∀ a s k, f 0 a s k = .error .diverge)
    (hstep : ∀ n a s k r, f (n + 1) a s k = .ok r ↔ ∃ k' q o, base (name a) k s k' q o ∧
      match ref o with
      | some s' => f n (der a o) s' k' = .ok r
      | none => r = (der a o, if childless a then some q else none))
    (a : α) (s : Str) (k : κ) (b : α) (h : Option π) :
    (∃ n, f n a s k = .ok (b, h)) ↔ Inherits (base (name a)) ref from' childless k s a b h := by
  constructor
  · rintro ⟨n, hn⟩
    induction n generalizing a s k with
    | zero => rw [h0] at hn; cases hn
    | succ n ih =>
      obtain ⟨k', q, o, hb, hn⟩ := (hstep n a s k _).mp hn
      cases hr : ref o with
      | none =>
        rw [hr] at hn
        simp only [Prod.mk.injEq] at hn
        obtain ⟨rfl, rfl⟩ := hn
        split
        · next hc => exact .last hb hr ((hfrom _ _ _).mpr rfl) hc
        · next hc => exact .lastOwn hb hr ((hfrom _ _ _).mpr rfl) hc
      | some s' =>
        rw [hr] at hn
        have := ih _ _ _ hn
        rw [hname] at this
        exact .next hb hr ((hfrom _ _ _).mpr rfl) this
  · intro hi
    generalize hl : base (name a) = bs at hi
    induction hi with
    | @last k s k' q o a b hb hr hf hc =>
      subst hl
      rw [hfrom] at hf
      subst hf
      exact ⟨1, (hstep 0 _ _ _ _).mpr ⟨k', q, o, hb, by rw [hr]; simp [hc]⟩⟩
    | @lastOwn k s k' q o a b hb hr hf hc =>
      subst hl
      rw [hfrom] at hf
      subst hf
      exact ⟨1, (hstep 0 _ _ _ _).mpr ⟨k', q, o, hb, by rw [hr]; simp [hc]⟩⟩
    | @next k s k' q o s' a b c home hb hr hf _ ih =>
      subst hl
      rw [hfrom] at hf
      subst hf
      obtain ⟨n, hn⟩ := ih (by rw [hname])
      exact ⟨n + 1, (hstep n _ _ _ _).mpr ⟨k', q, o, hb, by rw [hr]; exact hn⟩⟩

theorem inherits_name {κ α π σ : Type} {name : α → σ} {base : κ → Str → κ → π → α → Prop}
    {ref : α → Option Str} {from' : α → α → α → Prop} {childless : α → Prop}
    (hname : ∀ a o b, from' a o b → name b = name a) {k : κ} {s : Str} {a b : α} {h : Option π}
    (hi : Inherits base ref from' childless k s a b h) : name b = name a := by
  induction hi with
  | last _ _ hf => exact hname _ _ _ hf
  | lastOwn _ _ hf => exact hname _ _ _ hf
  | next _ _ hf _ ih => exact ih.trans (hname _ _ _ hf)

/-! ## At some recursion depth -/

/-- More depth does not change the outcome. -/
def Steady {α : Type} (f : Nat → M α) : Prop := ∀ n, Extends (f n) (f (n + 1))

theorem Steady.le {α : Type} {f : Nat → M α} (h : Steady f) {m n : Nat} (hmn : m ≤ n) {a : α}
    (hm : f m = .ok a) : f n = .ok a := (extends_le h hmn).ok hm

theorem some_bind {α β : Type} {f : Nat → M α} {g : Nat → α → M β} (hf : Steady f)
    (hg : ∀ a, Steady fun n => g n a) (b : β) :
    (∃ n, (f n >>= g n) = .ok b) ↔ ∃ a, (∃ n, f n = .ok a) ∧ ∃ n, g n a = .ok b := by
  constructor
  · rintro ⟨n, hn⟩
    obtain ⟨a, h1, h2⟩ := bind_ok.mp hn
    exact ⟨a, ⟨n, h1⟩, n, h2⟩
  · rintro ⟨a, ⟨m, hm⟩, n, hn⟩
    exact ⟨max m n, bind_ok.mpr ⟨a, hf.le (Nat.le_max_left _ _) hm,
      (hg a).le (Nat.le_max_right _ _) hn⟩⟩

theorem some_then {α β : Type} {f : Nat → M α} {g : α → M β} {b : β} :
    (∃ n, (f n >>= g) = .ok b) ↔ ∃ a, (∃ n, f n = .ok a) ∧ g a = .ok b := by
  constructor
  · rintro ⟨n, hn⟩
    obtain ⟨a, h1, h2⟩ := bind_ok.mp hn
    exact ⟨a, ⟨n, h1⟩, h2⟩
  · rintro ⟨a, ⟨n, hn⟩, h⟩
    exact ⟨n, bind_ok.mpr ⟨a, hn, h⟩⟩

theorem some_mapM {α β : Type} {f : Nat → α → M β} (hf : ∀ a, Steady fun n => f n a) (l : List α)
    (l' : List β) :
    (∃ n, l.mapM (f n) = .ok l') ↔ Pairs (fun a b => ∃ n, f n a = .ok b) l l' := by
  induction l generalizing l' with
  | nil =>
    constructor
    · rintro ⟨n, hn⟩; injection hn with hn; subst hn; exact .nil
    · intro h; cases h; exact ⟨0, rfl⟩
  | cons a l ih =>
    constructor
    · rintro ⟨n, hn⟩
      rw [mapM_cons] at hn
      obtain ⟨b, hb, hn⟩ := bind_ok.mp hn
      obtain ⟨bs, hbs, hn⟩ := bind_ok.mp hn
      injection hn with hn; subst hn
      exact .cons ⟨n, hb⟩ ((ih _).mp ⟨n, hbs⟩)
    · intro h
      cases h with
      | cons h1 h2 =>
        obtain ⟨m, hm⟩ := h1
        obtain ⟨n, hn⟩ := (ih _).mpr h2
        refine ⟨max m n, ?_⟩
        rw [mapM_cons]
        exact bind_ok.mpr ⟨_, (hf a).le (Nat.le_max_left _ _) hm, bind_ok.mpr ⟨_,
          (Extends.mapM fun x _ => extends_le (hf x) (Nat.le_max_right m n)).ok hn, rfl⟩⟩

theorem pairs_congr {α β : Type} {R S : α → β → Prop} {l : List α} {l' : List β}
    (h : ∀ a ∈ l, ∀ b, R a b ↔ S a b) : Pairs R l l' ↔ Pairs S l l' := by
  induction l generalizing l' with
  | nil => constructor <;> (intro h; cases h; exact .nil)
  | cons a l ih =>
    have ih := fun l' => ih (l' := l') fun a ha => h a (by simp [ha])
    constructor
    · intro hp
      cases hp with
      | cons h1 h2 => exact .cons ((h a (by simp) _).mp h1) ((ih _).mp h2)
    · intro hp
      cases hp with
      | cons h1 h2 => exact .cons ((h a (by simp) _).mpr h1) ((ih _).mpr h2)

variable {d : Device} {ix : Index} (hix : Index.create d = .ok ix)
include hix

theorem derivePeripheral_full (a : Peripheral) (s : Str) (b : Peripheral) (h : Option BlockPath) :
    (∃ n, derivePeripheral ix n a s = .ok (b, h)) ↔
      Inherits (PeripheralBase namesOf d a.info.name) (fun p => p.info.derivedFrom) PeripheralFrom
        (fun p => p.info.registers = none) () s a b h := by
  have hl := (C43_last d ix hix).1
  refine follows_inherits (f := fun n p s (_ : Unit) => derivePeripheral ix n p s)
    (name := fun p => p.info.name) (base := fun self => PeripheralBase namesOf d self)
    (der := Peripheral.deriveFrom) (fun _ _ _ => peripheralFrom_iff) peripheral_name (fun _ _ _ => rfl)
    ?_ a s () b h
  intro n a s _ r
  rw [derivePeripheral_step]
  unfold PeripheralBase PeripheralLink
  simp only [Option.isNone_iff_eq_none]
  constructor
  · rintro ⟨o, h1, h2, h3⟩
    exact ⟨(), _, o, ⟨⟨h1, (hl _ _).mp h2⟩, rfl⟩, h3⟩
  · rintro ⟨_, _, o, ⟨⟨h1, h2⟩, rfl⟩, h3⟩
    exact ⟨o, h1, (hl _ _).mpr h2, h3⟩

theorem deriveCluster_full (a : Cluster) (s : Str) (k : BlockPath) (b : Cluster) (h : Option BlockPath) :
    (∃ n, deriveCluster ix n a s k = .ok (b, h)) ↔
      Inherits (ClusterBase namesOf d a.info.name) (fun p => p.info.derivedFrom) ClusterFrom
        (fun p => p.info.children = []) k s a b h := by
  have hl := (C43_last d ix hix).2.1
  refine follows_inherits (f := fun n p s k => deriveCluster ix n p s k)
    (name := fun p => p.info.name) (base := fun self => ClusterBase namesOf d self)
    (der := Cluster.deriveFrom) (fun _ _ _ => clusterFrom_iff) cluster_name (fun _ _ _ => rfl)
    ?_ a s k b h
  intro n a s k r
  rw [deriveCluster_step]
  unfold ClusterBase
  simp only [List.isEmpty_iff]
  constructor
  · rintro ⟨pd, o, h0, h1, h2, h3⟩
    exact ⟨_, _, o, ⟨_, blockRef_iff.mpr ⟨pd, h0, rfl, rfl⟩, h1, rfl, (hl _ _).mp h2⟩, h3⟩
  · rintro ⟨_, _, o, ⟨m, h0, h1, rfl, h2⟩, h3⟩
    obtain ⟨pd, hp, rfl, rfl⟩ := blockRef_iff.mp h0
    exact ⟨pd, o, hp, h1, (hl _ _).mpr h2, h3⟩

theorem deriveRegister_full (a : Register) (s : Str) (k : BlockPath) (b : Register)
    (h : Option RegisterPath) :
    (∃ n, deriveRegister ix n a s k = .ok (b, h)) ↔
      Inherits (RegisterBase namesOf d a.info.name) (fun p => p.info.derivedFrom) RegisterFrom
        (fun p => p.info.fields = none) k s a b h := by
  have hl := (C43_last d ix hix).2.2.1
  refine follows_inherits (f := fun n p s k => deriveRegister ix n p s k)
    (name := fun p => p.info.name) (base := fun self => RegisterBase namesOf d self)
    (der := Register.deriveFrom) (fun _ _ _ => registerFrom_iff) register_name (fun _ _ _ => rfl)
    ?_ a s k b h
  intro n a s k r
  rw [deriveRegister_step]
  unfold RegisterBase
  simp only [Option.isNone_iff_eq_none]
  constructor
  · rintro ⟨pd, o, h0, h1, h2, h3⟩
    exact ⟨_, _, o, ⟨_, blockRef_iff.mpr ⟨pd, h0, rfl, rfl⟩, h1, rfl, (hl _ _).mp h2⟩, h3⟩
  · rintro ⟨_, _, o, ⟨m, h0, h1, rfl, h2⟩, h3⟩
    obtain ⟨pd, hp, rfl, rfl⟩ := blockRef_iff.mp h0
    exact ⟨pd, o, hp, h1, (hl _ _).mpr h2, h3⟩

theorem deriveField_full (a : Field) (s : Str) (k : RegisterPath) (b : Field) (h : Option FieldPath) :
    (∃ n, deriveField ix n a s k = .ok (b, h)) ↔
      Inherits (FieldBase namesOf d a.info.name) (fun p => p.info.derivedFrom) FieldFrom
        (fun p => p.info.enumeratedValues = []) k s a b h := by
  have hl := (C43_last d ix hix).2.2.2.1
  refine follows_inherits (f := fun n p s k => deriveField ix n p s k)
    (name := fun p => p.info.name) (base := fun self => FieldBase namesOf d self)
    (der := Field.deriveFrom) (fun _ _ _ => fieldFrom_iff) field_name (fun _ _ _ => rfl)
    ?_ a s k b h
  intro n a s k r
  rw [deriveField_step]
  unfold FieldBase
  simp only [List.isEmpty_iff]
  constructor
  · rintro ⟨pd, o, h0, h1, h2, h3⟩
    exact ⟨_, _, o, ⟨_, fieldRef_iff.mpr ⟨pd, h0, rfl, rfl⟩, h1, rfl, (hl _ _).mp h2⟩, h3⟩
  · rintro ⟨_, _, o, ⟨m, h0, h1, rfl, h2⟩, h3⟩
    obtain ⟨pd, hp, rfl, rfl⟩ := fieldRef_iff.mp h0
    exact ⟨pd, o, hp, h1, (hl _ _).mpr h2, h3⟩

/-! ## Enumerated values and fields -/

theorem expandEv_full (b : FieldPath) (e q : EnumeratedValues) :
    (∃ n, expandEv ix n b e = .ok q) ↔ EnumsResolved namesOf d b e q := by
  unfold expandEv
  cases he : e.derivedFrom with
  | none =>
    constructor
    · rintro ⟨_, h⟩
      injection h with h
      exact h ▸ .own he
    · intro h
      cases h with
      | own _ => exact ⟨0, rfl⟩
      | derived h _ => rw [he] at h; cases h
  | some s =>
    have key := C37_enums d ix hix { e with derivedFrom := none } s b q
    constructor
    · rintro ⟨n, h⟩
      obtain ⟨⟨r, x⟩, h1, h⟩ := bind_ok.mp h
      injection h with h
      dsimp only at h
      subst h
      obtain ⟨es, h2, h3⟩ := key.mp ⟨n, x, h1⟩
      exact .derived he h2 h3
    · intro h
      cases h with
      | own h => rw [he] at h; cases h
      | derived h h2 h3 =>
        rw [he] at h
        injection h with h
        subst h
        obtain ⟨n, x, h1⟩ := key.mpr ⟨_, h2, h3⟩
        exact ⟨n, bind_ok.mpr ⟨_, h1, rfl⟩⟩

omit hix in
theorem expandEv_steady (b : FieldPath) (e : EnumeratedValues) : Steady fun n => expandEv ix n b e := by
  intro n
  dsimp only
  unfold expandEv
  cases e.derivedFrom
  · exact .refl _
  · exact .bind (deriveEnum_extends ..) fun _ => .refl _

/-- The first step of `expandField`. -/
def resolveField (ix : Index) (n : Nat) (b : RegisterPath) (f : Field) : M (Field × Option FieldPath) :=
  match f.info.derivedFrom with
  | some dpath => deriveField ix n (f.mapInfo fun i => { i with derivedFrom := none }) dpath b
  | none => .ok (f, none)

omit hix in
theorem resolveField_steady (b : RegisterPath) (f : Field) : Steady fun n => resolveField ix n b f := by
  intro n
  dsimp only
  unfold resolveField
  cases f.info.derivedFrom
  · exact .refl _
  · exact deriveField_extends ..

theorem resolveField_full (b : RegisterPath) (f q : Field) (home : FieldPath) :
    (∃ h, (∃ n, resolveField ix n b f = .ok (q, h)) ∧ home = h.getD (b.newField q.info.name)) ↔
      FieldResolved namesOf d b f q home := by
  unfold resolveField
  cases hd : f.info.derivedFrom with
  | none =>
    constructor
    · rintro ⟨h, ⟨_, h1⟩, rfl⟩
      injection h1 with h1
      injection h1 with h1 h2
      subst h1 h2
      exact .own hd
    · intro h
      cases h with
      | own => exact ⟨none, ⟨0, rfl⟩, rfl⟩
      | derived h => rw [hd] at h; cases h
  | some s =>
    have hn : (f.mapInfo fun i => { i with derivedFrom := none }).info.name = f.info.name := by
      rw [mapInfo_info]
    have key := deriveField_full hix (f.mapInfo fun i => { i with derivedFrom := none }) s b q
    rw [hn] at key
    constructor
    · rintro ⟨h, h1, rfl⟩
      have hi := (key h).mp h1
      have := inherits_name (name := fun f : Field => f.info.name) (fun _ _ _ h => h.1.name) hi
      rw [this, hn]
      exact .derived hd hi
    · intro h
      cases h with
      | own h => rw [hd] at h; cases h
      | derived h hi =>
        rw [hd] at h
        injection h with h
        subst h
        refine ⟨_, (key _).mpr hi, ?_⟩
        have := inherits_name (name := fun f : Field => f.info.name) (fun _ _ _ h => h.1.name) hi
        rw [this, hn]; rfl

omit hix in
/-- The last step of `expandField`. -/
theorem fieldInstances_iff (f : Field) (l : List Field) :
    ((match f with
      | .single i => .ok [.single i]
      | .array i d => do
        let l ← FieldInfo.expand true i d
        .ok (l.map .single) : M (List Field)) = .ok l) ↔ FieldExpanded f l := by
  cases f with
  | single i =>
    constructor
    · intro h; injection h with h; subst h; exact .single
    · intro h; cases h; rfl
  | array i d =>
    constructor
    · intro h
      obtain ⟨l', hl, h⟩ := bind_ok.mp h
      injection h with h; subst h
      exact .array ((C21_fields _ _ _).mp hl)
    · intro h
      cases h with
      | array hl => exact bind_ok.mpr ⟨_, (C21_fields _ _ _).mpr hl, rfl⟩

theorem expandField_full (b : RegisterPath) (f : Field) (l : List Field) :
    (∃ n, expandField true ix n b f = .ok l) ↔ FieldFull namesOf d b f l := by
  have step : ∀ n, expandField true ix n b f = (resolveField ix n b f >>= fun ff =>
      ff.1.info.enumeratedValues.mapM (expandEv ix n (ff.2.getD (b.newField ff.1.info.name))) >>=
        fun evs => match ff.1.mapInfo fun i => { i with enumeratedValues := evs } with
          | .single i => .ok [.single i]
          | .array i d => do
            let l ← FieldInfo.expand true i d
            .ok (l.map .single)) := fun _ => rfl
  simp only [step]
  refine Iff.trans (some_bind (resolveField_steady b f) (fun ff n => ?_) _) ?_
  · exact .bind (.mapM fun e _ => expandEv_steady _ e n) fun _ => .refl _
  unfold FieldFull
  constructor
  · rintro ⟨⟨f', h⟩, h1, h2⟩
    obtain ⟨evs, h3, h4⟩ := some_then.mp h2
    refine ⟨f', _, evs, (resolveField_full hix b f f' _).mp ⟨h, h1, rfl⟩, ?_, (fieldInstances_iff _ _).mp h4⟩
    exact (pairs_congr fun e _ q => expandEv_full hix _ e q).mp
      ((some_mapM (fun e => expandEv_steady _ e) _ _).mp h3)
  · rintro ⟨f', home, evs, h1, h2, h3⟩
    obtain ⟨h, hr, rfl⟩ := (resolveField_full hix b f f' home).mpr h1
    refine ⟨(f', h), hr, some_then.mpr ⟨evs, ?_, (fieldInstances_iff _ _).mpr h3⟩⟩
    exact (some_mapM (fun e => expandEv_steady _ e) _ _).mpr
      ((pairs_congr fun e _ q => expandEv_full hix _ e q).mpr h2)

/-! ## Registers -/

/-- The first step of `expandRegister`. -/
def resolveRegister (ix : Index) (n : Nat) (b : BlockPath) (f : Register) : M (Register × Option RegisterPath) :=
  match f.info.derivedFrom with
  | some dpath => deriveRegister ix n (f.mapInfo fun i => { i with derivedFrom := none }) dpath b
  | none => .ok (f, none)

omit hix in
theorem resolveRegister_steady (b : BlockPath) (f : Register) : Steady fun n => resolveRegister ix n b f := by
  intro n
  dsimp only
  unfold resolveRegister
  cases f.info.derivedFrom
  · exact .refl _
  · exact deriveRegister_extends ..

theorem resolveRegister_full (b : BlockPath) (f q : Register) (home : RegisterPath) :
    (∃ h, (∃ n, resolveRegister ix n b f = .ok (q, h)) ∧ home = h.getD (b.newRegister q.info.name)) ↔
      RegisterResolved namesOf d b f q home := by
  unfold resolveRegister
  cases hd : f.info.derivedFrom with
  | none =>
    constructor
    · rintro ⟨h, ⟨_, h1⟩, rfl⟩
      injection h1 with h1
      injection h1 with h1 h2
      subst h1 h2
      exact .own hd
    · intro h
      cases h with
      | own => exact ⟨none, ⟨0, rfl⟩, rfl⟩
      | derived h => rw [hd] at h; cases h
  | some s =>
    have hn : (f.mapInfo fun i => { i with derivedFrom := none }).info.name = f.info.name := by
      rw [mapInfo_info]
    have key := deriveRegister_full hix (f.mapInfo fun i => { i with derivedFrom := none }) s b q
    rw [hn] at key
    constructor
    · rintro ⟨h, h1, rfl⟩
      have hi := (key h).mp h1
      have := inherits_name (name := fun f : Register => f.info.name) (fun _ _ _ h => h.1.name) hi
      rw [this, hn]
      exact .derived hd hi
    · intro h
      cases h with
      | own h => rw [hd] at h; cases h
      | derived h hi =>
        rw [hd] at h
        injection h with h
        subst h
        refine ⟨_, (key _).mpr hi, ?_⟩
        have := inherits_name (name := fun f : Register => f.info.name) (fun _ _ _ h => h.1.name) hi
        rw [this, hn]; rfl

omit hix in
/-- The last step of `expandRegisterArray`. -/
theorem registerInstances_iff (r : Register) (rl : List RegisterCluster) :
    ((match r with
      | .single i => .ok [.register (.single i)]
      | .array i d => do
        let l ← RegisterInfo.expand true i d
        .ok (l.map fun i => .register (.single i)) : M (List RegisterCluster)) = .ok rl) ↔
      ∃ l, RegisterInstances r l ∧ rl = l.map fun i => .register (.single i) := by
  cases r with
  | single i =>
    constructor
    · intro h; injection h with h; subst h; exact ⟨_, .single, rfl⟩
    · rintro ⟨l, h, rfl⟩; cases h; rfl
  | array i d =>
    constructor
    · intro h
      obtain ⟨l', hl, h⟩ := bind_ok.mp h
      injection h with h; subst h
      exact ⟨_, .array ((C21_registers _ _ _).mp hl), rfl⟩
    · rintro ⟨l, h, rfl⟩
      cases h with
      | array hl => exact bind_ok.mpr ⟨_, (C21_registers _ _ _).mpr hl, rfl⟩

/-- The middle step of `expandRegisterArray`. -/
def expandFields (ix : Index) (n : Nat) (b : RegisterPath) (o : Option (List Field)) :
    M (Option (List Field)) :=
  match o with
  | some fs => do
    let l ← fs.mapM (expandField true ix n b)
    .ok (some l.flatten)
  | none => .ok none

omit hix in
theorem expandFields_steady (b : RegisterPath) (o : Option (List Field)) :
    Steady fun n => expandFields ix n b o := by
  intro n
  cases o
  · exact .refl _
  · exact .bind (.mapM fun f _ => expandField_extends ..) fun _ => .refl _

theorem expandFields_full (b : RegisterPath) (o o' : Option (List Field)) :
    (∃ n, expandFields ix n b o = .ok o') ↔ FieldsFull namesOf d b o o' := by
  cases o with
  | none =>
    constructor
    · rintro ⟨_, h⟩; injection h with h; subst h; exact .none
    · intro h; cases h; exact ⟨0, rfl⟩
  | some fs =>
    have key := fun ls => (some_mapM (f := fun n f => expandField true ix n b f)
      (fun f n => expandField_extends true ix n b f) fs ls).trans
      (pairs_congr fun f _ l => expandField_full hix b f l)
    constructor
    · rintro ⟨n, h⟩
      obtain ⟨ls, h1, h⟩ := bind_ok.mp h
      injection h with h; subst h
      exact .some ((key _).mp ⟨n, h1⟩)
    · intro h
      cases h with
      | some h =>
        obtain ⟨n, hn⟩ := (key _).mpr h
        exact ⟨n, bind_ok.mpr ⟨_, hn, rfl⟩⟩

theorem expandRegister_full (b : BlockPath) (r : Register) (rl : List RegisterCluster) :
    (∃ n, expandRegisterArray true ix n b r = .ok rl) ↔
      ∃ l, RegisterFull namesOf d b r l ∧ rl = l.map fun i => .register (.single i) := by
  have step : ∀ n, expandRegisterArray true ix n b r = (resolveRegister ix n b r >>= fun rr =>
      expandFields ix n (rr.2.getD (b.newRegister rr.1.info.name)) rr.1.info.fields >>=
        fun fs => match rr.1.mapInfo fun i => { i with fields := fs } with
          | .single i => .ok [.register (.single i)]
          | .array i d => do
            let l ← RegisterInfo.expand true i d
            .ok (l.map fun i => .register (.single i))) := fun _ => rfl
  simp only [step]
  refine Iff.trans (some_bind (resolveRegister_steady b r) (fun rr n => ?_) _) ?_
  · exact .bind (expandFields_steady _ _ n) fun _ => .refl _
  unfold RegisterFull
  constructor
  · rintro ⟨⟨r', h⟩, h1, h2⟩
    obtain ⟨fs, h3, h4⟩ := some_then.mp h2
    obtain ⟨l, h5, rfl⟩ := (registerInstances_iff _ _).mp h4
    exact ⟨l, ⟨r', _, fs, (resolveRegister_full hix b r r' _).mp ⟨h, h1, rfl⟩,
      (expandFields_full hix _ _ _).mp h3, h5⟩, rfl⟩
  · rintro ⟨l, ⟨r', home, fs, h1, h2, h3⟩, rfl⟩
    obtain ⟨h, hr, rfl⟩ := (resolveRegister_full hix b r r' home).mpr h1
    exact ⟨(r', h), hr, some_then.mpr
      ⟨fs, (expandFields_full hix _ _ _).mpr h2, (registerInstances_iff _ _).mpr ⟨l, h3, rfl⟩⟩⟩

/-! ## Clusters -/

/-- The first step of `expandCluster`. -/
def resolveCluster (ix : Index) (n : Nat) (b : BlockPath) (f : Cluster) : M (Cluster × Option BlockPath) :=
  match f.info.derivedFrom with
  | some dpath => deriveCluster ix n (f.mapInfo fun i => { i with derivedFrom := none }) dpath b
  | none => .ok (f, none)

omit hix in
theorem resolveCluster_steady (b : BlockPath) (f : Cluster) : Steady fun n => resolveCluster ix n b f := by
  intro n
  dsimp only
  unfold resolveCluster
  cases f.info.derivedFrom
  · exact .refl _
  · exact deriveCluster_extends ..

theorem resolveCluster_full (b : BlockPath) (f q : Cluster) (home : BlockPath) :
    (∃ h, (∃ n, resolveCluster ix n b f = .ok (q, h)) ∧ home = h.getD (b.newCluster q.info.name)) ↔
      ClusterResolved namesOf d b f q home := by
  unfold resolveCluster
  cases hd : f.info.derivedFrom with
  | none =>
    constructor
    · rintro ⟨h, ⟨_, h1⟩, rfl⟩
      injection h1 with h1
      injection h1 with h1 h2
      subst h1 h2
      exact .own hd
    · intro h
      cases h with
      | own => exact ⟨none, ⟨0, rfl⟩, rfl⟩
      | derived h => rw [hd] at h; cases h
  | some s =>
    have hn : (f.mapInfo fun i => { i with derivedFrom := none }).info.name = f.info.name := by
      rw [mapInfo_info]
    have key := deriveCluster_full hix (f.mapInfo fun i => { i with derivedFrom := none }) s b q
    rw [hn] at key
    constructor
    · rintro ⟨h, h1, rfl⟩
      have hi := (key h).mp h1
      have := inherits_name (name := fun f : Cluster => f.info.name) (fun _ _ _ h => h.1.name) hi
      rw [this, hn]
      exact .derived hd hi
    · intro h
      cases h with
      | own h => rw [hd] at h; cases h
      | derived h hi =>
        rw [hd] at h
        injection h with h
        subst h
        refine ⟨_, (key _).mpr hi, ?_⟩
        have := inherits_name (name := fun f : Cluster => f.info.name) (fun _ _ _ h => h.1.name) hi
        rw [this, hn]; rfl

omit hix in
theorem expandRC_cluster (n : Nat) (b : BlockPath) (h : ClusterHead) (dim : Option DimElement)
    (cs : List RegisterCluster) :
    expandRC true ix (n + 1) b (.cluster h dim cs) =
      (resolveCluster ix (n + 1) b (MaybeArray.mk' { h with children := cs } dim) >>= fun cc =>
        cc.1.info.children.mapM (expandRC true ix n (cc.2.getD (b.newCluster cc.1.info.name))) >>=
          fun l => flattenCluster true (cc.1.mapInfo fun i => { i with children := l.flatten })) := by
  rw [expandRC]
  unfold resolveCluster
  have hd : (MaybeArray.mk' ({ h with children := cs } : ClusterInfo) dim).info.derivedFrom =
      h.derivedFrom := by cases dim <;> rfl
  rw [hd]
  cases hr : h.derivedFrom with
  | none =>
    have e : ({ h with derivedFrom := none } : ClusterHead) = h := by rw [← hr]
    simp only [e]
  | some s =>
    have e : ((MaybeArray.mk' ({ h with children := cs } : ClusterInfo) dim).mapInfo fun i =>
        { i with derivedFrom := none }) =
        MaybeArray.mk' { h with derivedFrom := none, children := cs } dim := by cases dim <;> rfl
    rw [e]

omit hix in
theorem clusterInstances_iff (c : Cluster) (l : List RegisterInfo) (y : List RegisterCluster) :
    flattenCluster true (c.mapInfo fun i =>
        { i with children := l.map fun i => .register (.single i) }) = .ok y ↔
      ∃ l', ClusterInstances l c l' ∧ y = l'.map fun i => .register (.single i) := by
  cases c with
  | single i =>
    simp only [MaybeArray.mapInfo, flattenCluster]
    rw [expandCluster_iff (l := l) rfl]
    constructor
    · rintro ⟨l', h1, h2⟩; exact ⟨l', .single h1, h2⟩
    · rintro ⟨l', h1, h2⟩
      cases h1 with
      | single h1 => exact ⟨l', h1, h2⟩
  | array i d =>
    simp only [MaybeArray.mapInfo, flattenCluster]
    have key := fun ys => expand_iff (d := d) (fun k hk y => clusterAt_iff (d := d) (k := k)
      (i := { i with children := l.map fun i => .register (.single i) }) hk (l := l) rfl y) ys
    constructor
    · intro hy
      obtain ⟨ys, hys, hy⟩ := bind_ok.mp hy
      injection hy with hy; subst hy
      obtain ⟨ls, h1, rfl⟩ := instances_map.mp ((key _).mp hys)
      exact ⟨ls.flatten, .array h1, by rw [List.map_flatten]⟩
    · rintro ⟨l', h1, rfl⟩
      cases h1 with
      | array h4 =>
        refine bind_ok.mpr ⟨_, (key _).mpr (instances_map.mpr ⟨_, h4, rfl⟩), ?_⟩
        rw [List.map_flatten]

omit hix in
theorem rcsFull_of {f : RegisterCluster → M (List RegisterCluster)} {b : BlockPath}
    {cs : List RegisterCluster} {ys : List (List RegisterCluster)}
    (h : ∀ c ∈ cs, ∀ y, f c = .ok y →
      ∃ l, RcFull namesOf d b c l ∧ y = l.map fun i => .register (.single i))
    (hm : cs.mapM f = .ok ys) :
    ∃ l, RcsFull namesOf d b cs l ∧ ys.flatten = l.map fun i => .register (.single i) := by
  induction cs generalizing ys with
  | nil => injection hm with hm; subst hm; exact ⟨[], .nil, rfl⟩
  | cons c cs ih =>
    rw [mapM_cons] at hm
    obtain ⟨y, hy, hm⟩ := bind_ok.mp hm
    obtain ⟨ys', hys, hm⟩ := bind_ok.mp hm
    injection hm with hm; subst hm
    obtain ⟨l, h1, rfl⟩ := h c (by simp) y hy
    obtain ⟨l', h2, h3⟩ := ih (fun c hc => h c (by simp [hc])) hys
    exact ⟨l ++ l', .cons h1 h2, by simp [h3]⟩

theorem expandRC_sound (n : Nat) : ∀ (b : BlockPath) (c : RegisterCluster) (rl : List RegisterCluster),
    expandRC true ix n b c = .ok rl →
      ∃ l, RcFull namesOf d b c l ∧ rl = l.map fun i => .register (.single i) := by
  induction n with
  | zero => intro b c rl h; cases c <;> cases h
  | succ n ih =>
    intro b c rl h
    cases c with
    | register r =>
      obtain ⟨l, h1, h2⟩ := (expandRegister_full hix b r rl).mp ⟨n + 1, h⟩
      exact ⟨l, .register h1, h2⟩
    | cluster hd dim cs =>
      rw [expandRC_cluster] at h
      obtain ⟨⟨c, home⟩, h1, h⟩ := bind_ok.mp h
      obtain ⟨ys, h2, h⟩ := bind_ok.mp h
      obtain ⟨l, h3, h4⟩ := rcsFull_of (fun c _ y => ih _ c y) h2
      rw [h4] at h
      obtain ⟨l', h5, rfl⟩ := (clusterInstances_iff _ _ _).mp h
      exact ⟨l', .cluster ((resolveCluster_full hix b _ c _).mp ⟨home, ⟨_, h1⟩, rfl⟩) h3 h5, rfl⟩

mutual
theorem expandRC_complete : ∀ {b : BlockPath} {c : RegisterCluster} {l : List RegisterInfo},
    RcFull namesOf d b c l →
      ∃ n, expandRC true ix n b c = .ok (l.map fun i => .register (.single i))
  | _, _, _, .register h => by
    obtain ⟨n, hn⟩ := (expandRegister_full hix _ _ _).mpr ⟨_, h, rfl⟩
    exact ⟨n + 1, (expandRegisterArray_extends true ix n _ _).ok hn⟩
  | _, _, _, .cluster h1 h2 h3 => by
    obtain ⟨n, ys, hn, hys⟩ := expandRCs_complete h2
    obtain ⟨home, ⟨m, hm⟩, rfl⟩ := (resolveCluster_full hix _ _ _ _).mpr h1
    refine ⟨max m n + 1, ?_⟩
    rw [expandRC_cluster]
    refine bind_ok.mpr ⟨_, (resolveCluster_steady _ _).le (by omega) hm, bind_ok.mpr ⟨ys, ?_, ?_⟩⟩
    · exact (Extends.mapM fun c _ => extends_le (fun n => expandRC_extends true ix n _ c)
        (Nat.le_max_right m n)).ok hn
    · rw [hys]
      exact (clusterInstances_iff _ _ _).mpr ⟨_, h3, rfl⟩
theorem expandRCs_complete : ∀ {b : BlockPath} {cs : List RegisterCluster} {l : List RegisterInfo},
    RcsFull namesOf d b cs l →
      ∃ n ys, cs.mapM (expandRC true ix n b) = .ok ys ∧ ys.flatten = l.map fun i => .register (.single i)
  | _, _, _, .nil => ⟨0, [], rfl, rfl⟩
  | _, _, _, .cons (l := l) h1 h2 => by
    obtain ⟨m, hm⟩ := expandRC_complete h1
    obtain ⟨n, ys, hn, hys⟩ := expandRCs_complete h2
    refine ⟨max m n, (l.map fun i => .register (.single i)) :: ys, ?_,
      by rw [List.flatten_cons, hys, ← List.map_append]⟩
    rw [mapM_cons]
    exact bind_ok.mpr ⟨_, (extends_le (fun n => expandRC_extends true ix n _ _)
      (Nat.le_max_left m n)).ok hm, bind_ok.mpr ⟨ys, (Extends.mapM fun c _ => extends_le
        (fun n => expandRC_extends true ix n _ c) (Nat.le_max_right m n)).ok hn, rfl⟩⟩
end

/-! ## Peripherals -/

/-- The first step of `expandPeripheral`. -/
def resolvePeripheral (ix : Index) (n : Nat) (f : Peripheral) : M (Peripheral × Option BlockPath) :=
  match f.info.derivedFrom with
  | some dpath => derivePeripheral ix n (f.mapInfo fun i => { i with derivedFrom := none }) dpath
  | none => .ok (f, none)

omit hix in
theorem resolvePeripheral_steady (f : Peripheral) : Steady fun n => resolvePeripheral ix n f := by
  intro n
  dsimp only
  unfold resolvePeripheral
  cases f.info.derivedFrom
  · exact .refl _
  · exact derivePeripheral_extends ..

theorem resolvePeripheral_full (f q : Peripheral) (home : BlockPath) :
    (∃ h, (∃ n, resolvePeripheral ix n f = .ok (q, h)) ∧ home = h.getD (BlockPath.new q.info.name)) ↔
      PeripheralResolved namesOf d f q home := by
  unfold resolvePeripheral
  cases hd : f.info.derivedFrom with
  | none =>
    constructor
    · rintro ⟨h, ⟨_, h1⟩, rfl⟩
      injection h1 with h1
      injection h1 with h1 h2
      subst h1 h2
      exact .own hd
    · intro h
      cases h with
      | own => exact ⟨none, ⟨0, rfl⟩, rfl⟩
      | derived h => rw [hd] at h; cases h
  | some s =>
    have hn : (f.mapInfo fun i => { i with derivedFrom := none }).info.name = f.info.name := by
      rw [mapInfo_info]
    have key := derivePeripheral_full hix (f.mapInfo fun i => { i with derivedFrom := none }) s q
    rw [hn] at key
    constructor
    · rintro ⟨h, h1, rfl⟩
      have hi := (key h).mp h1
      have := inherits_name (name := fun f : Peripheral => f.info.name) (fun _ _ _ h => h.1.name) hi
      rw [this, hn]
      exact .derived hd hi
    · intro h
      cases h with
      | own h => rw [hd] at h; cases h
      | derived h hi =>
        rw [hd] at h
        injection h with h
        subst h
        refine ⟨_, (key _).mpr hi, ?_⟩
        have := inherits_name (name := fun f : Peripheral => f.info.name) (fun _ _ _ h => h.1.name) hi
        rw [this, hn]; rfl

omit hix in
/-- The last step of `expandPeripheral`. -/
theorem peripheralInstances_iff (p : Peripheral) (l : List Peripheral) :
    ((match p with
      | .single i => .ok [.single i]
      | .array i d => do
        let l ← PeripheralInfo.expand true i d
        .ok (l.map .single) : M (List Peripheral)) = .ok l) ↔ PeripheralInstances p l := by
  cases p with
  | single i =>
    constructor
    · intro h; injection h with h; subst h; exact .single
    · intro h; cases h; rfl
  | array i d =>
    constructor
    · intro h
      obtain ⟨l', hl, h⟩ := bind_ok.mp h
      injection h with h; subst h
      exact .array ((C21_peripherals _ _ _).mp hl)
    · intro h
      cases h with
      | array hl => exact bind_ok.mpr ⟨_, (C21_peripherals _ _ _).mpr hl, rfl⟩

/-- The middle step of `expandPeripheral`. -/
def expandRegisters (ix : Index) (n : Nat) (b : BlockPath) (o : Option (List RegisterCluster)) :
    M (Option (List RegisterCluster)) :=
  match o with
  | some rs => do
    let l ← rs.mapM (expandRC true ix n b)
    .ok (some l.flatten)
  | none => .ok none

omit hix in
theorem expandRegisters_steady (b : BlockPath) (o : Option (List RegisterCluster)) :
    Steady fun n => expandRegisters ix n b o := by
  intro n
  cases o
  · exact .refl _
  · exact .bind (.mapM fun f _ => expandRC_extends ..) fun _ => .refl _

theorem expandRegisters_full (b : BlockPath) (o o' : Option (List RegisterCluster)) :
    (∃ n, expandRegisters ix n b o = .ok o') ↔ RegistersFull namesOf d b o o' := by
  cases o with
  | none =>
    constructor
    · rintro ⟨_, h⟩; injection h with h; subst h; exact .none
    · intro h; cases h; exact ⟨0, rfl⟩
  | some cs =>
    constructor
    · rintro ⟨n, h⟩
      obtain ⟨ys, h1, h⟩ := bind_ok.mp h
      injection h with h; subst h
      obtain ⟨l, h2, h3⟩ := rcsFull_of (fun c _ y => expandRC_sound hix n b c y) h1
      rw [h3]
      exact .some h2
    · intro h
      cases h with
      | some h =>
        obtain ⟨n, ys, hn, hys⟩ := expandRCs_complete hix h
        exact ⟨n, bind_ok.mpr ⟨_, hn, by rw [hys]⟩⟩

theorem expandPeripheral_full (p : Peripheral) (l : List Peripheral) :
    (∃ n, expandPeripheral true ix n p = .ok l) ↔ PeripheralFull namesOf d p l := by
  have step : ∀ n, expandPeripheral true ix n p = (resolvePeripheral ix n p >>= fun pp =>
      expandRegisters ix n (pp.2.getD (BlockPath.new pp.1.info.name)) pp.1.info.registers >>=
        fun rs => match pp.1.mapInfo fun i => { i with registers := rs } with
          | .single i => .ok [.single i]
          | .array i d => do
            let l ← PeripheralInfo.expand true i d
            .ok (l.map .single)) := fun _ => rfl
  simp only [step]
  refine Iff.trans (some_bind (resolvePeripheral_steady p) (fun pp n => ?_) _) ?_
  · exact .bind (expandRegisters_steady _ _ n) fun _ => .refl _
  unfold PeripheralFull
  constructor
  · rintro ⟨⟨p', h⟩, h1, h2⟩
    obtain ⟨rs, h3, h4⟩ := some_then.mp h2
    exact ⟨p', _, rs, (resolvePeripheral_full hix p p' _).mp ⟨h, h1, rfl⟩,
      (expandRegisters_full hix _ _ _).mp h3, (peripheralInstances_iff _ _).mp h4⟩
  · rintro ⟨p', home, rs, h1, h2, h3⟩
    obtain ⟨h, hr, rfl⟩ := (resolvePeripheral_full hix p p' home).mpr h1
    exact ⟨(p', h), hr, some_then.mpr
      ⟨rs, (expandRegisters_full hix _ _ _).mpr h2, (peripheralInstances_iff _ _).mpr h3⟩⟩

/-! ## A device that expands can be indexed -/

omit hix

theorem inherits_keeps {κ α π : Type} {base : κ → Str → κ → π → α → Prop} {ref : α → Option Str}
    {from' : α → α → α → Prop} {childless : α → Prop} {P : α → Prop}
    (hP : ∀ a o b, from' a o b → P a → P b) {k : κ} {s : Str} {a b : α} {h : Option π}
    (hi : Inherits base ref from' childless k s a b h) (ha : P a) : P b := by
  induction hi with
  | last _ _ hf => exact hP _ _ _ hf ha
  | lastOwn _ _ hf => exact hP _ _ _ hf ha
  | next _ _ hf _ ih => exact ih (hP _ _ _ hf ha)

theorem mapInfo_dim {α : Type} {f : α → α} (a : MaybeArray α) : (a.mapInfo f).dim? = a.dim? := by
  cases a <;> rfl

theorem dimPart_of {α : Type} {D : DimElement → Prop} {a : MaybeArray α}
    (h : ∀ x, a.dim? = some x → D x) : DimPart D a := by
  cases a with
  | single => trivial
  | array i x => exact h x rfl

theorem fieldFull_parts {b : RegisterPath} {f : Field} {l : List Field}
    (h : FieldFull namesOf d b f l) : FieldParts (fun _ => True) EnoughIndexes f := by
  obtain ⟨f', home, evs, h1, _, h3⟩ := h
  refine ⟨trivial, dimPart_of fun x hx => ?_⟩
  have hk : f'.dim? = some x := by
    cases h1 with
    | own => exact hx
    | derived _ hi =>
      exact inherits_keeps (P := fun f : Field => f.dim? = some x) (fun _ _ _ h ha => h.2.1 x ha) hi
        ((mapInfo_dim f).trans hx)
  have := (fieldExpanded_parts h3).2
  cases f' with
  | single => cases hk
  | array i y => injection hk with hk; subst hk; exact this

theorem fieldsFull_parts {b : RegisterPath} {o o' : Option (List Field)}
    (h : FieldsFull namesOf d b o o') :
    ∀ l, o = some l → ∀ f ∈ l, FieldParts (fun _ => True) EnoughIndexes f := by
  rintro l rfl f hf
  cases h with
  | some h =>
    obtain ⟨_, _, h⟩ := pairs_left h f hf
    exact fieldFull_parts h

theorem registerFull_parts {b : BlockPath} {r : Register} {l : List RegisterInfo}
    (h : RegisterFull namesOf d b r l) : RegisterParts (fun _ => True) EnoughIndexes r := by
  obtain ⟨r', home, fs, h1, h2, h3⟩ := h
  refine ⟨fun l hl => fieldsFull_parts h2 l ?_, dimPart_of fun x hx => ?_⟩
  · cases h1 with
    | own => exact hl
    | derived _ hi =>
      refine inherits_keeps (P := fun f : Register => f.info.fields = some l)
        (fun _ _ _ h ha => h.1.fields.1 l ha) hi ?_
      rw [mapInfo_info]; exact hl
  · have hk : r'.dim? = some x := by
      cases h1 with
      | own => exact hx
      | derived _ hi =>
        exact inherits_keeps (P := fun f : Register => f.dim? = some x) (fun _ _ _ h ha => h.2.1 x ha) hi
          ((mapInfo_dim r).trans hx)
    cases r' with
    | single => cases hk
    | array i y =>
      injection hk with hk; subst hk
      cases h3 with
      | array h3 => exact instances_enough h3 fun _ _ ⟨idx, h, _⟩ => ⟨idx, h⟩

mutual
theorem rcFull_parts : ∀ (c : RegisterCluster) {b : BlockPath} {l : List RegisterInfo},
    RcFull namesOf d b c l → RcParts (fun _ => True) EnoughIndexes c
  | .register r, _, _, h => by
    cases h with
    | register h => unfold RcParts; exact registerFull_parts h
  | .cluster hd dim cs, b, _, h => by
    unfold RcParts
    cases h with
    | @cluster _ _ _ _ c home l _ h1 h2 h3 =>
      have hc : cs = [] ∨ c.info.children = cs := by
        by_cases hcs : cs = []
        · exact .inl hcs
        · right
          have h0 : (MaybeArray.mk' ({ hd with children := cs } : ClusterInfo) dim).info.children = cs := by
            cases dim <;> rfl
          cases h1 with
          | own => exact h0
          | derived _ hi =>
            refine inherits_keeps (P := fun f : Cluster => f.info.children = cs)
              (fun _ _ _ h ha => (h.1.children.1 (ha ▸ hcs)).trans ha) hi ?_
            rw [mapInfo_info]; exact h0
      refine ⟨fun x hx => ?_, ?_⟩
      · have h0 : (MaybeArray.mk' ({ hd with children := cs } : ClusterInfo) dim).dim? = some x := by
          subst hx; rfl
        have hk : c.dim? = some x := by
          cases h1 with
          | own => exact h0
          | derived _ hi =>
            exact inherits_keeps (P := fun f : Cluster => f.dim? = some x) (fun _ _ _ h ha => h.2.1 x ha) hi
              ((mapInfo_dim _).trans h0)
        cases c with
        | single => cases hk
        | array i y =>
          injection hk with hk; subst hk
          cases h3 with
          | array h3 => exact instances_enough h3 fun _ _ ⟨_, _, ⟨⟨idx, h, _⟩, _⟩, _⟩ => ⟨idx, h⟩
      · rcases hc with hc | hc
        · rw [hc]; unfold RcsParts; trivial
        · rw [hc] at h2; exact rcsFull_parts cs h2
theorem rcsFull_parts : ∀ (cs : List RegisterCluster) {b : BlockPath} {l : List RegisterInfo},
    RcsFull namesOf d b cs l → RcsParts (fun _ => True) EnoughIndexes cs
  | [], _, _, _ => by unfold RcsParts; trivial
  | c :: cs, _, _, h => by
    cases h with
    | cons h h' => unfold RcsParts; exact ⟨rcFull_parts c h, rcsFull_parts cs h'⟩
end

theorem full_indexable {d' : Device} (h : DeviceFull namesOf d d') : Indexable d := by
  obtain ⟨ls, h, _⟩ := h
  intro p hp
  obtain ⟨_, _, p', home, rs, h1, h2, h3⟩ := pairs_left h p hp
  refine ⟨fun l hl => ?_, dimPart_of fun x hx => ?_⟩
  · have hk : p'.info.registers = some l := by
      cases h1 with
      | own => exact hl
      | derived _ hi =>
        refine inherits_keeps (P := fun f : Peripheral => f.info.registers = some l)
          (fun _ _ _ h ha => h.1.registers.1 l ha) hi ?_
        rw [mapInfo_info]; exact hl
    rw [hk] at h2
    cases h2 with
    | some h2 => exact rcsFull_parts l h2
  · have hk : p'.dim? = some x := by
      cases h1 with
      | own => exact hx
      | derived _ hi =>
        exact inherits_keeps (P := fun f : Peripheral => f.dim? = some x) (fun _ _ _ h ha => h.2.1 x ha) hi
          ((mapInfo_dim p).trans hx)
    cases p' with
    | single => cases hk
    | array i y =>
      injection hk with hk; subst hk
      cases h3 with
      | array h3 => exact instances_enough h3 fun _ _ ⟨idx, h, _⟩ => ⟨idx, h⟩

/-! ## C56 -/

/-- **C56.** What a device with references at any level expands to, exactly (overflow checks on): each
element inherits along its chain of references, its children are expanded at their home, and arrays are
replaced by their instances; if there is no such result, expansion returns none at any depth. -/
theorem C56_expansion (d d' : Device) :
    (∃ fuel, expand true fuel d = .ok d') ↔ DeviceFull namesOf d d' := by
  constructor
  · rintro ⟨fuel, h⟩
    obtain ⟨ix, hix, h⟩ := bind_ok.mp h
    obtain ⟨ls, hls, h⟩ := bind_ok.mp h
    injection h with h
    exact ⟨ls, (pairs_congr fun p _ l => expandPeripheral_full hix p l).mp
      ((some_mapM (f := fun n p => expandPeripheral true ix n p)
        (fun p n => expandPeripheral_extends true ix n p) _ _).mp ⟨fuel, hls⟩), h.symm⟩
  · intro h
    obtain ⟨ix, hix⟩ := (C43_builds d).mpr (full_indexable h)
    obtain ⟨ls, h, rfl⟩ := h
    obtain ⟨n, hn⟩ := (some_mapM (f := fun n p => expandPeripheral true ix n p)
        (fun p n => expandPeripheral_extends true ix n p) _ _).mpr
      ((pairs_congr fun p _ l => expandPeripheral_full hix p l).mpr h)
    exact ⟨n, bind_ok.mpr ⟨ix, hix, bind_ok.mpr ⟨ls, hn, rfl⟩⟩⟩

/-- **C56.** The result does not depend on the overflow checks. -/
theorem C56_unchecked (oc : Bool) (d d' : Device) (h : DeviceFull namesOf d d') :
    ∃ fuel, ∀ n, fuel ≤ n → expand oc n d = .ok d' := by
  obtain ⟨fuel, hf⟩ := (C56_expansion d d').mpr h
  exact ⟨fuel, fun n hn => (expand_extends oc hn d).ok (expand_refines oc fuel d d' hf)⟩

/-- **C56.** There is at most one result. -/
theorem C56_unique (d d₁ d₂ : Device) (h₁ : DeviceFull namesOf d d₁) (h₂ : DeviceFull namesOf d d₂) :
    d₁ = d₂ := by
  obtain ⟨n₁, h₁⟩ := C56_unchecked true d d₁ h₁
  obtain ⟨n₂, h₂⟩ := C56_unchecked true d d₂ h₂
  have h := h₁ (max n₁ n₂) (by omega)
  rw [h₂ (max n₁ n₂) (by omega)] at h
  injection h with h
  exact h.symm

/-- **C56.** Without references this is the expansion described in C36. -/
theorem C56_no_references (d d' : Device) (h : DeviceNoRef d) :
    DeviceFull namesOf d d' ↔ DeviceExpanded d d' := by
  rw [← C56_expansion, C36_exact d d' h]

-- References of a peripheral, a cluster array, a register, a field and enumerated values at once.
def manyRefs : Device := Sample.device
  [.single (Sample.peripheralInfo "Q" 0x2000 (some "P")),
   .single (Sample.peripheralInfo "P" 0x1000 none (some
     [.cluster (Sample.clusterHead "D%s" 0x40 (some "C")) (some (Sample.dim 2 0x10)) [],
      .cluster (Sample.clusterHead "C" 0x20) none
        [.register (.single (Sample.registerInfo "R" 0 none (some
           [.single (Sample.fieldInfo "F" 0 none [Sample.evs (some "E") none
              [{ name := "on".toList, description := none, value := some 1, isDefault := none }]]),
            .single (Sample.fieldInfo "G" 1 (some "F")),
            .single (Sample.fieldInfo "H" 2 none [Sample.evs none (some "E")])]))),
         .register (.single (Sample.registerInfo "S" 4 (some "R")))]]))]
example : (expand true 6 manyRefs).map sampleRegisters = .ok
    ((["Q", "P"] : List String).map fun p => (p.toList,
      [("D0_R".toList, 0x40), ("D0_S".toList, 0x44), ("D1_R".toList, 0x50), ("D1_S".toList, 0x54),
       ("C_R".toList, 0x20), ("C_S".toList, 0x24)])) := by decide +kernel
-- Every register has three fields, and every field the enumerated value.
example : (expand true 6 manyRefs).map (fun d => d.peripherals.flatMap fun p =>
      (registersOf p.info.children).map fun r => r.info.fieldList.map fun f =>
        f.info.enumeratedValues.map fun e => e.values.map fun v => v.name) =
    .ok (List.replicate 12 (List.replicate 3 [["on".toList]])) := by decide +kernel
example : ∃ d', DeviceFull namesOf manyRefs d' := by
  have : (expand true 6 manyRefs).isOk = true := by decide +kernel
  cases h : expand true 6 manyRefs with
  | error e => rw [h] at this; cases this
  | ok d' => exact ⟨d', (C56_expansion _ _).mp ⟨6, h⟩⟩

/-- A derives from B, B from C; only B has registers, and S refers to R beside it. -/
def lostHome (last : Option String) : Device := Sample.device
  [.single (Sample.peripheralInfo "A" 0x1000 (some "B")),
   .single (Sample.peripheralInfo "B" 0x2000 last (some
     [.register (.single (Sample.registerInfo "R" 0)),
      .register (.single (Sample.registerInfo "S" 4 (some "R")))])),
   .single (Sample.peripheralInfo "C" 0x3000)]

/-- **C56.** Only the last element of a chain can become the home of the children: if the registers come
from an element in the middle, its relative references are not found. -/
theorem C56_home_lost : (∃ d', DeviceFull namesOf (lostHome none) d') ∧
    ¬ ∃ d', DeviceFull namesOf (lostHome (some "C")) d' := by
  constructor
  · have : (expand true 6 (lostHome none)).isOk = true := by decide +kernel
    cases h : expand true 6 (lostHome none) with
    | error e => rw [h] at this; cases this
    | ok d' => exact ⟨d', (C56_expansion _ _).mp ⟨6, h⟩⟩
  · rintro ⟨d', h⟩
    obtain ⟨n, hn⟩ := C56_unchecked true _ _ h
    have hn := hn (max n 6) (by omega)
    have e : (match expand true 6 (lostHome (some "C")) with
        | .error (.err _) => true
        | _ => false) = true := by decide +kernel
    cases h6 : expand true 6 (lostHome (some "C")) with
    | ok x => rw [h6] at e; cases e
    | error f =>
      have := (expand_extends true (Nat.le_max_right n 6) (lostHome (some "C"))).out
        (by intro hd; rw [hd] at e; cases e)
      rw [hn, h6] at this
      cases this

-- The hypotheses of `C56_unchecked` and `C56_unique` can be met: one device and no other, with overflow checks
-- and without.
example : ∃ d', DeviceFull namesOf manyRefs d' ∧ (∀ d₂, DeviceFull namesOf manyRefs d₂ → d₂ = d') ∧
    ∃ fuel, ∀ n, fuel ≤ n → expand false n manyRefs = .ok d' := by
  obtain ⟨d', h⟩ := ok_of_isOk (x := expand true 6 manyRefs) (by decide +kernel)
  have h := (C56_expansion _ _).mp ⟨6, h⟩
  exact ⟨d', h, fun d₂ h₂ => C56_unique _ _ _ h₂ h, C56_unchecked false _ _ h⟩

end Svd
