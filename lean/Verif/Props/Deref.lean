import Verif.Spec.Sample
import Verif.Props.Both
import Verif.Props.ExpandWrite
import Verif.Spec.Deref

/-!
# C69: expansion is following all references and then expanding a device without references
-/

namespace Svd

open Spec

namespace Deref

/-! ## Pairs -/

theorem pairs_split {α β γ : Type} {R : α → γ → Prop} {S : α → β → Prop} {T : β → γ → Prop} {l : List α} {m : List γ}
    (h : ∀ a ∈ l, ∀ c, R a c ↔ ∃ b, S a b ∧ T b c) : Pairs R l m ↔ ∃ k, Pairs S l k ∧ Pairs T k m := by
  induction l generalizing m with
  | nil =>
    constructor
    · intro hp; cases hp; exact ⟨[], .nil, .nil⟩
    · rintro ⟨k, h1, h2⟩; cases h1; cases h2; exact .nil
  | cons a l ih =>
    have ih := fun m => ih (m := m) fun a ha => h a (List.mem_cons_of_mem _ ha)
    constructor
    · intro hp
      cases hp with
      | cons h1 h2 =>
        obtain ⟨b, h3, h4⟩ := (h a List.mem_cons_self _).mp h1
        obtain ⟨k, h5, h6⟩ := (ih _).mp h2
        exact ⟨b :: k, .cons h3 h5, .cons h4 h6⟩
    · rintro ⟨k, h1, h2⟩
      cases h1 with
      | cons h3 h5 =>
        cases h2 with
        | cons h4 h6 => exact .cons ((h a List.mem_cons_self _).mpr ⟨_, h3, h4⟩) ((ih _).mpr ⟨_, h5, h6⟩)

section
variable {d : Device}

theorem field_split (b : RegisterPath) (f : Field) (l : List Field) :
    FieldFull namesOf d b f l ↔ ∃ g, FieldDeref namesOf d b f g ∧ FieldExpanded g l := by
  constructor
  · rintro ⟨f', home, evs, h1, h2, h3⟩
    exact ⟨_, ⟨f', home, evs, h1, h2, rfl⟩, h3⟩
  · rintro ⟨_, ⟨f', home, evs, h1, h2, rfl⟩, h3⟩
    exact ⟨f', home, evs, h1, h2, h3⟩

theorem fields_split (b : RegisterPath) (o o' : Option (List Field)) :
    FieldsFull namesOf d b o o' ↔ ∃ g, FieldsDeref namesOf d b o g ∧ FieldsExpanded g o' := by
  constructor
  · intro h
    cases h with
    | none => exact ⟨_, .none, .none⟩
    | some h =>
      obtain ⟨k, h1, h2⟩ := (pairs_split fun f _ l => field_split b f l).mp h
      exact ⟨_, .some h1, .some h2⟩
  · rintro ⟨g, h1, h2⟩
    cases h1 with
    | none => cases h2; exact .none
    | some h1 =>
      cases h2 with
      | some h2 => exact .some ((pairs_split fun f _ l => field_split b f l).mpr ⟨_, h1, h2⟩)

/-- Expanding a register is expanding its fields and then taking the instances. -/
theorem registerExpanded_iff (r : Register) (l : List RegisterInfo) :
    RegisterExpanded r l ↔ ∃ fs, FieldsExpanded r.info.fields fs ∧
      RegisterInstances (r.mapInfo fun i => { i with fields := fs }) l := by
  constructor
  · intro h
    cases h with
    | single h => exact ⟨_, h, .single⟩
    | array h h' => exact ⟨_, h, .array h'⟩
  · rintro ⟨fs, h, h'⟩
    cases r with
    | single i => cases h'; exact .single h
    | array i x => cases h' with | array h' => exact .array h h'

theorem register_split (b : BlockPath) (r : Register) (l : List RegisterInfo) :
    RegisterFull namesOf d b r l ↔ ∃ g, RegisterDeref namesOf d b r g ∧ RegisterExpanded g l := by
  constructor
  · rintro ⟨r', home, fs, h1, h2, h3⟩
    obtain ⟨g, h4, h5⟩ := (fields_split _ _ _).mp h2
    refine ⟨_, ⟨r', home, g, h1, h4, rfl⟩, (registerExpanded_iff _ _).mpr ⟨fs, ?_, ?_⟩⟩
    · rw [mapInfo_info]; exact h5
    · cases r' <;> exact h3
  · rintro ⟨_, ⟨r', home, g, h1, h4, rfl⟩, h⟩
    obtain ⟨fs, h5, h3⟩ := (registerExpanded_iff _ _).mp h
    rw [mapInfo_info] at h5
    refine ⟨r', home, fs, h1, (fields_split _ _ _).mpr ⟨g, h4, h5⟩, ?_⟩
    cases r' <;> exact h3

/-- Expanding a cluster is expanding its children and then taking the instances. -/
theorem clusterExpanded_iff (c : Cluster) (cs : List RegisterCluster) (l : List RegisterInfo) :
    RcExpanded (.cluster c.info.toClusterHead c.dim? cs) l ↔
      ∃ k, RcsExpanded cs k ∧ ClusterInstances k c l := by
  constructor
  · intro h
    cases c with
    | single i =>
      have h : RcExpanded (.cluster i.toClusterHead none cs) l := h
      cases h with
      | cluster h h' => exact ⟨_, h, .single h'⟩
    | array i x =>
      have h : RcExpanded (.cluster i.toClusterHead (some x) cs) l := h
      cases h with
      | clusters h1 h2 => exact ⟨_, h1, .array h2⟩
  · rintro ⟨k, h, h'⟩
    cases h' with
    | single h' => exact .cluster h h'
    | array h' => exact .clusters h h'

mutual
theorem rc_to : ∀ {b : BlockPath} {c : RegisterCluster} {l : List RegisterInfo}, RcFull namesOf d b c l →
    ∃ g, RcDeref namesOf d b c g ∧ RcExpanded g l
  | _, _, _, .register h => by
    obtain ⟨g, h1, h2⟩ := (register_split _ _ _).mp h
    exact ⟨_, .register h1, .register h2⟩
  | _, _, _, .cluster h1 h2 h3 => by
    obtain ⟨gs, h4, h5⟩ := rcs_to h2
    exact ⟨_, .cluster h1 h4, (clusterExpanded_iff _ _ _).mpr ⟨_, h5, h3⟩⟩
theorem rcs_to : ∀ {b : BlockPath} {cs : List RegisterCluster} {l : List RegisterInfo}, RcsFull namesOf d b cs l →
    ∃ gs, RcsDeref namesOf d b cs gs ∧ RcsExpanded gs l
  | _, _, _, .nil => ⟨_, .nil, .nil⟩
  | _, _, _, .cons h h' => by
    obtain ⟨g, h1, h2⟩ := rc_to h
    obtain ⟨gs, h3, h4⟩ := rcs_to h'
    exact ⟨_, .cons h1 h3, .cons h2 h4⟩
end

mutual
theorem rc_of : ∀ {b : BlockPath} {c g : RegisterCluster} {l : List RegisterInfo}, RcDeref namesOf d b c g →
    RcExpanded g l → RcFull namesOf d b c l
  | _, _, _, _, .register h1, h => by
    cases h with
    | register h => exact .register ((register_split _ _ _).mpr ⟨_, h1, h⟩)
  | _, _, _, _, .cluster h1 h4, h => by
    obtain ⟨k, h5, h3⟩ := (clusterExpanded_iff _ _ _).mp h
    exact .cluster h1 (rcs_of h4 h5) h3
theorem rcs_of : ∀ {b : BlockPath} {cs gs : List RegisterCluster} {l : List RegisterInfo}, RcsDeref namesOf d b cs gs →
    RcsExpanded gs l → RcsFull namesOf d b cs l
  | _, _, _, _, .nil, h => by cases h; exact .nil
  | _, _, _, _, .cons h1 h3, h => by
    cases h with
    | cons h2 h4 => exact .cons (rc_of h1 h2) (rcs_of h3 h4)
end

theorem registers_split (b : BlockPath) (o o' : Option (List RegisterCluster)) :
    RegistersFull namesOf d b o o' ↔ ∃ g, RegistersDeref namesOf d b o g ∧ RegistersExpanded g o' := by
  constructor
  · intro h
    cases h with
    | none => exact ⟨_, .none, .none⟩
    | some h =>
      obtain ⟨gs, h1, h2⟩ := rcs_to h
      exact ⟨_, .some h1, .some h2⟩
  · rintro ⟨g, h1, h2⟩
    cases h1 with
    | none => cases h2; exact .none
    | some h1 => cases h2 with | some h2 => exact .some (rcs_of h1 h2)

theorem peripheralExpanded_iff (p : Peripheral) (l : List Peripheral) :
    PeripheralExpanded p l ↔ ∃ rs, RegistersExpanded p.info.registers rs ∧
      PeripheralInstances (p.mapInfo fun i => { i with registers := rs }) l := by
  constructor
  · intro h
    cases h with
    | single h => exact ⟨_, h, .single⟩
    | array h h' => exact ⟨_, h, .array h'⟩
  · rintro ⟨fs, h, h'⟩
    cases p with
    | single i => cases h'; exact .single h
    | array i x => cases h' with | array h' => exact .array h h'

theorem peripheral_split (p : Peripheral) (l : List Peripheral) :
    PeripheralFull namesOf d p l ↔ ∃ g, PeripheralDeref namesOf d p g ∧ PeripheralExpanded g l := by
  constructor
  · rintro ⟨p', home, rs, h1, h2, h3⟩
    obtain ⟨g, h4, h5⟩ := (registers_split _ _ _).mp h2
    refine ⟨_, ⟨p', home, g, h1, h4, rfl⟩, (peripheralExpanded_iff _ _).mpr ⟨rs, ?_, ?_⟩⟩
    · rw [mapInfo_info]; exact h5
    · cases p' <;> exact h3
  · rintro ⟨_, ⟨p', home, g, h1, h4, rfl⟩, h⟩
    obtain ⟨rs, h5, h3⟩ := (peripheralExpanded_iff _ _).mp h
    rw [mapInfo_info] at h5
    refine ⟨p', home, rs, h1, (registers_split _ _ _).mpr ⟨g, h4, h5⟩, ?_⟩
    cases p' <;> exact h3

theorem device_split (d' : Device) :
    DeviceFull namesOf d d' ↔ ∃ g, DeviceDeref namesOf d g ∧ DeviceExpanded g d' := by
  constructor
  · rintro ⟨ls, h, rfl⟩
    obtain ⟨ps, h1, h2⟩ := (pairs_split fun p _ l => peripheral_split p l).mp h
    exact ⟨_, ⟨ps, h1, rfl⟩, ls, h2, rfl⟩
  · rintro ⟨_, ⟨ps, h1, rfl⟩, ls, h2, rfl⟩
    exact ⟨ls, (pairs_split fun p _ l => peripheral_split p l).mpr ⟨ps, h1, h2⟩, rfl⟩

end

/-! ## No references are left -/

theorem mapInfo_ref {α : Type} {ref : α → Option Str} {g : α → α} (h : ∀ i, ref (g i) = ref i) (x : MaybeArray α) :
    ref (x.mapInfo g).info = ref x.info := by
  rw [mapInfo_info, h]

section
variable {d : Device}

theorem enums_noRef {b : FieldPath} {e q : EnumeratedValues} (h : EnumsResolved namesOf d b e q) :
    q.derivedFrom = none := by
  cases h with
  | own h => exact h
  | derived _ hc hs =>
    clear hc
    have h0 : ({ e with derivedFrom := none } : EnumeratedValues).derivedFrom = none := rfl
    revert h0
    generalize { e with derivedFrom := none } = a at hs
    intro h0
    induction hs with
    | nil => exact h0
    | cons h1 _ ih => exact ih (h1.derivedFrom.trans h0)

theorem field_noRef {b : RegisterPath} {f f' : Field} {home : FieldPath} (h : FieldResolved namesOf d b f f' home) :
    f'.info.derivedFrom = none := by
  cases h with
  | own h => exact h
  | derived _ hi =>
    refine inherits_keeps (P := fun f : Field => f.info.derivedFrom = none) ?_ hi (by rw [mapInfo_info])
    exact fun _ _ _ h ha => h.1.derivedFrom.trans ha

theorem register_noRef {b : BlockPath} {f f' : Register} {home : RegisterPath}
    (h : RegisterResolved namesOf d b f f' home) : f'.info.derivedFrom = none := by
  cases h with
  | own h => exact h
  | derived _ hi =>
    refine inherits_keeps (P := fun f : Register => f.info.derivedFrom = none) ?_ hi (by rw [mapInfo_info])
    exact fun _ _ _ h ha => h.1.derivedFrom.trans ha

theorem cluster_noRef {b : BlockPath} {f f' : Cluster} {home : BlockPath}
    (h : ClusterResolved namesOf d b f f' home) : f'.info.derivedFrom = none := by
  cases h with
  | own h => exact h
  | derived _ hi =>
    refine inherits_keeps (P := fun f : Cluster => f.info.derivedFrom = none) ?_ hi (by rw [mapInfo_info])
    exact fun _ _ _ h ha => h.1.derivedFrom.trans ha

theorem peripheral_noRef {f f' : Peripheral} {home : BlockPath}
    (h : PeripheralResolved namesOf d f f' home) : f'.info.derivedFrom = none := by
  cases h with
  | own h => exact h
  | derived _ hi =>
    refine inherits_keeps (P := fun f : Peripheral => f.info.derivedFrom = none) ?_ hi (by rw [mapInfo_info])
    exact fun _ _ _ h ha => h.1.derivedFrom.trans ha

theorem fieldDeref_noRef {b : RegisterPath} {f g : Field} (h : FieldDeref namesOf d b f g) : FieldNoRef g := by
  obtain ⟨f', home, evs, h1, h2, rfl⟩ := h
  refine ⟨by rw [mapInfo_info]; exact field_noRef h1, ?_⟩
  rw [mapInfo_info]
  intro e he
  obtain ⟨a, _, ha⟩ := pairs_right h2 _ he
  exact enums_noRef ha

theorem fieldsDeref_noRef {b : RegisterPath} {o : Option (List Field)} {l : List Field}
    (h : FieldsDeref namesOf d b o (some l)) : ∀ f ∈ l, FieldNoRef f := by
  cases h with
  | some h =>
    intro f hf
    obtain ⟨a, _, ha⟩ := pairs_right h _ hf
    exact fieldDeref_noRef ha

theorem registerDeref_noRef {b : BlockPath} {r g : Register} (h : RegisterDeref namesOf d b r g) :
    RegisterNoRef g := by
  obtain ⟨r', home, fs, h1, h2, rfl⟩ := h
  refine ⟨by rw [mapInfo_info]; exact register_noRef h1, fun l hl => ?_⟩
  rw [mapInfo_info] at hl
  dsimp only at hl
  subst hl
  exact fieldsDeref_noRef h2

mutual
theorem rcDeref_noRef : ∀ {b : BlockPath} {c g : RegisterCluster}, RcDeref namesOf d b c g → RcNoRef g
  | _, _, _, .register h => registerDeref_noRef h
  | _, _, _, .cluster h h' => ⟨cluster_noRef h, rcsDeref_noRef h'⟩
theorem rcsDeref_noRef : ∀ {b : BlockPath} {cs gs : List RegisterCluster}, RcsDeref namesOf d b cs gs → RcsNoRef gs
  | _, _, _, .nil => trivial
  | _, _, _, .cons h h' => ⟨rcDeref_noRef h, rcsDeref_noRef h'⟩
end

theorem peripheralDeref_noRef {p g : Peripheral} (h : PeripheralDeref namesOf d p g) : PeripheralNoRef g := by
  obtain ⟨p', home, rs, h1, h2, rfl⟩ := h
  refine ⟨by rw [mapInfo_info]; exact peripheral_noRef h1, fun l hl => ?_⟩
  rw [mapInfo_info] at hl
  dsimp only at hl
  subst hl
  revert h2
  generalize p'.info.registers = o
  intro h2
  cases h2 with
  | some h2 => exact rcsDeref_noRef h2

theorem device_noRef {g : Device} (h : DeviceDeref namesOf d g) : DeviceNoRef g := by
  obtain ⟨ps, h1, rfl⟩ := h
  intro p hp
  obtain ⟨a, _, ha⟩ := pairs_right h1 _ hp
  exact peripheralDeref_noRef ha

/-! ## There is one result at most -/

theorem pairs_unique {α β : Type} {R : α → β → Prop} (h : ∀ a b c, R a b → R a c → b = c) :
    ∀ {l : List α} {m n : List β}, Pairs R l m → Pairs R l n → m = n
  | _, _, _, .nil, .nil => rfl
  | _, _, _, .cons h1 h2, .cons h3 h4 => by rw [h _ _ _ h1 h3, pairs_unique h h2 h4]

theorem lastAt_unique {κ α : Type} [DecidableEq κ] {l : List (κ × α)} {k : κ} {a b : α} (h : LastAt l k a)
    (h' : LastAt l k b) : a = b :=
  Option.some.inj ((mapGet_reverse.mpr h).symm.trans (mapGet_reverse.mpr h'))

theorem blockRef_unique {path : BlockPath} {s : Str} {b b' : BlockPath} {n n' : Str} (h : BlockRef path s b n)
    (h' : BlockRef path s b' n') : b = b' ∧ n = n' := by
  obtain ⟨pd, h1, rfl, rfl⟩ := blockRef_iff.mp h
  obtain ⟨pd', h2, rfl, rfl⟩ := blockRef_iff.mp h'
  rw [h1] at h2
  cases h2
  exact ⟨rfl, rfl⟩

theorem fieldRef_unique {path : RegisterPath} {s : Str} {b b' : RegisterPath} {n n' : Str} (h : FieldRef path s b n)
    (h' : FieldRef path s b' n') : b = b' ∧ n = n' := by
  obtain ⟨pd, h1, rfl, rfl⟩ := fieldRef_iff.mp h
  obtain ⟨pd', h2, rfl, rfl⟩ := fieldRef_iff.mp h'
  rw [h1] at h2
  cases h2
  exact ⟨rfl, rfl⟩

theorem inherits_unique {κ α π : Type} {base : κ → Str → κ → π → α → Prop} {ref : α → Option Str}
    {from' : α → α → α → Prop} {childless : α → Prop}
    (hb : ∀ {k s k₁ q₁ o₁ k₂ q₂ o₂}, base k s k₁ q₁ o₁ → base k s k₂ q₂ o₂ → k₁ = k₂ ∧ q₁ = q₂ ∧ o₁ = o₂)
    (hf : ∀ {a o b c}, from' a o b → from' a o c → b = c) {k : κ} {s : Str} {a b c : α} {h₁ h₂ : Option π}
    (h : Inherits base ref from' childless k s a b h₁) (h' : Inherits base ref from' childless k s a c h₂) :
    b = c ∧ h₁ = h₂ := by
  induction h with
  | last b1 r1 f1 c1 =>
    cases h' with
    | last b2 r2 f2 c2 =>
      obtain ⟨rfl, rfl, rfl⟩ := hb b1 b2
      exact ⟨hf f1 f2, rfl⟩
    | lastOwn b2 r2 f2 c2 => exact absurd c1 c2
    | next b2 r2 f2 i2 =>
      obtain ⟨rfl, rfl, rfl⟩ := hb b1 b2
      rw [r1] at r2
      cases r2
  | lastOwn b1 r1 f1 c1 =>
    cases h' with
    | last b2 r2 f2 c2 => exact absurd c2 c1
    | lastOwn b2 r2 f2 c2 =>
      obtain ⟨rfl, rfl, rfl⟩ := hb b1 b2
      exact ⟨hf f1 f2, rfl⟩
    | next b2 r2 f2 i2 =>
      obtain ⟨rfl, rfl, rfl⟩ := hb b1 b2
      rw [r1] at r2
      cases r2
  | next b1 r1 f1 i1 ih =>
    cases h' with
    | last b2 r2 f2 c2 =>
      obtain ⟨rfl, rfl, rfl⟩ := hb b1 b2
      rw [r1] at r2
      cases r2
    | lastOwn b2 r2 f2 c2 =>
      obtain ⟨rfl, rfl, rfl⟩ := hb b1 b2
      rw [r1] at r2
      cases r2
    | next b2 r2 f2 i2 =>
      obtain ⟨rfl, rfl, rfl⟩ := hb b1 b2
      rw [r1] at r2
      cases r2
      have := hf f1 f2
      subst this
      exact ih i2

theorem field_unique {b : RegisterPath} {f f₁ f₂ : Field} {h₁ h₂ : FieldPath} (h : FieldResolved namesOf d b f f₁ h₁)
    (h' : FieldResolved namesOf d b f f₂ h₂) : f₁ = f₂ ∧ h₁ = h₂ := by
  cases h with
  | own hr =>
    cases h' with
    | own _ => exact ⟨rfl, rfl⟩
    | derived hr' _ => rw [hr] at hr'; cases hr'
  | derived hr hi =>
    cases h' with
    | own hr' => rw [hr] at hr'; cases hr'
    | derived hr' hi' =>
      rw [hr] at hr'
      cases hr'
      obtain ⟨rfl, rfl⟩ := inherits_unique (base := FieldBase namesOf d f.info.name) (from' := FieldFrom) (by
        rintro k s k₁ q₁ o₁ k₂ q₂ o₂ ⟨n, a1, _, rfl, a2⟩ ⟨n', b1, _, rfl, b2⟩
        obtain ⟨rfl, rfl⟩ := fieldRef_unique a1 b1
        exact ⟨rfl, rfl, lastAt_unique a2 b2⟩)
        (fun a b => (fieldFrom_iff.mp a).trans (fieldFrom_iff.mp b).symm) hi hi'
      exact ⟨rfl, rfl⟩

theorem register_unique {b : BlockPath} {f f₁ f₂ : Register} {h₁ h₂ : RegisterPath}
    (h : RegisterResolved namesOf d b f f₁ h₁) (h' : RegisterResolved namesOf d b f f₂ h₂) : f₁ = f₂ ∧ h₁ = h₂ := by
  cases h with
  | own hr =>
    cases h' with
    | own _ => exact ⟨rfl, rfl⟩
    | derived hr' _ => rw [hr] at hr'; cases hr'
  | derived hr hi =>
    cases h' with
    | own hr' => rw [hr] at hr'; cases hr'
    | derived hr' hi' =>
      rw [hr] at hr'
      cases hr'
      obtain ⟨rfl, rfl⟩ := inherits_unique (base := RegisterBase namesOf d f.info.name) (from' := RegisterFrom) (by
        rintro k s k₁ q₁ o₁ k₂ q₂ o₂ ⟨n, a1, _, rfl, a2⟩ ⟨n', b1, _, rfl, b2⟩
        obtain ⟨rfl, rfl⟩ := blockRef_unique a1 b1
        exact ⟨rfl, rfl, lastAt_unique a2 b2⟩)
        (fun a b => (registerFrom_iff.mp a).trans (registerFrom_iff.mp b).symm) hi hi'
      exact ⟨rfl, rfl⟩

theorem cluster_unique {b : BlockPath} {f f₁ f₂ : Cluster} {h₁ h₂ : BlockPath}
    (h : ClusterResolved namesOf d b f f₁ h₁) (h' : ClusterResolved namesOf d b f f₂ h₂) : f₁ = f₂ ∧ h₁ = h₂ := by
  cases h with
  | own hr =>
    cases h' with
    | own _ => exact ⟨rfl, rfl⟩
    | derived hr' _ => rw [hr] at hr'; cases hr'
  | derived hr hi =>
    cases h' with
    | own hr' => rw [hr] at hr'; cases hr'
    | derived hr' hi' =>
      rw [hr] at hr'
      cases hr'
      obtain ⟨rfl, rfl⟩ := inherits_unique (base := ClusterBase namesOf d f.info.name) (from' := ClusterFrom) (by
        rintro k s k₁ q₁ o₁ k₂ q₂ o₂ ⟨n, a1, _, rfl, a2⟩ ⟨n', b1, _, rfl, b2⟩
        obtain ⟨rfl, rfl⟩ := blockRef_unique a1 b1
        exact ⟨rfl, rfl, lastAt_unique a2 b2⟩)
        (fun a b => (clusterFrom_iff.mp a).trans (clusterFrom_iff.mp b).symm) hi hi'
      exact ⟨rfl, rfl⟩

theorem peripheral_unique {f f₁ f₂ : Peripheral} {h₁ h₂ : BlockPath}
    (h : PeripheralResolved namesOf d f f₁ h₁) (h' : PeripheralResolved namesOf d f f₂ h₂) : f₁ = f₂ ∧ h₁ = h₂ := by
  cases h with
  | own hr =>
    cases h' with
    | own _ => exact ⟨rfl, rfl⟩
    | derived hr' _ => rw [hr] at hr'; cases hr'
  | derived hr hi =>
    cases h' with
    | own hr' => rw [hr] at hr'; cases hr'
    | derived hr' hi' =>
      rw [hr] at hr'
      cases hr'
      obtain ⟨rfl, rfl⟩ := inherits_unique (base := PeripheralBase namesOf d f.info.name) (from' := PeripheralFrom) (by
        rintro k s k₁ q₁ o₁ k₂ q₂ o₂ ⟨⟨_, a2⟩, rfl⟩ ⟨⟨_, b2⟩, rfl⟩
        exact ⟨rfl, rfl, lastAt_unique a2 b2⟩)
        (fun a b => (peripheralFrom_iff.mp a).trans (peripheralFrom_iff.mp b).symm) hi hi'
      exact ⟨rfl, rfl⟩

theorem enumRef_unique {path : FieldPath} {s : Str} {q q' : FieldPath} {n n' : Str} (h : EnumRef path s q n)
    (h' : EnumRef path s q' n') : q = q' ∧ n = n' := by
  obtain ⟨v, h1, h2, h3⟩ := h
  obtain ⟨v', h1', h2', h3'⟩ := h'
  have e := split_dotted_iff.mpr ⟨by simp, h1, h2⟩
  have e' := split_dotted_iff.mpr ⟨by simp, h1', h2'⟩
  rw [e] at e'
  obtain ⟨hv', en⟩ := List.append_inj' e' rfl
  injection en with en
  subst hv' en
  have hv : v ≠ [] := by
    rintro rfl
    rcases h3 with ⟨_, h⟩ | ⟨_, h⟩ | h
    · cases h
    · cases h
    · simp [fieldComponents, registerComponents, blockComponents] at h
  have e := (enumFieldPath_iff hv).mpr h3
  rw [(enumFieldPath_iff hv).mpr h3'] at e
  cases e
  exact ⟨rfl, rfl⟩

theorem enumRef_dot {path : FieldPath} {s : Str} {q : FieldPath} {n : Str} (h : EnumRef path s q n) : '.' ∈ s := by
  obtain ⟨v, rfl, _, h3⟩ := h
  have hv : v ≠ [] := by
    rintro rfl
    rcases h3 with ⟨_, h⟩ | ⟨_, h⟩ | h
    · cases h
    · cases h
    · simp [fieldComponents, registerComponents, blockComponents] at h
  rw [dotted_concat hv]
  simp

theorem enumLink_unique {regs : List (RegisterPath × Register)} {all : List (EnumPath × EnumeratedValues)}
    {self : Option Str} {path : FieldPath} {s : Str} {q q' : FieldPath} {e e' : EnumeratedValues}
    (h : EnumLink regs all self path s q e) (h' : EnumLink regs all self path s q' e') : q = q' ∧ e = e' := by
  rcases h.2 with ⟨hd, r, fs, pre, f, post, a1, a2, a3, a4, a5, a6⟩ | ⟨n, a1, a2, a3⟩
  · rcases h'.2 with ⟨hd', r', fs', pre', f', post', b1, b2, b3, b4, b5, b6⟩ | ⟨n, b1, b2, b3⟩
    · cases lastAt_unique a1 b1
      rw [a2] at b2
      cases b2
      have key : ∀ {pre f post q e}, fs = pre ++ f :: post → q = ⟨path.register, f.info.name⟩ → LastAt all ⟨q, s⟩ e →
          (∀ g ∈ pre, ¬ ∃ x, LastAt all ⟨⟨path.register, g.info.name⟩, s⟩ x) →
          fs.findSome? (fun g : Field => (mapGet all.reverse ⟨⟨path.register, g.info.name⟩, s⟩).map
            fun e => ((⟨path.register, g.info.name⟩ : FieldPath), e)) = some (q, e) := by
        rintro pre f post q e h1 rfl h3 h4
        refine findSome_first.mpr ⟨pre, f, post, h1, ?_, fun g hg => ?_⟩
        · rw [mapGet_reverse.mpr h3]; rfl
        · cases hx : mapGet all.reverse ⟨⟨path.register, g.info.name⟩, s⟩ with
          | none => rfl
          | some x => exact absurd ⟨x, mapGet_reverse.mp hx⟩ (h4 g hg)
      have := (key a3 a4 a5 a6).symm.trans (key b3 b4 b5 b6)
      cases this
      exact ⟨rfl, rfl⟩
    · exact absurd (enumRef_dot b1) hd
  · rcases h'.2 with ⟨hd, _⟩ | ⟨n', b1, b2, b3⟩
    · exact absurd (enumRef_dot a1) hd
    · obtain ⟨rfl, rfl⟩ := enumRef_unique a1 b1
      exact ⟨rfl, lastAt_unique a3 b3⟩

theorem chain_unique {κ α : Type} {link : κ → Str → κ → α → Prop} {ref : α → Option Str}
    (hl : ∀ {k s k₁ a₁ k₂ a₂}, link k s k₁ a₁ → link k s k₂ a₂ → k₁ = k₂ ∧ a₁ = a₂) {k : κ} {s : Str} {l m : List α}
    (h : Chain link ref k s l) (h' : Chain link ref k s m) : l = m := by
  induction h generalizing m with
  | last l1 r1 =>
    cases h' with
    | last l2 r2 => rw [(hl l1 l2).2]
    | next l2 r2 _ =>
      obtain ⟨rfl, rfl⟩ := hl l1 l2
      rw [r1] at r2; cases r2
  | next l1 r1 _ ih =>
    cases h' with
    | last l2 r2 =>
      obtain ⟨rfl, rfl⟩ := hl l1 l2
      rw [r1] at r2; cases r2
    | next l2 r2 c2 =>
      obtain ⟨rfl, rfl⟩ := hl l1 l2
      rw [r1] at r2; cases r2
      rw [ih c2]

theorem successive_unique {α : Type} {from' : α → α → α → Prop} (hf : ∀ {a o b c}, from' a o b → from' a o c → b = c)
    {a b c : α} {l : List α} (h : Successive from' a l b) (h' : Successive from' a l c) : b = c := by
  induction h with
  | nil => cases h'; rfl
  | cons h1 _ ih =>
    cases h' with
    | cons h2 h3 =>
      cases hf h1 h2
      exact ih h3

theorem enums_unique {b : FieldPath} {e q q' : EnumeratedValues} (h : EnumsResolved namesOf d b e q)
    (h' : EnumsResolved namesOf d b e q') : q = q' := by
  cases h with
  | own hr =>
    cases h' with
    | own _ => rfl
    | derived hr' _ _ => rw [hr] at hr'; cases hr'
  | derived hr hc hs =>
    cases h' with
    | own hr' => rw [hr] at hr'; cases hr'
    | derived hr' hc' hs' =>
      rw [hr] at hr'
      cases hr'
      cases chain_unique (link := EnumLink (allRegisterPaths namesOf d) (allEnums namesOf d) e.name)
        (fun a b => enumLink_unique a b) hc hc'
      exact successive_unique (from' := EnumsInherited) (fun a b => (enumsInherited_iff.mp a).trans (enumsInherited_iff.mp b).symm) hs hs'

theorem fieldDeref_unique {b : RegisterPath} {f g g' : Field} (h : FieldDeref namesOf d b f g)
    (h' : FieldDeref namesOf d b f g') : g = g' := by
  obtain ⟨f₁, home, evs, h1, h2, rfl⟩ := h
  obtain ⟨f₂, home', evs', h1', h2', rfl⟩ := h'
  obtain ⟨rfl, rfl⟩ := field_unique h1 h1'
  rw [pairs_unique (R := EnumsResolved namesOf d home) (fun _ _ _ => enums_unique) h2 h2']

theorem fieldsDeref_unique {b : RegisterPath} {o g g' : Option (List Field)} (h : FieldsDeref namesOf d b o g)
    (h' : FieldsDeref namesOf d b o g') : g = g' := by
  cases h with
  | none => cases h'; rfl
  | some h =>
    cases h' with
    | some h' => rw [pairs_unique (R := FieldDeref namesOf d b) (fun _ _ _ => fieldDeref_unique) h h']

theorem registerDeref_unique {b : BlockPath} {r g g' : Register} (h : RegisterDeref namesOf d b r g)
    (h' : RegisterDeref namesOf d b r g') : g = g' := by
  obtain ⟨f₁, home, evs, h1, h2, rfl⟩ := h
  obtain ⟨f₂, home', evs', h1', h2', rfl⟩ := h'
  obtain ⟨rfl, rfl⟩ := register_unique h1 h1'
  rw [fieldsDeref_unique h2 h2']

mutual
theorem rcDeref_unique : ∀ {b : BlockPath} {c g g' : RegisterCluster}, RcDeref namesOf d b c g →
    RcDeref namesOf d b c g' → g = g'
  | _, _, _, _, .register h, .register h' => by rw [registerDeref_unique h h']
  | _, _, _, _, .cluster h1 h2, .cluster h1' h2' => by
    obtain ⟨rfl, rfl⟩ := cluster_unique h1 h1'
    rw [rcsDeref_unique h2 h2']
theorem rcsDeref_unique : ∀ {b : BlockPath} {cs gs gs' : List RegisterCluster}, RcsDeref namesOf d b cs gs →
    RcsDeref namesOf d b cs gs' → gs = gs'
  | _, _, _, _, .nil, .nil => rfl
  | _, _, _, _, .cons h h1, .cons h' h1' => by rw [rcDeref_unique h h', rcsDeref_unique h1 h1']
end

theorem registersDeref_unique {b : BlockPath} {o g g' : Option (List RegisterCluster)}
    (h : RegistersDeref namesOf d b o g) (h' : RegistersDeref namesOf d b o g') : g = g' := by
  cases h with
  | none => cases h'; rfl
  | some h =>
    cases h' with
    | some h' => rw [rcsDeref_unique h h']

theorem peripheralDeref_unique {p g g' : Peripheral} (h : PeripheralDeref namesOf d p g)
    (h' : PeripheralDeref namesOf d p g') : g = g' := by
  obtain ⟨f₁, home, evs, h1, h2, rfl⟩ := h
  obtain ⟨f₂, home', evs', h1', h2', rfl⟩ := h'
  obtain ⟨rfl, rfl⟩ := peripheral_unique h1 h1'
  rw [registersDeref_unique h2 h2']

theorem device_unique {g g' : Device} (h : DeviceDeref namesOf d g) (h' : DeviceDeref namesOf d g') : g = g' := by
  obtain ⟨ps, h1, rfl⟩ := h
  obtain ⟨ps', h1', rfl⟩ := h'
  rw [pairs_unique (R := PeripheralDeref namesOf d) (fun _ _ _ => peripheralDeref_unique) h1 h1']

end

/-! ## What stays valid -/

/-- What is not in `Part.Fits`. -/
def Rest (lvl : ValidateLevel) : Part → Prop
  | .props _ => True
  | .peripheral p => p.derivedFrom = none ∧ (2 ≤ strictness lvl → DimableName p.name)
  | .cluster c => c.derivedFrom = none ∧ (2 ≤ strictness lvl → DimableName c.name ∧ c.children ≠ [])
  | .register r => r.derivedFrom = none ∧ (2 ≤ strictness lvl → DimableName r.name ∧
      (∀ n, r.alternateGroup = some n → PlainName n) ∧ ∀ n, r.alternateRegister = some n → DimableName n)
  | .field f => f.derivedFrom = none ∧ (1 ≤ strictness lvl → 1 ≤ f.bitRange.width.toNat) ∧
      (2 ≤ strictness lvl → DimableName f.name)
  | .enums e => e.derivedFrom = none ∧ (1 ≤ strictness lvl → e.values ≠ []) ∧
      (2 ≤ strictness lvl → ∀ n, e.name = some n → PlainName n)
  | .enumValue e => EnumValueValid e lvl

theorem none_all {α : Type} {o : Option α} {P : α → Prop} (h : o = none) : ∀ a, o = some a → P a := by
  rw [h]; nofun

theorem valid_iff {lvl : ValidateLevel} {p : Part} (h : Rest lvl p) : p.Valid lvl ↔ p.Fits lvl := by
  cases p with
  | props p => exact Iff.rfl
  | peripheral p =>
    refine ⟨fun hv => ⟨fun _ => trivial, fun hs => (hv.2 hs).2.2 h.1⟩, fun hv => ⟨fun _ => trivial, fun hs => ?_⟩⟩
    exact ⟨h.2 hs, none_all h.1, fun _ => hv.2 hs⟩
  | cluster c =>
    refine ⟨fun _ => trivial, fun _ => ⟨fun _ => trivial, fun hs => ?_⟩⟩
    exact ⟨(h.2 hs).1, none_all h.1, fun _ => (h.2 hs).2⟩
  | register r =>
    refine ⟨fun hv => ⟨fun _ => trivial, fun hs => (hv.2 hs).2.2.2.2 h.1⟩,
      fun hv => ⟨fun _ => trivial, fun hs => ?_⟩⟩
    obtain ⟨h1, h2, h3⟩ := h.2 hs
    exact ⟨h1, h2, h3, none_all h.1, fun _ => hv.2 hs⟩
  | field f =>
    refine ⟨fun hv => ⟨fun hs => (hv.1 hs).2, fun hs => (hv.2 hs).2.2⟩,
      fun hv => ⟨fun hs => ⟨h.2.1 hs, hv.1 hs⟩, fun hs => ?_⟩⟩
    exact ⟨h.2.2 hs, none_all h.1, hv.2 hs⟩
  | enums e =>
    refine ⟨fun _ => trivial, fun _ => ⟨fun hs _ => h.2.1 hs, fun hs => ?_⟩⟩
    exact ⟨h.2.2 hs, none_all h.1⟩
  | enumValue e => exact ⟨fun _ => trivial, fun _ => h⟩

/-- What elements with references have of it. -/
structure EnumSrc (lvl : ValidateLevel) (e : EnumeratedValues) : Prop where
  name : 2 ≤ strictness lvl → ∀ n, e.name = some n → PlainName n
  values : ∀ v ∈ e.values, EnumValueValid v lvl
  nonempty : 1 ≤ strictness lvl → e.derivedFrom = none → e.values ≠ []

structure FieldSrc (lvl : ValidateLevel) (f : Field) : Prop where
  name : 2 ≤ strictness lvl → DimableName f.info.name
  width : 1 ≤ strictness lvl → 1 ≤ f.info.bitRange.width.toNat
  enums : ∀ e ∈ f.info.enumeratedValues, EnumSrc lvl e

structure RegisterSrc (lvl : ValidateLevel) (r : Register) : Prop where
  names : 2 ≤ strictness lvl → DimableName r.info.name ∧
      (∀ n, r.info.alternateGroup = some n → PlainName n) ∧ ∀ n, r.info.alternateRegister = some n → DimableName n
  fields : ∀ l, r.info.fields = some l → ∀ f ∈ l, FieldSrc lvl f

def NodeSrc (lvl : ValidateLevel) : RegisterCluster → Prop
  | .register r => RegisterSrc lvl r
  | .cluster h _ cs => 2 ≤ strictness lvl → DimableName h.name ∧ (h.derivedFrom = none → cs ≠ [])

def TreeSrc (lvl : ValidateLevel) (l : List RegisterCluster) : Prop := ∀ n, InTree l n → NodeSrc lvl n

structure ClusterSrc (lvl : ValidateLevel) (c : Cluster) : Prop where
  name : 2 ≤ strictness lvl → DimableName c.info.name
  children : TreeSrc lvl c.info.children

structure PeripheralSrc (lvl : ValidateLevel) (p : Peripheral) : Prop where
  name : 2 ≤ strictness lvl → DimableName p.info.name
  registers : ∀ l, p.info.registers = some l → TreeSrc lvl l

def DeviceSrc (lvl : ValidateLevel) (d : Device) : Prop := ∀ p ∈ d.peripherals, PeripheralSrc lvl p

theorem enumSrc_of {lvl : ValidateLevel} {f : FieldInfo} (h : ∀ p, FieldHas f p → p.Valid lvl)
    {e : EnumeratedValues} (he : e ∈ f.enumeratedValues) : EnumSrc lvl e where
  name hs := ((h _ (.enums he)).2 hs).1
  values _ hv := h _ (.enumValue he hv)
  nonempty hs := (h _ (.enums he)).1 hs

theorem fieldSrc_of {lvl : ValidateLevel} {f : Field} (h : ∀ p, FieldHas f.info p → p.Valid lvl) : FieldSrc lvl f where
  name hs := ((h _ .self).2 hs).1
  width hs := ((h _ .self).1 hs).1
  enums _ he := enumSrc_of h he

theorem registerSrc_of {lvl : ValidateLevel} {r : Register} (h : ∀ p, RegisterHas r.info p → p.Valid lvl) :
    RegisterSrc lvl r where
  names hs := by
    obtain ⟨h1, h2, h3, _⟩ := (h _ .self).2 hs
    exact ⟨h1, h2, h3⟩
  fields l hl f hf := fieldSrc_of fun p hp => h p (.field hl hf hp)

theorem treeSrc_of {lvl : ValidateLevel} {l : List RegisterCluster}
    (h : ∀ n, InTree l n → ∀ p, NodeHas n p → p.Valid lvl) : TreeSrc lvl l := by
  intro n hn
  cases n with
  | register r => exact registerSrc_of fun p hp => h _ hn p (.register hp)
  | cluster hd dim cs =>
    intro hs
    have hv := (h _ hn _ .cluster).2 hs
    exact ⟨hv.1, hv.2.2⟩

theorem deviceSrc_of {lvl : ValidateLevel} {d : Device} (h : ∀ p, DeviceHas d p → p.Valid lvl) : DeviceSrc lvl d :=
  fun _ hp => {
    name := fun hs => ((h _ (.peripheral hp .self)).2 hs).1
    registers := fun _ hl => treeSrc_of fun _ hn _ hq => h _ (.peripheral hp (.node hl hn hq)) }

theorem treeSrc_inside {lvl : ValidateLevel} {l : List RegisterCluster} {h : ClusterHead} {dim : Option DimElement}
    {cs : List RegisterCluster} (ht : TreeSrc lvl l) (hm : .cluster h dim cs ∈ l) : TreeSrc lvl cs :=
  fun n hn => ht n (.inside hm hn)

section
variable {lvl : ValidateLevel} {d : Device} (hd : DeviceSrc lvl d)
include hd

theorem blockAt_src {b : BlockPath} {cs : List RegisterCluster} (h : BlockAt d b cs) : TreeSrc lvl cs := by
  induction h with
  | peripheral h hr => exact (hd _ h.1).registers _ hr
  | cluster _ hm _ ih => exact treeSrc_inside ih hm

theorem registerAt_src {q : RegisterPath} {r : Register} (h : RegisterAt d q r) : RegisterSrc lvl r := by
  obtain ⟨cs, hb, hm, _⟩ := h
  exact blockAt_src hd hb _ (.here hm)

theorem fieldAt_src {q : FieldPath} {f : Field} (h : FieldAt d q f) : FieldSrc lvl f := by
  obtain ⟨r, fs, hr, hf, hm, _⟩ := h
  exact (registerAt_src hd hr).fields _ hf _ hm

theorem enumAt_src {q : EnumPath} {e : EnumeratedValues} (h : EnumAt d q e) : EnumSrc lvl e := by
  obtain ⟨f, hf, hm, _⟩ := h
  exact (fieldAt_src hd hf).enums _ hm

theorem field_src {b : RegisterPath} {f f' : Field} {home : FieldPath}
    (h : FieldResolved namesOf d b f f' home) (hf : FieldSrc lvl f) : FieldSrc lvl f' := by
  cases h with
  | own => exact hf
  | derived _ hi =>
    refine Both.inherits_all (P := FieldSrc lvl) ?_ hi (by cases f <;> exact ⟨hf.1, hf.2, hf.3⟩)
    rintro _ _ _ _ _ _ _ ⟨n, _, _, _, hl⟩ h3 ha
    have ho := fieldAt_src hd (mem_allFields.mp (lastAt_mem hl))
    exact ⟨by rw [h3.1.name]; exact ha.name, by rw [h3.1.bitRange]; exact ha.width,
      ExpandWrite.inhList_all h3.1.enumeratedValues ha.enums ho.enums⟩

theorem register_src {b : BlockPath} {r r' : Register} {home : RegisterPath}
    (h : RegisterResolved namesOf d b r r' home) (hr : RegisterSrc lvl r) : RegisterSrc lvl r' := by
  cases h with
  | own => exact hr
  | derived _ hi =>
    refine Both.inherits_all (P := RegisterSrc lvl) ?_ hi (by cases r <;> exact ⟨hr.1, hr.2⟩)
    rintro _ _ _ _ _ _ _ ⟨n, _, _, _, hl⟩ h3 ha
    have ho := registerAt_src hd (mem_allRegisterPaths.mp (lastAt_mem hl))
    exact ⟨by rw [h3.1.name, h3.1.alternateGroup, h3.1.alternateRegister]; exact ha.names,
      ExpandWrite.inh_all h3.1.fields ha.fields ho.fields⟩

theorem cluster_src {b : BlockPath} {c c' : Cluster} {home : BlockPath}
    (h : ClusterResolved namesOf d b c c' home) (hc : ClusterSrc lvl c)
    (hn : 2 ≤ strictness lvl → c.info.derivedFrom = none → c.info.children ≠ []) :
    ClusterSrc lvl c' ∧ (2 ≤ strictness lvl → c'.info.children ≠ []) := by
  cases h with
  | own h => exact ⟨hc, fun hs => hn hs h⟩
  | derived _ hi =>
    constructor
    · refine Both.inherits_all (P := ClusterSrc lvl) ?_ hi (by cases c <;> exact ⟨hc.1, hc.2⟩)
      rintro _ _ _ _ o a t ⟨n, _, _, _, hl⟩ h3 ha
      obtain ⟨_, _, cs, hb, hm, _⟩ := mem_allClusters.mp (lastAt_mem hl)
      refine ⟨by rw [h3.1.name]; exact ha.name, ?_⟩
      by_cases hx : a.info.children = []
      · rw [h3.1.children.2 hx]; exact treeSrc_inside (blockAt_src hd hb) hm
      · rw [h3.1.children.1 hx]; exact ha.children
    · intro hs
      refine Both.inherits_last (P := fun c : Cluster => c.info.children ≠ []) ?_ hi
      rintro _ _ _ _ o a t ⟨n, _, _, _, hl⟩ ho h3
      obtain ⟨_, _, cs, hb, hm, _⟩ := mem_allClusters.mp (lastAt_mem hl)
      have hne := (blockAt_src hd hb _ (.here hm) hs).2 ho
      by_cases hx : a.info.children = []
      · rw [h3.1.children.2 hx]; exact hne
      · rw [h3.1.children.1 hx]; exact hx

theorem peripheral_src {p p' : Peripheral} {home : BlockPath}
    (h : PeripheralResolved namesOf d p p' home) (hp : PeripheralSrc lvl p) : PeripheralSrc lvl p' := by
  cases h with
  | own => exact hp
  | derived _ hi =>
    refine Both.inherits_all (P := PeripheralSrc lvl) ?_ hi (by cases p <;> exact ⟨hp.1, hp.2⟩)
    rintro _ _ _ _ _ _ _ ⟨⟨_, hl⟩, _⟩ h3 ha
    have ho := hd _ (mem_allPeripherals.mp (lastAt_mem hl)).1
    exact ⟨by rw [h3.1.name]; exact ha.name, ExpandWrite.inh_all h3.1.registers ha.registers ho.registers⟩

theorem enums_src {b : FieldPath} {e q : EnumeratedValues} (h : EnumsResolved namesOf d b e q)
    (he : EnumSrc lvl e) : EnumSrc lvl q := by
  cases h with
  | own => exact he
  | derived hr hc hs =>
    have hall : ∀ x ∈ ‹List EnumeratedValues›, EnumSrc lvl x := by
      clear hs hr
      induction hc with
      | last h1 _ =>
        intro x hx
        rw [List.mem_singleton] at hx
        subst hx
        rcases h1.2 with ⟨_, r, fs, pre, f, post, _, _, _, _, hl, _⟩ | ⟨n, _, _, hl⟩ <;>
          exact enumAt_src hd (mem_allEnums.mp (lastAt_mem hl))
      | next h1 _ _ ih =>
        intro x hx
        rcases List.mem_cons.mp hx with rfl | hx
        · rcases h1.2 with ⟨_, r, fs, pre, f, post, _, _, _, _, hl, _⟩ | ⟨n, _, _, hl⟩ <;>
            exact enumAt_src hd (mem_allEnums.mp (lastAt_mem hl))
        · exact ih x hx
    have hlast : ∃ x ∈ ‹List EnumeratedValues›, x.derivedFrom = none := by
      clear hs hr hall
      induction hc with
      | last _ h2 => exact ⟨_, by simp, h2⟩
      | next _ _ _ ih =>
        obtain ⟨x, hx, h⟩ := ih
        exact ⟨x, by simp [hx], h⟩
    have hstart : (2 ≤ strictness lvl → ∀ n, ({ e with derivedFrom := none } : EnumeratedValues).name = some n →
      PlainName n) ∧ ∀ v ∈ ({ e with derivedFrom := none } : EnumeratedValues).values, EnumValueValid v lvl :=
      ⟨he.name, he.values⟩
    revert hstart hlast
    generalize { e with derivedFrom := none } = a at hs
    clear hc hr
    intro hlast ha
    have key : (2 ≤ strictness lvl → ∀ n, q.name = some n → PlainName n) ∧ (∀ v ∈ q.values, EnumValueValid v lvl) := by
      clear hlast
      induction hs with
      | nil => exact ha
      | cons h1 _ ih =>
        refine ih (fun x hx => hall x (by simp [hx])) ⟨by rw [h1.name]; exact ha.1, ?_⟩
        exact ExpandWrite.inhList_all h1.values ha.2 (hall _ (by simp)).values
    refine ⟨key.1, key.2, fun h1 hq => ?_⟩
    clear key ha
    have more : ∀ {a q : EnumeratedValues} {l : List EnumeratedValues}, Successive EnumsInherited a l q →
        a.values ≠ [] → q.values ≠ [] := by
      intro a q l h
      induction h with
      | nil => exact id
      | cons h1 _ ih => exact fun ha => ih (by rw [h1.values.1 ha]; exact ha)
    induction hs with
    | nil => obtain ⟨_, h, _⟩ := hlast; cases h
    | @cons a o t os c h2 h3 ih =>
      by_cases ha : a.values = []
      · by_cases ho : o.derivedFrom = none
        · exact more h3 (by rw [h2.values.2 ha]; exact (hall o (by simp)).nonempty h1 ho)
        · obtain ⟨x, hx, h⟩ := hlast
          rcases List.mem_cons.mp hx with rfl | hx
          · exact absurd h ho
          · exact ih (fun y hy => hall y (by simp [hy])) ⟨x, hx, h⟩ hq
      · exact more h3 (by rw [h2.values.1 ha]; exact ha)

/-! ## The device without references -/

theorem field_rest {b : RegisterPath} {f g : Field} (h : FieldDeref namesOf d b f g) (hf : FieldSrc lvl f) {p : Part}
    (hp : FieldHas g.info p) : Rest lvl p := by
  have hn := fieldDeref_noRef h
  obtain ⟨f', home, evs, h1, h2, rfl⟩ := h
  have hs := field_src hd h1 hf
  have he : ∀ e ∈ evs, EnumSrc lvl e := by
    intro e he
    obtain ⟨a, ha, h⟩ := pairs_right h2 e he
    exact enums_src hd h (hs.enums a ha)
  revert hn hp
  rw [mapInfo_info]
  unfold FieldNoRef
  rw [mapInfo_info]
  intro hp hn
  cases hp with
  | self => exact ⟨hn.1, hs.width, hs.name⟩
  | enums h => exact ⟨hn.2 _ h, fun hl => (he _ h).nonempty hl (hn.2 _ h), (he _ h).name⟩
  | enumValue h h' => exact (he _ h).values _ h'

theorem register_rest {b : BlockPath} {r g : Register} (h : RegisterDeref namesOf d b r g) (hr : RegisterSrc lvl r)
    {p : Part} (hp : RegisterHas g.info p) : Rest lvl p := by
  have hn := (registerDeref_noRef h).1
  obtain ⟨r', home, fs, h1, h2, rfl⟩ := h
  have hs := register_src hd h1 hr
  revert hn hp
  rw [mapInfo_info]
  intro hp hn
  cases hp with
  | self => exact ⟨hn, hs.names⟩
  | props => trivial
  | field h h' hq =>
    dsimp only at h
    subst h
    have hf := hs.fields
    revert h2 hf
    generalize r'.info.fields = o
    intro h2 hf
    cases h2 with
    | some h2 =>
      obtain ⟨a, ha, hx⟩ := pairs_right h2 _ h'
      exact field_rest hd hx (hf _ rfl a ha) hq

set_option linter.unusedSectionVars false in
mutual
theorem rc_rest : ∀ {b : BlockPath} {c g : RegisterCluster}, RcDeref namesOf d b c g → TreeSrc lvl [c] →
    ∀ n, InTree [g] n → ∀ p, NodeHas n p → Rest lvl p
  | _, _, _, .register h, ht => by
    intro n hn p hp
    cases hn with
    | here hm =>
      rw [List.mem_singleton] at hm
      subst hm
      cases hp with
      | register hp => exact register_rest hd h (ht _ (.here (List.mem_singleton.mpr rfl))) hp
    | inside hm _ => cases List.mem_singleton.mp hm
  | _, _, _, .cluster (h := head) (dim := dim) (cs := cs) h h', ht => by
    have hn := ht _ (.here (List.mem_singleton.mpr rfl))
    have hs := treeSrc_inside ht (List.mem_singleton.mpr rfl)
    obtain ⟨hc, hne⟩ := cluster_src hd h (by cases dim <;> exact ⟨fun hl => (hn hl).1, hs⟩)
      (by cases dim <;> exact fun hl => (hn hl).2)
    have hr := cluster_noRef h
    have ih := rcs_rest h' hc.children
    intro n hn p hp
    cases hn with
    | here hm =>
      rw [List.mem_singleton] at hm
      subst hm
      cases hp with
      | cluster =>
        refine ⟨hr, fun hl => ⟨hc.name hl, ?_⟩⟩
        have := hne hl
        revert this h'
        generalize ‹Cluster›.info.children = l
        intro h' hne he
        cases h' with
        | nil => exact hne rfl
        | cons _ _ => cases he
      | props => trivial
    | inside hm hn =>
      cases List.mem_singleton.mp hm
      exact ih n hn p hp
theorem rcs_rest : ∀ {b : BlockPath} {cs gs : List RegisterCluster}, RcsDeref namesOf d b cs gs → TreeSrc lvl cs →
    ∀ n, InTree gs n → ∀ p, NodeHas n p → Rest lvl p
  | _, _, _, .nil, _ => by
    intro n hn
    cases hn with
    | here h => cases h
    | inside h _ => cases h
  | _, _, _, .cons h h', ht => by
    intro n hn p hp
    rcases Both.inTree_cons.mp hn with hn | hn
    · exact rc_rest h (fun m hm => ht m (Both.inTree_cons.mpr (.inl hm))) n hn p hp
    · exact rcs_rest h' (fun m hm => ht m (Both.inTree_cons.mpr (.inr hm))) n hn p hp
end

theorem peripheral_rest {q g : Peripheral} (h : PeripheralDeref namesOf d q g) (hq : PeripheralSrc lvl q) {p : Part}
    (hp : PeripheralHas g.info p) : Rest lvl p := by
  have hn := (peripheralDeref_noRef h).1
  obtain ⟨q', home, rs, h1, h2, rfl⟩ := h
  have hs := peripheral_src hd h1 hq
  revert hn hp
  rw [mapInfo_info]
  intro hp hn
  cases hp with
  | self => exact ⟨hn, hs.name⟩
  | props => trivial
  | node h hm hx =>
    dsimp only at h
    subst h
    have hr := hs.registers
    revert h2 hr
    generalize q'.info.registers = o
    intro h2 hr
    cases h2 with
    | some h2 => exact rcs_rest hd h2 (hr _ rfl) _ hm _ hx

theorem device_rest {g : Device} (h : DeviceDeref namesOf d g) {p : Part} (hp : DeviceHas g p) : Rest lvl p := by
  obtain ⟨ps, h1, rfl⟩ := h
  cases hp with
  | props => trivial
  | peripheral hm hq =>
    obtain ⟨a, ha, hx⟩ := pairs_right h1 _ hm
    exact peripheral_rest hd hx (hd a ha) hq

end

end Deref

/-! ## The theorems -/

/-- **C69.** A device expands to what the device with all references followed expands to.  (The device
without references keeps its arrays and clusters; its expansion needs no index and no paths.) -/
theorem C69_two_steps (d d' : Device) :
    (∃ fuel, expand true fuel d = .ok d') ↔
      ∃ g, DeviceDeref namesOf d g ∧ DeviceNoRef g ∧ ∃ fuel, expand true fuel g = .ok d' := by
  rw [C56_expansion, Deref.device_split]
  constructor
  · rintro ⟨g, h1, h2⟩
    exact ⟨g, h1, Deref.device_noRef h1, (C36_exact g d' (Deref.device_noRef h1)).mpr h2⟩
  · rintro ⟨g, h1, h2, h3⟩
    exact ⟨g, h1, (C36_exact g d' h2).mp h3⟩

/-- **C69.** There is at most one device with the references followed, and it has no references. -/
theorem C69_one_device (d g g' : Device) (h : DeviceDeref namesOf d g) (h' : DeviceDeref namesOf d g') :
    g = g' ∧ DeviceNoRef g := ⟨Deref.device_unique h h', Deref.device_noRef h⟩

/-- **C69.** Following the references of a valid device breaks no rules but those in `Part.Fits`: of the parts of
the device without references only these need to be checked again. -/
theorem C69_what_can_break (lvl : ValidateLevel) (d g : Device) (hv : d.validateAll lvl = .ok ())
    (h : DeviceDeref namesOf d g) :
    g.validateAll lvl = .ok () ↔ ∀ p, DeviceHas g p → p.Fits lvl := by
  rw [C16_validate_all] at hv ⊢
  have hrest := fun p hp => Deref.device_rest (Deref.deviceSrc_of hv.2) h (p := p) hp
  have hne : DeviceValid g lvl := by
    refine ⟨fun hs => ?_, fun _ => trivial⟩
    obtain ⟨ps, h1, rfl⟩ := h
    have := hv.1.1 hs
    show ps ≠ []
    rintro rfl
    revert this
    generalize d.peripherals = l at h1
    cases h1
    exact fun h => h rfl
  constructor
  · exact fun hx p hp => (Deref.valid_iff (hrest p hp)).mp (hx.2 p hp)
  · exact fun hx => ⟨hne, fun p hp => (Deref.valid_iff (hrest p hp)).mpr (hx p hp)⟩

/-- **C69.** So a valid device with references stays valid (level Weak) when it is expanded, if these rules hold after
following the references and not all peripherals are arrays without elements. -/
theorem C69_expanded_weak (fuel : Nat) (d g d' : Device) (hv : d.validateAll .weak = .ok ())
    (he : expand true fuel d = .ok d') (h : DeviceDeref namesOf d g) (hf : ∀ p, DeviceHas g p → p.Fits .weak)
    (hne : ∃ p ∈ g.peripherals, ∀ x, p.dim? = some x → 1 ≤ x.dim.toNat) : d'.validateAll .weak = .ok () := by
  obtain ⟨g', h1, h2, n, h3⟩ := (C69_two_steps d d').mp ⟨fuel, he⟩
  cases Deref.device_unique h h1
  exact C57_weak n g d' h2 h3 ((C69_what_can_break .weak d g hv h).mpr hf) hne

/-- **C69.** The same for level Strict, if all instances get proper names. -/
theorem C69_expanded_strict (fuel : Nat) (d g d' : Device) (hv : d.validateAll .strict = .ok ())
    (he : expand true fuel d = .ok d') (h : DeviceDeref namesOf d g) (hf : ∀ p, DeviceHas g p → p.Fits .strict)
    (hn : DeviceNamesFit g) : d'.validateAll .strict = .ok () := by
  obtain ⟨g', h1, h2, n, h3⟩ := (C69_two_steps d d').mp ⟨fuel, he⟩
  cases Deref.device_unique h h1
  exact C57_strict n g d' h2 h3 ((C69_what_can_break .strict d g hv h).mpr hf) hn

/-! ### Examples, and devices that break each of the rules -/

-- `manyRefs` has references at all levels; what it expands to comes from a device without references.
example : ∃ g d', DeviceDeref namesOf manyRefs g ∧ DeviceNoRef g ∧ DeviceExpanded g d' ∧ g ≠ manyRefs := by
  have : (expand true 6 manyRefs).isOk = true := by decide +kernel
  cases h : expand true 6 manyRefs with
  | error e => rw [h] at this; cases this
  | ok d' =>
    obtain ⟨g, h1, h2, h3⟩ := (C69_two_steps manyRefs d').mp ⟨6, h⟩
    refine ⟨g, d', h1, h2, (C36_exact g d' h2).mp h3, ?_⟩
    rintro rfl
    exact absurd (h2 _ List.mem_cons_self).1 (by decide +kernel)
example : validBeforeAfter .strict manyRefs = (true, true) := by decide +kernel

/-- A value. -/
def oneValue (v : U64) : EnumeratedValue :=
  { name := "on".toList, description := none, value := some v, isDefault := none }

/-- One register with the given fields. -/
def fieldsOnly (l : List FieldInfo) : Device := Sample.device [.single (Sample.peripheralInfo "P" 0 none (some
  [.register (.single (Sample.registerInfo "R" 0 none (some (l.map .single))))]))]

/-- `F` has two bits and the value 2, `G` has one bit and takes the values from `F`. -/
def narrowField : Device := fieldsOnly
  [{ Sample.fieldInfo "F" 0 none [Sample.evs none none [oneValue 2]] with bitRange := ⟨0, 2, .offsetWidth⟩ },
   Sample.fieldInfo "G" 4 (some "F")]

/-- The same with a reference from the enumerated values. -/
def narrowValues : Device := fieldsOnly
  [{ Sample.fieldInfo "F" 0 none [Sample.evs (some "E") none [oneValue 2]] with bitRange := ⟨0, 2, .offsetWidth⟩ },
   Sample.fieldInfo "G" 4 none [Sample.evs none (some "E")]]

/-- `F` has two bits and may be written with 0 to 2, `G` has one bit and takes this from `F`. -/
def narrowConstraint : Device := fieldsOnly
  [{ Sample.fieldInfo "F" 0 with bitRange := ⟨0, 2, .offsetWidth⟩, writeConstraint := some (.range ⟨0, 2⟩) },
   Sample.fieldInfo "G" 4 (some "F")]

/-- The enumerated values of `G` could be for reading and for writing, but they are derived from such for both. -/
def twoUsages : Device := fieldsOnly
  [Sample.fieldInfo "F" 0 none [Sample.evs (some "E") none [oneValue 1]],
   Sample.fieldInfo "G" 4 none [Sample.evs none (some "E"), Sample.evs none (some "E")]]

/-- A derived register with an empty list of fields. -/
def emptyFields : Device := Sample.device [.single (Sample.peripheralInfo "P" 0 none (some
  [.register (.single (Sample.registerInfo "R" 0 none (some [.single (Sample.fieldInfo "F" 0)]))),
   .register (.single (Sample.registerInfo "S" 4 (some "R") (some [])))]))]

/-- A derived peripheral with an empty list of registers. -/
def emptyRegisters : Device := Sample.device
  [.single (Sample.peripheralInfo "P" 0 none (some [.register (.single (Sample.registerInfo "R" 0))])),
   .single (Sample.peripheralInfo "Q" 0x100 (some "P") (some []))]

/-- **C69.** Each of the rules can indeed be broken by following the references of a valid device. -/
theorem C69_each_breaks :
    (∀ d ∈ [mixedSize, narrowField, narrowValues, narrowConstraint],
      validBeforeAfter .weak d = (true, false) ∧ (expand true 6 d).isOk = true) ∧
    (∀ d ∈ [twoUsages, emptyFields, emptyRegisters],
      validBeforeAfter .strict d = (true, false) ∧ (expand true 6 d).isOk = true) := by
  decide +kernel

-- The hypotheses of `C69_one_device`, `C69_what_can_break` and `C69_expanded_weak` can be met.
example : ∃ g d', DeviceDeref namesOf manyRefs g ∧ (∀ g', DeviceDeref namesOf manyRefs g' → g' = g) ∧
    expand true 6 manyRefs = .ok d' ∧ (g.validateAll .weak = .ok () ↔ ∀ p, DeviceHas g p → p.Fits .weak) := by
  obtain ⟨d', h⟩ := ok_of_isOk (x := expand true 6 manyRefs) (by decide +kernel)
  obtain ⟨g, h1, _⟩ := (C69_two_steps manyRefs d').mp ⟨6, h⟩
  exact ⟨g, d', h1, fun g' h' => (C69_one_device _ _ _ h' h1).1, h,
    C69_what_can_break .weak manyRefs g (by decide +kernel) h1⟩

end Svd
