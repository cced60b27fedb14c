import Verif.Spec.Sample
import Verif.Spec.Both
import Verif.Model.Top
import Verif.Props.Document
import Verif.Props.Full
import Verif.Props.Properties

/-!
# C62: reading a file with both kinds of expansion
-/

namespace Svd

open Spec

/-- **C62.** The whole of `parse_with_config` (with arithmetic checks in the expansion and enough steps). -/
theorem C62_read (cfg : ParseConfig) (top : List Xml) (d : Device) :
    (∃ fuel, parseWithConfig true fuel cfg top = .ok d) ↔ ReadAs namesOf true cfg.ignoreEnums cfg.expandProperties cfg.expand
      cfg.validateLevel top d := by
  unfold parseWithConfig ReadAs
  simp only [bind_ok, C60_document]
  have hfill : ∀ d0 d1 : Device, d1 = (if cfg.expandProperties then expandProperties d0 else d0) ↔
      (cfg.expandProperties = true → DeviceFilled d0 d1) ∧ (cfg.expandProperties = false → d1 = d0) := by
    intro d0 d1
    cases cfg.expandProperties with
    | false => simp
    | true =>
      simp only [if_true, true_imp_iff, Bool.true_eq_false, false_imp_iff, and_true]
      exact ⟨fun h => h ▸ C40_nearest d0, fun h => C40_unique d0 _ _ h (C40_nearest d0)⟩
  have hexp : ∀ d1 : Device, (∃ fuel, (if cfg.expand then Svd.expand true fuel d1 else .ok d1) = .ok d) ↔
      (cfg.expand = true → DeviceFull namesOf d1 d) ∧ (cfg.expand = false → d = d1) := by
    intro d1
    cases cfg.expand with
    | true => simp [C56_expansion]
    | false => simp [eq_comm]
  constructor
  · rintro ⟨fuel, d0, ⟨before, x, after, h1, h2, h3⟩, h⟩
    have hf := (hfill d0 _).mp rfl
    have he := (hexp _).mp ⟨fuel, h⟩
    exact ⟨before, x, after, d0, _, h1, h2, h3, hf.1, hf.2, he.1, he.2⟩
  · rintro ⟨before, x, after, d0, d1, h1, h2, h3, h4, h5, h6, h7⟩
    have := (hfill d0 d1).mpr ⟨h4, h5⟩
    subst this
    obtain ⟨fuel, h⟩ := (hexp _).mpr ⟨h6, h7⟩
    exact ⟨fuel, d0, ⟨before, x, after, h1, h2, h3⟩, h⟩

/-- **C62.** A document stands for at most one device. -/
theorem C62_unique (cfg : ParseConfig) (top : List Xml) (d d' : Device)
    (h : ReadAs namesOf true cfg.ignoreEnums cfg.expandProperties cfg.expand
      cfg.validateLevel top d) (h' : ReadAs namesOf true cfg.ignoreEnums cfg.expandProperties cfg.expand
      cfg.validateLevel top d') : d = d' := by
  obtain ⟨n, h⟩ := (C62_read cfg top d).mpr h
  obtain ⟨n', h'⟩ := (C62_read cfg top d').mpr h'
  unfold parseWithConfig at h h'
  obtain ⟨d0, h1, h⟩ := bind_ok.mp h
  obtain ⟨d0', h1', h'⟩ := bind_ok.mp h'
  rw [h1] at h1'
  cases h1'
  dsimp only at h h'
  cases he : cfg.expand with
  | false => rw [he] at h h'; cases h; cases h'; rfl
  | true =>
    rw [he] at h h'
    exact C56_unique _ _ _ ((C56_expansion _ _).mp ⟨n, h⟩) ((C56_expansion _ _).mp ⟨n', h'⟩)

namespace Both

/-! ## What is given by all registers stays given -/

theorem givesAll_trans {p q r : RegisterProperties} (h : GivesAll p q) (h' : GivesAll q r) : GivesAll p r :=
  ⟨fun x => h'.size (h.size x), fun x => h'.access (h.access x), fun x => h'.protection (h.protection x),
    fun x => h'.resetValue (h.resetValue x), fun x => h'.resetMask (h.resetMask x)⟩

/-- Every register in the tree that has no reference gives what `D` gives. -/
def Good (D : RegisterProperties) (l : List RegisterCluster) : Prop :=
  ∀ r, InTree l (.register r) → r.info.derivedFrom = none → GivesAll D r.info.properties

theorem good_inside {D : RegisterProperties} {l : List RegisterCluster} {h : ClusterHead}
    {dim : Option DimElement} {cs : List RegisterCluster} (hg : Good D l) (hm : .cluster h dim cs ∈ l) :
    Good D cs := fun r hr => hg r (.inside hm hr)

theorem inTree_cons {c n : RegisterCluster} {cs : List RegisterCluster} :
    InTree (c :: cs) n ↔ InTree [c] n ∨ InTree cs n := by
  constructor
  · rintro (⟨h⟩ | ⟨h, h'⟩)
    · rcases List.mem_cons.mp h with rfl | h
      · exact .inl (.here (by simp))
      · exact .inr (.here h)
    · rcases List.mem_cons.mp h with rfl | h
      · exact .inl (.inside (List.mem_singleton.mpr rfl) h')
      · exact .inr (.inside h h')
  · rintro ((⟨h⟩ | ⟨h, h'⟩) | (⟨h⟩ | ⟨h, h'⟩))
    · exact .here (by simp at h; simp [h])
    · exact .inside (by rw [List.mem_singleton.mp h]; exact List.mem_cons_self) h'
    · exact .here (List.mem_cons_of_mem _ h)
    · exact .inside (List.mem_cons_of_mem _ h) h'

/-- The same for all peripherals. -/
def DeviceGood (D : RegisterProperties) (d : Device) : Prop :=
  ∀ p ∈ d.peripherals, ∀ l, p.info.registers = some l → Good D l

theorem blockAt_good {D : RegisterProperties} {d : Device} (hd : DeviceGood D d) {b : BlockPath}
    {cs : List RegisterCluster} (h : BlockAt d b cs) : Good D cs := by
  induction h with
  | peripheral h hr => exact hd _ h.1 _ hr
  | cluster _ hm _ ih => exact good_inside ih hm

theorem inh_some {α : Type} {a b c : Option α} (h : Inh a b c) (hb : b ≠ none ∨ a ≠ none) : c ≠ none := by
  cases a with
  | some v => rw [h.1 v rfl]; simp
  | none => rw [h.2 rfl]; exact hb.resolve_right (by simp)

theorem inherited_base {s o t : RegisterProperties} (h : PropsInherited s o t) : GivesAll o t :=
  ⟨fun x => inh_some h.size (.inl x), fun x => inh_some h.access (.inl x),
    fun x => inh_some h.protection (.inl x), fun x => inh_some h.resetValue (.inl x),
    fun x => inh_some h.resetMask (.inl x)⟩

theorem inherited_own {s o t : RegisterProperties} (h : PropsInherited s o t) : GivesAll s t :=
  ⟨fun x => inh_some h.size (.inr x), fun x => inh_some h.access (.inr x),
    fun x => inh_some h.protection (.inr x), fun x => inh_some h.resetValue (.inr x),
    fun x => inh_some h.resetMask (.inr x)⟩

/-- What holds of bases without a reference and is passed on holds of the result. -/
theorem inherits_last {κ α π : Type} {base : κ → Str → κ → π → α → Prop} {ref : α → Option Str}
    {from' : α → α → α → Prop} {childless : α → Prop} {P : α → Prop}
    (h : ∀ k s k' q o a b, base k s k' q o → ref o = none → from' a o b → P b) {k : κ} {s : Str} {a b : α}
    {home : Option π} (hi : Inherits base ref from' childless k s a b home) : P b := by
  induction hi with
  | last h1 h2 h3 => exact h _ _ _ _ _ _ _ h1 h2 h3
  | lastOwn h1 h2 h3 => exact h _ _ _ _ _ _ _ h1 h2 h3
  | next _ _ _ _ ih => exact ih

/-- What holds of the start and is kept by every step holds of the result. -/
theorem inherits_all {κ α π : Type} {base : κ → Str → κ → π → α → Prop} {ref : α → Option Str}
    {from' : α → α → α → Prop} {childless : α → Prop} {P : α → Prop}
    (h : ∀ k s k' q o a b, base k s k' q o → from' a o b → P a → P b) {k : κ} {s : Str} {a b : α}
    {home : Option π} (hi : Inherits base ref from' childless k s a b home) (ha : P a) : P b := by
  induction hi with
  | last h1 _ h3 => exact h _ _ _ _ _ _ _ h1 h3 ha
  | lastOwn h1 _ h3 => exact h _ _ _ _ _ _ _ h1 h3 ha
  | next h1 _ h3 _ ih => exact ih (h _ _ _ _ _ _ _ h1 h3 ha)

section
variable {D : RegisterProperties} {d : Device} (hd : DeviceGood D d)
include hd

theorem resolved_register {b : BlockPath} {r r' : Register} {home : RegisterPath}
    (h : RegisterResolved namesOf d b r r' home)
    (hr : r.info.derivedFrom = none → GivesAll D r.info.properties) : GivesAll D r'.info.properties := by
  cases h with
  | own h => exact hr h
  | derived _ hi =>
    refine inherits_last (P := fun r => GivesAll D r.info.properties) ?_ hi
    rintro k s k' q o a b ⟨n, _, _, _, hl⟩ ho hf
    obtain ⟨cs, hb, hm, _⟩ := mem_allRegisterPaths.mp (lastAt_mem hl)
    exact givesAll_trans (blockAt_good hd hb o (.here hm) ho) (inherited_base hf.1.properties)

theorem resolved_cluster {b : BlockPath} {c c' : Cluster} {home : BlockPath}
    (h : ClusterResolved namesOf d b c c' home) (hc : Good D c.info.children) :
    Good D c'.info.children := by
  cases h with
  | own => exact hc
  | derived _ hi =>
    have base : ∀ {k s k' q o}, ClusterBase namesOf d c.info.name k s k' q o → Good D o.info.children := by
      rintro k s k' q o ⟨n, _, _, _, hl⟩
      obtain ⟨_, _, cs, hb, hm, _⟩ := mem_allClusters.mp (lastAt_mem hl)
      exact good_inside (blockAt_good hd hb) hm
    have step : ∀ {a o t : Cluster}, ClusterFrom a o t → Good D a.info.children → Good D o.info.children →
        Good D t.info.children := by
      intro a o t h ha ho
      by_cases hn : a.info.children = []
      · rw [h.1.children.2 hn]; exact ho
      · rw [h.1.children.1 hn]; exact ha
    have start : Good D (c.mapInfo fun i => { i with derivedFrom := none }).info.children := by
      rw [mapInfo_info]; exact hc
    refine inherits_all (P := fun c : Cluster => Good D c.info.children) ?_ hi start
    exact fun _ _ _ _ _ _ _ h1 h3 ha => step h3 ha (base h1)

theorem resolved_peripheral {p p' : Peripheral} {home : BlockPath}
    (h : PeripheralResolved namesOf d p p' home) (hp : ∀ l, p.info.registers = some l → Good D l) :
    ∀ l, p'.info.registers = some l → Good D l := by
  cases h with
  | own => exact hp
  | derived _ hi =>
    have base : ∀ {k s k' q o}, PeripheralBase namesOf d p.info.name k s k' q o →
        ∀ l, o.info.registers = some l → Good D l := by
      rintro k s k' q o ⟨⟨_, hl⟩, _⟩
      exact hd o (mem_allPeripherals.mp (lastAt_mem hl)).1
    have step : ∀ {a o t : Peripheral}, PeripheralFrom a o t →
        (∀ l, a.info.registers = some l → Good D l) → (∀ l, o.info.registers = some l → Good D l) →
        ∀ l, t.info.registers = some l → Good D l := by
      intro a o t h ha ho l hl
      cases hr : a.info.registers with
      | none => exact ho l ((h.1.registers.2 hr).symm.trans hl)
      | some m =>
        have := (h.1.registers.1 m hr).symm.trans hl
        injection this with this
        subst this
        exact ha _ hr
    have start : ∀ l, (p.mapInfo fun i => { i with derivedFrom := none }).info.registers = some l →
        Good D l := by
      rw [mapInfo_info]; exact hp
    refine inherits_all (P := fun p : Peripheral => ∀ l, p.info.registers = some l → Good D l) ?_ hi start
    exact fun _ _ _ _ _ _ _ h1 h3 ha => step h3 ha (base h1)

end

theorem placed_props {name : Str} {off : Nat} {l l' : List RegisterInfo}
    (h : Pairs (Placed name off) l l') {r : RegisterInfo} (hr : r ∈ l') :
    ∃ r0 ∈ l, r.properties = r0.properties := by
  obtain ⟨r0, h0, _, _, h⟩ := pairs_right h r hr
  exact ⟨r0, h0, by rw [h]⟩

theorem instances_mem {α : Type} {inst : Nat → α → Prop} {d : DimElement} {l : List α}
    (h : Instances inst d l) {a : α} (ha : a ∈ l) : ∃ k, inst k a := by
  obtain ⟨k, hk⟩ := List.mem_iff_getElem?.mp ha
  exact ⟨k, h.2 k a hk⟩

theorem registerInstances_props {r : Register} {l : List RegisterInfo} (h : RegisterInstances r l)
    {i : RegisterInfo} (hi : i ∈ l) : i.properties = r.info.properties := by
  cases h with
  | single => rw [List.mem_singleton.mp hi]; rfl
  | array h =>
    obtain ⟨k, _, _, _, _, _, _, h⟩ := instances_mem h hi
    rw [h]; rfl

theorem clusterInstances_props {c : Cluster} {l l' : List RegisterInfo} (h : ClusterInstances l c l')
    {r : RegisterInfo} (hr : r ∈ l') : ∃ r0 ∈ l, r.properties = r0.properties := by
  cases h with
  | single h => exact placed_props h hr
  | array h =>
    obtain ⟨m, hm, hr⟩ := List.mem_flatten.mp hr
    obtain ⟨k, _, _, _, h⟩ := instances_mem h hm
    exact placed_props h hr

section
variable {D : RegisterProperties} {d : Device}

mutual
theorem rcFull_covers (hd : DeviceGood D d) : ∀ {b : BlockPath} {c : RegisterCluster} {l : List RegisterInfo},
    RcFull namesOf d b c l → Good D [c] → ∀ r ∈ l, GivesAll D r.properties
  | _, _, _, .register h, hg => by
    intro r hr
    obtain ⟨r', home, fs, h1, _, h3⟩ := h
    rw [registerInstances_props h3 hr, mapInfo_info]
    exact resolved_register hd h1 (hg _ (.here (by simp)))
  | _, _, _, .cluster (dim := dim) h1 h2 h3, hg => by
    intro r hr
    obtain ⟨r0, h0, e⟩ := clusterInstances_props h3 hr
    rw [e]
    refine rcsFull_covers hd h2 (resolved_cluster hd h1 ?_) r0 h0
    have := good_inside hg (List.mem_singleton.mpr rfl)
    cases dim <;> exact this
theorem rcsFull_covers (hd : DeviceGood D d) : ∀ {b : BlockPath} {cs : List RegisterCluster} {l : List RegisterInfo},
    RcsFull namesOf d b cs l → Good D cs → ∀ r ∈ l, GivesAll D r.properties
  | _, _, _, .nil, _ => by intro r hr; cases hr
  | _, _, _, .cons h1 h2, hg => by
    intro r hr
    rcases List.mem_append.mp hr with hr | hr
    · exact rcFull_covers hd h1 (fun x hx => hg x (inTree_cons.mpr (.inl hx))) r hr
    · exact rcsFull_covers hd h2 (fun x hx => hg x (inTree_cons.mpr (.inr hx))) r hr
end

end

theorem peripheralInstances_registers {p : Peripheral} {l : List Peripheral} (h : PeripheralInstances p l)
    {q : Peripheral} (hq : q ∈ l) : q.info.registers = p.info.registers := by
  cases h with
  | single => rw [List.mem_singleton.mp hq]
  | array h =>
    obtain ⟨i, hi, rfl⟩ := List.mem_map.mp hq
    obtain ⟨k, _, _, _, _, _, _, h⟩ := instances_mem h hi
    change i.registers = _
    rw [h]; rfl

theorem full_covers {D : RegisterProperties} {d d' : Device} (hd : DeviceGood D d)
    (h : DeviceFull namesOf d d') {q : Peripheral} (hq : q ∈ d'.peripherals) {l : List RegisterCluster}
    (hl : q.info.registers = some l) {r : Register} (hr : .register r ∈ l) :
    GivesAll D r.info.properties := by
  obtain ⟨ls, h, rfl⟩ := h
  obtain ⟨m, hm, hq⟩ := List.mem_flatten.mp hq
  obtain ⟨p, hp, p', home, rs, h1, h2, h3⟩ := pairs_right h m hm
  rw [peripheralInstances_registers h3 hq, mapInfo_info] at hl
  change rs = some l at hl
  subst hl
  have hg := resolved_peripheral hd h1 (hd p hp)
  cases hp' : p'.info.registers with
  | none => rw [hp'] at h2; cases h2
  | some cs =>
    rw [hp'] at h2
    cases h2 with
    | some h2 =>
      obtain ⟨i, hi, e⟩ := List.mem_map.mp hr
      cases e
      exact rcsFull_covers hd h2 (hg cs hp') i hi

/-! ## After filling in, registers give what the device gives -/

theorem nearest_covers {D p : RegisterProperties} {levels : List RegisterProperties} (h : D ∈ levels) :
    GivesAll D (nearest (p :: levels)) := by
  have key : ∀ {α : Type} (f : RegisterProperties → Option α), f D ≠ none →
      (p :: levels).findSome? f ≠ none := by
    intro α f hf hn
    exact hf (List.findSome?_eq_none_iff.mp hn D (List.mem_cons_of_mem _ h))
  exact ⟨key (·.size), key (·.access), key (·.protection), key (·.resetValue), key (·.resetMask)⟩

/-- Clusters with a reference are empty. -/
def Bare (l : List RegisterCluster) : Prop :=
  ∀ h dim cs, InTree l (.cluster h dim cs) → h.derivedFrom ≠ none → cs = []

mutual
theorem rcFilled_good {D : RegisterProperties} : ∀ {levels : List RegisterProperties} {c c' : RegisterCluster},
    RcFilled levels c c' → D ∈ levels → Bare [c] → Good D [c']
  | _, _, _, .register h, hD, _ => by
    intro r hr hn
    rcases hr with ⟨hm⟩ | ⟨hm, _⟩
    · have := List.mem_singleton.mp hm
      cases this
      cases h with
      | derived h' => rw [hn] at h'; cases h'
      | own _ => rw [mapInfo_info]; exact nearest_covers hD
    · have := List.mem_singleton.mp hm
      cases this
  | _, _, _, .derived (h := h) (d := dim) (cs := cs) hs, _, hb => by
    have : cs = [] := hb h dim cs (.here (by simp)) (by intro e; rw [e] at hs; cases hs)
    subst this
    intro r hr _
    rcases hr with ⟨hm⟩ | ⟨hm, hr⟩
    · have := List.mem_singleton.mp hm
      cases this
    · have := List.mem_singleton.mp hm
      cases this
      rcases hr with ⟨hm⟩ | ⟨hm, _⟩ <;> cases hm
  | _, _, _, .cluster _ hc, hD, hb => by
    have := rcsFilled_good (D := D) hc (List.mem_cons_of_mem _ hD)
      fun h dim cs hi => hb h dim cs (.inside (List.mem_singleton.mpr rfl) hi)
    intro r hr hn
    rcases hr with ⟨hm⟩ | ⟨hm, hr⟩
    · have e := List.mem_singleton.mp hm
      cases e
    · have e := List.mem_singleton.mp hm
      cases e
      exact this r hr hn
theorem rcsFilled_good {D : RegisterProperties} : ∀ {levels : List RegisterProperties}
    {cs cs' : List RegisterCluster}, RcsFilled levels cs cs' → D ∈ levels → Bare cs → Good D cs'
  | _, _, _, .nil, _, _ => by
    intro r hr _
    rcases hr with ⟨hm⟩ | ⟨hm, _⟩ <;> cases hm
  | _, _, _, .cons h1 h2, hD, hb => by
    intro r hr hn
    rcases inTree_cons.mp hr with hr | hr
    · exact rcFilled_good h1 hD (fun h dim cs hi => hb h dim cs (inTree_cons.mpr (.inl hi))) r hr hn
    · exact rcsFilled_good h2 hD (fun h dim cs hi => hb h dim cs (inTree_cons.mpr (.inr hi))) r hr hn
end

theorem filled_good {d d1 : Device} (h : DeviceFilled d d1) (hb : DerivedBare d) :
    DeviceGood d.defaultRegisterProperties d1 := by
  intro p' hp' l hl
  obtain ⟨p, hp, h⟩ := pairs_right h.2 p' hp'
  obtain ⟨hb1, hb2⟩ := hb p hp
  cases h with
  | derived h =>
    rw [hb1 (by intro e; rw [e] at h; cases h)] at hl
    cases hl
  | bare h => rw [h] at hl; cases hl
  | own _ hr h =>
    rw [mapInfo_info] at hl
    change some _ = some l at hl
    injection hl with hl
    subst hl
    exact rcsFilled_good h (by simp) (hb2 _ hr)

end Both

open Both

/-- **C62.** What the device gives for all registers is given by every register after both expansions, if
peripherals and clusters with a reference have nothing of their own inside. -/
theorem C62_given (d d1 d2 : Device) (hb : DerivedBare d) (h1 : DeviceFilled d d1)
    (h2 : DeviceFull namesOf d1 d2) :
    ∀ p ∈ d2.peripherals, ∀ l, p.info.registers = some l → ∀ r, .register r ∈ l →
      GivesAll d.defaultRegisterProperties r.info.properties :=
  fun _ hp _ hl _ hr => full_covers (filled_good h1 hb) h2 hp hl hr

namespace Both

/-! ## Without references: the value of every property -/

theorem mapInfo_mapInfo {α : Type} (a : MaybeArray α) (f g : α → α) :
    (a.mapInfo f).mapInfo g = a.mapInfo fun i => g (f i) := by cases a <;> rfl

theorem instances_map {α : Type} {inst inst' : Nat → α → Prop} {d : DimElement} {l : List α} (f : α → α)
    (hf : ∀ k a, inst k a → inst' k (f a)) (h : Instances inst d l) : Instances inst' d (l.map f) := by
  refine ⟨by rw [List.length_map]; exact h.1, ?_⟩
  intro k a ha
  rw [List.getElem?_map] at ha
  cases hk : l[k]? with
  | none => rw [hk] at ha; cases ha
  | some b => rw [hk] at ha; cases ha; exact hf k b (h.2 k b hk)

theorem expanded_props {r : Register} {l : List RegisterInfo} (P : RegisterProperties)
    (h : RegisterExpanded r l) :
    RegisterExpanded (r.mapInfo fun i => { i with properties := P })
      (l.map fun i => { i with properties := P }) := by
  cases h with
  | single h => exact .single h
  | @array i d fs l h h' =>
    refine .array (i := { i with properties := P }) h (instances_map _ ?_ h')
    rintro k a ⟨idx, h1, h2, h3, h4, h5, h6⟩
    refine ⟨idx, h1, h2, h3, h4, h5, ?_⟩
    cases a
    simp only [RegisterInfo.mk.injEq] at h6 ⊢
    simp [h6]

theorem expanded_same {r : Register} {l : List RegisterInfo} (h : RegisterExpanded r l) :
    ∀ i ∈ l, i.properties = r.info.properties := by
  intro i hi
  cases h with
  | single h => rw [List.mem_singleton.mp hi]; rfl
  | array h h' =>
    obtain ⟨k, _, _, _, _, _, _, h⟩ := instances_mem h' hi
    rw [h]; rfl

/-- The register with the properties that hold for it. -/
def withNearest (r : RegisterInfo) (lv : List RegisterProperties) : RegisterInfo :=
  { r with properties := nearest (r.properties :: lv) }

theorem expanded_nearest {r : Register} {l : List RegisterInfo} (levels : List RegisterProperties)
    (h : RegisterExpanded r l) :
    RegisterExpanded (r.mapInfo fun i => { i with properties := nearest (i.properties :: levels) })
      (l.map fun i => withNearest i levels) := by
  have h' := expanded_props (nearest (r.info.properties :: levels)) h
  have e1 : (r.mapInfo fun i => { i with properties := nearest (r.info.properties :: levels) }) =
      r.mapInfo fun i => { i with properties := nearest (i.properties :: levels) } := by
    cases r <;> rfl
  have e2 : (l.map fun i => { i with properties := nearest (r.info.properties :: levels) }) =
      l.map fun i => withNearest i levels := by
    refine List.map_congr_left fun i hi => ?_
    unfold withNearest
    rw [expanded_same h i hi]
  rw [e1, e2] at h'
  exact h'

theorem expanded_back {r : Register} {levels : List RegisterProperties} {l' : List RegisterInfo}
    (h : RegisterExpanded (r.mapInfo fun i => { i with properties := nearest (i.properties :: levels) }) l') :
    ∃ l, RegisterExpanded r l ∧ l' = l.map fun i => withNearest i levels := by
  refine ⟨l'.map fun i => { i with properties := r.info.properties }, ?_, ?_⟩
  · have h' := expanded_props r.info.properties h
    rw [mapInfo_mapInfo] at h'
    have e : (r.mapInfo fun i => { ({ i with properties := nearest (i.properties :: levels) } : RegisterInfo)
        with properties := r.info.properties }) = r := by cases r <;> rfl
    rw [e] at h'
    exact h'
  · rw [List.map_map]
    have : ∀ i ∈ l', (fun i : RegisterInfo => i) i =
        ((fun i => withNearest i levels) ∘ fun i : RegisterInfo => { i with properties := r.info.properties }) i := by
      intro i hi
      have hs := expanded_same h i hi
      rw [mapInfo_info] at hs
      simp only [Function.comp, withNearest]
      dsimp only at hs
      rw [← hs]
    exact (List.map_id' l').symm.trans (List.map_congr_left this)

theorem mem_filled {levels : List RegisterProperties} {cs cs' : List RegisterCluster}
    (h : RcsFilled levels cs cs') :
    (∀ c ∈ cs, ∃ c' ∈ cs', RcFilled levels c c') ∧ (∀ c' ∈ cs', ∃ c ∈ cs, RcFilled levels c c') := by
  induction cs generalizing cs' with
  | nil => cases h; simp
  | cons c cs ih =>
    cases h with
    | cons h1 h2 =>
      obtain ⟨ih1, ih2⟩ := ih h2
      constructor
      · intro x hx
        rcases List.mem_cons.mp hx with rfl | hx
        · exact ⟨_, List.mem_cons_self, h1⟩
        · obtain ⟨y, hy, h⟩ := ih1 x hx
          exact ⟨y, List.mem_cons_of_mem _ hy, h⟩
      · intro x hx
        rcases List.mem_cons.mp hx with rfl | hx
        · exact ⟨_, List.mem_cons_self, h1⟩
        · obtain ⟨y, hy, h⟩ := ih2 x hx
          exact ⟨y, List.mem_cons_of_mem _ hy, h⟩

theorem noRef_mem {cs : List RegisterCluster} : RcsNoRef cs ↔ ∀ c ∈ cs, RcNoRef c := by
  induction cs with
  | nil => simp [RcsNoRef]
  | cons c cs ih => simp [RcsNoRef, ih]

theorem leaf_of_filled {levels : List RegisterProperties} {cs cs' : List RegisterCluster}
    (h : RcsFilled levels cs cs') (hr : RcsNoRef cs) {way : List (Str × Nat)} {i' : RegisterInfo}
    (hl : Leaf cs' way i') : ∃ i lv, LeafWith levels cs way i lv ∧ i' = withNearest i lv := by
  induction hl generalizing levels cs with
  | register hm he hi =>
    obtain ⟨c, hc, hf⟩ := (mem_filled h).2 _ hm
    cases hf with
    | register hf =>
      cases hf with
      | derived h' =>
        rw [(noRef_mem.mp hr _ hc).1] at h'; cases h'
      | own _ =>
        obtain ⟨l, he', rfl⟩ := expanded_back he
        obtain ⟨i, hi', rfl⟩ := List.mem_map.mp hi
        exact ⟨i, levels, LeafWith.register (i := i) hc he' hi', rfl⟩
  | cluster hm _ ih =>
    obtain ⟨c, hc, hf⟩ := (mem_filled h).2 _ hm
    have hn := noRef_mem.mp hr _ hc
    cases hf with
    | derived h' => rw [hn.1] at h'; cases h'
    | cluster _ hf =>
      obtain ⟨i, lv, h1, h2⟩ := ih hf hn.2
      exact ⟨i, lv, .cluster hc h1, h2⟩
  | clusters hm hk hp _ ih =>
    obtain ⟨c, hc, hf⟩ := (mem_filled h).2 _ hm
    have hn := noRef_mem.mp hr _ hc
    cases hf with
    | derived h' => rw [hn.1] at h'; cases h'
    | cluster _ hf =>
      obtain ⟨i, lv, h1, h2⟩ := ih hf hn.2
      exact ⟨i, lv, .clusters hc hk hp h1, h2⟩

theorem leaf_filled {levels : List RegisterProperties} {cs cs' : List RegisterCluster}
    (h : RcsFilled levels cs cs') (hr : RcsNoRef cs) {way : List (Str × Nat)} {i : RegisterInfo}
    {lv : List RegisterProperties} (hl : LeafWith levels cs way i lv) : Leaf cs' way (withNearest i lv) := by
  induction hl generalizing cs' with
  | register hm he hi =>
    obtain ⟨c, hc, hf⟩ := (mem_filled h).1 _ hm
    cases hf with
    | register hf =>
      cases hf with
      | derived h' => rw [(noRef_mem.mp hr _ hm).1] at h'; cases h'
      | own _ =>
        exact .register hc (expanded_nearest _ he) (List.mem_map_of_mem (f := fun i => withNearest i _) hi)
  | cluster hm _ ih =>
    obtain ⟨c, hc, hf⟩ := (mem_filled h).1 _ hm
    have hn := noRef_mem.mp hr _ hm
    cases hf with
    | derived h' => rw [hn.1] at h'; cases h'
    | cluster _ hf => exact .cluster hc (ih hf hn.2)
  | clusters hm hk hp _ ih =>
    obtain ⟨c, hc, hf⟩ := (mem_filled h).1 _ hm
    have hn := noRef_mem.mp hr _ hm
    cases hf with
    | derived h' => rw [hn.1] at h'; cases h'
    | cluster _ hf => exact .clusters hc hk hp (ih hf hn.2)

mutual
theorem rcFilled_noRef : ∀ {levels : List RegisterProperties} {c c' : RegisterCluster},
    RcFilled levels c c' → RcNoRef c → RcNoRef c'
  | _, _, _, .register h, hn => by
    cases h with
    | derived _ => exact hn
    | own _ =>
      refine ⟨by rw [mapInfo_info]; exact hn.1, ?_⟩
      rw [mapInfo_info]; exact hn.2
  | _, _, _, .derived _, hn => hn
  | _, _, _, .cluster _ h, hn => ⟨hn.1, rcsFilled_noRef h hn.2⟩
theorem rcsFilled_noRef : ∀ {levels : List RegisterProperties} {cs cs' : List RegisterCluster},
    RcsFilled levels cs cs' → RcsNoRef cs → RcsNoRef cs'
  | _, _, _, .nil, hn => hn
  | _, _, _, .cons h1 h2, hn => ⟨rcFilled_noRef h1 hn.1, rcsFilled_noRef h2 hn.2⟩
end

theorem hardware {levels : List RegisterProperties} {cs cs' : List RegisterCluster} {l : List RegisterInfo}
    (hr : RcsNoRef cs) (hf : RcsFilled levels cs cs') (h : RcsExpanded cs' l) :
    HardwareRegisters levels cs l := by
  intro r'
  rw [C36_registers cs' l (rcsFilled_noRef hf hr) h r']
  constructor
  · rintro ⟨way, r, h1, h2, h3, h4⟩
    obtain ⟨i, lv, h5, rfl⟩ := leaf_of_filled hf hr h1
    exact ⟨way, i, lv, h5, h2, h3, h4⟩
  · rintro ⟨way, r, lv, h1, h2, h3, h4⟩
    exact ⟨way, _, leaf_filled hf hr h1, h2, h3, h4⟩

theorem peripheral_hardware {D : RegisterProperties} {p p1 : Peripheral} {l : List Peripheral}
    (hn : PeripheralNoRef p) (h1 : PeripheralFilled [D] p p1) (h2 : PeripheralExpanded p1 l) :
    PeripheralHardware D p l := by
  have h2' : ∃ rs, RegistersExpanded p1.info.registers rs ∧ ∀ q ∈ l, q.info.registers = rs := by
    cases h2 with
    | single h => exact ⟨_, h, fun q hq => by rw [List.mem_singleton.mp hq]; rfl⟩
    | array h h' =>
      refine ⟨_, h, fun q hq => ?_⟩
      obtain ⟨i, hi, rfl⟩ := List.mem_map.mp hq
      obtain ⟨k, _, _, _, _, _, _, h⟩ := instances_mem h' hi
      change i.registers = _
      rw [h]
  obtain ⟨rs, h2, h3⟩ := h2'
  intro q hq
  rw [h3 q hq]
  have bare : p1.info.registers = none → rs = none := by
    intro e
    rw [e] at h2; cases h2; rfl
  cases h1 with
  | derived h => rw [hn.1] at h; cases h
  | bare h => exact ⟨bare, fun cs hcs => by rw [h] at hcs; cases hcs⟩
  | own _ hcs h =>
    refine ⟨fun e => (by rw [hcs] at e; cases e), ?_⟩
    intro cs e
    rw [hcs] at e
    injection e with e
    subst e
    rw [mapInfo_info] at h2
    change RegistersExpanded (some _) rs at h2
    cases h2 with
    | some h2 => exact ⟨_, rfl, hardware (hn.2 _ hcs) h h2⟩

theorem filled_noRef {d d1 : Device} (hn : DeviceNoRef d) (h : DeviceFilled d d1) : DeviceNoRef d1 := by
  intro p1 hp1
  obtain ⟨p, hp, h⟩ := pairs_right h.2 p1 hp1
  have hn := hn p hp
  cases h with
  | derived _ => exact hn
  | bare _ => exact hn
  | own _ hcs h =>
    refine ⟨by rw [mapInfo_info]; exact hn.1, ?_⟩
    rw [mapInfo_info]
    intro l hl
    change some _ = some l at hl
    injection hl with hl
    subst hl
    exact rcsFilled_noRef h (hn.2 _ hcs)

theorem pairs_comp {α β γ : Type} {R : α → β → Prop} {S : β → γ → Prop} {T : α → γ → Prop} :
    ∀ {l : List α} {m : List β} {n : List γ}, Pairs R l m → Pairs S m n →
      (∀ a ∈ l, ∀ b c, R a b → S b c → T a c) → Pairs T l n
  | _, _, _, .nil, .nil, _ => .nil
  | _, _, _, .cons h1 h1', .cons h2 h2', h =>
    .cons (h _ List.mem_cons_self _ _ h1 h2)
      (pairs_comp h1' h2' fun a ha => h a (List.mem_cons_of_mem _ ha))

end Both

/-- **C62.** Without references, the registers after both expansions are exactly the hardware registers of
the file, each with the properties of the nearest level that gives them. -/
theorem C62_values (d d1 d2 : Device) (hn : DeviceNoRef d) (h1 : DeviceFilled d d1)
    (h2 : DeviceFull namesOf d1 d2) :
    ∃ ls, Pairs (PeripheralHardware d.defaultRegisterProperties) d.peripherals ls ∧
      d2 = { d with peripherals := ls.flatten } := by
  obtain ⟨ls, h3, h4⟩ := (C56_no_references d1 d2 (filled_noRef hn h1)).mp h2
  refine ⟨ls, pairs_comp h1.2 h3 fun p hp _ _ => peripheral_hardware (hn p hp), ?_⟩
  rw [h4, h1.1]

-- A register array in a cluster array: the size comes from the cluster, the access from the peripheral, the
-- reset value from the device, and the reset mask from the register itself.
def levelled : Device :=
  { Sample.device
      [.single { Sample.peripheralInfo "P" 0x1000 none (some
          [.cluster { Sample.clusterHead "C%s" 0x10 with
                      defaultRegisterProperties := { size := some 16 } } (some (Sample.dim 2 0x8))
            [.register (.array { Sample.registerInfo "R%s" 0 with
                properties := { resetMask := some 1 } } (Sample.dim 2 2))]]) with
        defaultRegisterProperties := { size := some 8, access := some .readOnly } }] with
    defaultRegisterProperties := { size := some 32, access := some .readWrite, resetValue := some 5 } }

/-- Names and properties of the registers of a device. -/
def registerProps (d : Device) : List (Str × RegisterProperties) :=
  d.peripherals.flatMap fun p => (p.info.registers.getD []).flatMap fun
    | .register r => [(r.info.name, r.info.properties)]
    | .cluster .. => []

example : (expand true 9 (expandProperties levelled)).map registerProps = .ok
    (["C0_R0", "C0_R1", "C1_R0", "C1_R1"].map fun n => (n.toList,
      { size := some 16, access := some .readOnly, resetValue := some 5, resetMask := some 1 })) := by
  decide +kernel

/-- **C62.** The order matters: expanding arrays and references first loses what clusters give. -/
theorem C62_order : (expand true 9 levelled).map (fun d => registerProps (expandProperties d)) = .ok
    (["C0_R0", "C0_R1", "C1_R0", "C1_R1"].map fun n => (n.toList,
      { size := some 8, access := some .readOnly, resetValue := some 5, resetMask := some 1 })) := by
  decide +kernel

-- The hypotheses of `C62_values` can be met.
example : DeviceNoRef levelled := by
  intro p hp
  simp only [levelled, Sample.device, List.mem_singleton] at hp
  subst hp
  refine ⟨rfl, ?_⟩
  intro l hl
  simp only [MaybeArray.info, Sample.peripheralInfo, Option.some.injEq] at hl
  subst hl
  simp [RcsNoRef, RcNoRef, RegisterNoRef, MaybeArray.info, Sample.clusterHead, Sample.registerInfo]

-- A peripheral and a cluster derived from others, and a register derived from a register: all registers get
-- the size of the device.
def derivedAll : Device :=
  { Sample.device
      [.single (Sample.peripheralInfo "P" 0x1000 none (some
          [.cluster (Sample.clusterHead "C" 0x10) none [.register (.single (Sample.registerInfo "R" 0))],
           .cluster (Sample.clusterHead "D" 0x20 (some "C")) none [],
           .register (.single (Sample.registerInfo "S" 4 (some "P.C.R")))])),
       .single (Sample.peripheralInfo "Q" 0x2000 (some "P"))] with
    defaultRegisterProperties := { size := some 32 } }

example : (expand true 9 (expandProperties derivedAll)).map registerProps = .ok
    (["C_R", "D_R", "S", "C_R", "D_R", "S"].map fun n => (n.toList, { size := some 32 })) := by
  decide +kernel

theorem derivedAll_bare : DerivedBare derivedAll := by
  intro p hp
  simp only [derivedAll, Sample.device, List.mem_cons, List.not_mem_nil, or_false] at hp
  rcases hp with rfl | rfl
  · refine ⟨fun h => absurd rfl h, ?_⟩
    intro l hl h dim cs hi hd
    simp only [MaybeArray.info, Sample.peripheralInfo, Option.some.injEq] at hl
    subst hl
    have one : ∀ n, InTree [.register (.single (Sample.registerInfo "R" 0))] n →
        n = .register (.single (Sample.registerInfo "R" 0)) := by
      rintro n (⟨hm⟩ | ⟨hm, _⟩)
      · exact List.mem_singleton.mp hm
      · cases List.mem_singleton.mp hm
    rcases hi with ⟨hm⟩ | ⟨hm, hi⟩
    · simp only [List.mem_cons, List.not_mem_nil, or_false] at hm
      rcases hm with hm | hm | hm
      · cases hm; exact absurd rfl hd
      · cases hm; rfl
      · cases hm
    · simp only [List.mem_cons, List.not_mem_nil, or_false] at hm
      rcases hm with hm | hm | hm
      · cases hm; cases one _ hi
      · cases hm; rcases hi with ⟨hm⟩ | ⟨hm, _⟩ <;> cases hm
      · cases hm
  · exact ⟨fun _ => rfl, fun l hl => by cases hl⟩

/-- **C62.** Without `DerivedBare` the claim fails: `expand_properties` skips a derived peripheral with all
that is in it, so its own register `T` does not get the size that the device gives. -/
theorem C62_skipped :
    let d := { Sample.device
      [.single (Sample.peripheralInfo "P" 0x1000 none (some [.register (.single (Sample.registerInfo "R" 0))])),
       .single (Sample.peripheralInfo "Q" 0x2000 (some "P")
         (some [.register (.single (Sample.registerInfo "T" 0))]))] with
      defaultRegisterProperties := { size := some 32 } }
    (expand true 9 (expandProperties d)).map registerProps = .ok
      [("R".toList, { size := some 32 }), ("T".toList, {})] := by
  decide +kernel

-- The whole way from a document: `C62_read` applied to the reader with both options.
example (top : List Xml) (d : Device) (n : Nat)
    (h : parseWithConfig true n { expand := true, expandProperties := true } top = .ok d) :
    ∃ x ∈ top, ∃ d0 d1, DeviceSays true false .weak x d0 ∧ DeviceFilled d0 d1 ∧ DeviceFull namesOf d1 d := by
  obtain ⟨before, x, after, d0, d1, rfl, _, h1, h2, _, h3, _⟩ := (C62_read _ top d).mp ⟨n, h⟩
  exact ⟨x, by simp, d0, d1, h1, h2 rfl, h3 rfl⟩

-- The hypotheses of `C62_unique` and `C62_given` can be met.
example : ∃ d1 d2, DeviceFilled derivedAll d1 ∧ DeviceFull namesOf d1 d2 ∧
    ∀ d', DeviceFull namesOf d1 d' → d' = d2 := by
  obtain ⟨d2, h⟩ := ok_of_isOk (x := expand true 9 (expandProperties derivedAll)) (by decide +kernel)
  have h2 := (C56_expansion _ d2).mp ⟨9, h⟩
  exact ⟨_, d2, C40_nearest derivedAll, h2, fun d' h' => C56_unique _ _ _ h' h2⟩

-- The hypotheses of `C62_given` and of `C62_unique` can be met.
example : ∃ d', DeviceFull namesOf (expandProperties derivedAll) d' ∧
    ∀ p ∈ d'.peripherals, ∀ l, p.info.registers = some l → ∀ r, .register r ∈ l →
      GivesAll derivedAll.defaultRegisterProperties r.info.properties := by
  obtain ⟨d', h⟩ := ok_of_isOk (x := expand true 9 (expandProperties derivedAll)) (by decide +kernel)
  have hf := (C56_expansion _ d').mp ⟨9, h⟩
  exact ⟨d', hf, C62_given derivedAll _ d' derivedAll_bare (C40_nearest _) hf⟩

example (d : Device) (h : ReadAs namesOf true false true false .weak (DocumentExample.doc "A,B") d) :
    d = expandProperties DocumentExample.expected :=
  C62_unique { expandProperties := true } (DocumentExample.doc "A,B") _ _ h
    ((C62_read { expandProperties := true } _ _).mp ⟨0, by decide +kernel⟩)

end Svd
