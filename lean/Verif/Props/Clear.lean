import Verif.Spec.Clear
import Verif.Spec.Sample
import Verif.Props.Expanded
import Verif.Props.Ground
import Verif.Props.Deref
import Verif.Props.Iter

/-! # C84: the names of expanded elements -/

namespace Svd
open Spec

namespace Clear

theorem prefix_last {a b : Str} {c : Char} (h : a <+: b ++ [c]) : a = b ++ [c] ∨ a <+: b := by
  rcases List.prefix_concat_iff.mp h with h | h
  · exact .inl h
  · exact .inr h

/-- Groups of names, each under a name of its own: alone, or all beginning with the name and an underscore. -/
theorem groups {gs : List (Str × List Str)} (h1 : (gs.map Prod.fst).Nodup) (h2 : ∀ g ∈ gs, g.2.Nodup)
    (h3 : ∀ g ∈ gs, g.2 = [g.1] ∨ (∀ x ∈ g.2, g.1 ++ ['_'] <+: x) ∧ ∀ m ∈ gs.map Prod.fst, ¬ g.1 ++ ['_'] <+: m) :
    (gs.flatMap Prod.snd).Nodup := by
  rw [List.nodup_iff_pairwise_ne, List.pairwise_flatMap]
  refine ⟨fun g hg => List.nodup_iff_pairwise_ne.mp (h2 g hg), ?_⟩
  rw [List.nodup_iff_pairwise_ne, List.pairwise_map] at h1
  refine h1.imp_of_mem ?_
  rintro g g' hg hg' hne x hx _ hx' rfl
  have m1 : g.1 ∈ gs.map Prod.fst := List.mem_map_of_mem hg
  have m2 : g'.1 ∈ gs.map Prod.fst := List.mem_map_of_mem hg'
  rcases h3 g hg with e | ⟨e, f⟩ <;> rcases h3 g' hg' with e' | ⟨e', f'⟩
  · rw [e] at hx; rw [e'] at hx'
    exact hne ((List.mem_singleton.mp hx).symm.trans (List.mem_singleton.mp hx'))
  · rw [e] at hx
    cases List.mem_singleton.mp hx
    exact f' _ m1 (e' _ hx')
  · rw [e'] at hx'
    cases List.mem_singleton.mp hx'
    exact f _ m2 (e _ hx)
  · rcases List.prefix_or_prefix_of_prefix (e x hx) (e' x hx') with h | h
    · rcases prefix_last h with h | h
      · exact hne (List.append_cancel_right h)
      · exact f _ m2 h
    · rcases prefix_last h with h | h
      · exact hne (List.append_cancel_right h).symm
      · exact f' _ m1 h

/-- The instances of an array have the names of the array. -/
theorem instances_names {α : Type} {nm : α → Str} {P : Nat → α → Prop} {name : Str} {d : DimElement} {l : List α} {ns : List Str}
    (hP : ∀ k a, P k a → ∃ idx, (indexList d)[k]? = some idx ∧ InstanceName d idx name (nm a))
    (h : Instances P d l) (hn : InstanceNames name (some d) ns) : l.map nm = ns := by
  obtain ⟨h1, h2⟩ := h
  obtain ⟨h3, h4⟩ := hn
  apply List.ext_getElem?
  intro k
  rw [List.getElem?_map]
  by_cases hk : k < d.dim.toNat
  · have e1 : l[k]? = some l[k] := List.getElem?_eq_getElem _
    have e2 : ns[k]? = some ns[k] := List.getElem?_eq_getElem _
    obtain ⟨idx, i1, i2⟩ := hP k _ (h2 k _ e1)
    obtain ⟨idx', i1', i2'⟩ := h4 k _ e2
    rw [i1] at i1'
    cases i1'
    rw [e1, e2, Option.map_some, ← (nameFor_iff ..).mpr i2, ← (nameFor_iff ..).mpr i2']
  · rw [List.getElem?_eq_none (by omega), List.getElem?_eq_none (by omega)]
    rfl

theorem field_names {f : Field} {l : List Field} {ns : List Str} (h : FieldExpanded f l)
    (hn : InstanceNames f.info.name f.dim? ns) : (l.map fun f => f.info.name) = ns := by
  cases h with
  | single => exact hn.symm
  | array h =>
    rw [List.map_map]
    exact instances_names (fun k a ⟨idx, h1, h2, _⟩ => ⟨idx, h1, h2⟩) h hn

/-- Element by element. -/
theorem flatten_names {α β : Type} {nm : β → Str} {R : α → List β → Prop} {S : α → List Str → Prop} {l : List α}
    {ms : List (List β)} (hR : ∀ a ∈ l, ∀ m ns, R a m → S a ns → m.map nm = ns) (h : Pairs R l ms) :
    ∀ {ls : List (List Str)}, Pairs S l ls → ms.flatten.map nm = ls.flatten := by
  induction h with
  | nil => intro ls hs; cases hs; rfl
  | cons h _ ih =>
    intro ls hs
    cases hs with
    | cons h' hs =>
      rw [List.flatten_cons, List.flatten_cons, List.map_append, hR _ (by simp) _ _ h h',
        ih (fun a ha => hR a (by simp [ha])) hs]

theorem fields {fs : List Field} {ms : List (List Field)} (h : Pairs FieldExpanded fs ms) (hc : FieldsClear fs) :
    (ms.flatten.map fun f => f.info.name).Nodup := by
  obtain ⟨ls, h1, h2⟩ := hc
  rw [flatten_names (S := fun (f : Field) l => InstanceNames f.info.name f.dim? l) (fun f _ m ns => field_names) h h1]
  exact h2

theorem register_names {r : Register} {l : List RegisterInfo} {ns : List Str} (h : RegisterExpanded r l)
    (hn : InstanceNames r.info.name r.dim? ns) : l.map RegisterInfo.name = ns := by
  cases h with
  | single => exact hn.symm
  | array _ h => exact instances_names (fun k a ⟨idx, h1, h2, _⟩ => ⟨idx, h1, h2⟩) h hn

/-- The fields of the registers have different names. -/
def FieldsDistinct (l : List RegisterInfo) : Prop :=
  ∀ i ∈ l, ∀ fs, i.fields = some fs → (fs.map fun f => f.info.name).Nodup

theorem register_fields {r : Register} {l : List RegisterInfo} (h : RegisterExpanded r l)
    (hc : ∀ fs, r.info.fields = some fs → FieldsClear fs) : FieldsDistinct l := by
  have key : ∀ {o o' : Option (List Field)}, FieldsExpanded o o' → (∀ fs, o = some fs → FieldsClear fs) →
      ∀ fs, o' = some fs → (fs.map fun f => f.info.name).Nodup := by
    intro o o' h hc fs e
    cases h with
    | none => cases e
    | some h => cases e; exact fields h (hc _ rfl)
  cases h with
  | single h =>
    intro i hi
    cases List.mem_singleton.mp hi
    exact key h hc
  | array h h1 =>
    intro i hi
    obtain ⟨k, _, idx, _, _, _, _, _, e⟩ := instances_mem h1 hi
    rw [e]
    exact key h hc

/-- What a register or cluster becomes: one group of names for each of its own names. -/
def Grouped (c : RegisterCluster) (l : List RegisterInfo) (ns : List Str) : Prop :=
  ∃ gs : List (Str × List Str), gs.map Prod.fst = ns ∧ l.map RegisterInfo.name = gs.flatMap Prod.snd ∧
    (∀ g ∈ gs, g.2.Nodup) ∧
    ∀ g ∈ gs, (g.2 = [g.1] ∧ ¬ IsCluster c) ∨ (IsCluster c ∧ ∀ x ∈ g.2, g.1 ++ ['_'] <+: x)

theorem placed_names {name : Str} {off : Nat} {l l' : List RegisterInfo} (h : Pairs (Placed name off) l l') :
    l'.map RegisterInfo.name = (l.map RegisterInfo.name).map fun n => name ++ "_".toList ++ n := by
  induction h with
  | nil => rfl
  | cons h _ ih => simp only [List.map_cons, ih, h.1]

theorem placed_fields {name : Str} {off : Nat} {l l' : List RegisterInfo} (h : Pairs (Placed name off) l l')
    (hl : FieldsDistinct l) : FieldsDistinct l' := by
  intro i hi
  obtain ⟨r, hr, h1⟩ := pairs_right h i hi
  rw [h1.2.2]
  exact hl r hr

theorem placed_nodup {name : Str} {l : List Str} (h : l.Nodup) : (l.map fun n => name ++ "_".toList ++ n).Nodup := by
  rw [List.nodup_iff_pairwise_ne, List.pairwise_map]
  exact (List.nodup_iff_pairwise_ne.mp h).imp fun hne e => hne (List.append_cancel_left e)

theorem grouped {c : RegisterCluster} {l : List RegisterInfo} {ns : List Str} (h : RcExpanded c l) (hn : RcNames c ns)
    (hs : ∀ hd d sub, c = .cluster hd d sub → ∀ l, RcsExpanded sub l → (l.map RegisterInfo.name).Nodup) :
    Grouped c l ns := by
  cases h with
  | register h =>
    refine ⟨ns.map fun n => (n, [n]), by simp [Function.comp_def], ?_, ?_, ?_⟩
    · rw [register_names h hn, List.flatMap_map]
      simp
    · intro g hg
      obtain ⟨n, _, rfl⟩ := List.mem_map.mp hg
      simp
    · intro g hg
      obtain ⟨n, _, rfl⟩ := List.mem_map.mp hg
      exact .inl ⟨rfl, id⟩
  | @cluster hd cs l0 _ h hp =>
    have hns : ns = [hd.name] := hn
    refine ⟨[(hd.name, l.map RegisterInfo.name)], by simp [hns], by simp, ?_, ?_⟩
    · intro g hg
      cases List.mem_singleton.mp hg
      rw [placed_names hp]
      exact placed_nodup (hs _ _ _ rfl _ h)
    · intro g hg
      cases List.mem_singleton.mp hg
      refine .inr ⟨trivial, fun x hx => ?_⟩
      rw [placed_names hp] at hx
      obtain ⟨n, _, rfl⟩ := List.mem_map.mp hx
      exact ⟨n, rfl⟩
  | @clusters hd d cs l0 ls h hi =>
    obtain ⟨hl, hk⟩ := hi
    obtain ⟨hl', hk'⟩ : Instances _ d ns := hn
    have hz : ∀ p ∈ ns.zip ls, ∃ off, Pairs (Placed p.1 off) l0 p.2 := by
      intro p hp
      obtain ⟨k, hlt, rfl⟩ := List.mem_iff_getElem.mp hp
      rw [List.length_zip] at hlt
      obtain ⟨name, off, ⟨⟨idx, i1, i2⟩, _⟩, hp⟩ := hk k _ (List.getElem?_eq_getElem (by omega))
      obtain ⟨idx', i1', i2'⟩ := hk' k _ (List.getElem?_eq_getElem (by omega))
      rw [i1] at i1'
      cases i1'
      rw [List.getElem_zip]
      have e : name = ns[k] := ((nameFor_iff ..).mpr i2).symm.trans ((nameFor_iff ..).mpr i2')
      exact ⟨off, e ▸ hp⟩
    refine ⟨(ns.zip ls).map fun p => (p.1, p.2.map RegisterInfo.name), ?_, ?_, ?_, ?_⟩
    · rw [List.map_map]
      exact List.map_fst_zip (by omega)
    · rw [List.flatMap_map, List.map_flatten, List.flatMap_def]
      congr 1
      have : ls = (ns.zip ls).map Prod.snd := (List.map_snd_zip (by omega)).symm
      conv => lhs; rw [this]
      rw [List.map_map]
      rfl
    · intro g hg
      obtain ⟨p, hp, rfl⟩ := List.mem_map.mp hg
      obtain ⟨off, hp⟩ := hz p hp
      show (p.2.map RegisterInfo.name).Nodup
      rw [placed_names hp]
      exact placed_nodup (hs _ _ _ rfl _ h)
    · intro g hg
      obtain ⟨p, hp, rfl⟩ := List.mem_map.mp hg
      obtain ⟨off, hp⟩ := hz p hp
      refine .inr ⟨trivial, fun x hx => ?_⟩
      change x ∈ p.2.map RegisterInfo.name at hx
      rw [placed_names hp] at hx
      obtain ⟨n, _, rfl⟩ := List.mem_map.mp hx
      exact ⟨n, rfl⟩

theorem rc_fields {c : RegisterCluster} {l : List RegisterInfo} (h : RcExpanded c l)
    (hr : ∀ r fs, c = .register r → r.info.fields = some fs → FieldsClear fs)
    (hs : ∀ hd d sub, c = .cluster hd d sub → ∀ l, RcsExpanded sub l → FieldsDistinct l) : FieldsDistinct l := by
  cases h with
  | register h => exact register_fields h fun fs => hr _ fs rfl
  | cluster h hp => exact placed_fields hp (hs _ _ _ rfl _ h)
  | clusters h hi =>
    intro i hi'
    obtain ⟨m, hm, hi'⟩ := List.mem_flatten.mp hi'
    obtain ⟨k, _, name, off, _, hp⟩ := instances_mem hi hm
    exact placed_fields hp (hs _ _ _ rfl _ h) i hi'

theorem rcs_pairs {cs : List RegisterCluster} {l : List RegisterInfo} (h : RcsExpanded cs l) :
    ∃ ms, Pairs RcExpanded cs ms ∧ l = ms.flatten := by
  induction cs generalizing l with
  | nil => cases h; exact ⟨[], .nil, rfl⟩
  | cons c cs ih =>
    cases h with
    | cons h1 h2 =>
      obtain ⟨ms, h3, rfl⟩ := ih h2
      exact ⟨_ :: ms, .cons h1 h3, rfl⟩

theorem all_groups {cs : List RegisterCluster} {ms : List (List RegisterInfo)} (h : Pairs RcExpanded cs ms) :
    ∀ {ls : List (List Str)}, Pairs RcNames cs ls →
    (∀ c ∈ cs, ∀ m ns, RcExpanded c m → RcNames c ns → Grouped c m ns) →
    ∃ gs : List (Str × List Str), gs.map Prod.fst = ls.flatten ∧ ms.flatten.map RegisterInfo.name = gs.flatMap Prod.snd ∧
      (∀ g ∈ gs, g.2.Nodup) ∧ ∀ g ∈ gs, g.2 = [g.1] ∨
        (∀ x ∈ g.2, g.1 ++ ['_'] <+: x) ∧ ∃ c l, (c, l) ∈ cs.zip ls ∧ IsCluster c ∧ g.1 ∈ l := by
  induction h with
  | nil => intro ls hs _; cases hs; exact ⟨[], rfl, rfl, by simp, by simp⟩
  | @cons c m cs ms h _ ih =>
    intro ls hs hg
    cases hs with
    | @cons _ ns _ ls hn hs =>
      obtain ⟨gs, g1, g2, g3, g4⟩ := ih hs fun c hc => hg c (by simp [hc])
      obtain ⟨gs', g1', g2', g3', g4'⟩ := hg c (by simp) _ _ h hn
      refine ⟨gs' ++ gs, by simp [g1, g1'], by simp [g2, g2'], ?_, ?_⟩
      · intro g hg
        rcases List.mem_append.mp hg with hg | hg
        · exact g3' g hg
        · exact g3 g hg
      · intro g hg
        rcases List.mem_append.mp hg with hg | hg
        · rcases g4' g hg with ⟨e, _⟩ | ⟨e, e'⟩
          · exact .inl e
          · exact .inr ⟨e', c, ns, by simp, e, g1' ▸ List.mem_map_of_mem hg⟩
        · rcases g4 g hg with e | ⟨e, c', l', e1, e2⟩
          · exact .inl e
          · exact .inr ⟨e, c', l', by simp [e1], e2⟩

theorem rcs {cs : List RegisterCluster} (hc : Clear cs) : ∀ l, RcsExpanded cs l →
    (l.map RegisterInfo.name).Nodup ∧ FieldsDistinct l := by
  induction hc with
  | @mk cs ls hn hd hu hf _ ih =>
    intro l h
    obtain ⟨ms, hms, rfl⟩ := rcs_pairs h
    constructor
    · obtain ⟨gs, g1, g2, g3, g4⟩ := all_groups hms hn fun c hcs m ns h1 h2 =>
        grouped h1 h2 fun hd d sub e l hl => (ih hd d sub (e ▸ hcs) l hl).1
      rw [g2]
      refine groups (g1 ▸ hd) g3 fun g hg => ?_
      rcases g4 g hg with e | ⟨e, c, l, e1, e2, e3⟩
      · exact .inl e
      · exact .inr ⟨e, g1 ▸ hu c l e1 e2 _ e3⟩
    · intro i hi
      obtain ⟨m, hm, hi⟩ := List.mem_flatten.mp hi
      obtain ⟨c, hcs, h1⟩ := pairs_right hms m hm
      exact rc_fields h1 (fun r fs e => hf r fs (e ▸ hcs)) (fun hd d sub e l hl => (ih hd d sub (e ▸ hcs) l hl).2) i hi

theorem peripheral_names {p : Peripheral} {l : List Peripheral} {ns : List Str} (h : PeripheralExpanded p l)
    (hn : InstanceNames p.info.name p.dim? ns) : (l.map fun p => p.info.name) = ns := by
  cases h with
  | single => exact hn.symm
  | array _ h =>
    rw [List.map_map]
    exact instances_names (fun k a ⟨idx, h1, h2, _⟩ => ⟨idx, h1, h2⟩) h hn

theorem registers {o o' : Option (List RegisterCluster)} (h : RegistersExpanded o o')
    (hc : ∀ cs, o = some cs → Clear cs) : ∀ cs, o' = some cs → (cs.map rcName).Nodup ∧
      ∀ r fs, .register r ∈ cs → r.info.fields = some fs → (fs.map fun f => f.info.name).Nodup := by
  intro cs e
  cases h with
  | none => cases e
  | some h =>
    cases e
    obtain ⟨h1, h2⟩ := rcs (hc _ rfl) _ h
    constructor
    · rw [List.map_map]
      exact h1
    · intro r fs hr
      obtain ⟨i, hi, e⟩ := List.mem_map.mp hr
      cases e
      exact h2 i hi fs

theorem device {d d' : Device} (h : DeviceExpanded d d') (hc : DeviceClear d) : Distinct d' := by
  obtain ⟨ls, hp, rfl⟩ := h
  obtain ⟨⟨ns, hn, hd⟩, hr⟩ := hc
  constructor
  · show (ls.flatten.map fun p => p.info.name).Nodup
    rw [flatten_names (S := fun (p : Peripheral) l => InstanceNames p.info.name p.dim? l)
      (fun p _ m ns => peripheral_names) hp hn]
    exact hd
  · intro p hm
    obtain ⟨m, hm', hm⟩ := List.mem_flatten.mp hm
    obtain ⟨q, hq, h⟩ := pairs_right hp m hm'
    cases h with
    | single h =>
      cases List.mem_singleton.mp hm
      exact registers h (hr _ hq)
    | array h h1 =>
      obtain ⟨i, hi, rfl⟩ := List.mem_map.mp hm
      obtain ⟨k, _, idx, _, _, _, _, _, e⟩ := instances_mem h1 hi
      show ∀ cs, i.registers = some cs → _
      rw [e]
      exact registers h (hr _ hq)

/-! ### Positions have no influence on names -/

theorem instanceNames_ground (name : Str) (o : Option DimElement) (l : List Str) :
    InstanceNames name (o.map groundDim) l ↔ InstanceNames name o l := by
  cases o <;> exact Iff.rfl

theorem groundArray_dim {α : Type} (f : α → α) (m : MaybeArray α) : (groundArray f m).dim? = m.dim?.map groundDim := by
  cases m <;> rfl

theorem groundArray_info {α : Type} (f : α → α) (m : MaybeArray α) : (groundArray f m).info = f m.info := by
  cases m <;> rfl

theorem pairs_map_left {α β γ : Type} {f : α → β} {R : β → γ → Prop} {S : α → γ → Prop} {l : List α}
    (h : ∀ a ∈ l, ∀ c, S a c → R (f a) c) {m : List γ} (hp : Pairs S l m) : Pairs R (l.map f) m := by
  induction hp with
  | nil => exact .nil
  | cons h1 _ ih => exact .cons (h _ (by simp) _ h1) (ih fun a ha => h a (by simp [ha]))

theorem groundRcs_map (cs : List RegisterCluster) : groundRcs cs = cs.map groundRc := by
  induction cs with
  | nil => rfl
  | cons c cs ih => simp only [groundRcs, ih, List.map_cons]

theorem fieldsClear_ground {fs : List Field} (h : FieldsClear fs) : FieldsClear (fs.map groundField) := by
  obtain ⟨ls, h1, h2⟩ := h
  refine ⟨ls, pairs_map_left (fun f _ l hl => ?_) h1, h2⟩
  unfold groundField
  rw [groundArray_dim, groundArray_info]
  exact (instanceNames_ground ..).mpr hl

theorem rcNames_ground {c : RegisterCluster} {l : List Str} (h : RcNames c l) : RcNames (groundRc c) l := by
  cases c with
  | register r =>
    show InstanceNames (groundRegister r).info.name (groundRegister r).dim? l
    unfold groundRegister
    rw [groundArray_dim, groundArray_info]
    exact (instanceNames_ground ..).mpr h
  | cluster hd d cs => exact (instanceNames_ground ..).mpr h

theorem isCluster_ground (c : RegisterCluster) : IsCluster (groundRc c) ↔ IsCluster c := by
  cases c <;> exact Iff.rfl

theorem clear_ground {cs : List RegisterCluster} (h : Clear cs) : Clear (groundRcs cs) := by
  induction h with
  | @mk cs ls hn hd hu hf _ ih =>
    rw [groundRcs_map]
    refine .mk (pairs_map_left (fun c _ l h => rcNames_ground (c := c) h) hn) hd ?_ ?_ ?_
    · intro c l hm
      rw [List.zip_map_left] at hm
      obtain ⟨⟨c', l'⟩, hm', e⟩ := List.mem_map.mp hm
      cases e
      rw [isCluster_ground]
      exact hu c' _ hm'
    · intro r fs hr e
      obtain ⟨c, hc, hr⟩ := List.mem_map.mp hr
      cases c with
      | cluster => cases hr
      | register r' =>
        cases hr
        unfold groundRegister at e
        rw [groundArray_info] at e
        obtain ⟨fs', e', rfl⟩ := Option.map_eq_some_iff.mp e
        exact fieldsClear_ground (hf r' fs' hc e')
    · intro hd d sub hr
      obtain ⟨c, hc, hr⟩ := List.mem_map.mp hr
      cases c with
      | register => cases hr
      | cluster hd' d' sub' =>
        cases hr
        exact ih _ _ _ hc

theorem deviceClear_ground {d : Device} (h : DeviceClear d) : DeviceClear (ground d) := by
  obtain ⟨⟨ls, h1, h2⟩, h3⟩ := h
  refine ⟨⟨ls, pairs_map_left (fun p _ l hl => ?_) h1, h2⟩, ?_⟩
  · unfold groundPeripheral
    rw [groundArray_dim, groundArray_info]
    exact (instanceNames_ground ..).mpr hl
  · intro p hp cs e
    obtain ⟨q, hq, rfl⟩ := List.mem_map.mp hp
    unfold groundPeripheral at e
    rw [groundArray_info] at e
    obtain ⟨cs', e', rfl⟩ := Option.map_eq_some_iff.mp e
    exact clear_ground (h3 q hq cs' e')

theorem fieldNoRef_ground {f : Field} (h : FieldNoRef f) : FieldNoRef (groundField f) := by
  cases f <;> exact h

theorem registerNoRef_ground {r : Register} (h : RegisterNoRef r) : RegisterNoRef (groundRegister r) := by
  have key : ∀ l, r.info.fields.map (fun l => l.map groundField) = some l → ∀ f ∈ l, FieldNoRef f := by
    intro l e f hf
    obtain ⟨fs, e', rfl⟩ := Option.map_eq_some_iff.mp e
    obtain ⟨g, hg, rfl⟩ := List.mem_map.mp hf
    exact fieldNoRef_ground (h.2 fs e' g hg)
  cases r <;> exact ⟨h.1, key⟩

mutual
theorem rcNoRef_ground : (c : RegisterCluster) → RcNoRef c → RcNoRef (groundRc c)
  | .register _, h => registerNoRef_ground h
  | .cluster _ _ cs, h => ⟨h.1, rcsNoRef_ground cs h.2⟩
theorem rcsNoRef_ground : (cs : List RegisterCluster) → RcsNoRef cs → RcsNoRef (groundRcs cs)
  | [], _ => trivial
  | c :: cs, h => ⟨rcNoRef_ground c h.1, rcsNoRef_ground cs h.2⟩
end

theorem noRef_ground {d : Device} (h : DeviceNoRef d) : DeviceNoRef (ground d) := by
  intro p hp
  obtain ⟨q, hq, rfl⟩ := List.mem_map.mp hp
  obtain ⟨h1, h2⟩ := h q hq
  have key : ∀ l, q.info.registers.map groundRcs = some l → RcsNoRef l := by
    intro l e
    obtain ⟨cs, e', rfl⟩ := Option.map_eq_some_iff.mp e
    exact rcsNoRef_ground cs (h2 cs e')
  cases q <;> exact ⟨h1, key⟩

theorem distinct_ground {d : Device} (h : Distinct (ground d)) : Distinct d := by
  obtain ⟨h1, h2⟩ := h
  constructor
  · have e : (ground d).peripherals.map (fun p => p.info.name) = d.peripherals.map fun p => p.info.name := by
      show (d.peripherals.map groundPeripheral).map _ = _
      rw [List.map_map]
      refine List.map_congr_left fun p _ => ?_
      cases p <;> rfl
    rw [← e]
    exact h1
  · intro p hp cs e
    have e' : (groundPeripheral p).info.registers = some (groundRcs cs) := by
      unfold groundPeripheral
      rw [groundArray_info, e]
      rfl
    obtain ⟨h3, h4⟩ := h2 _ (List.mem_map_of_mem hp) _ e'
    rw [groundRcs_map] at h3 h4
    constructor
    · rw [List.map_map] at h3
      have e : cs.map (rcName ∘ groundRc) = cs.map rcName := List.map_congr_left fun c _ => by
        cases c with
        | register r => cases r <;> rfl
        | cluster => rfl
      rw [← e]
      exact h3
    · intro r fs hr hf
      have e1 : (groundRegister r).info.fields = some (fs.map groundField) := by
        unfold groundRegister
        rw [groundArray_info, hf]
        rfl
      have h5 := h4 (groundRegister r) _ (List.mem_map_of_mem (f := groundRc) hr) e1
      rw [List.map_map] at h5
      have e2 : fs.map ((fun f : Field => f.info.name) ∘ groundField) = fs.map fun f => f.info.name :=
        List.map_congr_left fun f _ => by cases f <;> rfl
      rw [← e2]
      exact h5

end Clear

/-- **C84.** If the names in a device without references are clear, the names after expansion are different: those
of the peripherals, those of the registers of each peripheral, and those of the fields of each register. -/
theorem C84_distinct (oc : Bool) (fuel : Nat) (d d' : Device) (hn : DeviceNoRef d) (hc : DeviceClear d)
    (h : expand oc fuel d = .ok d') : Distinct d' := by
  have hg : (expand oc fuel d).map ground = expand true fuel (ground d) := by
    cases oc
    · exact C79_unchecked fuel d
    · exact C79_checked fuel d (by rw [h]; exact fun h => nomatch h)
  rw [h] at hg
  exact Clear.distinct_ground (Clear.device ((C36_exact _ _ (Clear.noRef_ground hn)).mp ⟨fuel, hg.symm⟩)
    (Clear.deviceClear_ground hc))

/-- **C84.** With references, the names have to be clear when the references have been followed. -/
theorem C84_references (fuel : Nat) (d g d' : Device) (hg : DeviceDeref namesOf d g) (hc : DeviceClear g)
    (h : expand true fuel d = .ok d') : Distinct d' := by
  obtain ⟨g', h1, h2, n, h3⟩ := (C69_two_steps d d').mp ⟨fuel, h⟩
  obtain ⟨rfl, _⟩ := C69_one_device d g g' hg h1
  exact C84_distinct true n g d' h2 hc h3

theorem find_self {α : Type} {nm : α → Str} {l : List α} (h : (l.map nm).Nodup) {a : α} (ha : a ∈ l) :
    l.find? (fun b => nm b == nm a) = some a := by
  induction l with
  | nil => cases ha
  | cons b l ih =>
    rw [List.map_cons, List.nodup_cons] at h
    rw [List.find?_cons]
    rcases List.mem_cons.mp ha with rfl | ha
    · simp
    · have : nm b ≠ nm a := fun e => h.1 (e ▸ List.mem_map_of_mem ha)
      rw [beq_false_of_ne this]
      exact ih h.2 ha

theorem registersOf_nodup {cs : List RegisterCluster} (h : (cs.map rcName).Nodup) :
    ((registersOf cs).map fun r => r.info.name).Nodup := by
  refine List.Sublist.nodup ?_ h
  clear h
  induction cs with
  | nil => exact .slnil
  | cons c cs ih =>
    cases c with
    | register r => exact ih.cons_cons _
    | cluster hd d sub => exact ih.cons _

theorem mem_registersOf {cs : List RegisterCluster} {r : Register} (h : .register r ∈ cs) : r ∈ registersOf cs := by
  induction cs with
  | nil => cases h
  | cons c cs ih =>
    rcases List.mem_cons.mp h with rfl | h'
    · simp [registersOf]
    · cases c <;> simp [registersOf, ih h']

/-- **C84.** If the names are different, every peripheral, every register of a peripheral and every field of such a
register is what the lookup by its name finds. -/
theorem C84_found (d : Device) (h : Distinct d) : ∀ p ∈ d.peripherals, d.getPeripheral p.info.name = some p ∧
    ∀ cs, p.info.registers = some cs → ∀ r, .register r ∈ cs → getRegister cs r.info.name = some r ∧
      ∀ fs, r.info.fields = some fs → ∀ f ∈ fs, r.info.getField f.info.name = some f := by
  intro p hp
  refine ⟨find_self h.1 hp, fun cs hcs r hr => ?_⟩
  obtain ⟨h1, h2⟩ := h.2 p hp cs hcs
  refine ⟨find_self (nm := fun r : Register => r.info.name) (registersOf_nodup h1) (mem_registersOf hr), fun fs hfs f hf => ?_⟩
  unfold RegisterInfo.getField RegisterInfo.fieldList
  rw [hfs]
  exact find_self (nm := fun f : Field => f.info.name) (h2 r fs hr hfs) hf

/-! ## Examples -/

/-- The names, computed. -/
def instanceNames (name : Str) : Option DimElement → List Str
  | none => [name]
  | some d => ((indexList d).take d.dim.toNat).map (nameFor name d)

theorem instanceNames_self {name : Str} {o : Option DimElement} {l : List Str} (h : ∀ d ∈ o, d.dim.toNat ≤ (indexList d).length)
    (e : instanceNames name o = l) : InstanceNames name o l := by
  subst e
  cases o with
  | none => rfl
  | some d =>
    have := h d rfl
    refine ⟨by simp [instanceNames]; omega, fun k n hk => ?_⟩
    obtain ⟨idx, h1, rfl⟩ := Option.map_eq_some_iff.mp ((List.getElem?_map ..).symm.trans hk)
    rw [List.getElem?_take] at h1
    split at h1
    · exact ⟨idx, h1, (nameFor_iff ..).mp rfl⟩
    · cases h1

theorem nested_clear : DeviceClear Sample.nested := by
  refine ⟨⟨[["P0".toList, "P1".toList]], .cons (instanceNames_self (by decide) (by decide +kernel)) .nil, by decide⟩, ?_⟩
  intro p hp cs hcs
  cases List.mem_singleton.mp hp
  cases hcs
  refine .mk (ls := [["C".toList], ["T".toList]]) (.cons rfl (.cons rfl .nil)) (by decide) ?_ ?_ ?_
  · intro c l hm
    simp only [List.zip_cons_cons, List.zip_nil_left, List.mem_cons, List.not_mem_nil, or_false] at hm
    rcases hm with hm | hm <;> cases hm
    · intro _; decide
    · exact fun h => h.elim
  · intro r fs hr hf
    simp only [List.mem_cons, List.not_mem_nil, or_false, reduceCtorEq, false_or] at hr
    cases hr
    cases hf
  · intro hd d sub hr
    simp only [List.mem_cons, List.not_mem_nil, or_false, reduceCtorEq] at hr
    cases hr
    refine .mk (ls := [["S0".toList, "S1".toList]]) (.cons (instanceNames_self (o := some (Sample.dim 2 8)) (name := "S%s".toList) (by decide) (by decide +kernel)) .nil)
      (by decide) ?_ ?_ ?_
    · intro c l hm _
      cases List.mem_singleton.mp hm
      decide
    · intro r fs hr
      cases List.mem_singleton.mp hr
    · intro hd d sub hr
      cases List.mem_singleton.mp hr
      refine .mk (ls := [["RA".toList, "RB".toList]]) (.cons (instanceNames_self (o := some (Sample.dim 2 2 (some ["A", "B"])))
        (name := "R%s".toList) (by decide) (by decide +kernel)) .nil) (by decide) ?_ ?_ ?_
      · intro c l hm h
        cases List.mem_singleton.mp hm
        exact h.elim
      · intro r fs hr hf
        cases List.mem_singleton.mp hr
        cases hf
        exact ⟨[["F".toList]], .cons rfl .nil, by decide⟩
      · intro hd d sub hr
        cases List.mem_singleton.mp hr

/-- A register `B_C` in a cluster `A`, and a register `C` in a cluster `A_B`. -/
def colliding : Device :=
  Sample.device [.single (Sample.peripheralInfo "P" 0 none (some
    [.cluster (Sample.clusterHead "A" 0) none [.register (.single (Sample.registerInfo "B_C" 0))],
     .cluster (Sample.clusterHead "A_B" 4) none [.register (.single (Sample.registerInfo "C" 0))]]))]

/-- What becomes of it. -/
def collided : Device :=
  Sample.device [.single (Sample.peripheralInfo "P" 0 none (some
    [.register (.single (Sample.registerInfo "A_B_C" 0)), .register (.single (Sample.registerInfo "A_B_C" 4))]))]

/-- **C84.** That names next to each other are different is not enough: this device is valid, and both registers are
called `A_B_C` afterwards, which is valid as well.  The second one cannot be looked up. -/
theorem C84_collision : colliding.validateAll .strict = .ok () ∧ DeviceNoRef colliding ∧
    expand true 5 colliding = .ok collided ∧ collided.validateAll .strict = .ok () ∧ ¬ Distinct collided ∧
    ∃ p ∈ collided.peripherals, ∃ cs, p.info.registers = some cs ∧ ∃ r, .register r ∈ cs ∧
      getRegister cs r.info.name ≠ some r := by
  refine ⟨by decide +kernel, ?_, by rfl, by decide +kernel, ?_, ?_⟩
  · intro p hp
    cases List.mem_singleton.mp hp
    refine ⟨rfl, fun l hl => ?_⟩
    cases hl
    exact ⟨⟨rfl, ⟨rfl, nofun⟩, trivial⟩, ⟨rfl, ⟨rfl, nofun⟩, trivial⟩, trivial⟩
  · intro h
    have := (h.2 _ (List.mem_singleton.mpr rfl) _ rfl).1
    revert this
    decide
  · exact ⟨_, List.mem_singleton.mpr rfl, _, rfl, .single (Sample.registerInfo "A_B_C" 4), by simp, by decide +kernel⟩

/-- No underscores in the names on a level are enough for the second condition of `Clear`. -/
theorem C84_no_underscore {cs : List RegisterCluster} {ls : List (List Str)} (hn : Pairs RcNames cs ls)
    (hd : ls.flatten.Nodup) (hu : ∀ m ∈ ls.flatten, '_' ∉ m)
    (hf : ∀ r fs, .register r ∈ cs → r.info.fields = some fs → FieldsClear fs)
    (hs : ∀ h d sub, .cluster h d sub ∈ cs → Clear sub) : Clear cs :=
  .mk hn hd (fun _ _ _ _ _ _ m hm h => hu m hm (h.subset (by simp))) hf hs

theorem nested_noRef : DeviceNoRef Sample.nested := by
  simp [DeviceNoRef, PeripheralNoRef, RcsNoRef, RcNoRef, RegisterNoRef, FieldNoRef, Sample.nested, Sample.device,
    Sample.peripheralInfo, Sample.clusterHead, Sample.registerInfo, Sample.fieldInfo, Sample.evs, MaybeArray.info]

-- All names of the two peripherals, of their five registers each and of the fields are different.
example : ∃ d', expand true 5 Sample.nested = .ok d' ∧ Distinct d' ∧
    ∀ p ∈ d'.peripherals, d'.getPeripheral p.info.name = some p := by
  obtain ⟨d', h⟩ := ok_of_isOk (x := expand true 5 Sample.nested) (by decide +kernel)
  have hd := C84_distinct true 5 _ _ nested_noRef nested_clear h
  exact ⟨d', h, hd, fun p hp => (C84_found d' hd p hp).1⟩

example : Clear [.cluster (Sample.clusterHead "A" 0) none [], .cluster (Sample.clusterHead "AB" 4) none []] := by
  refine C84_no_underscore (ls := [["A".toList], ["AB".toList]]) (.cons rfl (.cons rfl .nil)) (by decide) (by decide) ?_ ?_
  · intro r fs hr
    simp at hr
  · intro h d sub hr
    have : sub = [] := by
      simp only [List.mem_cons, RegisterCluster.cluster.injEq, List.not_mem_nil, or_false] at hr
      rcases hr with hr | hr <;> exact hr.2.2
    subst this
    exact C84_no_underscore .nil (by simp) (by simp) (by simp) (by simp)

/-- A peripheral with a register, and one that is derived from it. -/
def copied (der : Option String) (rs : Option (List RegisterCluster)) : Device :=
  Sample.device
    [.single (Sample.peripheralInfo "P" 0 none (some [.register (.single (Sample.registerInfo "R" 0))])),
     .single (Sample.peripheralInfo "Q" 64 der rs)]

-- The theorem for references: the second peripheral takes the registers of the first.
example : ∃ d', expand true 5 (copied (some "P") none) = .ok d' ∧ Distinct d' := by
  obtain ⟨d', h⟩ := ok_of_isOk (x := expand true 5 (copied (some "P") none)) (by decide +kernel)
  refine ⟨d', h, C84_references 5 _ (copied none (some [.register (.single (Sample.registerInfo "R" 0))])) d' ?_ ?_ h⟩
  · have hr : ∀ home, RegistersDeref namesOf (copied (some "P") none) home
        (some [.register (.single (Sample.registerInfo "R" 0))])
        (some [.register (.single (Sample.registerInfo "R" 0))]) := fun home =>
      .some (.cons (.register ⟨_, _, _, .own rfl, .none, rfl⟩) .nil)
    refine ⟨_, .cons ⟨_, _, _, .own rfl, hr _, rfl⟩ (.cons ⟨_, _, _, .derived rfl (.last (q := ⟨"P".toList, []⟩)
      (o := .single (Sample.peripheralInfo "P" 0 none (some [.register (.single (Sample.registerInfo "R" 0))])))
      (b := .single (Sample.peripheralInfo "Q" 64 none (some [.register (.single (Sample.registerInfo "R" 0))])))
      (k' := ()) ⟨?_, rfl⟩ rfl ?_ rfl), hr _, rfl⟩ .nil), rfl⟩
    · exact ⟨by decide, mapGet_reverse.mp (by decide +kernel)⟩
    · exact peripheralFrom_iff.mpr (by decide +kernel)
  · refine ⟨⟨[["P".toList], ["Q".toList]], .cons rfl (.cons rfl .nil), by decide⟩, fun p hp cs hcs => ?_⟩
    have : cs = [.register (.single (Sample.registerInfo "R" 0))] := by
      rcases List.mem_cons.mp hp with rfl | hp
      · exact (Option.some.inj hcs).symm
      · cases List.mem_singleton.mp hp
        exact (Option.some.inj hcs).symm
    subst this
    refine C84_no_underscore (ls := [["R".toList]]) (.cons rfl .nil) (by decide) (by decide) ?_ ?_
    · intro r fs hr hf
      cases List.mem_singleton.mp hr
      cases hf
    · intro h d sub hr
      cases List.mem_singleton.mp hr

end Svd
