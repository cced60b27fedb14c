import Verif.Spec.Sample
import Verif.Spec.Shuffled
import Verif.Props.Full
import Verif.Props.Local
import Verif.Props.RoundTripExamples

/-!
# C85: the order of the elements does not matter for expansion
-/

namespace Svd

open Spec

set_option linter.unusedSectionVars false

namespace Shuffle

/-! ## Mixed lists -/

theorem pairs_perm {α β : Type} {R : α → β → Prop} {l l' : List α} (hp : l.Perm l') :
    ∀ {m : List β}, Pairs R l m → ∃ m', Pairs R l' m' ∧ m.Perm m' := by
  induction hp with
  | nil => exact fun h => ⟨_, h, .refl _⟩
  | cons a _ ih =>
    intro m h
    cases h with
    | cons h1 h2 =>
      obtain ⟨m', h3, h4⟩ := ih h2
      exact ⟨_, .cons h1 h3, h4.cons _⟩
  | swap a b l =>
    intro m h
    cases h with
    | cons h1 h2 =>
      cases h2 with
      | cons h2 h3 => exact ⟨_, .cons h2 (.cons h1 h3), .swap ..⟩
  | trans _ _ ih1 ih2 =>
    intro m h
    obtain ⟨m1, h1, h2⟩ := ih1 h
    obtain ⟨m2, h3, h4⟩ := ih2 h1
    exact ⟨m2, h3, h2.trans h4⟩

theorem shuffled_iff {α β : Type} {R : α → β → Prop} {l : List α} {m : List β} :
    Mixed R l m ↔ ∃ m', Pairs R l m' ∧ m'.Perm m := by
  constructor
  · intro h
    induction h with
    | nil => exact ⟨[], .nil, .refl _⟩
    | cons h1 _ ih =>
      obtain ⟨m', h2, h3⟩ := ih
      exact ⟨_, .cons h1 h2, (h3.cons _).trans List.perm_middle.symm⟩
  · rintro ⟨m', h1, h2⟩
    induction h1 generalizing m with
    | nil =>
      have := h2.nil_eq
      subst this
      exact .nil
    | @cons a b l m' h _ ih =>
      obtain ⟨m1, m2, rfl⟩ := List.append_of_mem (h2.mem_iff.mp List.mem_cons_self)
      exact .cons h (ih (h2.trans List.perm_middle).cons_inv)

section
variable {α β : Type} {R : α → β → Prop}

theorem of_pairs {l : List α} {m : List β} (h : Pairs R l m) : Mixed R l m :=
  shuffled_iff.mpr ⟨m, h, .refl _⟩

theorem perm_right {l : List α} {m m' : List β} (h : Mixed R l m) (hp : m.Perm m') : Mixed R l m' := by
  obtain ⟨n, h1, h2⟩ := shuffled_iff.mp h
  exact shuffled_iff.mpr ⟨n, h1, h2.trans hp⟩

theorem perm_left {l l' : List α} {m : List β} (h : Mixed R l m) (hp : l.Perm l') : Mixed R l' m := by
  obtain ⟨n, h1, h2⟩ := shuffled_iff.mp h
  obtain ⟨n', h3, h4⟩ := pairs_perm hp h1
  exact shuffled_iff.mpr ⟨n', h3, h4.symm.trans h2⟩

theorem append {l l' : List α} {m m' : List β} (h : Mixed R l m) (h' : Mixed R l' m') :
    Mixed R (l ++ l') (m ++ m') := by
  induction h with
  | nil => exact h'
  | @cons a b l m1 m2 h1 _ ih =>
    rw [List.append_assoc] at ih
    rw [List.append_assoc, List.cons_append]
    exact .cons h1 ih

theorem mem {l : List α} {m : List β} (h : Mixed R l m) {a : α} (ha : a ∈ l) : ∃ b ∈ m, R a b := by
  induction h with
  | nil => cases ha
  | cons h1 _ ih =>
    rcases List.mem_cons.mp ha with rfl | ha
    · exact ⟨_, by simp, h1⟩
    · obtain ⟨b, hb, h⟩ := ih ha
      refine ⟨b, ?_, h⟩
      rcases List.mem_append.mp hb with hb | hb <;> simp [hb]

theorem flip {S : β → α → Prop} {l : List α} {m : List β} (h : Mixed R l m)
    (hs : ∀ a b, R a b → S b a) : Mixed S m l := by
  induction h with
  | nil => exact .nil
  | cons h1 _ ih => exact perm_left (.cons (m₁ := []) (hs _ _ h1) ih) List.perm_middle.symm

theorem mono {S : α → β → Prop} {l : List α} {m : List β} (h : Mixed R l m)
    (hs : ∀ a b, R a b → S a b) : Mixed S l m := by
  induction h with
  | nil => exact .nil
  | cons h1 _ ih => exact .cons (hs _ _ h1) ih

theorem flatten {ls : List (List α)} {ms : List (List β)} (h : Mixed (Mixed R) ls ms) :
    Mixed R ls.flatten ms.flatten := by
  induction h with
  | nil => exact .nil
  | @cons a b l m1 m2 h1 _ ih =>
    rw [List.flatten_append] at ih
    rw [List.flatten_append, List.flatten_cons, List.flatten_cons]
    refine perm_right (append h1 ih) ?_
    rw [← List.append_assoc, ← List.append_assoc]
    exact List.perm_append_comm.append_right _

theorem map {γ δ : Type} {f : α → γ} {g : β → δ} {S : γ → δ → Prop} {l : List α} {m : List β}
    (h : Mixed R l m) (hs : ∀ a b, R a b → S (f a) (g b)) : Mixed S (l.map f) (m.map g) := by
  induction h with
  | nil => exact .nil
  | cons h1 _ ih =>
    rw [List.map_append] at ih
    rw [List.map_append, List.map_cons, List.map_cons]
    exact .cons (hs _ _ h1) ih

/-- Relating the elements to others keeps the lists shuffled. -/
theorem through {γ δ : Type} {P : α → γ → Prop} {Q : β → δ → Prop} {S : γ → δ → Prop} {l : List α}
    {m : List β} {ls : List γ} (h : Mixed R l m) (hp : Pairs P l ls)
    (hs : ∀ a b c, R a b → P a c → ∃ x, Q b x ∧ S c x) : ∃ ms, Pairs Q m ms ∧ Mixed S ls ms := by
  obtain ⟨m', h1, h2⟩ := shuffled_iff.mp h
  have : ∃ ms, Pairs Q m' ms ∧ Pairs S ls ms := by
    clear h h2
    induction h1 generalizing ls with
    | nil => cases hp; exact ⟨[], .nil, .nil⟩
    | cons h1 _ ih =>
      cases hp with
      | cons hp1 hp2 =>
        obtain ⟨ms, h3, h4⟩ := ih hp2
        obtain ⟨x, h5, h6⟩ := hs _ _ _ h1 hp1
        exact ⟨x :: ms, .cons h5 h3, .cons h6 h4⟩
  obtain ⟨ms, h3, h4⟩ := this
  obtain ⟨ms', h5, h6⟩ := pairs_perm h2 h3
  exact ⟨ms', h5, perm_right (of_pairs h4) h6⟩

end

/-! ## The relations -/

theorem arr_ext {α : Type} {a b : MaybeArray α} (h1 : a.info = b.info) (h2 : a.dim? = b.dim?) : a = b := by
  cases a <;> cases b <;> simp_all [MaybeArray.info, MaybeArray.dim?]

theorem info_map {α : Type} (f : α → α) (a : MaybeArray α) : (a.mapInfo f).info = f a.info := by
  cases a <;> rfl

theorem dim_map {α : Type} (f : α → α) (a : MaybeArray α) : (a.mapInfo f).dim? = a.dim? := by
  cases a <;> rfl

theorem info_mk {α : Type} {i : α} {o : Option DimElement} : (MaybeArray.mk' i o).info = i := by
  cases o <;> rfl

theorem dim_mk {α : Type} {i : α} {o : Option DimElement} : (MaybeArray.mk' i o).dim? = o := by
  cases o <;> rfl

theorem alike_iff {f f' : Field} : FieldAlike f f' ↔ f'.dim? = f.dim? ∧
    ∃ t, f'.info = { f.info with bitRange := { f.info.bitRange with rangeType := t } } := by
  constructor
  · rintro ⟨t, rfl⟩
    exact ⟨dim_map _ f, t, info_map _ f⟩
  · rintro ⟨h, t, ht⟩
    exact ⟨t, arr_ext (by rw [ht, info_map]) (by rw [h, dim_map])⟩

theorem alike_flip {f f' : Field} (h : FieldAlike f f') : FieldAlike f' f := by
  obtain ⟨h1, t, h2⟩ := alike_iff.mp h
  refine alike_iff.mpr ⟨h1.symm, f.info.bitRange.rangeType, ?_⟩
  rw [h2]

theorem fields_flip {o o' : Option (List Field)} (h : FieldsShuffled o o') : FieldsShuffled o' o := by
  cases h with
  | none => exact .none
  | some h => exact .some (flip h fun _ _ => alike_flip)

theorem register_iff {r r' : Register} : RegisterShuffled r r' ↔ r'.dim? = r.dim? ∧
    ∃ fs, FieldsShuffled r.info.fields fs ∧ r'.info = { r.info with fields := fs } := by
  constructor
  · rintro ⟨fs, h, rfl⟩
    exact ⟨dim_map _ r, fs, h, info_map _ r⟩
  · rintro ⟨h, fs, hf, hr⟩
    exact ⟨fs, hf, arr_ext (by rw [hr, info_map]) (by rw [h, dim_map])⟩

theorem register_flip {r r' : Register} (h : RegisterShuffled r r') : RegisterShuffled r' r := by
  obtain ⟨h1, fs, h2, h3⟩ := register_iff.mp h
  refine register_iff.mpr ⟨h1.symm, r.info.fields, ?_, ?_⟩
  · rw [h3]; exact fields_flip h2
  · rw [h3]

theorem rcs_iff {l m : List RegisterCluster} : RcsShuffled l m ↔ Mixed RcShuffled l m := by
  constructor
  · intro h
    induction l generalizing m with
    | nil => cases h; exact .nil
    | cons c l ih =>
      cases h with
      | cons h1 h2 => exact .cons h1 (ih h2)
  · intro h
    induction h with
    | nil => exact .nil
    | cons h1 _ ih => exact .cons h1 ih

mutual
theorem rc_flip {c c' : RegisterCluster} : RcShuffled c c' → RcShuffled c' c
  | .register h => .register (register_flip h)
  | .cluster h => .cluster (rcs_iff.mpr (rcs_flip h))
theorem rcs_flip {l m : List RegisterCluster} : RcsShuffled l m → Mixed RcShuffled m l
  | .nil => .nil
  | .cons h1 h2 => perm_left (.cons (m₁ := []) (rc_flip h1) (rcs_flip h2)) List.perm_middle.symm
end

theorem registers_flip {o o' : Option (List RegisterCluster)} (h : RegistersShuffled o o') :
    RegistersShuffled o' o := by
  cases h with
  | none => exact .none
  | some h => exact .some (rcs_iff.mpr (rcs_flip h))

theorem peripheral_iff {p p' : Peripheral} : PeripheralShuffled p p' ↔ p'.dim? = p.dim? ∧
    ∃ rs, RegistersShuffled p.info.registers rs ∧ p'.info = { p.info with registers := rs } := by
  constructor
  · rintro ⟨fs, h, rfl⟩
    exact ⟨dim_map _ p, fs, h, info_map _ p⟩
  · rintro ⟨h, fs, hf, hr⟩
    exact ⟨fs, hf, arr_ext (by rw [hr, info_map]) (by rw [h, dim_map])⟩

theorem peripheral_flip {p p' : Peripheral} (h : PeripheralShuffled p p') : PeripheralShuffled p' p := by
  obtain ⟨h1, fs, h2, h3⟩ := peripheral_iff.mp h
  refine peripheral_iff.mpr ⟨h1.symm, p.info.registers, ?_, ?_⟩
  · rw [h3]; exact registers_flip h2
  · rw [h3]

theorem device_flip {d e : Device} (h : DeviceShuffled d e) : DeviceShuffled e d := by
  obtain ⟨ps, h, rfl⟩ := h
  exact ⟨d.peripherals, flip h fun _ _ => peripheral_flip, rfl⟩

theorem cluster_flip {c c' : Cluster} (h : ClusterShuffled c c') : ClusterShuffled c' c := by
  obtain ⟨h1, cs, h2, h3⟩ := h
  refine ⟨h1.symm, c.info.children, ?_, ?_⟩
  · rw [h3]; exact rcs_iff.mpr (rcs_flip h2)
  · rw [h3]

/-! ## What is at a path -/

section
variable {d e : Device} (hd : DeviceShuffled d e)
include hd

theorem peripheralAt {q : BlockPath} {p : Peripheral} (h : PeripheralAt d q p) :
    ∃ p', PeripheralAt e q p' ∧ PeripheralShuffled p p' := by
  obtain ⟨ps, hs, rfl⟩ := hd
  obtain ⟨h1, h2, h3⟩ := h
  obtain ⟨p', h4, h5⟩ := mem hs h1
  refine ⟨p', ⟨h4, h2, ?_⟩, h5⟩
  obtain ⟨h6, rs, _, h7⟩ := peripheral_iff.mp h5
  rw [h6, h7]
  exact h3

theorem blockAt {q : BlockPath} {cs : List RegisterCluster} (h : BlockAt d q cs) :
    ∃ cs', BlockAt e q cs' ∧ RcsShuffled cs cs' := by
  induction h with
  | peripheral h hl =>
    obtain ⟨p', h1, h2⟩ := peripheralAt hd h
    obtain ⟨h3, rs, h4, h5⟩ := peripheral_iff.mp h2
    rw [hl] at h4
    cases h4 with
    | some h6 => exact ⟨_, .peripheral h1 (by rw [h5]), h6⟩
  | cluster _ hm hn ih =>
    obtain ⟨cs', h1, h2⟩ := ih
    obtain ⟨c', h3, h4⟩ := mem (rcs_iff.mp h2) hm
    cases h4 with
    | cluster h5 => exact ⟨_, .cluster h1 h3 hn, h5⟩

theorem clusterAt {q : BlockPath} {c : Cluster} (h : ClusterAt d q c) :
    ∃ c', ClusterAt e q c' ∧ ClusterShuffled c c' := by
  obtain ⟨b, n, cs, h1, h2, h3, h4⟩ := h
  obtain ⟨cs', h5, h6⟩ := blockAt hd h1
  obtain ⟨c', h7, h8⟩ := mem (rcs_iff.mp h6) h2
  cases h8 with
  | @cluster _ _ _ sub h9 =>
    refine ⟨MaybeArray.mk' { c.info with children := sub } c.dim?, ⟨b, n, cs', h5, ?_, ?_, h4⟩, ?_⟩
    · rw [info_mk, dim_mk]; exact h7
    · rw [info_mk, dim_mk]; exact h3
    · exact ⟨dim_mk, sub, h9, info_mk⟩

theorem registerAt {q : RegisterPath} {r : Register} (h : RegisterAt d q r) :
    ∃ r', RegisterAt e q r' ∧ RegisterShuffled r r' := by
  obtain ⟨cs, h1, h2, h3⟩ := h
  obtain ⟨cs', h5, h6⟩ := blockAt hd h1
  obtain ⟨c', h7, h8⟩ := mem (rcs_iff.mp h6) h2
  cases h8 with
  | register h9 =>
    refine ⟨_, ⟨cs', h5, h7, ?_⟩, h9⟩
    obtain ⟨g1, fs, _, g2⟩ := register_iff.mp h9
    rw [g1, g2]
    exact h3

theorem fieldAt {q : FieldPath} {f : Field} (h : FieldAt d q f) :
    ∃ f', FieldAt e q f' ∧ FieldAlike f f' := by
  obtain ⟨r, l, h1, h2, h3, h4⟩ := h
  obtain ⟨r', h5, h6⟩ := registerAt hd h1
  obtain ⟨g1, fs, g2, g3⟩ := register_iff.mp h6
  rw [h2] at g2
  cases g2 with
  | @some _ l' g4 =>
    obtain ⟨f', h7, h8⟩ := mem g4 h3
    obtain ⟨g5, t, g6⟩ := alike_iff.mp h8
    exact ⟨f', ⟨r', l', h5, by rw [g3], h7, by rw [g5, g6]; exact h4⟩, h8⟩

theorem enumAt {q : EnumPath} {x : EnumeratedValues} (h : EnumAt d q x) : EnumAt e q x := by
  obtain ⟨f, h1, h2, h3⟩ := h
  obtain ⟨f', h4, h5⟩ := fieldAt hd h1
  obtain ⟨_, t, g⟩ := alike_iff.mp h5
  exact ⟨f', h4, by rw [g]; exact h2, h3⟩

end

/-! ## What is found at a path -/

/-- Everything found in `d` is also found in `e`, perhaps shuffled. -/
structure Agree (d e : Device) : Prop where
  peripherals : ∀ k a, LastAt (allPeripherals namesOf d) k a →
    ∃ a', LastAt (allPeripherals namesOf e) k a' ∧ PeripheralShuffled a a'
  clusters : ∀ k a, LastAt (allClusters namesOf d) k a →
    ∃ a', LastAt (allClusters namesOf e) k a' ∧ ClusterShuffled a a'
  registers : ∀ k a, LastAt (allRegisterPaths namesOf d) k a →
    ∃ a', LastAt (allRegisterPaths namesOf e) k a' ∧ RegisterShuffled a a'
  fields : ∀ k a, LastAt (allFields namesOf d) k a →
    ∃ a', LastAt (allFields namesOf e) k a' ∧ FieldAlike a a'
  enums : ∀ k a, LastAt (allEnums namesOf d) k a → LastAt (allEnums namesOf e) k a

section
variable {κ α : Type} [DecidableEq κ] {l m : List (κ × α)} {P Q : κ → α → Prop} {R : α → α → Prop}
  (hl : ∀ {k a}, (k, a) ∈ l ↔ P k a) (hm : ∀ {k a}, (k, a) ∈ m ↔ Q k a)
  (hp : ∀ {k a}, P k a → ∃ b, Q k b ∧ R a b) (hq : ∀ {k b}, Q k b → ∃ a, P k a ∧ R b a)
  (hu : ∀ k a b, P k a → P k b → a = b)
include hl hm hp hq hu

theorem found (hr : ∀ a b, R a b → R b a) {k : κ} {a : α} (h : LastAt l k a) : ∃ b, LastAt m k b ∧ R a b := by
  have h1 := hl.mp (lastAt_mem h)
  obtain ⟨b, hb, _⟩ := hp h1
  obtain ⟨b, hb⟩ := lastAt_exists (hm.mpr hb)
  obtain ⟨c, hc, hcb⟩ := hq (hm.mp (lastAt_mem hb))
  rw [hu _ _ _ hc h1] at hcb
  exact ⟨b, hb, hr _ _ hcb⟩

theorem found_back {k : κ} {b : α} (h : LastAt m k b) : ∃ a, LastAt l k a ∧ R b a := by
  obtain ⟨a, ha, hab⟩ := hq (hm.mp (lastAt_mem h))
  obtain ⟨c, hc⟩ := lastAt_exists (hl.mpr ha)
  refine ⟨c, hc, ?_⟩
  rw [hu _ _ _ (hl.mp (lastAt_mem hc)) ha]
  exact hab

end

theorem agree {d e : Device} (hd : DeviceShuffled d e) (hu : Unambiguous d) : Agree d e where
  peripherals _ _ h := found mem_allPeripherals mem_allPeripherals (peripheralAt hd)
    (peripheralAt (device_flip hd)) hu.peripherals (fun _ _ => peripheral_flip) h
  clusters _ _ h := found mem_allClusters mem_allClusters (clusterAt hd)
    (clusterAt (device_flip hd)) hu.clusters (fun _ _ => cluster_flip) h
  registers _ _ h := found mem_allRegisterPaths mem_allRegisterPaths (registerAt hd)
    (registerAt (device_flip hd)) hu.registers (fun _ _ => register_flip) h
  fields _ _ h := found mem_allFields mem_allFields (fieldAt hd)
    (fieldAt (device_flip hd)) hu.fields (fun _ _ => alike_flip) h
  enums k a h := by
    obtain ⟨b, hb, rfl⟩ := found (R := Eq) mem_allEnums mem_allEnums (fun h => ⟨_, enumAt hd h, rfl⟩)
      (fun h => ⟨_, enumAt (device_flip hd) h, rfl⟩) hu.enums (fun _ _ => Eq.symm) h
    exact hb

theorem agree_back {d e : Device} (hd : DeviceShuffled d e) (hu : Unambiguous d) : Agree e d where
  peripherals _ _ h := found_back mem_allPeripherals mem_allPeripherals (peripheralAt hd)
    (peripheralAt (device_flip hd)) hu.peripherals h
  clusters _ _ h := found_back mem_allClusters mem_allClusters (clusterAt hd)
    (clusterAt (device_flip hd)) hu.clusters h
  registers _ _ h := found_back mem_allRegisterPaths mem_allRegisterPaths (registerAt hd)
    (registerAt (device_flip hd)) hu.registers h
  fields _ _ h := found_back mem_allFields mem_allFields (fieldAt hd)
    (fieldAt (device_flip hd)) hu.fields h
  enums k a h := by
    obtain ⟨b, hb, rfl⟩ := found_back (R := Eq) mem_allEnums mem_allEnums (fun h => ⟨_, enumAt hd h, rfl⟩)
      (fun h => ⟨_, enumAt (device_flip hd) h, rfl⟩) hu.enums h
    exact hb

/-- In a register a name of enumerated values is found in one field only. -/
def OneGroup (d : Device) : Prop :=
  ∀ q r fs f g s x y, LastAt (allRegisterPaths namesOf d) q r → r.info.fields = some fs → f ∈ fs → g ∈ fs →
    LastAt (allEnums namesOf d) ⟨⟨q, f.info.name⟩, s⟩ x → LastAt (allEnums namesOf d) ⟨⟨q, g.info.name⟩, s⟩ y →
    f.info.name = g.info.name

theorem oneGroup {d : Device} (hu : Unambiguous d) : OneGroup d := by
  intro q r fs f g s x y h1 h2 h3 h4 h5 h6
  have hr := mem_allRegisterPaths.mp (lastAt_mem h1)
  have key : ∀ f ∈ fs, ∀ x, LastAt (allEnums namesOf d) ⟨⟨q, f.info.name⟩, s⟩ x →
      x ∈ f.info.enumeratedValues ∧ x.name = some s := by
    intro f hf x hx
    obtain ⟨f', g1, g2, g3⟩ := mem_allEnums.mp (lastAt_mem hx)
    rw [← hu.fields _ _ _ g1 ⟨r, fs, hr, h2, hf, .inl rfl⟩]
    exact ⟨g2, g3⟩
  obtain ⟨k1, k2⟩ := key f h3 x h5
  obtain ⟨k3, k4⟩ := key g h4 y h6
  rw [hu.groups q r fs f g x y hr h2 h3 h4 k1 k3 (by rw [k2]; simp) (by rw [k2, k4])]

theorem oneGroup_back {d e : Device} (hed : Agree e d) (h : OneGroup d) : OneGroup e := by
  intro q r fs f g s x y h1 h2 h3 h4 h5 h6
  obtain ⟨r', g1, g2⟩ := hed.registers _ _ h1
  obtain ⟨_, fs', g3, g4⟩ := register_iff.mp g2
  rw [h2] at g3
  cases g3 with
  | @some _ fs' g3 =>
    obtain ⟨f', k1, k2⟩ := mem g3 h3
    obtain ⟨g', k3, k4⟩ := mem g3 h4
    obtain ⟨_, t, k2⟩ := alike_iff.mp k2
    obtain ⟨_, t', k4⟩ := alike_iff.mp k4
    have n1 : f'.info.name = f.info.name := by rw [k2]
    have n2 : g'.info.name = g.info.name := by rw [k4]
    rw [← n1, ← n2]
    rw [← n1] at h5
    rw [← n2] at h6
    exact h q r' fs' f' g' s x y g1 (by rw [g4]) k1 k3 (hed.enums _ _ h5) (hed.enums _ _ h6)

theorem first_such {α : Type} {P : α → Prop} {l : List α} (h : ∃ a ∈ l, P a) :
    ∃ pre a post, l = pre ++ a :: post ∧ P a ∧ ∀ b ∈ pre, ¬ P b := by
  induction l with
  | nil => obtain ⟨a, ha, _⟩ := h; cases ha
  | cons b l ih =>
    by_cases hb : P b
    · exact ⟨[], b, l, rfl, hb, fun x hx => by cases hx⟩
    · obtain ⟨a, ha, hp⟩ := h
      rcases List.mem_cons.mp ha with rfl | ha
      · exact absurd hp hb
      · obtain ⟨pre, x, post, rfl, h2, h3⟩ := ih ⟨a, ha, hp⟩
        refine ⟨b :: pre, x, post, rfl, h2, fun y hy => ?_⟩
        rcases List.mem_cons.mp hy with rfl | hy
        · exact hb
        · exact h3 y hy

theorem inherits_sim {κ α π : Type} {base base' : κ → Str → κ → π → α → Prop} {ref : α → Option Str}
    {from' : α → α → α → Prop} {childless : α → Prop} {R : α → α → Prop}
    (hb : ∀ k s k' q o, base k s k' q o → ∃ o', base' k s k' q o' ∧ R o o')
    (hr : ∀ a a', R a a' → ref a' = ref a) (hc : ∀ a a', R a a' → (childless a' ↔ childless a))
    (hf : ∀ a o b a' o', from' a o b → R a a' → R o o' → ∃ b', from' a' o' b' ∧ R b b')
    {k : κ} {s : Str} {a b : α} {h : Option π} (hi : Inherits base ref from' childless k s a b h) :
    ∀ {a'}, R a a' → ∃ b', Inherits base' ref from' childless k s a' b' h ∧ R b b' := by
  induction hi with
  | last h1 h2 h3 h4 =>
    intro a' ha
    obtain ⟨o', g1, g2⟩ := hb _ _ _ _ _ h1
    obtain ⟨b', g3, g4⟩ := hf _ _ _ _ _ h3 ha g2
    exact ⟨b', .last g1 ((hr _ _ g2).trans h2) g3 ((hc _ _ ha).mpr h4), g4⟩
  | lastOwn h1 h2 h3 h4 =>
    intro a' ha
    obtain ⟨o', g1, g2⟩ := hb _ _ _ _ _ h1
    obtain ⟨b', g3, g4⟩ := hf _ _ _ _ _ h3 ha g2
    exact ⟨b', .lastOwn g1 ((hr _ _ g2).trans h2) g3 (fun h => h4 ((hc _ _ ha).mp h)), g4⟩
  | next h1 h2 h3 _ ih =>
    intro a' ha
    obtain ⟨o', g1, g2⟩ := hb _ _ _ _ _ h1
    obtain ⟨b', g3, g4⟩ := hf _ _ _ _ _ h3 ha g2
    obtain ⟨c', g5, g6⟩ := ih g4
    exact ⟨c', .next g1 ((hr _ _ g2).trans h2) g3 g5, g6⟩

/-! ## Inheriting -/

theorem inh_shuffle {α : Type} {S : Option α → Option α → Prop} (hn : ∀ o, S none o → o = none)
    (hs : ∀ x o, S (some x) o → ∃ y, o = some y) {s o t s' o' : Option α} (h : Inh s o t) (h1 : S s s') (h2 : S o o') :
    ∃ t', Inh s' o' t' ∧ S t t' := by
  cases s with
  | none =>
    rw [hn _ h1]
    rw [h.2 rfl]
    exact ⟨o', ⟨fun _ h => (nomatch h), fun _ => rfl⟩, h2⟩
  | some x =>
    obtain ⟨y, rfl⟩ := hs _ _ h1
    rw [h.1 x rfl]
    exact ⟨some y, ⟨fun _ h => h, fun h => nomatch h⟩, h1⟩

theorem field_from (a o b a' o' : Field) (h : FieldFrom a o b) (ha : FieldAlike a a') (ho : FieldAlike o o') :
    ∃ b', FieldFrom a' o' b' ∧ FieldAlike b b' := by
  obtain ⟨h1, h2⟩ := h
  obtain ⟨a1, t, a2⟩ := alike_iff.mp ha
  obtain ⟨o1, u, o2⟩ := alike_iff.mp ho
  refine ⟨b.mapInfo fun i => { i with bitRange := { i.bitRange with rangeType := t } }, ⟨?_, ?_⟩, t, rfl⟩
  · rw [info_map, a2, o2]
    exact ⟨h1.description, h1.access, h1.enumeratedValues, h1.writeConstraint, h1.readAction,
      h1.modifiedWriteValues, h1.name, by simp only [h1.bitRange], h1.derivedFrom⟩
  · rw [dim_map, a1, o1, a2]
    exact h2

theorem register_from (a o b a' o' : Register) (h : RegisterFrom a o b) (ha : RegisterShuffled a a')
    (ho : RegisterShuffled o o') : ∃ b', RegisterFrom a' o' b' ∧ RegisterShuffled b b' := by
  obtain ⟨h1, h2⟩ := h
  obtain ⟨a1, t, a3, a2⟩ := register_iff.mp ha
  obtain ⟨o1, u, o3, o2⟩ := register_iff.mp ho
  obtain ⟨fs, f1, f2⟩ := inh_shuffle (S := FieldsShuffled) (fun o h => by cases h; rfl)
    (fun x o h => by cases h; exact ⟨_, rfl⟩) h1.fields a3 o3
  refine ⟨b.mapInfo fun i => { i with fields := fs }, ⟨?_, ?_⟩, fs, f2, rfl⟩
  · rw [info_map, a2, o2]
    exact ⟨h1.description, h1.properties, f1, h1.writeConstraint, h1.readAction,
      h1.modifiedWriteValues, h1.name, h1.displayName, h1.alternateGroup, h1.alternateRegister,
      h1.addressOffset, h1.datatype, h1.derivedFrom⟩
  · rw [dim_map, a1, o1, a2]
    exact h2

theorem peripheral_from (a o b a' o' : Peripheral) (h : PeripheralFrom a o b) (ha : PeripheralShuffled a a')
    (ho : PeripheralShuffled o o') : ∃ b', PeripheralFrom a' o' b' ∧ PeripheralShuffled b b' := by
  obtain ⟨h1, h2⟩ := h
  obtain ⟨a1, t, a3, a2⟩ := peripheral_iff.mp ha
  obtain ⟨o1, u, o3, o2⟩ := peripheral_iff.mp ho
  obtain ⟨fs, f1, f2⟩ := inh_shuffle (S := RegistersShuffled) (fun o h => by cases h; rfl)
    (fun x o h => by cases h; exact ⟨_, rfl⟩) h1.registers a3 o3
  refine ⟨b.mapInfo fun i => { i with registers := fs }, ⟨?_, ?_⟩, fs, f2, rfl⟩
  · rw [info_map, a2, o2]
    exact ⟨h1.version, h1.description, h1.groupName, h1.prependToName, h1.appendToName,
      h1.headerStructName, h1.props, f1, h1.addressBlock, h1.interrupt, h1.name, h1.displayName,
      h1.alternatePeripheral, h1.baseAddress, h1.derivedFrom⟩
  · rw [dim_map, a1, o1, a2]
    exact h2

theorem rcs_nil {l m : List RegisterCluster} (h : RcsShuffled l m) : m = [] ↔ l = [] := by
  cases h with
  | nil => simp
  | cons _ _ => simp

theorem cluster_from (a o b a' o' : Cluster) (h : ClusterFrom a o b) (ha : ClusterShuffled a a')
    (ho : ClusterShuffled o o') : ∃ b', ClusterFrom a' o' b' ∧ ClusterShuffled b b' := by
  obtain ⟨h1, h2⟩ := h
  obtain ⟨a1, t, a3, a2⟩ := ha
  obtain ⟨o1, u, o3, o2⟩ := ho
  have : ∃ cs, InhList t u cs ∧ RcsShuffled b.info.children cs := by
    by_cases hn : a.info.children = []
    · rw [h1.children.2 hn]
      exact ⟨u, ⟨fun h => absurd ((rcs_nil a3).mpr hn) h, fun _ => rfl⟩, o3⟩
    · rw [h1.children.1 hn]
      exact ⟨t, ⟨fun _ => rfl, fun h => absurd ((rcs_nil a3).mp h) hn⟩, a3⟩
  obtain ⟨cs, f1, f2⟩ := this
  refine ⟨b.mapInfo fun i => { i with children := cs }, ⟨?_, ?_⟩, dim_map _ _, cs, f2, info_map _ _⟩
  · rw [info_map, a2, o2]
    exact ⟨h1.props, h1.headerStructName, f1, h1.name, h1.description, h1.alternateCluster,
      h1.addressOffset, h1.derivedFrom⟩
  · rw [dim_map, a1, o1, a2]
    exact h2

/-! ## Resolving -/

section
variable {d e : Device} (hde : Agree d e) (hed : Agree e d) (hg : OneGroup d)
include hde

theorem peripheralResolved {p q p' : Peripheral} {home : BlockPath}
    (h : PeripheralResolved namesOf d p q home) (hp : PeripheralShuffled p p') :
    ∃ q', PeripheralResolved namesOf e p' q' home ∧ PeripheralShuffled q q' := by
  obtain ⟨g1, rs, g2, g3⟩ := peripheral_iff.mp hp
  have hn : p'.info.name = p.info.name := by rw [g3]
  have hr : p'.info.derivedFrom = p.info.derivedFrom := by rw [g3]
  cases h with
  | own h => exact ⟨p', hn ▸ .own (hr.trans h), hp⟩
  | @derived _ s home h1 h2 =>
    obtain ⟨q', k1, k2⟩ := inherits_sim (base := PeripheralBase namesOf d p.info.name)
      (base' := PeripheralBase namesOf e p.info.name) (R := PeripheralShuffled)
      (by
        rintro _ s _ q o ⟨⟨h3, h4⟩, rfl⟩
        obtain ⟨o', h5, h6⟩ := hde.peripherals _ _ h4
        exact ⟨o', ⟨⟨h3, h5⟩, rfl⟩, h6⟩)
      (fun a a' h => by obtain ⟨_, _, _, h⟩ := peripheral_iff.mp h; rw [h])
      (fun a a' h => by
        obtain ⟨_, _, h', h⟩ := peripheral_iff.mp h
        rw [h]
        revert h'
        generalize a.info.registers = o
        intro h'
        cases h' <;> simp)
      peripheral_from h2 (a' := p'.mapInfo fun i => { i with derivedFrom := none })
      (peripheral_iff.mpr ⟨by rw [dim_map, dim_map, g1], rs, by rw [info_map]; exact g2, by
        rw [info_map, info_map, g3]⟩)
    rw [← hn] at k1 ⊢
    exact ⟨q', .derived (hr.trans h1) k1, k2⟩

theorem clusterResolved {b : BlockPath} {p q p' : Cluster} {home : BlockPath}
    (h : ClusterResolved namesOf d b p q home) (hp : ClusterShuffled p p') :
    ∃ q', ClusterResolved namesOf e b p' q' home ∧ ClusterShuffled q q' := by
  obtain ⟨g1, rs, g2, g3⟩ := hp
  have hn : p'.info.name = p.info.name := by rw [g3]
  have hr : p'.info.derivedFrom = p.info.derivedFrom := by rw [g3]
  cases h with
  | own h => exact ⟨p', hn ▸ .own (hr.trans h), g1, rs, g2, g3⟩
  | @derived _ s home h1 h2 =>
    obtain ⟨q', k1, k2⟩ := inherits_sim (base := ClusterBase namesOf d p.info.name)
      (base' := ClusterBase namesOf e p.info.name) (R := ClusterShuffled)
      (by
        rintro k s k' q o ⟨n, h3, h4, rfl, h6⟩
        obtain ⟨o', h7, h8⟩ := hde.clusters _ _ h6
        exact ⟨o', ⟨n, h3, h4, rfl, h7⟩, h8⟩)
      (fun a a' h => by obtain ⟨_, _, _, h⟩ := h; rw [h])
      (fun a a' h => by
        obtain ⟨_, _, h', h⟩ := h
        rw [h]
        exact rcs_nil h')
      cluster_from h2 (a' := p'.mapInfo fun i => { i with derivedFrom := none })
      ⟨by rw [dim_map, dim_map, g1], rs, by rw [info_map]; exact g2, by
        rw [info_map, info_map, g3]⟩
    rw [← hn] at k1 ⊢
    exact ⟨q', .derived (hr.trans h1) k1, k2⟩

theorem registerResolved {b : BlockPath} {p q p' : Register} {home : RegisterPath}
    (h : RegisterResolved namesOf d b p q home) (hp : RegisterShuffled p p') :
    ∃ q', RegisterResolved namesOf e b p' q' home ∧ RegisterShuffled q q' := by
  obtain ⟨g1, rs, g2, g3⟩ := register_iff.mp hp
  have hn : p'.info.name = p.info.name := by rw [g3]
  have hr : p'.info.derivedFrom = p.info.derivedFrom := by rw [g3]
  cases h with
  | own h => exact ⟨p', hn ▸ .own (hr.trans h), hp⟩
  | @derived _ s home h1 h2 =>
    obtain ⟨q', k1, k2⟩ := inherits_sim (base := RegisterBase namesOf d p.info.name)
      (base' := RegisterBase namesOf e p.info.name) (R := RegisterShuffled)
      (by
        rintro k s k' q o ⟨n, h3, h4, rfl, h6⟩
        obtain ⟨o', h7, h8⟩ := hde.registers _ _ h6
        exact ⟨o', ⟨n, h3, h4, rfl, h7⟩, h8⟩)
      (fun a a' h => by obtain ⟨_, _, _, h⟩ := register_iff.mp h; rw [h])
      (fun a a' h => by
        obtain ⟨_, _, h', h⟩ := register_iff.mp h
        rw [h]
        revert h'
        generalize a.info.fields = o
        intro h'
        cases h' <;> simp)
      register_from h2 (a' := p'.mapInfo fun i => { i with derivedFrom := none })
      (register_iff.mpr ⟨by rw [dim_map, dim_map, g1], rs, by rw [info_map]; exact g2, by
        rw [info_map, info_map, g3]⟩)
    rw [← hn] at k1 ⊢
    exact ⟨q', .derived (hr.trans h1) k1, k2⟩

theorem fieldResolved {b : RegisterPath} {p q p' : Field} {home : FieldPath}
    (h : FieldResolved namesOf d b p q home) (hp : FieldAlike p p') :
    ∃ q', FieldResolved namesOf e b p' q' home ∧ FieldAlike q q' := by
  obtain ⟨g1, rs, g3⟩ := alike_iff.mp hp
  have hn : p'.info.name = p.info.name := by rw [g3]
  have hr : p'.info.derivedFrom = p.info.derivedFrom := by rw [g3]
  cases h with
  | own h => exact ⟨p', hn ▸ .own (hr.trans h), hp⟩
  | @derived _ s home h1 h2 =>
    obtain ⟨q', k1, k2⟩ := inherits_sim (base := FieldBase namesOf d p.info.name)
      (base' := FieldBase namesOf e p.info.name) (R := FieldAlike)
      (by
        rintro k s k' q o ⟨n, h3, h4, rfl, h6⟩
        obtain ⟨o', h7, h8⟩ := hde.fields _ _ h6
        exact ⟨o', ⟨n, h3, h4, rfl, h7⟩, h8⟩)
      (fun a a' h => by obtain ⟨_, _, h⟩ := alike_iff.mp h; rw [h])
      (fun a a' h => by obtain ⟨_, _, h⟩ := alike_iff.mp h; rw [h])
      field_from h2 (a' := p'.mapInfo fun i => { i with derivedFrom := none })
      (alike_iff.mpr ⟨by rw [dim_map, dim_map, g1], rs, by rw [info_map, info_map, g3]⟩)
    rw [← hn] at k1 ⊢
    exact ⟨q', .derived (hr.trans h1) k1, k2⟩

include hed hg

theorem enumLink {self : Option Str} {path q : FieldPath} {s : Str} {x : EnumeratedValues}
    (h : EnumLink (allRegisterPaths namesOf d) (allEnums namesOf d) self path s q x) :
    EnumLink (allRegisterPaths namesOf e) (allEnums namesOf e) self path s q x := by
  obtain ⟨hself, h⟩ := h
  rcases h with ⟨h4, r, fs, pre, f, post, h5, h6, h7, rfl, h9, h10⟩ | ⟨n, h4, h5, h6⟩
  · obtain ⟨r', g1, g2⟩ := hde.registers _ _ h5
    obtain ⟨_, fs', g3, g4⟩ := register_iff.mp g2
    rw [h6] at g3
    cases g3 with
    | @some _ fs' g3 =>
      have hf : f ∈ fs := by rw [h7]; simp
      obtain ⟨f', k1, k2⟩ := mem g3 hf
      obtain ⟨_, t, k2⟩ := alike_iff.mp k2
      have n1 : f'.info.name = f.info.name := by rw [k2]
      obtain ⟨pre', g', post', m1, ⟨y, m2⟩, m3⟩ := first_such
        (P := fun g : Field => ∃ x, LastAt (allEnums namesOf e) ⟨⟨path.register, g.info.name⟩, s⟩ x)
        ⟨f', k1, x, by rw [n1]; exact hde.enums _ _ h9⟩
      obtain ⟨g0, k3, k4⟩ := mem (flip g3 fun _ _ => alike_flip) (a := g') (by rw [m1]; simp)
      obtain ⟨_, t', k4⟩ := alike_iff.mp k4
      have n2 : g0.info.name = g'.info.name := by rw [k4]
      have := hg _ r fs f g0 s x y h5 h6 hf k3 h9 (by rw [n2]; exact hed.enums _ _ m2)
      refine ⟨hself, .inl ⟨h4, r', fs', pre', g', post', g1, by rw [g4], m1, ?_, hde.enums _ _ h9, m3⟩⟩
      rw [this, n2]
  · exact ⟨hself, .inr ⟨n, h4, h5, hde.enums _ _ h6⟩⟩

theorem enumsResolved {b : FieldPath} {p q : EnumeratedValues} (h : EnumsResolved namesOf d b p q) :
    EnumsResolved namesOf e b p q := by
  cases h with
  | own h => exact .own h
  | derived h1 h2 h3 =>
    refine .derived h1 ?_ h3
    revert h2
    clear h1 h3
    intro h2
    induction h2 with
    | last g1 g2 => exact .last (enumLink hde hed hg g1) g2
    | next g1 g2 _ ih => exact .next (enumLink hde hed hg g1) g2 ih

/-! ## Expanding -/

theorem fieldExpanded {f f' : Field} {l : List Field} (h : FieldExpanded f l) (hf : FieldAlike f f') :
    ∃ l', FieldExpanded f' l' ∧ Mixed FieldAlike l l' := by
  obtain ⟨t, rfl⟩ := hf
  cases h with
  | @single i => exact ⟨_, .single, of_pairs (.cons ⟨t, rfl⟩ .nil)⟩
  | @array i dim l h =>
    refine ⟨l.map .single, .array ⟨h.1, fun k a ha => ?_⟩, ?_⟩
    · obtain ⟨idx, h1, h2, h3, h4, h5, h6, h7⟩ := h.2 k a ha
      refine ⟨idx, h1, h2, h3, h4, h5, h6, ?_⟩
      rw [h7]
    · refine of_pairs ?_
      clear h
      induction l with
      | nil => exact .nil
      | cons a l ih => exact .cons ⟨a.bitRange.rangeType, rfl⟩ ih

theorem fieldFull {b : RegisterPath} {f f' : Field} {l : List Field} (h : FieldFull namesOf d b f l)
    (hf : FieldAlike f f') : ∃ l', FieldFull namesOf e b f' l' ∧ Mixed FieldAlike l l' := by
  obtain ⟨f1, home, evs, h1, h2, h3⟩ := h
  obtain ⟨f2, g1, g2⟩ := fieldResolved hde h1 hf
  obtain ⟨k1, t, k2⟩ := alike_iff.mp g2
  obtain ⟨l', g3, g4⟩ := fieldExpanded hde hed hg h3
    (f' := f2.mapInfo fun i => { i with enumeratedValues := evs })
    (alike_iff.mpr ⟨by rw [dim_map, dim_map, k1], t, by rw [info_map, info_map, k2]⟩)
  exact ⟨l', ⟨f2, home, evs, g1, by
    rw [k2]; exact Local.pairs_mono (fun x _ _ h => enumsResolved hde hed hg h) h2, g3⟩, g4⟩

theorem fieldsFull {b : RegisterPath} {o o' u : Option (List Field)} (h : FieldsFull namesOf d b o o')
    (hf : FieldsShuffled o u) : ∃ u', FieldsFull namesOf e b u u' ∧ FieldsShuffled o' u' := by
  cases h with
  | none => cases hf; exact ⟨none, .none, .none⟩
  | some h =>
    cases hf with
    | some hf =>
      obtain ⟨ms, g1, g2⟩ := through hf h (Q := FieldFull namesOf e b) (S := Mixed FieldAlike)
        fun f f' l hf hl => fieldFull hde hed hg hl hf
      exact ⟨_, .some g1, .some (flatten g2)⟩

/-- The descriptions of registers. -/
def InfoShuffled (i i' : RegisterInfo) : Prop :=
  ∃ fs, FieldsShuffled i.fields fs ∧ i' = { i with fields := fs }

theorem instances_sim {α : Type} {P P' : Nat → α → Prop} {R : α → α → Prop} {dim : DimElement} {l : List α}
    (h : Instances P dim l) (hs : ∀ k a, P k a → ∃ b, P' k b ∧ R a b) :
    ∃ l', Instances P' dim l' ∧ Pairs R l l' := by
  obtain ⟨h1, h2⟩ := h
  have : ∀ (l : List α) (n : Nat), (∀ k a, l[k]? = some a → P (n + k) a) →
      ∃ l', l'.length = l.length ∧ (∀ k a, l'[k]? = some a → P' (n + k) a) ∧ Pairs R l l' := by
    intro l
    induction l with
    | nil => exact fun n _ => ⟨[], rfl, fun k a h => by simp at h, .nil⟩
    | cons a l ih =>
      intro n h
      obtain ⟨b, hb, hr⟩ := hs _ _ (h 0 a rfl)
      obtain ⟨l', g1, g2, g3⟩ := ih (n + 1) fun k x hx => by
        have := h (k + 1) x (by simpa using hx)
        rwa [Nat.add_assoc, Nat.add_comm 1 k]
      refine ⟨b :: l', by simp [g1], fun k x hx => ?_, .cons hr g3⟩
      cases k with
      | zero => simp at hx; subst hx; exact hb
      | succ k =>
        have := g2 k x (by simpa using hx)
        rwa [Nat.add_assoc, Nat.add_comm 1 k] at this
  obtain ⟨l', g1, g2, g3⟩ := this l 0 fun k a hk => by rw [Nat.zero_add]; exact h2 k a hk
  exact ⟨l', ⟨g1.trans h1, fun k a hk => by have := g2 k a hk; rwa [Nat.zero_add] at this⟩, g3⟩

theorem registerInstances {r r' : Register} {l : List RegisterInfo} (h : RegisterInstances r l)
    (hr : RegisterShuffled r r') : ∃ l', RegisterInstances r' l' ∧ Mixed InfoShuffled l l' := by
  obtain ⟨fs, hf, rfl⟩ := hr
  cases h with
  | @single i => exact ⟨_, .single, of_pairs (.cons ⟨fs, hf, rfl⟩ .nil)⟩
  | @array i dim l h =>
    obtain ⟨l', g1, g2⟩ := instances_sim (P' := RegisterInstance { i with fields := fs } dim)
      (R := InfoShuffled) hde hed hg h (by
        rintro k a ⟨idx, h1, h2, h3, h4, h5, h6⟩
        refine ⟨{ a with fields := fs }, ⟨idx, h1, h2, h3, h4, h5, ?_⟩, fs, ?_, rfl⟩
        · rw [h6]
        · rw [h6]; exact hf)
    exact ⟨l', .array g1, of_pairs g2⟩

theorem registerFull {b : BlockPath} {r r' : Register} {l : List RegisterInfo}
    (h : RegisterFull namesOf d b r l) (hr : RegisterShuffled r r') :
    ∃ l', RegisterFull namesOf e b r' l' ∧ Mixed InfoShuffled l l' := by
  obtain ⟨r1, home, fs, h1, h2, h3⟩ := h
  obtain ⟨r2, g1, g2⟩ := registerResolved hde h1 hr
  obtain ⟨k1, fs0, k2, k3⟩ := register_iff.mp g2
  obtain ⟨fs', g3, g4⟩ := fieldsFull hde hed hg h2 k2
  obtain ⟨l', g5, g6⟩ := registerInstances hde hed hg h3
    (r' := r2.mapInfo fun i => { i with fields := fs' })
    (register_iff.mpr ⟨by rw [dim_map, dim_map, k1], fs', by rw [info_map]; exact g4, by
      rw [info_map, info_map, k3]⟩)
  exact ⟨l', ⟨r2, home, fs', g1, by rw [k3]; exact g3, g5⟩, g6⟩

theorem placed {name : Str} {off : Nat} {l l' m : List RegisterInfo} (h : Pairs (Placed name off) l l')
    (hl : Mixed InfoShuffled l m) : ∃ m', Pairs (Placed name off) m m' ∧ Mixed InfoShuffled l' m' := by
  refine through hl h ?_
  rintro a b c ⟨fs, h1, rfl⟩ ⟨h2, h3, h4⟩
  refine ⟨{ c with fields := fs }, ⟨h2, h3, ?_⟩, fs, ?_, rfl⟩
  · rw [h4]
  · rw [h4]; exact h1

theorem clusterInstances {l l' m : List RegisterInfo} {c c' : Cluster} (h : ClusterInstances l c l')
    (hc : ClusterShuffled c c') (hl : Mixed InfoShuffled l m) :
    ∃ m', ClusterInstances m c' m' ∧ Mixed InfoShuffled l' m' := by
  obtain ⟨h1, cs, _, h2⟩ := hc
  cases h with
  | @single i l' h =>
    cases c' with
    | array _ _ => simp [MaybeArray.dim?] at h1
    | single i' =>
      simp only [MaybeArray.info] at h2
      obtain ⟨m', g1, g2⟩ := placed hde hed hg h hl
      exact ⟨m', .single (by rw [h2]; exact g1), g2⟩
  | @array i dim ls h =>
    cases c' with
    | single _ => simp [MaybeArray.dim?] at h1
    | array i' dim' =>
      simp only [MaybeArray.info] at h2
      simp only [MaybeArray.dim?, Option.some.injEq] at h1
      subst h1
      obtain ⟨ms, g1, g2⟩ := instances_sim (R := Mixed InfoShuffled)
        (P' := fun k l' => ∃ name off, ClusterPlace i'.toClusterHead dim' k name off ∧
          Pairs (Placed name off) m l') hde hed hg h (by
          rintro k a ⟨name, off, h3, h4⟩
          obtain ⟨m', g1, g2⟩ := placed hde hed hg h4 hl
          exact ⟨m', ⟨name, off, by rw [h2]; exact h3, g1⟩, g2⟩)
      exact ⟨_, .array g1, flatten (of_pairs g2)⟩

theorem rcsFull_append {b : BlockPath} {cs cs' : List RegisterCluster} {l l' : List RegisterInfo}
    (h : RcsFull namesOf e b cs l) (h' : RcsFull namesOf e b cs' l') :
    RcsFull namesOf e b (cs ++ cs') (l ++ l') := by
  induction cs generalizing l with
  | nil => cases h; exact h'
  | cons c cs ih =>
    cases h with
    | cons h1 h2 =>
      rw [List.append_assoc]
      exact .cons h1 (ih h2)

theorem rcsFull_split {b : BlockPath} {cs cs' : List RegisterCluster} {l : List RegisterInfo}
    (h : RcsFull namesOf e b (cs ++ cs') l) :
    ∃ l1 l2, l = l1 ++ l2 ∧ RcsFull namesOf e b cs l1 ∧ RcsFull namesOf e b cs' l2 := by
  induction cs generalizing l with
  | nil => exact ⟨[], l, rfl, .nil, h⟩
  | cons c cs ih =>
    cases h with
    | cons h1 h2 =>
      obtain ⟨l1, l2, rfl, h3, h4⟩ := ih h2
      exact ⟨_, l2, (List.append_assoc ..).symm, .cons h1 h3, h4⟩

mutual
theorem rcFull {b : BlockPath} {c c' : RegisterCluster} {l : List RegisterInfo} :
    RcFull namesOf d b c l → RcShuffled c c' →
    ∃ l', RcFull namesOf e b c' l' ∧ Mixed InfoShuffled l l'
  | .register h, hs => by
    cases hs with
    | register hs =>
      obtain ⟨l', g1, g2⟩ := registerFull hde hed hg h hs
      exact ⟨l', .register g1, g2⟩
  | .cluster (h := hd) (dim := dim) h1 h2 h3, hs => by
    cases hs with
    | @cluster _ _ _ cs' hs =>
      obtain ⟨q', g1, g2⟩ := clusterResolved hde h1 (p' := MaybeArray.mk' ⟨hd, cs'⟩ dim)
        ⟨by rw [dim_mk, dim_mk], cs', by rw [info_mk]; exact hs, by rw [info_mk, info_mk]⟩
      obtain ⟨k1, cs2, k2, k3⟩ := g2
      obtain ⟨m, g3, g4⟩ := rcsFull h2 k2
      obtain ⟨m', g5, g6⟩ := clusterInstances hde hed hg h3 ⟨k1, cs2, k2, k3⟩ g4
      exact ⟨m', .cluster g1 (by rw [k3]; exact g3) g5, g6⟩
theorem rcsFull {b : BlockPath} {cs cs' : List RegisterCluster} {l : List RegisterInfo} :
    RcsFull namesOf d b cs l → RcsShuffled cs cs' →
    ∃ l', RcsFull namesOf e b cs' l' ∧ Mixed InfoShuffled l l'
  | .nil, hs => by cases hs; exact ⟨[], .nil, .nil⟩
  | .cons h1 h2, hs => by
    cases hs with
    | @cons _ c' _ m1 m2 hs1 hs2 =>
      obtain ⟨l1, g1, g2⟩ := rcFull h1 hs1
      obtain ⟨l2, g3, g4⟩ := rcsFull h2 hs2
      obtain ⟨a, b, rfl, g5, g6⟩ := rcsFull_split hde hed hg g3
      refine ⟨a ++ (l1 ++ b), rcsFull_append hde hed hg g5 (.cons g1 g6), perm_right (append g2 g4) ?_⟩
      rw [← List.append_assoc, ← List.append_assoc]
      exact List.perm_append_comm.append_right _
end

theorem peripheralInstances {p p' : Peripheral} {l : List Peripheral} (h : PeripheralInstances p l)
    (hp : PeripheralShuffled p p') : ∃ l', PeripheralInstances p' l' ∧ Mixed PeripheralShuffled l l' := by
  obtain ⟨rs, hf, rfl⟩ := hp
  cases h with
  | @single i => exact ⟨_, .single, of_pairs (.cons ⟨rs, hf, rfl⟩ .nil)⟩
  | @array i dim l h =>
    obtain ⟨l', g1, g2⟩ := instances_sim (P' := PeripheralInstance { i with registers := rs } dim)
      (R := fun i i' : PeripheralInfo => RegistersShuffled i.registers rs ∧ i' = { i with registers := rs })
      hde hed hg h (by
        rintro k a ⟨idx, h1, h2, h3, h4, h5, h6⟩
        refine ⟨{ a with registers := rs }, ⟨idx, h1, h2, h3, h4, h5, ?_⟩, ?_, rfl⟩
        · rw [h6]
        · rw [h6]; exact hf)
    refine ⟨l'.map .single, .array g1, map (of_pairs g2) ?_⟩
    rintro a b ⟨h1, rfl⟩
    exact ⟨rs, h1, rfl⟩

theorem peripheralFull {p p' : Peripheral} {l : List Peripheral} (h : PeripheralFull namesOf d p l)
    (hp : PeripheralShuffled p p') :
    ∃ l', PeripheralFull namesOf e p' l' ∧ Mixed PeripheralShuffled l l' := by
  obtain ⟨p1, home, rs, h1, h2, h3⟩ := h
  obtain ⟨p2, g1, g2⟩ := peripheralResolved hde h1 hp
  obtain ⟨k1, rs0, k2, k3⟩ := peripheral_iff.mp g2
  have : ∃ rs', RegistersFull namesOf e home rs0 rs' ∧ RegistersShuffled rs rs' := by
    revert h2 k2
    generalize p1.info.registers = o
    intro h2 k2
    cases h2 with
    | none => cases k2; exact ⟨none, .none, .none⟩
    | some h2 =>
      cases k2 with
      | some k2 =>
        obtain ⟨l', m1, m2⟩ := rcsFull hde hed hg h2 k2
        refine ⟨_, .some m1, .some (rcs_iff.mpr (map m2 ?_))⟩
        rintro i i' ⟨fs, n1, rfl⟩
        exact .register ⟨fs, n1, rfl⟩
  obtain ⟨rs', g3, g4⟩ := this
  obtain ⟨l', g5, g6⟩ := peripheralInstances hde hed hg h3
    (p' := p2.mapInfo fun i => { i with registers := rs' })
    (peripheral_iff.mpr ⟨by rw [dim_map, dim_map, k1], rs', by rw [info_map]; exact g4, by
      rw [info_map, info_map, k3]⟩)
  exact ⟨l', ⟨p2, home, rs', g1, by rw [k3]; exact g3, g5⟩, g6⟩

theorem deviceFull {d' : Device} (hd : DeviceShuffled d e) (h : DeviceFull namesOf d d') :
    ∃ e', DeviceFull namesOf e e' ∧ DeviceShuffled d' e' := by
  obtain ⟨ls, h1, rfl⟩ := h
  obtain ⟨ps, h2, rfl⟩ := hd
  obtain ⟨ms, g1, g2⟩ := through h2 h1 (Q := PeripheralFull namesOf { d with peripherals := ps })
    (S := Mixed PeripheralShuffled) fun p p' l hp hl => peripheralFull hde hed hg hl hp
  exact ⟨_, ⟨ms, g1, rfl⟩, _, flatten g2, rfl⟩

end

end Shuffle

/-! ## The theorems -/

open Shuffle in
/-- **C85.** A device whose paths are unambiguous expands if and only if it does with its elements in another
order, and the results differ in order only. -/
theorem C85_order (d e d' : Device) (hd : DeviceShuffled d e) (hu : Unambiguous d) :
    (∀ fuel, expand true fuel d = .ok d' → ∃ fuel' e', expand true fuel' e = .ok e' ∧ DeviceShuffled d' e') ∧
    ∀ fuel, expand true fuel e = .ok d' → ∃ fuel' e', expand true fuel' d = .ok e' ∧ DeviceShuffled d' e' := by
  have hde := agree hd hu
  have hed := agree_back hd hu
  have hg := oneGroup hu
  constructor
  · intro fuel h
    obtain ⟨e', h1, h2⟩ := deviceFull hde hed hg hd ((C56_expansion _ _).mp ⟨fuel, h⟩)
    obtain ⟨n, hn⟩ := (C56_expansion _ _).mpr h1
    exact ⟨n, e', hn, h2⟩
  · intro fuel h
    obtain ⟨e', h1, h2⟩ := deviceFull hed hde (oneGroup_back hed hg) (device_flip hd)
      ((C56_expansion _ _).mp ⟨fuel, h⟩)
    obtain ⟨n, hn⟩ := (C56_expansion _ _).mpr h1
    exact ⟨n, e', hn, h2⟩

namespace Shuffle

/-! ## Writing and reading back -/

theorem fields_presented {cfg : EncConfig} {o o' : Option (List Field)} (h : FieldsPresented cfg o o') :
    FieldsShuffled o o' := by
  cases h with
  | none => exact .none
  | @some l l' h =>
    refine .some (perm_left (l := l') (of_pairs ?_) h.1)
    clear h
    induction l' with
    | nil => exact .nil
    | cons f l' ih =>
      refine .cons ?_ ih
      exact alike_iff.mpr ⟨dim_map _ _, _, info_map _ _⟩

mutual
theorem rc_presented {cfg : EncConfig} {c c' : RegisterCluster} : RcPresented cfg c c' → RcShuffled c c'
  | .register h => .register ⟨_, fields_presented h, rfl⟩
  | .cluster h => .cluster (rcs_presented h)
theorem rcs_presented {cfg : EncConfig} {l m : List RegisterCluster} : RcsPresented cfg l m → RcsShuffled l m
  | .nil => .nil
  | .cons h1 h2 => .cons (m₁ := []) (rc_presented h1) (rcs_presented h2)
end

theorem presented {cfg : EncConfig} {d e : Device} (h : Presented cfg d e) : DeviceShuffled d e := by
  obtain ⟨l, ps, h1, h2, rfl⟩ := h
  refine ⟨ps, perm_left (l := l) (of_pairs (Local.pairs_mono ?_ h2)) h1.1, rfl⟩
  rintro p _ _ ⟨h⟩
  refine ⟨_, ?_, rfl⟩
  revert h
  generalize p.info.registers = o
  intro h
  cases h with
  | none => exact .none
  | some h1 h2 => exact .some (rcs_iff.mpr (perm_left (rcs_iff.mp (rcs_presented h2)) h1.1))

/-! ## When paths are unambiguous -/

theorem key_unique {κ α : Type} {l : List (κ × α)} (h : (l.map (·.1)).Nodup) {k : κ} {a b : α}
    (ha : (k, a) ∈ l) (hb : (k, b) ∈ l) : a = b := by
  induction l with
  | nil => cases ha
  | cons x l ih =>
    rw [List.map_cons, List.nodup_cons] at h
    rcases List.mem_cons.mp ha with rfl | ha'
    · rcases List.mem_cons.mp hb with hb' | hb'
      · injection hb' with _ hb'; exact hb'.symm
      · exact absurd (List.mem_map.mpr ⟨_, hb', rfl⟩) h.1
    · rcases List.mem_cons.mp hb with rfl | hb'
      · exact absurd (List.mem_map.mpr ⟨_, ha', rfl⟩) h.1
      · exact ih h.2 ha' hb'

theorem flatMap_unique {α β : Type} {F : α → List β} {l : List α} (h : (l.flatMap F).Nodup) {f g : α} {b : β}
    (hf : f ∈ l) (hg : g ∈ l) (h1 : b ∈ F f) (h2 : b ∈ F g) : f = g := by
  induction l with
  | nil => cases hf
  | cons x l ih =>
    rw [List.flatMap_cons, List.nodup_append] at h
    rcases List.mem_cons.mp hf with rfl | hf'
    · rcases List.mem_cons.mp hg with rfl | hg'
      · rfl
      · exact absurd rfl (h.2.2 b h1 b (List.mem_flatMap.mpr ⟨g, hg', h2⟩))
    · rcases List.mem_cons.mp hg with rfl | hg'
      · exact absurd rfl (h.2.2 b h2 b (List.mem_flatMap.mpr ⟨f, hf', h1⟩))
      · exact ih h.2.1 hf' hg'

/-- The names of the groups of enumerated values of a field. -/
def groupNames (f : Field) : List Str := f.info.enumeratedValues.filterMap fun e => e.name

theorem unambiguous {d : Device} (h1 : ((allPeripherals namesOf d).map (·.1)).Nodup)
    (h2 : ((allClusters namesOf d).map (·.1)).Nodup) (h3 : ((allRegisterPaths namesOf d).map (·.1)).Nodup)
    (h4 : ((allFields namesOf d).map (·.1)).Nodup) (h5 : ((allEnums namesOf d).map (·.1)).Nodup)
    (h6 : ∀ r ∈ (allRegisterPaths namesOf d).map (·.2), ((r.info.fields.getD []).flatMap groupNames).Nodup) :
    Unambiguous d where
  peripherals _ _ _ h h' := key_unique h1 (mem_allPeripherals.mpr h) (mem_allPeripherals.mpr h')
  clusters _ _ _ h h' := key_unique h2 (mem_allClusters.mpr h) (mem_allClusters.mpr h')
  registers _ _ _ h h' := key_unique h3 (mem_allRegisterPaths.mpr h) (mem_allRegisterPaths.mpr h')
  fields _ _ _ h h' := key_unique h4 (mem_allFields.mpr h) (mem_allFields.mpr h')
  enums _ _ _ h h' := key_unique h5 (mem_allEnums.mpr h) (mem_allEnums.mpr h')
  groups q r fs f g e e' hr hfs hf hg he he' hn hn' := by
    have := h6 r (List.mem_map.mpr ⟨_, mem_allRegisterPaths.mpr hr, rfl⟩)
    rw [hfs] at this
    cases hs : e.name with
    | none => exact absurd hs hn
    | some s =>
      exact flatMap_unique this hf hg (b := s) (List.mem_filterMap.mpr ⟨e, he, hs⟩)
        (List.mem_filterMap.mpr ⟨e', he', hn' ▸ hs⟩)

end Shuffle

open Shuffle in
/-- **C85.** So however a device is sorted when it is written, the device read back expands if and only if the
device written does, and the results differ in order and notation only. -/
theorem C85_written (oc : Bool) (cc : IdentifierFormat → Str → Str) (cfg : EncConfig)
    (pcfg : ParseConfig) (hi : pcfg.ignoreEnums = false) (hn : KeepsNames cfg) (d : Device)
    (h : Expressible pcfg.validateLevel d) (x : Xml) (hx : encodeDevice oc cc cfg d = .ok x)
    (hu : Unambiguous d) :
    ∃ e, (∀ y, Reread x y → parseDevice oc pcfg y = .ok e) ∧
      (∀ fuel d', expand true fuel d = .ok d' →
        ∃ fuel' e', expand true fuel' e = .ok e' ∧ DeviceShuffled d' e') ∧
      ∀ fuel e', expand true fuel e = .ok e' →
        ∃ fuel' d', expand true fuel' d = .ok d' ∧ DeviceShuffled d' e' := by
  obtain ⟨e, h1, h2⟩ := C27_presentation_only oc cc cfg pcfg hi hn d h x hx
  refine ⟨e, h2, fun fuel d' hd => (C85_order d e d' (presented h1) hu).1 fuel hd, fun fuel e' he => ?_⟩
  obtain ⟨n, d', h3, h4⟩ := (C85_order d e e' (presented h1) hu).2 fuel he
  exact ⟨n, d', h3, device_flip h4⟩

/-! ## Examples -/

namespace Sample

/-- Two fields with enumerated values, the second ones derived by a bare name, an array of clusters, a register
derived from a later one, a peripheral derived from a later one. -/
def ordered : Device :=
  device [.single (peripheralInfo "AUX" 0x2000 (some "P")),
    .single (peripheralInfo "P" 0x1000 none (some
      [.register (.single (registerInfo "S" 0x8 (some "R"))),
       .cluster (clusterHead "C%s" 0x10) (some (dim 2 0x8)) [.register (.single (registerInfo "T" 0))],
       .register (.single (registerInfo "R" 0x0 none (some
         [.single (fieldInfo "F" 0 none [evs (some "E") none [⟨"ON".toList, none, some 1, none⟩]]),
          .single (fieldInfo "G" 1 none [evs (some "H") (some "E")])])))]))]

/-- The same in another order, one range in another notation. -/
def reordered : Device :=
  device [.single (peripheralInfo "P" 0x1000 none (some
      [.register (.single (registerInfo "R" 0x0 none (some
         [.single { fieldInfo "G" 1 none [evs (some "H") (some "E")] with bitRange := ⟨1, 1, .msbLsb⟩ },
          .single (fieldInfo "F" 0 none [evs (some "E") none [⟨"ON".toList, none, some 1, none⟩]])]))),
       .register (.single (registerInfo "S" 0x8 (some "R"))),
       .cluster (clusterHead "C%s" 0x10) (some (dim 2 0x8)) [.register (.single (registerInfo "T" 0))]])),
    .single (peripheralInfo "AUX" 0x2000 (some "P"))]

end Sample

open Sample Shuffle in
/-- The conditions of the theorem hold, and both expand. -/
theorem ordered_reordered : DeviceShuffled ordered reordered ∧ Unambiguous ordered ∧
    (∃ d', expand true 9 ordered = .ok d') ∧ ∃ d', expand true 9 reordered = .ok d' := by
  refine ⟨⟨_, ?_, rfl⟩, unambiguous (by decide +kernel) (by decide +kernel) (by decide +kernel) (by decide +kernel)
    (by decide +kernel) (by decide +kernel), ok_of_isOk (by decide +kernel), ok_of_isOk (by decide +kernel)⟩
  refine .cons (m₁ := [_]) (m₂ := []) ⟨_, .none, rfl⟩ (.cons (m₁ := []) (m₂ := []) ⟨_, .some ?_, rfl⟩ .nil)
  refine .cons (m₁ := [_]) (m₂ := [_]) (.register ⟨_, .none, rfl⟩) (.cons (m₁ := [_]) (m₂ := []) (.cluster ?_)
    (.cons (m₁ := []) (m₂ := []) (.register ⟨_, .some ?_, rfl⟩) .nil))
  · exact .cons (m₁ := []) (.register ⟨_, .none, rfl⟩) .nil
  · exact .cons (m₁ := [_]) (m₂ := []) ⟨.offsetWidth, rfl⟩ (.cons (m₁ := []) (m₂ := []) ⟨.msbLsb, rfl⟩ .nil)

-- `C85_order`
example : ∃ fuel d' e', expand true 9 Sample.ordered = .ok d' ∧ expand true fuel Sample.reordered = .ok e' ∧
    DeviceShuffled d' e' := by
  obtain ⟨hs, hu, ⟨d', h⟩, _⟩ := ordered_reordered
  obtain ⟨fuel, e', h1, h2⟩ := (C85_order _ _ d' hs hu).1 9 h
  exact ⟨fuel, d', e', h, h1, h2⟩

open Sample Shuffle in
/-- A device that is written in another order and read again, with the conditions of the theorem. -/
theorem ordered_written : Expressible .strict ordered ∧ Unambiguous ordered ∧ KeepsNames otherConfig ∧
    ∃ x, encodeDevice true (fun _ s => s) otherConfig ordered = .ok x := by
  have h : Expressible .strict ordered := by decide +kernel
  exact ⟨h, unambiguous (by decide +kernel) (by decide +kernel) (by decide +kernel) (by decide +kernel)
    (by decide +kernel) (by decide +kernel), ⟨rfl, rfl, rfl, rfl, rfl, rfl, rfl, rfl⟩,
    C27_written true (fun _ s => s) otherConfig .strict _ h nofun nofun nofun⟩

-- `C85_written`
example : ∃ x e fuel d' e', encodeDevice true (fun _ s => s) otherConfig Sample.ordered = .ok x ∧
    (∀ y, Reread x y → parseDevice true { validateLevel := .strict } y = .ok e) ∧
    expand true 9 Sample.ordered = .ok d' ∧ expand true fuel e = .ok e' ∧ DeviceShuffled d' e' := by
  obtain ⟨h, hu, hn, x, hx⟩ := ordered_written
  obtain ⟨d', hd⟩ := ordered_reordered.2.2.1
  obtain ⟨e, h1, h2, _⟩ := C85_written true _ otherConfig { validateLevel := .strict } rfl hn _ h x hx hu
  obtain ⟨fuel, e', h3, h4⟩ := h2 9 d' hd
  exact ⟨x, e, fuel, d', e', hx, h1, hd, h3, h4⟩

namespace Sample

/-- A device with one register. -/
def oneRegister (fs : List Field) : Device :=
  device [.single (peripheralInfo "P" 0x1000 none (some
    [.register (.single (registerInfo "R" 0x0 none (some fs)))]))]

/-- A field with one group of enumerated values. -/
def grouped (name : String) (off : U32) (group : String) (der : Option String) (value : Option String) : Field :=
  .single (fieldInfo name off none [evs (some group) der
    (value.toList.map fun v => ⟨v.toList, none, some 1, none⟩)])

/-- The fields `A` and `B` both have enumerated values `E`, those of `A` derived; the enumerated values of `D`
are derived from `E`. -/
def sameGroup : Device :=
  oneRegister [grouped "A" 0 "E" (some "C.X") none, grouped "B" 1 "E" none (some "OWN"),
    grouped "C" 2 "X" none (some "ON"), grouped "D" 3 "G" (some "E") none]

end Sample

open Sample Shuffle in
/-- **C85**, the condition is needed: with fields written in the order "derived last", the device read back is
the same but for the order, and a field gets other enumerated values when it is expanded. -/
theorem C85_first_group : ∃ cfg d e d' e' x y, KeepsNames cfg ∧ Expressible .strict d ∧
    rewritten cfg d = .ok e ∧ DeviceShuffled d e ∧ expand true 9 d = .ok d' ∧ expand true 9 e = .ok e' ∧
    EnumAt d' ⟨⟨⟨⟨"P".toList, []⟩, "R".toList⟩, "D".toList⟩, "G".toList⟩ x ∧
    EnumAt e' ⟨⟨⟨⟨"P".toList, []⟩, "R".toList⟩, "D".toList⟩, "G".toList⟩ y ∧
    x.values.map (fun v => v.name) = ["ON".toList] ∧ y.values.map (fun v => v.name) = ["OWN".toList] ∧
    ¬ DeviceShuffled d' e' := by
  refine ⟨{ fieldSorting := .deriveLast none }, sameGroup,
    oneRegister [grouped "B" 1 "E" none (some "OWN"), grouped "C" 2 "X" none (some "ON"),
      grouped "A" 0 "E" (some "C.X") none, grouped "D" 3 "G" (some "E") none],
    oneRegister [grouped "A" 0 "E" none (some "ON"), grouped "B" 1 "E" none (some "OWN"),
      grouped "C" 2 "X" none (some "ON"), grouped "D" 3 "G" none (some "ON")],
    oneRegister [grouped "B" 1 "E" none (some "OWN"), grouped "C" 2 "X" none (some "ON"),
      grouped "A" 0 "E" none (some "ON"), grouped "D" 3 "G" none (some "OWN")],
    evs (some "G") none [⟨"ON".toList, none, some 1, none⟩],
    evs (some "G") none [⟨"OWN".toList, none, some 1, none⟩],
    ⟨rfl, rfl, rfl, rfl, rfl, rfl, rfl, rfl⟩, by decide +kernel, by decide +kernel, ?_, by decide +kernel,
    by decide +kernel, mem_allEnums.mp (by decide +kernel), mem_allEnums.mp (by decide +kernel), rfl, rfl, ?_⟩
  · refine ⟨_, .cons (m₁ := []) (m₂ := []) ⟨_, .some (.cons (m₁ := []) (m₂ := []) (.register
      ⟨_, .some ?_, rfl⟩) .nil), rfl⟩ .nil, rfl⟩
    exact .cons (m₁ := [_, _]) (m₂ := [_]) ⟨.offsetWidth, rfl⟩ (.cons (m₁ := []) (m₂ := [_, _]) ⟨.offsetWidth, rfl⟩
      (.cons (m₁ := []) (m₂ := [_]) ⟨.offsetWidth, rfl⟩ (.cons (m₁ := []) (m₂ := []) ⟨.offsetWidth, rfl⟩ .nil)))
  · intro h
    have : EnumAt _ ⟨⟨⟨⟨"P".toList, []⟩, "R".toList⟩, "D".toList⟩, "G".toList⟩ _ :=
      enumAt h (mem_allEnums.mp (by decide +kernel) : EnumAt _ _ (evs (some "G") none [⟨"ON".toList, none, some 1, none⟩]))
    exact absurd (mem_allEnums.mpr this) (by decide +kernel)

end Svd
