import Verif.Props.Shuffled
import Verif.Props.Ground

/-!
# C85 without overflow checks
-/

namespace Svd

open Spec

namespace Shuffle

/-! ## Paths in a device with all positions zero -/

theorem named_ground {n m : Str} {o : Option DimElement} : Named n (o.map groundDim) m ↔ Named n o m := by
  cases o with
  | none => exact Iff.rfl
  | some d =>
    refine or_congr .rfl ⟨?_, ?_⟩
    · rintro ⟨e, k, idx, he, h1, h2, h3⟩
      cases he
      exact ⟨d, k, idx, rfl, h1, h2, h3⟩
    · rintro ⟨e, k, idx, he, h1, h2, h3⟩
      cases he
      exact ⟨_, k, idx, rfl, h1, h2, h3⟩

theorem ground_peripheral_name (p : Peripheral) : (groundPeripheral p).info.name = p.info.name := by cases p <;> rfl

theorem peripheralAt_ground {d : Device} {q : BlockPath} {p : Peripheral} (h : PeripheralAt (ground d) q p) :
    ∃ p0, PeripheralAt d q p0 ∧ p = groundPeripheral p0 := by
  obtain ⟨h1, h2, h3⟩ := h
  obtain ⟨p0, h4, rfl⟩ := List.mem_map.mp h1
  refine ⟨p0, ⟨h4, h2, ?_⟩, rfl⟩
  rw [ground_peripheral_name] at h3
  exact named_ground.mp (by rw [← Ground.dim?]; exact h3)

theorem ground_registers (p : Peripheral) : (groundPeripheral p).info.registers = p.info.registers.map groundRcs := by
  cases p <;> rfl

theorem blockAt_ground {d : Device} {q : BlockPath} {cs : List RegisterCluster} (h : BlockAt (ground d) q cs) :
    ∃ cs0, BlockAt d q cs0 ∧ cs = groundRcs cs0 := by
  induction h with
  | peripheral h1 h2 =>
    obtain ⟨p0, h3, rfl⟩ := peripheralAt_ground h1
    rw [ground_registers] at h2
    obtain ⟨cs0, h4, rfl⟩ := Option.map_eq_some_iff.mp h2
    exact ⟨cs0, .peripheral h3 h4, rfl⟩
  | cluster _ h2 h3 ih =>
    obtain ⟨cs0, h4, rfl⟩ := ih
    rw [Ground.rcs_map] at h2
    obtain ⟨c, h5, h6⟩ := List.mem_map.mp h2
    cases c with
    | register r => exact nomatch h6
    | cluster h dim sub =>
      rw [groundRc] at h6
      cases h6
      exact ⟨sub, .cluster h4 h5 (named_ground.mp h3), rfl⟩

theorem clusterAt_ground {d : Device} {q : BlockPath} {c : Cluster} (h : ClusterAt (ground d) q c) :
    ∃ c0, ClusterAt d q c0 ∧ c = Ground.cluster c0 := by
  obtain ⟨b0, n, cs, h1, h2, h3, h4⟩ := h
  obtain ⟨cs0, h5, rfl⟩ := blockAt_ground h1
  rw [Ground.rcs_map] at h2
  obtain ⟨x, h6, h7⟩ := List.mem_map.mp h2
  cases x with
  | register r => exact nomatch h7
  | cluster h dim sub =>
    rw [groundRc] at h7
    injection h7 with k1 k2 k3
    rw [← k1, ← k2] at h3
    refine ⟨MaybeArray.mk' { h with children := sub } dim, ⟨b0, n, cs0, h5, ?_, ?_, h4⟩, ?_⟩
    · rw [info_mk, dim_mk]; exact h6
    · rw [info_mk, dim_mk]; exact named_ground.mp h3
    · refine arr_ext ?_ ?_
      · rw [Ground.cluster, Ground.info, info_mk, Ground.clusterInfo]
        have : c.info = { c.info.toClusterHead with children := c.info.children } := rfl
        rw [this, ← k1, ← k3, Ground.rcs_map]
      · rw [Ground.cluster, Ground.dim?, dim_mk, k2]

theorem registerAt_ground {d : Device} {q : RegisterPath} {r : Register} (h : RegisterAt (ground d) q r) :
    ∃ r0, RegisterAt d q r0 ∧ r = groundRegister r0 := by
  obtain ⟨cs, h1, h2, h3⟩ := h
  obtain ⟨cs0, h5, rfl⟩ := blockAt_ground h1
  rw [Ground.rcs_map] at h2
  obtain ⟨x, h6, h7⟩ := List.mem_map.mp h2
  cases x with
  | cluster h dim sub => exact nomatch h7
  | register r0 =>
    rw [groundRc] at h7
    injection h7 with h7
    subst h7
    have hn : (groundRegister r0).info.name = r0.info.name := by cases r0 <;> rfl
    rw [hn] at h3
    exact ⟨r0, ⟨cs0, h5, h6, named_ground.mp (by rw [← Ground.dim?]; exact h3)⟩, rfl⟩

theorem ground_fields {r : Register} {l : List Field} (h : (groundRegister r).info.fields = some l) :
    ∃ l0, r.info.fields = some l0 ∧ l = l0.map groundField := by
  have : (groundRegister r).info.fields = r.info.fields.map fun l => l.map groundField := by cases r <;> rfl
  rw [this] at h
  obtain ⟨l0, h1, h2⟩ := Option.map_eq_some_iff.mp h
  exact ⟨l0, h1, h2.symm⟩

theorem ground_values (f : Field) : (groundField f).info.enumeratedValues = f.info.enumeratedValues := by
  cases f <;> rfl

theorem fieldAt_ground {d : Device} {q : FieldPath} {f : Field} (h : FieldAt (ground d) q f) :
    ∃ f0, FieldAt d q f0 ∧ f = groundField f0 := by
  obtain ⟨r, l, h1, h2, h3, h4⟩ := h
  obtain ⟨r0, h5, rfl⟩ := registerAt_ground h1
  obtain ⟨l0, h6, rfl⟩ := ground_fields h2
  obtain ⟨f0, h7, rfl⟩ := List.mem_map.mp h3
  have hn : (groundField f0).info.name = f0.info.name := by cases f0 <;> rfl
  rw [hn] at h4
  exact ⟨f0, ⟨r0, l0, h5, h6, h7, named_ground.mp (by rw [← Ground.dim?]; exact h4)⟩, rfl⟩

theorem enumAt_ground {d : Device} {q : EnumPath} {e : EnumeratedValues} (h : EnumAt (ground d) q e) :
    EnumAt d q e := by
  obtain ⟨f, h1, h2, h3⟩ := h
  obtain ⟨f0, h4, rfl⟩ := fieldAt_ground h1
  rw [ground_values] at h2
  exact ⟨f0, h4, h2, h3⟩

theorem unambiguous_ground {d : Device} (hu : Unambiguous d) : Unambiguous (ground d) where
  peripherals q p p' h h' := by
    obtain ⟨a, h1, rfl⟩ := peripheralAt_ground h
    obtain ⟨b, h2, rfl⟩ := peripheralAt_ground h'
    rw [hu.peripherals q a b h1 h2]
  clusters q p p' h h' := by
    obtain ⟨a, h1, rfl⟩ := clusterAt_ground h
    obtain ⟨b, h2, rfl⟩ := clusterAt_ground h'
    rw [hu.clusters q a b h1 h2]
  registers q p p' h h' := by
    obtain ⟨a, h1, rfl⟩ := registerAt_ground h
    obtain ⟨b, h2, rfl⟩ := registerAt_ground h'
    rw [hu.registers q a b h1 h2]
  fields q p p' h h' := by
    obtain ⟨a, h1, rfl⟩ := fieldAt_ground h
    obtain ⟨b, h2, rfl⟩ := fieldAt_ground h'
    rw [hu.fields q a b h1 h2]
  enums q p p' h h' := hu.enums q p p' (enumAt_ground h) (enumAt_ground h')
  groups q r fs f g e e' h1 h2 h3 h4 h5 h6 h7 h8 := by
    obtain ⟨r0, k1, rfl⟩ := registerAt_ground h1
    obtain ⟨fs0, k2, rfl⟩ := ground_fields h2
    obtain ⟨f0, k3, rfl⟩ := List.mem_map.mp h3
    obtain ⟨g0, k4, rfl⟩ := List.mem_map.mp h4
    rw [ground_values] at h5 h6
    rw [hu.groups q r0 fs0 f0 g0 e e' k1 k2 k3 k4 h5 h6 h7 h8]

/-! ## Shuffled devices with all positions zero -/

theorem alike_ground {f f' : Field} (h : FieldAlike f f') : FieldAlike (groundField f) (groundField f') := by
  obtain ⟨t, rfl⟩ := h
  exact ⟨t, by cases f <;> rfl⟩

theorem register_ground {r r' : Register} (h : RegisterShuffled r r') :
    RegisterShuffled (groundRegister r) (groundRegister r') := by
  obtain ⟨fs, h1, rfl⟩ := h
  refine ⟨fs.map fun l => l.map groundField, ?_, by cases r <;> rfl⟩
  have : (groundRegister r).info.fields = r.info.fields.map fun l => l.map groundField := by cases r <;> rfl
  rw [this]
  generalize r.info.fields = o at h1
  cases h1 with
  | none => exact .none
  | some h1 => exact .some (map h1 fun _ _ => alike_ground)

mutual
theorem rc_ground {c c' : RegisterCluster} : RcShuffled c c' → RcShuffled (groundRc c) (groundRc c')
  | .register h => by rw [groundRc, groundRc]; exact .register (register_ground h)
  | .cluster h => by rw [groundRc, groundRc]; exact .cluster (rcs_ground h)
theorem rcs_ground {l m : List RegisterCluster} : RcsShuffled l m → RcsShuffled (groundRcs l) (groundRcs m)
  | .nil => by rw [groundRcs]; exact .nil
  | .cons h1 h2 => by
    have h3 := rc_ground h1
    have h4 := rcs_ground h2
    simp only [Ground.rcs_map, List.map_append, List.map_cons] at h4 ⊢
    exact .cons h3 h4
end

theorem peripheral_ground {p p' : Peripheral} (h : PeripheralShuffled p p') :
    PeripheralShuffled (groundPeripheral p) (groundPeripheral p') := by
  obtain ⟨rs, h1, rfl⟩ := h
  refine ⟨rs.map groundRcs, ?_, by cases p <;> rfl⟩
  rw [ground_registers]
  generalize p.info.registers = o at h1
  cases h1 with
  | none => exact .none
  | some h1 => exact .some (rcs_ground h1)

theorem device_ground {d e : Device} (h : DeviceShuffled d e) : DeviceShuffled (ground d) (ground e) := by
  obtain ⟨ps, h1, rfl⟩ := h
  exact ⟨ps.map groundPeripheral, map h1 fun _ _ => peripheral_ground, rfl⟩

theorem unchecked {d e : Device}
    (ho : ∀ d' fuel, expand true fuel d = .ok d' →
      ∃ fuel' e', expand true fuel' e = .ok e' ∧ DeviceShuffled d' e')
    (hg : ∀ d' fuel, expand true fuel (ground d) = .ok d' →
      ∃ fuel' e', expand true fuel' (ground e) = .ok e' ∧ DeviceShuffled d' e')
    {fuel : Nat} {d' : Device} (h : expand false fuel d = .ok d') :
    ∃ fuel' e', expand false fuel' e = .ok e' ∧ DeviceShuffled (ground d') (ground e') ∧
      (expand true fuel d ≠ .error (.panic .overflow) → DeviceShuffled d' e') := by
  rcases C74_expand fuel d with h1 | h1
  · have h2 := C79_unchecked fuel d
    rw [h] at h2
    obtain ⟨fuel', e2, h3, h4⟩ := hg _ _ h2.symm
    rw [← C79_unchecked] at h3
    cases h5 : expand false fuel' e with
    | error x => rw [h5] at h3; exact nomatch h3
    | ok e' =>
      rw [h5] at h3
      cases h3
      exact ⟨fuel', e', h5, h4, fun hne => absurd h1 hne⟩
  · rw [h] at h1
    obtain ⟨fuel', e', h3, h4⟩ := ho _ _ h1.symm
    refine ⟨fuel', e', ?_, device_ground h4, fun _ => h4⟩
    rcases C74_expand fuel' e with h5 | h5
    · rw [h3] at h5; exact nomatch h5
    · rw [h5, h3]

end Shuffle

open Shuffle in
/-- **C85**, without overflow checks: a device whose paths are unambiguous expands if and only if it does with its
elements in another order. The results differ in order only, except perhaps for positions if a position overflows. -/
theorem C85_unchecked (d e : Device) (hd : DeviceShuffled d e) (hu : Unambiguous d) :
    (∀ fuel d', expand false fuel d = .ok d' → ∃ fuel' e', expand false fuel' e = .ok e' ∧
      DeviceShuffled (ground d') (ground e') ∧
      (expand true fuel d ≠ .error (.panic .overflow) → DeviceShuffled d' e')) ∧
    ∀ fuel d', expand false fuel e = .ok d' → ∃ fuel' e', expand false fuel' d = .ok e' ∧
      DeviceShuffled (ground d') (ground e') ∧
      (expand true fuel e ≠ .error (.panic .overflow) → DeviceShuffled d' e') :=
  ⟨fun _ _ h => unchecked (fun d' => (C85_order d e d' hd hu).1)
      (fun d' => (C85_order _ _ d' (device_ground hd) (unambiguous_ground hu)).1) h,
    fun _ _ h => unchecked (fun d' => (C85_order d e d' hd hu).2)
      (fun d' => (C85_order _ _ d' (device_ground hd) (unambiguous_ground hu)).2) h⟩

namespace Sample

/-- The devices of the example of `C85_order`, with a cluster array whose second element is past the end of the
address range. -/
def overflowing (ps : List Peripheral) (inc : U32) : Device :=
  device (ps.map fun p => p.mapInfo fun i => { i with registers := i.registers.map fun cs => cs.map fun c =>
    match c with
    | .cluster h (some x) cs => .cluster { h with addressOffset := 0xFFFFFFF0 } (some { x with dimIncrement := inc }) cs
    | c => c })

end Sample

open Sample Shuffle in
theorem overflowing_shuffled : DeviceShuffled (overflowing ordered.peripherals 0x20)
      (overflowing reordered.peripherals 0x20) ∧
    Unambiguous (overflowing ordered.peripherals 0x20) ∧
    expand true 9 (overflowing ordered.peripherals 0x20) = .error (.panic .overflow) ∧
    ∃ d', expand false 9 (overflowing ordered.peripherals 0x20) = .ok d' := by
  refine ⟨⟨_, ?_, rfl⟩, unambiguous (by decide +kernel) (by decide +kernel) (by decide +kernel) (by decide +kernel)
    (by decide +kernel) (by decide +kernel), by decide +kernel, ok_of_isOk (by decide +kernel)⟩
  refine .cons (m₁ := [_]) (m₂ := []) ⟨_, .none, rfl⟩ (.cons (m₁ := []) (m₂ := []) ⟨_, .some ?_, rfl⟩ .nil)
  refine .cons (m₁ := [_]) (m₂ := [_]) (.register ⟨_, .none, rfl⟩) (.cons (m₁ := [_]) (m₂ := []) (.cluster ?_)
    (.cons (m₁ := []) (m₂ := []) (.register ⟨_, .some ?_, rfl⟩) .nil))
  · exact .cons (m₁ := []) (.register ⟨_, .none, rfl⟩) .nil
  · exact .cons (m₁ := [_]) (m₂ := []) ⟨.offsetWidth, rfl⟩ (.cons (m₁ := []) (m₂ := []) ⟨.msbLsb, rfl⟩ .nil)

-- `C85_unchecked`: with and without overflow
example : ∃ fuel d' e', expand false 9 (Sample.overflowing Sample.ordered.peripherals 0x20) = .ok d' ∧
    expand false fuel (Sample.overflowing Sample.reordered.peripherals 0x20) = .ok e' ∧
    DeviceShuffled (ground d') (ground e') := by
  obtain ⟨hs, hu, _, ⟨d', h⟩⟩ := overflowing_shuffled
  obtain ⟨fuel, e', h1, h2, _⟩ := (C85_unchecked _ _ hs hu).1 9 d' h
  exact ⟨fuel, d', e', h, h1, h2⟩
example : ∃ fuel d' e', expand false 9 Sample.ordered = .ok d' ∧ expand false fuel Sample.reordered = .ok e' ∧
    DeviceShuffled d' e' := by
  obtain ⟨hs, hu, ⟨d0, h0⟩, _⟩ := ordered_reordered
  obtain ⟨d', h⟩ : ∃ d', expand false 9 Sample.ordered = .ok d' := ok_of_isOk (by decide +kernel)
  obtain ⟨fuel, e', h1, _, h2⟩ := (C85_unchecked _ _ hs hu).1 9 d' h
  exact ⟨fuel, d', e', h, h1, h2 (by rw [h0]; exact nofun)⟩

end Svd
