import Verif.Spec.Room
import Verif.Spec.Sample
import Verif.Props.Expanded
import Verif.Props.Deref

/-!
# C88: elements that do not overlap before expansion do not overlap after it
-/

namespace Svd

open Spec

namespace Room

/-- The register is within the range. -/
def In (x : Nat × Nat) (r : RegisterInfo) : Prop :=
  x.1 ≤ r.addressOffset.toNat ∧ r.addressOffset.toNat + bytesOf r ≤ x.2

/-- The registers have no address in common. -/
def Off (r s : RegisterInfo) : Prop :=
  NoShared r.addressOffset.toNat (bytesOf r) s.addressOffset.toNat (bytesOf s)

theorem off_of_beside {x y : Nat × Nat} {r s : RegisterInfo} (h : Beside x y) (hr : In x r) (hs : In y s) : Off r s := by
  intro z hz
  unfold Beside at h
  unfold In at hr hs
  omega

/-- Copies `i < j` of something of `size` bytes. -/
theorem copies_apart {inc size i j n : Nat} (h : n ≤ 1 ∨ size ≤ inc) (hij : i < j) (hj : j < n) :
    i * inc + size ≤ j * inc := by
  have h1 : size ≤ inc := by omega
  have h2 : (i + 1) * inc ≤ j * inc := Nat.mul_le_mul_right _ hij
  rw [Nat.add_mul, Nat.one_mul] at h2
  omega

theorem instance_bytes {i r : RegisterInfo} {d : DimElement} {k : Nat} (h : RegisterInstance i d k r) :
    r.addressOffset.toNat = i.addressOffset.toNat + k * d.dimIncrement.toNat ∧ bytesOf r = bytesOf i := by
  obtain ⟨_, _, _, _, h4, _, h6⟩ := h
  refine ⟨h4, ?_⟩
  rw [h6]
  rfl

theorem register {r : Register} {l : List RegisterInfo} (h : RegisterExpanded r l) {x : Nat × Nat}
    (hx : Copies r.info.addressOffset.toNat r.dim? (bytesOf r.info) x) : (∀ r ∈ l, In x r) ∧ l.Pairwise Off := by
  cases h with
  | single hf =>
    refine ⟨fun r hr => ?_, List.pairwise_singleton ..⟩
    rw [List.mem_singleton] at hr
    subst hr
    exact hx
  | @array i d fs l hf hl =>
    obtain ⟨h1, h2, h3⟩ := hx
    have key : ∀ k r, l[k]? = some r → k < d.dim.toNat ∧
        r.addressOffset.toNat = i.addressOffset.toNat + k * d.dimIncrement.toNat ∧ bytesOf r = bytesOf i := by
      intro k r hk
      obtain ⟨h4, _⟩ := List.getElem?_eq_some_iff.mp hk
      have h5 := instance_bytes (hl.2 k r hk)
      exact ⟨hl.1 ▸ h4, h5.1, h5.2⟩
    refine ⟨fun r hr => ?_, ?_⟩
    · obtain ⟨k, hk⟩ := List.mem_iff_getElem?.mp hr
      obtain ⟨k1, k2, k3⟩ := key k r hk
      have := h2 k k1
      have h1 : x.1 ≤ i.addressOffset.toNat := h1
      have this : i.addressOffset.toNat + k * d.dimIncrement.toNat + bytesOf i ≤ x.2 := this
      unfold In
      omega
    · rw [List.pairwise_iff_getElem]
      intro a b ha hb hab z hz
      obtain ⟨a1, a2, a3⟩ := key a _ (List.getElem?_eq_getElem ha)
      obtain ⟨b1, b2, b3⟩ := key b _ (List.getElem?_eq_getElem hb)
      have := copies_apart h3 hab b1
      have this : a * d.dimIncrement.toNat + bytesOf i ≤ b * d.dimIncrement.toNat := this
      rw [a2, a3, b2, b3] at hz
      omega

theorem placed_bytes {name : Str} {off : Nat} {r r' : RegisterInfo} (h : Placed name off r r') :
    r'.addressOffset.toNat = off + r.addressOffset.toNat ∧ bytesOf r' = bytesOf r := by
  obtain ⟨_, h2, h3⟩ := h
  refine ⟨h2, ?_⟩
  rw [h3]
  rfl

theorem placed_in {name : Str} {off n : Nat} {l l' : List RegisterInfo} (h : Pairs (Placed name off) l l')
    (hl : ∀ r ∈ l, r.addressOffset.toNat + bytesOf r ≤ n) : ∀ r ∈ l', In (off, off + n) r := by
  induction h with
  | nil => simp
  | cons h1 _ ih =>
    intro r hr
    rcases List.mem_cons.mp hr with rfl | hr
    · obtain ⟨k1, k2⟩ := placed_bytes h1
      have := hl _ List.mem_cons_self
      unfold In
      simp only
      omega
    · exact ih (fun r hr => hl r (List.mem_cons_of_mem _ hr)) r hr

theorem placed_mem {name : Str} {off : Nat} {l l' : List RegisterInfo} (h : Pairs (Placed name off) l l') :
    ∀ r' ∈ l', ∃ r ∈ l, Placed name off r r' := by
  induction h with
  | nil => simp
  | cons h1 _ ih =>
    intro r hr
    rcases List.mem_cons.mp hr with rfl | hr
    · exact ⟨_, List.mem_cons_self, h1⟩
    · obtain ⟨s, h2, h3⟩ := ih r hr
      exact ⟨s, List.mem_cons_of_mem _ h2, h3⟩

theorem placed_off {name : Str} {off : Nat} {l l' : List RegisterInfo} (h : Pairs (Placed name off) l l')
    (hl : l.Pairwise Off) : l'.Pairwise Off := by
  induction h with
  | nil => exact .nil
  | cons h1 h2 ih =>
    rw [List.pairwise_cons] at hl ⊢
    refine ⟨fun s' hs z hz => ?_, ih hl.2⟩
    obtain ⟨s, h3, h4⟩ := placed_mem h2 s' hs
    obtain ⟨k1, k2⟩ := placed_bytes h1
    obtain ⟨k3, k4⟩ := placed_bytes h4
    rw [k1, k2, k3, k4] at hz
    exact hl.1 s h3 (z - off) (by omega)

theorem within {ranges : List (Nat × Nat)} {n : Nat} (hw : RangesEnd ranges n) {l : List RegisterInfo}
    (hl : ∀ r ∈ l, ∃ x ∈ ranges, In x r) : ∀ r ∈ l, r.addressOffset.toNat + bytesOf r ≤ n := by
  intro r hr
  obtain ⟨x, h1, h2⟩ := hl r hr
  exact Nat.le_trans h2.2 (hw.2 x h1)

mutual
theorem rc {c : RegisterCluster} {l : List RegisterInfo} : RcExpanded c l → ∀ {x}, RcRoom c x →
    (∀ r ∈ l, In x r) ∧ l.Pairwise Off
  | .register h, x, hx => by
    cases hx with
    | register hx => exact register h hx
  | .cluster h hp, x, hx => by
    cases hx with
    | cluster hr hw hc =>
      obtain ⟨h1, h2⟩ := rcs h hr
      have h3 := placed_in hp (within hw h1)
      obtain ⟨c1, c2⟩ := hc
      refine ⟨fun r hr => ?_, placed_off hp (h2 hw.1)⟩
      have := h3 r hr
      unfold In at this ⊢
      simp only at this
      have c2 : _ ≤ x.2 := c2
      omega
  | .clusters (h := hd) (d := d) (ls := ls) h hi, x, hx => by
    cases hx with
    | @cluster _ _ _ ranges n _ hr hw hc =>
      obtain ⟨h1, h2⟩ := rcs h hr
      have h1 := within hw h1
      have h2 := h2 hw.1
      obtain ⟨c1, c2, c3⟩ := hc
      have key : ∀ k l', ls[k]? = some l' → k < d.dim.toNat ∧
          (∀ r ∈ l', In (hd.addressOffset.toNat + k * d.dimIncrement.toNat,
            hd.addressOffset.toNat + k * d.dimIncrement.toNat + n) r) ∧ l'.Pairwise Off := by
        intro k l' hk
        obtain ⟨h4, _⟩ := List.getElem?_eq_some_iff.mp hk
        obtain ⟨name, off, ⟨_, rfl, _⟩, hp⟩ := hi.2 k l' hk
        exact ⟨hi.1 ▸ h4, placed_in hp h1, placed_off hp h2⟩
      refine ⟨fun r hr => ?_, ?_⟩
      · obtain ⟨l', h3, h4⟩ := List.mem_flatten.mp hr
        obtain ⟨k, hk⟩ := List.mem_iff_getElem?.mp h3
        obtain ⟨k1, k2, _⟩ := key k l' hk
        have := k2 r h4
        have := c2 k k1
        unfold In at *
        simp only at *
        omega
      · rw [List.pairwise_flatten]
        refine ⟨fun l' hl' => ?_, ?_⟩
        · obtain ⟨k, hk⟩ := List.mem_iff_getElem?.mp hl'
          exact (key k l' hk).2.2
        · rw [List.pairwise_iff_getElem]
          intro a b ha hb hab r hr s hs
          obtain ⟨a1, a2, _⟩ := key a _ (List.getElem?_eq_getElem ha)
          obtain ⟨b1, b2, _⟩ := key b _ (List.getElem?_eq_getElem hb)
          refine off_of_beside (.inl ?_) (a2 r hr) (b2 s hs)
          have := copies_apart c3 hab b1
          simp only
          omega
theorem rcs {cs : List RegisterCluster} {l : List RegisterInfo} : RcsExpanded cs l → ∀ {xs}, RcsRoom cs xs →
    (∀ r ∈ l, ∃ x ∈ xs, In x r) ∧ (xs.Pairwise Beside → l.Pairwise Off)
  | .nil, _, _ => ⟨by simp, fun _ => .nil⟩
  | .cons h hs, xs, hx => by
    cases hx with
    | cons hx hxs =>
      obtain ⟨h1, h2⟩ := rc h hx
      obtain ⟨h3, h4⟩ := rcs hs hxs
      refine ⟨fun r hr => ?_, fun hp => ?_⟩
      · rcases List.mem_append.mp hr with hr | hr
        · exact ⟨_, List.mem_cons_self, h1 r hr⟩
        · obtain ⟨y, h5, h6⟩ := h3 r hr
          exact ⟨y, List.mem_cons_of_mem _ h5, h6⟩
      · rw [List.pairwise_cons] at hp
        rw [List.pairwise_append]
        refine ⟨h2, h4 hp.2, fun r hr s hs => ?_⟩
        obtain ⟨y, h5, h6⟩ := h3 s hs
        exact off_of_beside (hp.1 y h5) (h1 r hr) h6
end

/-! ## Peripherals -/

/-- The registers of a peripheral at `b`. -/
def at_ (b : Nat) (r : RegisterInfo) : Nat × Nat := (b + r.addressOffset.toNat, bytesOf r)

/-- The addresses are within the range. -/
def Inside (x y : Nat × Nat) : Prop := x.1 ≤ y.1 ∧ y.1 + y.2 ≤ x.2

/-- No address in common. -/
def Clear (x y : Nat × Nat) : Prop := NoShared x.1 x.2 y.1 y.2

theorem clear_of_beside {x y a b : Nat × Nat} (h : Beside x y) (ha : Inside x a) (hb : Inside y b) : Clear a b := by
  intro z hz
  unfold Beside at h
  unfold Inside at ha hb
  omega

theorem at_inside {n : Nat} (b : Nat) {l : List RegisterInfo} (hl : ∀ r ∈ l, r.addressOffset.toNat + bytesOf r ≤ n) :
    ∀ y ∈ l.map (at_ b), Inside (b, b + n) y := by
  intro y hy
  obtain ⟨r, h1, rfl⟩ := List.mem_map.mp hy
  have := hl r h1
  unfold Inside at_
  simp only
  omega

theorem at_clear (b : Nat) {l : List RegisterInfo} (hl : l.Pairwise Off) : (l.map (at_ b)).Pairwise Clear := by
  rw [List.pairwise_map]
  refine hl.imp fun {r s} h z hz => ?_
  unfold at_ at hz
  simp only at hz
  exact h (z - b) (by omega)

/-- What the registers of a peripheral occupy. -/
def occ (p : Peripheral) : List (Nat × Nat) :=
  (registersInAll (p.info.registers.getD [])).map fun r =>
    (p.info.baseAddress.toNat + r.info.addressOffset.toNat, bytesOf r.info)

theorem flat_registers (l : List RegisterInfo) :
    registersInAll (l.map fun r => RegisterCluster.register (.single r)) = l.map .single := by
  induction l with
  | nil => rfl
  | cons r l ih => simp only [List.map_cons, registersInAll, registersIn, ih, List.cons_append, List.nil_append]

theorem occ_some {p : Peripheral} {l : List RegisterInfo}
    (h : p.info.registers = some (l.map fun r => .register (.single r))) :
    occ p = l.map (at_ p.info.baseAddress.toNat) := by
  unfold occ
  rw [h, Option.getD_some, flat_registers, List.map_map]
  rfl

theorem occ_none {p : Peripheral} (h : p.info.registers = none) : occ p = [] := by
  unfold occ
  rw [h]
  rfl

theorem peripheral {p : Peripheral} {ps : List Peripheral} (h : PeripheralExpanded p ps) {x : Nat × Nat}
    (hx : PeripheralRoom p x) : (∀ y ∈ ps.flatMap occ, Inside x y) ∧ (ps.flatMap occ).Pairwise Clear := by
  cases h with
  | @single i rs h =>
    rw [List.flatMap_cons, List.flatMap_nil, List.append_nil]
    unfold PeripheralRoom at hx
    simp only [MaybeArray.info, MaybeArray.dim?] at hx
    generalize hi : i.registers = o at h hx
    cases h with
    | none =>
      rw [occ_none rfl]
      exact ⟨by simp, .nil⟩
    | @some cs l h =>
      rw [occ_some (l := l) rfl]
      obtain ⟨ranges, n, h1, h2, h3, h4⟩ := hx cs rfl
      obtain ⟨h5, h6⟩ := rcs h h1
      have h4 : i.baseAddress.toNat + n ≤ x.2 := h4
      refine ⟨fun y hy => ?_, at_clear _ (h6 h2.1)⟩
      have := at_inside _ (within h2 h5) y hy
      have this : Inside (i.baseAddress.toNat, i.baseAddress.toNat + n) y := this
      unfold Inside at this ⊢
      simp only at this
      omega
  | @array i d rs l h hl =>
    unfold PeripheralRoom at hx
    simp only [MaybeArray.info, MaybeArray.dim?] at hx
    rw [List.flatMap_map]
    have regs : ∀ (k : Nat) (q : PeripheralInfo), l[k]? = some q → q.registers = rs ∧ k < d.dim.toNat ∧
        q.baseAddress.toNat = i.baseAddress.toNat + k * d.dimIncrement.toNat := by
      intro k q hk
      obtain ⟨h4, _⟩ := List.getElem?_eq_some_iff.mp hk
      obtain ⟨_, _, _, _, k4, _, k6⟩ := hl.2 k q hk
      exact ⟨by rw [k6], hl.1 ▸ h4, k4⟩
    generalize hi : i.registers = o at h hx
    cases h with
    | none =>
      have : (l.flatMap fun a => occ (.single a)) = [] := by
        rw [List.flatMap_eq_nil_iff]
        intro q hq
        obtain ⟨k, hk⟩ := List.mem_iff_getElem?.mp hq
        exact occ_none (regs k q hk).1
      rw [this]
      exact ⟨by simp, .nil⟩
    | @some cs rl h =>
      obtain ⟨ranges, n, h1, h2, c1, c2, c3⟩ := hx cs rfl
      obtain ⟨h5, h6⟩ := rcs h h1
      have key : ∀ (k : Nat) (q : PeripheralInfo), l[k]? = some q → k < d.dim.toNat ∧
          (∀ y ∈ occ (.single q), Inside (i.baseAddress.toNat + k * d.dimIncrement.toNat,
            i.baseAddress.toNat + k * d.dimIncrement.toNat + n) y) ∧ (occ (.single q)).Pairwise Clear := by
        intro k q hk
        obtain ⟨k1, k2, k3⟩ := regs k q hk
        rw [occ_some (p := .single q) k1]
        have hb : (MaybeArray.single q).info.baseAddress.toNat = i.baseAddress.toNat + k * d.dimIncrement.toNat := k3
        rw [hb]
        exact ⟨k2, at_inside _ (within h2 h5), at_clear _ (h6 h2.1)⟩
      refine ⟨fun y hy => ?_, ?_⟩
      · obtain ⟨q, h3, h4⟩ := List.mem_flatMap.mp hy
        obtain ⟨k, hk⟩ := List.mem_iff_getElem?.mp h3
        obtain ⟨k1, k2, _⟩ := key k q hk
        have := k2 y h4
        have := c2 k k1
        unfold Inside at *
        simp only at *
        omega
      · rw [List.pairwise_flatMap]
        refine ⟨fun q hq => ?_, ?_⟩
        · obtain ⟨k, hk⟩ := List.mem_iff_getElem?.mp hq
          exact (key k q hk).2.2
        · rw [List.pairwise_iff_getElem]
          intro a b ha hb hab r hr s hs
          obtain ⟨a1, a2, _⟩ := key a _ (List.getElem?_eq_getElem ha)
          obtain ⟨b1, b2, _⟩ := key b _ (List.getElem?_eq_getElem hb)
          refine clear_of_beside (.inl ?_) (a2 r hr) (b2 s hs)
          have := copies_apart c3 hab b1
          simp only
          omega

theorem peripherals {l : List Peripheral} {ls : List (List Peripheral)} (h : Pairs PeripheralExpanded l ls) :
    ∀ {xs}, Pairs PeripheralRoom l xs → (∀ y ∈ ls.flatten.flatMap occ, ∃ x ∈ xs, Inside x y) ∧
      (xs.Pairwise Beside → (ls.flatten.flatMap occ).Pairwise Clear) := by
  induction h with
  | nil => exact fun _ => ⟨by simp, fun _ => .nil⟩
  | cons h1 _ ih =>
    intro xs hx
    cases hx with
    | cons hx hxs =>
      obtain ⟨h2, h3⟩ := peripheral h1 hx
      obtain ⟨h4, h5⟩ := ih hxs
      rw [List.flatten_cons, List.flatMap_append]
      refine ⟨fun r hr => ?_, fun hp => ?_⟩
      · rcases List.mem_append.mp hr with hr | hr
        · exact ⟨_, List.mem_cons_self, h2 r hr⟩
        · obtain ⟨y, h6, h7⟩ := h4 r hr
          exact ⟨y, List.mem_cons_of_mem _ h6, h7⟩
      · rw [List.pairwise_cons] at hp
        rw [List.pairwise_append]
        refine ⟨h3, h5 hp.2, fun r hr s hs => ?_⟩
        obtain ⟨y, h6, h7⟩ := h4 s hs
        exact clear_of_beside (hp.1 y h6) (h2 r hr) h7

end Room

open Room in
/-- **C88.** If the elements of a device without references have ranges of addresses beside each other, on every level,
and arrays do not overlap themselves, then no two registers of the expanded device have an address in common. -/
theorem C88_registers (fuel : Nat) (d d' : Device) (hn : DeviceNoRef d) (hr : DeviceRoom d)
    (h : expand true fuel d = .ok d') : (occupied d').Pairwise fun x y => NoShared x.1 x.2 y.1 y.2 := by
  obtain ⟨ls, h4, rfl⟩ := (C36_exact d d' hn).mp ⟨fuel, h⟩
  obtain ⟨xs, h5, h6⟩ := hr
  exact (peripherals h4 h5).2 h6

open Room in
/-- **C88.** Every register of the expanded device lies in the range of a peripheral, whether or not the ranges are
beside each other. -/
theorem C88_within (fuel : Nat) (d d' : Device) (hn : DeviceNoRef d) {xs : List (Nat × Nat)}
    (hr : Pairs PeripheralRoom d.peripherals xs) (h : expand true fuel d = .ok d') :
    ∀ y ∈ occupied d', ∃ x ∈ xs, x.1 ≤ y.1 ∧ y.1 + y.2 ≤ x.2 := by
  obtain ⟨ls, h4, rfl⟩ := (C36_exact d d' hn).mp ⟨fuel, h⟩
  exact (peripherals h4 hr).1

/-- **C88.** The same for a device with references, if the ranges are beside each other in the device with its
references followed (there is at most one such device, C69). -/
theorem C88_references (fuel : Nat) (d g d' : Device) (hg : DeviceDeref namesOf d g) (hr : DeviceRoom g)
    (h : expand true fuel d = .ok d') : (occupied d').Pairwise fun x y => NoShared x.1 x.2 y.1 y.2 := by
  obtain ⟨g', h1, h2, n, h3⟩ := (C69_two_steps d d').mp ⟨fuel, h⟩
  obtain ⟨rfl, _⟩ := C69_one_device d g g' hg h1
  exact C88_registers n g d' h2 hr h3

/-- Copies of something of `size` bytes, `inc` apart, share no address exactly if they are not longer than `inc`. -/
theorem Room.copies_iff {off inc size n : Nat} :
    (∀ i j, i < n → j < n → i ≠ j → NoShared (off + i * inc) size (off + j * inc) size) ↔ n ≤ 1 ∨ size ≤ inc := by
  constructor
  · intro h
    by_cases hn : n ≤ 1
    · exact .inl hn
    · refine .inr (Nat.le_of_not_lt fun hlt => ?_)
      have := h 0 1 (by omega) (by omega) (by omega) (off + inc)
      omega
  · intro h i j hi hj hij z hz
    rcases Nat.lt_or_gt_of_ne hij with hlt | hlt
    · have := Room.copies_apart h hlt hj
      omega
    · have := Room.copies_apart h hlt hi
      omega

/-- **C88.** The instances of a field array share no bit exactly if the increment is at least the width (or there is
one instance at most). -/
theorem C88_fields (info : FieldInfo) (d : DimElement) (l : List FieldInfo) (h : info.expand true d = .ok l) :
    (∀ (i j : Nat) f g, l[i]? = some f → l[j]? = some g → i ≠ j → ∀ b, ¬ (Covers (.single f) b ∧ Covers (.single g) b)) ↔
      l.length ≤ 1 ∨ info.bitRange.width.toNat ≤ d.dimIncrement.toNat := by
  have hi := (C21_fields info d l).mp h
  rw [← Room.copies_iff (off := info.bitRange.offset.toNat)]
  have key : ∀ (k : Nat) f, l[k]? = some f → f.bitRange.offset.toNat = info.bitRange.offset.toNat + k * d.dimIncrement.toNat ∧
      f.bitRange.width.toNat = info.bitRange.width.toNat := by
    intro k f hk
    obtain ⟨_, _, _, _, h4, h5, _⟩ := hi.2 k f hk
    exact ⟨h4, by rw [h5]⟩
  constructor
  · intro H i j hi hj hij b hb
    refine H i j _ _ (List.getElem?_eq_getElem hi) (List.getElem?_eq_getElem hj) hij b ?_
    obtain ⟨a1, a2⟩ := key i _ (List.getElem?_eq_getElem hi)
    obtain ⟨b1, b2⟩ := key j _ (List.getElem?_eq_getElem hj)
    unfold Covers
    simp only
    rw [a1, a2, b1, b2]
    exact hb
  · intro H i j f g hf hg hij b hb
    obtain ⟨a1, a2⟩ := key i f hf
    obtain ⟨b1, b2⟩ := key j g hg
    obtain ⟨hi, _⟩ := List.getElem?_eq_some_iff.mp hf
    obtain ⟨hj, _⟩ := List.getElem?_eq_some_iff.mp hg
    refine H i j hi hj hij b ?_
    unfold Covers at hb
    simp only at hb
    rw [a1, a2, b1, b2] at hb
    exact hb

/-- **C88.** The instances of a register array, of `size` bytes each, share no address exactly if the increment is at
least the size. -/
theorem C88_instances (info : RegisterInfo) (d : DimElement) (l : List RegisterInfo) (h : info.expand true d = .ok l) :
    (∀ (i j : Nat) r s, l[i]? = some r → l[j]? = some s → i ≠ j →
      NoShared r.addressOffset.toNat (bytesOf r) s.addressOffset.toNat (bytesOf s)) ↔
      l.length ≤ 1 ∨ bytesOf info ≤ d.dimIncrement.toNat := by
  have hi := (C21_registers info d l).mp h
  rw [← Room.copies_iff (off := info.addressOffset.toNat)]
  have key : ∀ (k : Nat) r, l[k]? = some r → r.addressOffset.toNat = info.addressOffset.toNat + k * d.dimIncrement.toNat ∧
      bytesOf r = bytesOf info := fun k r hk => Room.instance_bytes (hi.2 k r hk)
  constructor
  · intro H i j hi hj hij
    have := H i j _ _ (List.getElem?_eq_getElem hi) (List.getElem?_eq_getElem hj) hij
    obtain ⟨a1, a2⟩ := key i _ (List.getElem?_eq_getElem hi)
    obtain ⟨b1, b2⟩ := key j _ (List.getElem?_eq_getElem hj)
    rw [a1, a2, b1, b2] at this
    exact this
  · intro H i j f g hf hg hij
    obtain ⟨a1, a2⟩ := key i f hf
    obtain ⟨b1, b2⟩ := key j g hg
    obtain ⟨hi, _⟩ := List.getElem?_eq_some_iff.mp hf
    obtain ⟨hj, _⟩ := List.getElem?_eq_some_iff.mp hg
    rw [a1, a2, b1, b2]
    exact H i j hi hj hij

/-! ## Examples -/

namespace Sample

/-- A register of 32 bits. -/
def word (name : String) (off : U32) : RegisterInfo := { registerInfo name off with properties := { size := some 32 } }

/-- A register, an array of registers, and an array of clusters with another one in each. -/
def wordKids : List RegisterCluster :=
  [.register (.single (word "A" 0)), .register (.array (word "B%s" 4) (dim 3 4)),
   .cluster (clusterHead "C%s" 0x10) (some (dim 2 0x10))
    [.register (.single (word "D" 0)), .cluster (clusterHead "E%s" 4) (some (dim 2 4)) [.register (.single (word "F" 0))]]]

/-- An array of two such peripherals, and one more. -/
def wordDevice : Device :=
  device [.array (peripheralInfo "P%s" 0x1000 none (some wordKids)) (dim 2 0x100),
    .single (peripheralInfo "Q" 0x2000 none (some wordKids))]

theorem wordKids_room : RcsRoom wordKids [(0, 4), (4, 16), (16, 48)] ∧ RangesEnd [(0, 4), (4, 16), (16, 48)] 0x100 := by
  refine ⟨.cons (.register ⟨by decide, show _ ≤ _ by decide⟩) (.cons (.register ⟨by decide, by decide, by decide⟩) (.cons
    (.cluster (ranges := [(0, 4), (4, 12)]) (n := 16) (.cons (.register ⟨by decide, show _ ≤ _ by decide⟩) (.cons
      (.cluster (ranges := [(0, 4)]) (n := 4) (.cons (.register ⟨by decide, show _ ≤ _ by decide⟩) .nil) ?_ ?_) .nil)) ?_ ?_)
    .nil)), ?_⟩
  · exact ⟨List.pairwise_singleton .., by decide⟩
  · exact ⟨by decide, by decide, by decide⟩
  · exact ⟨by unfold Beside; decide, by decide⟩
  · exact ⟨by decide, by decide, by decide⟩
  · exact ⟨by unfold Beside; decide, by decide⟩

theorem wordDevice_ranges : Pairs PeripheralRoom wordDevice.peripherals [(0x1000, 0x1200), (0x2000, 0x2100)] := by
  refine .cons ?_ (.cons ?_ .nil)
  · intro cs hcs
    cases hcs
    exact ⟨_, _, wordKids_room.1, wordKids_room.2, by decide, by decide, by decide⟩
  · intro cs hcs
    cases hcs
    exact ⟨_, _, wordKids_room.1, wordKids_room.2, by decide, show _ ≤ _ by decide⟩

theorem wordDevice_room : DeviceRoom wordDevice :=
  ⟨_, wordDevice_ranges, by unfold Beside; decide⟩

theorem wordDevice_noRef : DeviceNoRef wordDevice := by
  intro p hp
  simp only [wordDevice, device, List.mem_cons, List.not_mem_nil, or_false] at hp
  rcases hp with rfl | rfl
  all_goals
    refine ⟨rfl, fun l hl => ?_⟩
    simp only [MaybeArray.info, peripheralInfo, Option.some.injEq] at hl
    subst hl
    simp [wordKids, word, RcsNoRef, RcNoRef, RegisterNoRef, MaybeArray.info, clusterHead, registerInfo]

/-- A peripheral with a register of 32 bits, and one beside it that may be derived from it. -/
def wordCopy (der : Option String) (rs : Option (List RegisterCluster)) : Device :=
  device [.single (peripheralInfo "P" 0 none (some [.register (.single (word "R" 0))])),
    .single (peripheralInfo "Q" 4 der rs)]

theorem wordCopy_deref : DeviceDeref namesOf (wordCopy (some "P") none)
    (wordCopy none (some [.register (.single (word "R" 0))])) := by
  have hr : ∀ home, RegistersDeref namesOf (wordCopy (some "P") none) home
      (some [.register (.single (word "R" 0))])
      (some [.register (.single (word "R" 0))]) := fun home =>
    .some (.cons (.register ⟨_, _, _, .own rfl, .none, rfl⟩) .nil)
  refine ⟨_, .cons ⟨_, _, _, .own rfl, hr _, rfl⟩ (.cons ⟨_, _, _, .derived rfl (.last (q := ⟨"P".toList, []⟩)
    (o := .single (peripheralInfo "P" 0 none (some [.register (.single (word "R" 0))])))
    (b := .single (peripheralInfo "Q" 4 none (some [.register (.single (word "R" 0))])))
    (k' := ()) ⟨?_, rfl⟩ rfl ?_ rfl), hr _, rfl⟩ .nil), rfl⟩
  · exact ⟨by decide, mapGet_reverse.mp (by decide +kernel)⟩
  · exact peripheralFrom_iff.mpr (by decide +kernel)

end Sample

-- `C88_registers`: thirty registers
example : ∃ d', expand true 9 Sample.wordDevice = .ok d' ∧ (occupied d').length = 30 ∧
    (occupied d').Pairwise fun x y => NoShared x.1 x.2 y.1 y.2 := by
  obtain ⟨d', h⟩ := ok_of_isOk (x := expand true 9 Sample.wordDevice) (by decide +kernel)
  refine ⟨d', h, ?_, C88_registers 9 _ d' Sample.wordDevice_noRef Sample.wordDevice_room h⟩
  have hc : ((expand true 9 Sample.wordDevice).map fun d => (occupied d).length) = .ok 30 := by decide +kernel
  rw [h] at hc
  exact Except.ok.inj hc

-- `C88_within`: all of them lie below 0x2100
example : ∃ d', expand true 9 Sample.wordDevice = .ok d' ∧ ∀ y ∈ occupied d', 0x1000 ≤ y.1 ∧ y.1 + y.2 ≤ 0x2100 := by
  obtain ⟨d', h⟩ := ok_of_isOk (x := expand true 9 Sample.wordDevice) (by decide +kernel)
  refine ⟨d', h, fun y hy => ?_⟩
  obtain ⟨x, hx, h1, h2⟩ := C88_within 9 _ d' Sample.wordDevice_noRef Sample.wordDevice_ranges h y hy
  simp only [List.mem_cons, List.not_mem_nil, or_false] at hx
  rcases hx with rfl | rfl <;> exact ⟨by omega, by omega⟩

-- `C88_references`: the second peripheral takes the register of the first
example : ∃ d', expand true 5 (Sample.wordCopy (some "P") none) = .ok d' ∧
    (occupied d').Pairwise fun x y => NoShared x.1 x.2 y.1 y.2 := by
  obtain ⟨d', h⟩ := ok_of_isOk (x := expand true 5 (Sample.wordCopy (some "P") none)) (by decide +kernel)
  refine ⟨d', h, C88_references 5 _ (Sample.wordCopy none (some [.register (.single (Sample.word "R" 0))])) d'
    Sample.wordCopy_deref ?_ h⟩
  refine ⟨[(0, 4), (4, 8)], .cons ?_ (.cons ?_ .nil), by unfold Beside; decide⟩
  all_goals
    intro cs hcs
    cases hcs
    exact ⟨[(0, 4)], 4, .cons (.register ⟨by decide, show _ ≤ _ by decide⟩) .nil,
      ⟨List.pairwise_singleton .., by decide⟩, by decide, show _ ≤ _ by decide⟩

-- `C88_fields`
example : ∃ l, (Sample.fieldInfo "F%s" 3).expand true (Sample.dim 4 2) = .ok l ∧
    ∀ (i j : Nat) f g, l[i]? = some f → l[j]? = some g → i ≠ j → ∀ b, ¬ (Covers (.single f) b ∧ Covers (.single g) b) := by
  obtain ⟨l, h⟩ := ok_of_isOk (x := (Sample.fieldInfo "F%s" 3).expand true (Sample.dim 4 2)) (by decide +kernel)
  exact ⟨l, h, (C88_fields _ _ l h).mpr (.inr (by decide))⟩

-- `C88_instances`: registers of four bytes every two bytes overlap
example : ∃ l, (Sample.word "R%s" 0).expand true (Sample.dim 2 2) = .ok l ∧
    ¬ ∀ (i j : Nat) r s, l[i]? = some r → l[j]? = some s → i ≠ j →
      NoShared r.addressOffset.toNat (bytesOf r) s.addressOffset.toNat (bytesOf s) := by
  obtain ⟨l, h⟩ := ok_of_isOk (x := (Sample.word "R%s" 0).expand true (Sample.dim 2 2)) (by decide +kernel)
  refine ⟨l, h, fun H => ?_⟩
  have hl : l.length = 2 := ((C21_registers _ _ l).mp h).1
  rcases (C88_instances _ _ l h).mp H with h1 | h1
  · omega
  · exact absurd h1 (by decide)

end Svd
