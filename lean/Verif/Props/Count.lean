import Verif.Spec.Count
import Verif.Props.Deref

/-!
# C77: how many peripherals, registers and fields an expanded device has
-/

namespace Svd

open Spec

namespace Count

theorem sum_mapM {α β : Type} {f : α → M (List β)} {v : α → Nat} {w : β → Nat} {l : List α} {ls : List (List β)}
    (h : l.mapM f = .ok ls) (hf : ∀ a ∈ l, ∀ bs, f a = .ok bs → (bs.map w).sum = v a) :
    (ls.flatten.map w).sum = (l.map v).sum := by
  induction l generalizing ls with
  | nil => cases h; rfl
  | cons a l ih =>
    rw [mapM_cons] at h
    obtain ⟨b, hb, h⟩ := bind_ok.mp h
    obtain ⟨bs, hbs, h⟩ := bind_ok.mp h
    cases h
    simp only [List.flatten_cons, List.map_append, List.sum_append, List.map_cons, List.sum_cons]
    rw [hf a (by simp) b hb, ih hbs fun a ha => hf a (by simp [ha])]

theorem sum_all {α : Type} {w : α → Nat} {l : List α} {n : Nat} (h : ∀ a ∈ l, w a = n) :
    (l.map w).sum = l.length * n := by
  induction l with
  | nil => simp
  | cons a l ih =>
    rw [List.map_cons, List.sum_cons, h a (by simp), ih fun a ha => h a (by simp [ha]), List.length_cons, Nat.succ_mul,
      Nat.add_comm]

theorem counts_eq (w : RegisterInfo → Nat) (cs : List RegisterCluster) :
    registerCounts w cs = (cs.map (registerCount w)).sum := by
  induction cs with
  | nil => rfl
  | cons c cs ih => rw [registerCounts, ih, List.map_cons, List.sum_cons]

/-! ## Fields -/

theorem field_count {oc : Bool} {ix : Index} {fuel : Nat} {rp : RegisterPath} {f : Field} {l : List Field}
    (hn : f.info.derivedFrom = none) (h : expandField oc ix fuel rp f = .ok l) :
    (l.map fun f => copies f.dim?).sum = copies f.dim? := by
  unfold expandField at h
  rw [hn] at h
  simp only [ok_bind] at h
  obtain ⟨evs, _, h⟩ := bind_ok.mp h
  cases f with
  | single i => cases h; rfl
  | array i d =>
    simp only [MaybeArray.mapInfo] at h
    obtain ⟨is, hi, h⟩ := bind_ok.mp h
    cases h
    rw [sum_all (n := 1), List.length_map, mapM_ok_length hi, List.length_range]
    · exact Nat.mul_one _
    · intro a ha
      obtain ⟨b, _, rfl⟩ := List.mem_map.mp ha
      rfl

theorem fields_count {oc : Bool} {ix : Index} {fuel : Nat} {rp : RegisterPath} {fs : List Field} {ls : List (List Field)}
    (hn : ∀ f ∈ fs, f.info.derivedFrom = none) (h : fs.mapM (expandField oc ix fuel rp) = .ok ls) :
    fieldCount (some ls.flatten) = fieldCount (some fs) :=
  sum_mapM h fun f hf _ hb => field_count (hn f hf) hb

/-! ## Registers -/

/-- What is counted depends on the fields only, and stays if these are expanded. -/
def Stays (v : Option (List Field) → Nat) : Prop :=
  ∀ oc ix fuel rp fs ls, (∀ f ∈ fs, f.info.derivedFrom = none) → fs.mapM (expandField oc ix fuel rp) = .ok ls →
    v (some ls.flatten) = v (some fs)

theorem register_count {v : Option (List Field) → Nat} (hv : Stays v) {oc : Bool} {ix : Index} {fuel : Nat}
    {path : BlockPath} {r : Register} {l : List RegisterCluster} (hn : RegisterNoRef r)
    (h : expandRegisterArray oc ix fuel path r = .ok l) :
    registerCounts (fun i => v i.fields) l = copies r.dim? * v r.info.fields := by
  unfold expandRegisterArray at h
  rw [hn.1] at h
  simp only [ok_bind] at h
  obtain ⟨fs, hfs, h⟩ := bind_ok.mp h
  have hf : v fs = v r.info.fields := by
    cases hr : r.info.fields with
    | none => rw [hr] at hfs; cases hfs; rfl
    | some gs =>
      rw [hr] at hfs
      obtain ⟨ls, h1, h2⟩ := bind_ok.mp hfs
      cases h2
      exact hv _ _ _ _ _ _ (fun f hf => (hn.2 gs hr f hf).1) h1
  cases r with
  | single i => cases h; simp [registerCounts, registerCount, MaybeArray.info, MaybeArray.dim?, copies] at hf ⊢; exact hf
  | array i d =>
    simp only [MaybeArray.mapInfo] at h
    obtain ⟨is, hi, h⟩ := bind_ok.mp h
    cases h
    rw [counts_eq, sum_all (n := v i.fields), List.length_map, mapM_ok_length hi, List.length_range]
    · rfl
    · intro a ha
      obtain ⟨b, hb, rfl⟩ := List.mem_map.mp ha
      obtain ⟨k, _, hk⟩ := mapM_ok_mem' hi hb
      unfold RegisterInfo.expandAt at hk
      simp only [bind_ok] at hk
      obtain ⟨_, _, _, _, _, _, _, _, hk⟩ := hk
      cases hk
      simp only [registerCount, MaybeArray.dim?, copies, MaybeArray.info, Nat.one_mul]
      exact hf

theorem cluster_count {v : Option (List Field) → Nat} {oc : Bool} {c : ClusterInfo} {l : List RegisterCluster}
    (h : expandCluster oc c = .ok l) :
    registerCounts (fun i => v i.fields) l = registerCounts (fun i => v i.fields) c.children := by
  unfold expandCluster at h
  rw [counts_eq, counts_eq]
  generalize c.children = cs at h
  induction cs generalizing l with
  | nil => cases h; rfl
  | cons a cs ih =>
    rw [mapM_cons] at h
    obtain ⟨b, hb, h⟩ := bind_ok.mp h
    obtain ⟨bs, hbs, h⟩ := bind_ok.mp h
    cases h
    simp only [List.map_cons, List.sum_cons, ih hbs]
    congr 1
    cases a with
    | cluster h d cs => cases hb
    | register r =>
      obtain ⟨off, _, hb⟩ := bind_ok.mp hb
      cases hb
      cases r <;> rfl

theorem flatten_count {v : Option (List Field) → Nat} {oc : Bool} {c : Cluster} {l : List RegisterCluster}
    (h : flattenCluster oc c = .ok l) :
    registerCounts (fun i => v i.fields) l = copies c.dim? * registerCounts (fun i => v i.fields) c.info.children := by
  cases c with
  | single i => rw [cluster_count h]; exact (Nat.one_mul _).symm
  | array i d =>
    unfold flattenCluster at h
    obtain ⟨ls, h1, h2⟩ := bind_ok.mp h
    cases h2
    rw [counts_eq, sum_mapM (v := fun _ => registerCounts (fun i => v i.fields) i.children) h1, sum_all (n := _) fun _ _ => rfl,
      List.length_range]
    · rfl
    · intro k _ bs hk
      obtain ⟨ci, hci, hk⟩ := bind_ok.mp hk
      rw [← counts_eq, cluster_count hk]
      unfold ClusterInfo.expandAt at hci
      simp only [bind_ok] at hci
      obtain ⟨_, _, _, _, _, _, hci⟩ := hci
      cases hci
      rfl

theorem rcsNoRef_mem {cs : List RegisterCluster} (h : RcsNoRef cs) : ∀ c ∈ cs, RcNoRef c := by
  induction cs with
  | nil => simp
  | cons c cs ih =>
    intro x hx
    rcases List.mem_cons.mp hx with rfl | hx
    · exact h.1
    · exact ih h.2 x hx

theorem rc_count {v : Option (List Field) → Nat} (hv : Stays v) {oc : Bool} {ix : Index} (fuel : Nat) {path : BlockPath}
    {c : RegisterCluster} {l : List RegisterCluster} (hn : RcNoRef c) (h : expandRC oc ix fuel path c = .ok l) :
    registerCounts (fun i => v i.fields) l = registerCount (fun i => v i.fields) c := by
  induction fuel generalizing path c l with
  | zero => cases c <;> cases h
  | succ n ih =>
    cases c with
    | register r => exact register_count hv hn h
    | cluster hd d cs =>
      unfold expandRC at h
      rw [hn.1] at h
      simp only [ok_bind] at h
      obtain ⟨ls, h1, h2⟩ := bind_ok.mp h
      have h3 := flatten_count (v := v) h2
      cases d with
      | none =>
        simp only [MaybeArray.mk', MaybeArray.mapInfo, MaybeArray.info, MaybeArray.dim?] at h1 h3
        rw [h3, registerCount, counts_eq _ cs, counts_eq, sum_mapM h1]
        exact fun a ha bs hb => (counts_eq _ bs).symm.trans (ih (rcsNoRef_mem hn.2 a ha) hb)
      | some d =>
        simp only [MaybeArray.mk', MaybeArray.mapInfo, MaybeArray.info, MaybeArray.dim?] at h1 h3
        rw [h3, registerCount, counts_eq _ cs, counts_eq, sum_mapM h1]
        exact fun a ha bs hb => (counts_eq _ bs).symm.trans (ih (rcsNoRef_mem hn.2 a ha) hb)

/-! ## Peripherals -/

theorem peripheral_count {v : Option (List Field) → Nat} (hv : Stays v) {oc : Bool} {ix : Index} {fuel : Nat}
    {p : Peripheral} {l : List Peripheral} (hn : PeripheralNoRef p) (h : expandPeripheral oc ix fuel p = .ok l) :
    (l.length = copies p.dim? ∧ ∀ q ∈ l, q.dim? = none) ∧
      ∀ q ∈ l, (q.info.registers = none ↔ p.info.registers = none) ∧
        registerCounts (fun i => v i.fields) (q.info.registers.getD []) =
          registerCounts (fun i => v i.fields) (p.info.registers.getD []) := by
  unfold expandPeripheral at h
  rw [hn.1] at h
  simp only [ok_bind] at h
  obtain ⟨rs, hrs, h⟩ := bind_ok.mp h
  have hr : (rs = none ↔ p.info.registers = none) ∧ registerCounts (fun i => v i.fields) (rs.getD []) =
      registerCounts (fun i => v i.fields) (p.info.registers.getD []) := by
    cases hp : p.info.registers with
    | none => rw [hp] at hrs; cases hrs; exact ⟨Iff.rfl, rfl⟩
    | some cs =>
      rw [hp] at hrs
      obtain ⟨ls, h1, h2⟩ := bind_ok.mp hrs
      cases h2
      refine ⟨by simp, ?_⟩
      simp only [Option.getD_some]
      rw [counts_eq, counts_eq _ cs, sum_mapM h1]
      exact fun a ha bs hb => (counts_eq _ bs).symm.trans (rc_count hv fuel (rcsNoRef_mem (hn.2 cs hp) a ha) hb)
  cases p with
  | single i =>
    cases h
    refine ⟨⟨rfl, by simp [MaybeArray.dim?]⟩, fun q hq => ?_⟩
    cases List.mem_singleton.mp hq
    exact hr
  | array i d =>
    simp only [MaybeArray.mapInfo] at h
    obtain ⟨is, hi, h⟩ := bind_ok.mp h
    cases h
    refine ⟨⟨?_, ?_⟩, ?_⟩
    · rw [List.length_map, mapM_ok_length hi, List.length_range]; rfl
    · intro q hq
      obtain ⟨b, _, rfl⟩ := List.mem_map.mp hq
      rfl
    · intro q hq
      obtain ⟨b, hb, rfl⟩ := List.mem_map.mp hq
      obtain ⟨k, _, hk⟩ := mapM_ok_mem' hi hb
      unfold PeripheralInfo.expandAt at hk
      simp only [bind_ok] at hk
      obtain ⟨_, _, _, _, _, _, _, _, hk⟩ := hk
      cases hk
      exact hr

theorem steady_one : Stays fun _ => 1 := fun _ _ _ _ _ _ _ _ => rfl

theorem steady_fields : Stays fieldCount := fun _ _ _ _ _ _ hn h => fields_count hn h

/-- The registers of a flat list. -/
theorem flat_count {l : List RegisterCluster} (h : ∀ r ∈ l, FlatRegister r) :
    hardwareRegisters l = l.length ∧
      hardwareFields l = (l.map fun c => match c with
        | .register r => (r.info.fields.getD []).length
        | .cluster .. => 0).sum := by
  induction l with
  | nil => exact ⟨rfl, rfl⟩
  | cons c cs ih =>
    obtain ⟨h1, h2⟩ := ih fun r hr => h r (by simp [hr])
    have hc := h c (by simp)
    cases hc with
    | @mk i _ hf =>
      refine ⟨?_, ?_⟩
      · show registerCount _ _ + hardwareRegisters cs = _
        rw [h1]
        simp [registerCount, copies, MaybeArray.dim?, Nat.add_comm]
      · show registerCount _ _ + hardwareFields cs = _
        rw [h2, List.map_cons, List.sum_cons]
        congr 1
        simp only [registerCount, copies, MaybeArray.dim?, MaybeArray.info, Nat.one_mul]
        cases hfs : i.fields with
        | none => rfl
        | some fs =>
          rw [fieldCount, sum_all (n := 1)]
          · simp
          · intro f hm
            have := hf fs hfs f hm
            cases this
            rfl

end Count

open Count

/-- **C77.** A peripheral without references becomes as many peripherals as it stands for, each with as many
registers and fields as its description stands for, whether overflows are checked or not. -/
theorem C77_peripheral (oc : Bool) (fuel : Nat) (d d' : Device) (hn : DeviceNoRef d) (h : expand oc fuel d = .ok d') :
    ∃ ls, Pairs (fun p l => l.length = copies p.dim? ∧ ∀ q ∈ l,
        (q.info.registers = none ↔ p.info.registers = none) ∧
        (q.info.registers.getD []).length = hardwareRegisters (p.info.registers.getD []) ∧
        ((q.info.registers.getD []).map fun c => match c with
          | .register r => (r.info.fields.getD []).length
          | .cluster .. => 0).sum = hardwareFields (p.info.registers.getD [])) d.peripherals ls ∧
      d'.peripherals = ls.flatten := by
  have hflat := (C33_flat oc fuel d d' h).1
  unfold expand at h
  obtain ⟨ix, _, h1⟩ := bind_ok.mp h
  obtain ⟨ls, hls, h2⟩ := bind_ok.mp h1
  clear h h1
  cases h2
  refine ⟨ls, ?_, rfl⟩
  have hflat' : ∀ l ∈ ls, ∀ q ∈ l, FlatPeripheral q := fun l hl q hq => hflat q (List.mem_flatten.mpr ⟨l, hl, hq⟩)
  clear hflat
  revert hn
  unfold DeviceNoRef
  intro hn
  generalize d.peripherals = ps at hn hls
  induction ps generalizing ls with
  | nil => cases hls; exact .nil
  | cons p ps ih =>
    rw [mapM_cons] at hls
    obtain ⟨b, hb, hls⟩ := bind_ok.mp hls
    obtain ⟨bs, hbs, hls⟩ := bind_ok.mp hls
    cases hls
    refine .cons ⟨(peripheral_count steady_one (hn p (by simp)) hb).1.1, fun q hq => ?_⟩
      (ih bs (fun l hl => hflat' l (by simp [hl])) (fun p hp => hn p (by simp [hp])) hbs)
    obtain ⟨h1, h2⟩ := (peripheral_count steady_one (hn p (by simp)) hb).2 q hq
    obtain ⟨_, h3⟩ := (peripheral_count steady_fields (hn p (by simp)) hb).2 q hq
    have hf : ∀ r ∈ q.info.registers.getD [], FlatRegister r := by
      have := hflat' b (by simp) q hq
      cases this with
      | @mk i _ hr =>
        intro r hr'
        cases hi : i.registers with
        | none => simp [MaybeArray.info, hi] at hr'
        | some l => simp only [MaybeArray.info, hi, Option.getD_some] at hr'; exact hr l hi r hr'
    obtain ⟨g1, g2⟩ := flat_count hf
    exact ⟨h1, g1.symm.trans h2, g2.symm.trans h3⟩

/-- **C77.** The numbers for the whole device stay. -/
theorem C77_device (oc : Bool) (fuel : Nat) (d d' : Device) (hn : DeviceNoRef d) (h : expand oc fuel d = .ok d') :
    d'.peripherals.length = devicePeripherals d ∧ devicePeripherals d' = devicePeripherals d ∧
    deviceRegisters d' = deviceRegisters d ∧ deviceFields d' = deviceFields d := by
  unfold expand at h
  obtain ⟨ix, _, h⟩ := bind_ok.mp h
  obtain ⟨ls, hls, h⟩ := bind_ok.mp h
  cases h
  have key : ∀ {v : Option (List Field) → Nat}, Stays v →
      (ls.flatten.map fun p => copies p.dim? * registerCounts (fun i => v i.fields) (p.info.registers.getD [])).sum =
      (d.peripherals.map fun p => copies p.dim? * registerCounts (fun i => v i.fields) (p.info.registers.getD [])).sum := by
    intro v hv
    refine sum_mapM hls fun p hp bs hb => ?_
    obtain ⟨⟨h1, h2⟩, h3⟩ := peripheral_count hv (hn p hp) hb
    rw [sum_all (n := registerCounts (fun i => v i.fields) (p.info.registers.getD [])), h1]
    intro q hq
    rw [h2 q hq, (h3 q hq).2]
    exact Nat.one_mul _
  have hp : (ls.flatten.map fun p => copies p.dim?).sum = devicePeripherals d := by
    refine sum_mapM hls fun p hp bs hb => ?_
    obtain ⟨⟨h1, h2⟩, _⟩ := peripheral_count steady_one (hn p hp) hb
    rw [sum_all (n := 1), h1, Nat.mul_one]
    intro q hq
    rw [h2 q hq]
    rfl
  refine ⟨?_, hp, key steady_one, key steady_fields⟩
  rw [← hp]
  have : ∀ q ∈ ls.flatten, copies q.dim? = 1 := by
    intro q hq
    obtain ⟨l, hl, hq⟩ := List.mem_flatten.mp hq
    obtain ⟨p, hp, hb⟩ := mapM_ok_mem' hls hl
    rw [(peripheral_count steady_one (hn p hp) hb).1.2 q hq]
    rfl
  rw [sum_all this, Nat.mul_one]

/-- **C77.** A device with references has as many as what the references stand for. -/
theorem C77_references (fuel : Nat) (d d' : Device) (h : expand true fuel d = .ok d') :
    ∃ g, DeviceDeref namesOf d g ∧ d'.peripherals.length = devicePeripherals g ∧
      deviceRegisters d' = deviceRegisters g ∧ deviceFields d' = deviceFields g := by
  obtain ⟨g, h1, h2, n, h3⟩ := (C69_two_steps d d').mp ⟨fuel, h⟩
  obtain ⟨h4, _, h5⟩ := C77_device true n g d' h2 h3
  exact ⟨g, h1, h4, h5⟩

/-- Three peripherals, each with four times (one register with four fields, and five registers without). -/
def counted : Device :=
  Sample.device [.array (Sample.peripheralInfo "P%s" 0x1000 none (some
    [.cluster (Sample.clusterHead "C%s" 0x10) (some (Sample.dim 4 0x20))
      [.register (.single (Sample.registerInfo "R" 0 none (some
        [.array (Sample.fieldInfo "F%s" 0) (Sample.dim 3 1), .single (Sample.fieldInfo "G" 8)]))),
       .register (.array (Sample.registerInfo "S%s" 4) (Sample.dim 5 4))]])) (Sample.dim 3 0x1000)]

theorem counted_noRef : DeviceNoRef counted := by
  intro p hp
  simp only [counted, Sample.device, List.mem_singleton] at hp
  subst hp
  refine ⟨rfl, ?_⟩
  intro l hl
  simp only [MaybeArray.info, Sample.peripheralInfo, Option.some.injEq] at hl
  subst hl
  simp [RcsNoRef, RcNoRef, RegisterNoRef, FieldNoRef, MaybeArray.info, Sample.clusterHead, Sample.registerInfo,
    Sample.fieldInfo]

example : devicePeripherals counted = 3 ∧ deviceRegisters counted = 72 ∧ deviceFields counted = 48 := by decide
example : (expand true 9 counted).isOk = true := by decide +kernel

-- The hypotheses of `C77_device` can be met.
example : ∃ d', expand true 9 counted = .ok d' ∧ d'.peripherals.length = 3 ∧ deviceRegisters d' = 72 ∧
    deviceFields d' = 48 := by
  obtain ⟨d', h⟩ := ok_of_isOk (x := expand true 9 counted) (by decide +kernel)
  obtain ⟨h1, _, h2, h3⟩ := C77_device true 9 counted d' counted_noRef h
  exact ⟨d', h, h1.trans (by decide), h2.trans (by decide), h3.trans (by decide)⟩

-- `C77_peripheral`: each of the three has 24 registers.
example : ∃ d', expand true 9 counted = .ok d' ∧ ∀ q ∈ d'.peripherals, (q.info.registers.getD []).length = 24 := by
  obtain ⟨d', h⟩ := ok_of_isOk (x := expand true 9 counted) (by decide +kernel)
  obtain ⟨ls, h1, h2⟩ := C77_peripheral true 9 counted d' counted_noRef h
  refine ⟨d', h, fun q hq => ?_⟩
  rw [h2] at hq
  unfold counted Sample.device at h1
  cases h1 with
  | cons h3 h4 =>
    cases h4
    simp only [List.flatten_cons, List.flatten_nil, List.append_nil] at hq
    exact (h3.2 q hq).2.1.trans (by decide)

-- With overflow checks off, addresses may wrap, but nothing gets lost.
example : let d := Sample.device [.array (Sample.peripheralInfo "P%s" 0xFFFFFFFFFFFFFFFF) (Sample.dim 3 1)]
    (expand false 9 d).map (fun d => d.peripherals.map fun p => p.info.baseAddress.toNat) =
      .ok [2 ^ 64 - 1, 0, 1] ∧ (expand true 9 d).isOk = false := by
  decide +kernel

-- `C77_references`: a derived peripheral has the registers of the other.
example : ∃ d', expand true 6 manyRefs = .ok d' ∧ ∃ g, DeviceDeref namesOf manyRefs g ∧
    deviceRegisters d' = deviceRegisters g := by
  obtain ⟨d', h⟩ := ok_of_isOk (x := expand true 6 manyRefs) (by decide +kernel)
  obtain ⟨g, h1, _, h2, _⟩ := C77_references 6 manyRefs d' h
  exact ⟨d', h, g, h1, h2⟩

end Svd
