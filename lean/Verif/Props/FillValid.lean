import Verif.Props.Both
import Verif.Props.Validation
import Verif.Spec.Govern
import Verif.Spec.Sample

/-!
# C67: property expansion and validity
-/

namespace Svd

open Spec

namespace FillValid

/-- Everything in the tree is valid. -/
def Good (lvl : ValidateLevel) (cs : List RegisterCluster) : Prop :=
  ∀ n, InTree cs n → ∀ q, NodeHas n q → q.Valid lvl

theorem good_nil {lvl : ValidateLevel} : Good lvl [] := by
  intro n h
  cases h with
  | here h => cases h
  | inside h _ => cases h

theorem good_cons {lvl : ValidateLevel} {c : RegisterCluster} {cs : List RegisterCluster} :
    Good lvl (c :: cs) ↔ Good lvl [c] ∧ Good lvl cs :=
  ⟨fun h => ⟨fun n hn => h n (Both.inTree_cons.mpr (.inl hn)), fun n hn => h n (Both.inTree_cons.mpr (.inr hn))⟩,
    fun h n hn => (Both.inTree_cons.mp hn).elim (h.1 n) (h.2 n)⟩

theorem good_register {lvl : ValidateLevel} {r : Register} :
    Good lvl [.register r] ↔ ∀ q, RegisterHas r.info q → q.Valid lvl := by
  constructor
  · exact fun h q hq => h _ (.here (by simp)) q (.register hq)
  · intro h n hn q hq
    cases hn with
    | here hn =>
      rw [List.mem_singleton] at hn
      subst hn
      cases hq with
      | register hq => exact h q hq
    | inside hn _ => simp at hn

theorem good_cluster {lvl : ValidateLevel} {h : ClusterHead} {d : Option DimElement}
    {cs : List RegisterCluster} : Good lvl [.cluster h d cs] ↔
      ClusterValid { h with children := cs } lvl ∧ PropsValid h.defaultRegisterProperties lvl ∧ Good lvl cs := by
  constructor
  · intro hg
    exact ⟨hg _ (.here (List.mem_singleton.mpr rfl)) _ .cluster,
      hg _ (.here (List.mem_singleton.mpr rfl)) _ .props,
      fun n hn => hg n (.inside (List.mem_singleton.mpr rfl) hn)⟩
  · rintro ⟨h1, h2, h3⟩ n hn q hq
    cases hn with
    | here hn =>
      rw [List.mem_singleton] at hn
      subst hn
      cases hq with
      | cluster => exact h1
      | props => exact h2
    | inside hn hi =>
      rw [List.mem_singleton] at hn
      injection hn with _ _ hn
      subst hn
      exact h3 n hi q hq

theorem under_nil {outer levels : List RegisterProperties} {r : Register} : ¬ Under outer [] levels r := by
  intro h
  cases h with
  | here h => cases h
  | inside h => cases h

theorem under_cons {outer levels : List RegisterProperties} {c : RegisterCluster}
    {cs : List RegisterCluster} {r : Register} :
    Under outer (c :: cs) levels r ↔ Under outer [c] levels r ∨ Under outer cs levels r := by
  constructor
  · intro h
    cases h with
    | here h hd =>
      rcases List.mem_cons.mp h with rfl | h
      · exact .inl (.here (by simp) hd)
      · exact .inr (.here h hd)
    | inside h hd hu =>
      rcases List.mem_cons.mp h with rfl | h
      · exact .inl (.inside (List.mem_singleton.mpr rfl) hd hu)
      · exact .inr (.inside h hd hu)
  · rintro (h | h)
    · cases h with
      | here h hd =>
        rw [List.mem_singleton] at h
        exact .here (by simp [h]) hd
      | inside h hd hu =>
        rw [List.mem_singleton] at h
        exact .inside (by rw [h]; simp) hd hu
    · cases h with
      | here h hd => exact .here (List.mem_cons_of_mem _ h) hd
      | inside h hd hu => exact .inside (List.mem_cons_of_mem _ h) hd hu

theorem under_register {outer levels : List RegisterProperties} {r r' : Register} :
    Under outer [.register r] levels r' ↔ levels = outer ∧ r' = r ∧ r.info.derivedFrom = none := by
  constructor
  · intro h
    cases h with
    | here h hd =>
      simp only [List.mem_singleton, RegisterCluster.register.injEq] at h
      subst h
      exact ⟨rfl, rfl, hd⟩
    | inside h => simp at h
  · rintro ⟨rfl, rfl, h⟩
    exact .here (by simp) h

theorem under_cluster {outer levels : List RegisterProperties} {h : ClusterHead} {d : Option DimElement}
    {cs : List RegisterCluster} {r : Register} : Under outer [.cluster h d cs] levels r ↔
      h.derivedFrom = none ∧ Under (h.defaultRegisterProperties :: outer) cs levels r := by
  constructor
  · intro hu
    cases hu with
    | here h => simp at h
    | inside hm hd hu =>
      rw [List.mem_singleton] at hm
      injection hm with h1 h2 h3
      subst h1 h2 h3
      exact ⟨hd, hu⟩
  · rintro ⟨h1, h2⟩
    exact .inside (List.mem_singleton.mpr rfl) h1 h2

/-- Filling in what is missing repairs nothing. -/
theorem nearest_valid {lvl : ValidateLevel} {p : RegisterProperties} {levels : List RegisterProperties}
    (h : PropsValid (nearest (p :: levels)) lvl) : PropsValid p lvl := by
  obtain ⟨h1, h2⟩ := h
  refine ⟨fun hl s v hs hv => h1 hl s v (by simp [nearest, hs]) (by simp [nearest, hv]), fun hl => ⟨?_, ?_⟩⟩
  · exact fun s m hs hm => (h2 hl).1 s m (by simp [nearest, hs]) (by simp [nearest, hm])
  · exact fun v m hv hm => (h2 hl).2 v m (by simp [nearest, hv]) (by simp [nearest, hm])

/-- What the levels around the registers of the tree give has to fit. -/
def Fit (lvl : ValidateLevel) (outer : List RegisterProperties) (cs : List RegisterCluster) : Prop :=
  ∀ levels r, Under outer cs levels r → PropsValid (nearest (r.info.properties :: levels)) lvl

theorem register_good {lvl : ValidateLevel} {levels : List RegisterProperties} {r r' : Register}
    (h : RegisterFilled levels r r') : Good lvl [.register r'] ↔
      Good lvl [.register r] ∧ Fit lvl levels [.register r] := by
  cases h with
  | derived hd =>
    refine ⟨fun h => ⟨h, fun ls x hu => ?_⟩, fun h => h.1⟩
    obtain ⟨_, _, hn⟩ := under_register.mp hu
    rw [hn] at hd
    cases hd
  | own hd =>
    rw [good_register, good_register, mapInfo_info]
    constructor
    · intro h
      have hp := h _ .props
      have hs := h _ .self
      refine ⟨fun q hq => ?_, fun ls x hu => ?_⟩
      · cases hq with
        | self => exact hs
        | props => exact nearest_valid hp
        | field h1 h2 h3 => exact h q (.field h1 h2 h3)
      · obtain ⟨rfl, rfl, _⟩ := under_register.mp hu
        exact hp
    · rintro ⟨h1, h2⟩ q hq
      have hs := h1 _ .self
      cases hq with
      | self => exact hs
      | props => exact h2 levels r (under_register.mpr ⟨rfl, rfl, hd⟩)
      | field h3 h4 h5 => exact h1 q (.field h3 h4 h5)

theorem filled_nil_iff {levels : List RegisterProperties} {cs cs' : List RegisterCluster}
    (h : RcsFilled levels cs cs') : cs' = [] ↔ cs = [] := by
  cases h <;> simp

mutual
theorem rc_good {lvl : ValidateLevel} : ∀ {levels : List RegisterProperties} {c c' : RegisterCluster},
    RcFilled levels c c' → (Good lvl [c'] ↔ Good lvl [c] ∧ Fit lvl levels [c])
  | _, _, _, .register h => register_good h
  | levels, _, _, .derived (h := h) (d := d) (cs := cs) hd => by
    refine ⟨fun h => ⟨h, fun ls x hu => ?_⟩, fun h => h.1⟩
    rw [(under_cluster.mp hu).1] at hd
    cases hd
  | levels, _, _, .cluster (h := h) (d := d) (cs := cs) (cs' := cs') hd hf => by
    rw [good_cluster, good_cluster, rcs_good hf]
    have hc : ClusterValid { h with children := cs' } lvl ↔ ClusterValid { h with children := cs } lvl := by
      simp only [ClusterValid, AtLevel, ne_eq, filled_nil_iff hf]
    have hfit : Fit lvl levels [.cluster h d cs] ↔ Fit lvl (h.defaultRegisterProperties :: levels) cs :=
      ⟨fun h' ls r hu => h' ls r (under_cluster.mpr ⟨hd, hu⟩),
        fun h' ls r hu => h' ls r (under_cluster.mp hu).2⟩
    rw [hc, hfit]
    constructor
    · rintro ⟨h1, h2, h3, h4⟩
      exact ⟨⟨h1, h2, h3⟩, h4⟩
    · rintro ⟨⟨h1, h2, h3⟩, h4⟩
      exact ⟨h1, h2, h3, h4⟩
theorem rcs_good {lvl : ValidateLevel} : ∀ {levels : List RegisterProperties} {cs cs' : List RegisterCluster},
    RcsFilled levels cs cs' → (Good lvl cs' ↔ Good lvl cs ∧ Fit lvl levels cs)
  | _, _, _, .nil => ⟨fun h => ⟨h, fun _ _ hu => absurd hu under_nil⟩, fun h => h.1⟩
  | levels, _, _, .cons (c := c) (c' := c') (cs := cs) h1 h2 => by
    rw [good_cons (c := c'), rc_good h1, rcs_good h2, good_cons (c := c) (cs := cs)]
    have hfit : Fit lvl levels (c :: cs) ↔ Fit lvl levels [c] ∧ Fit lvl levels cs :=
      ⟨fun h => ⟨fun ls r hu => h ls r (under_cons.mpr (.inl hu)), fun ls r hu => h ls r (under_cons.mpr (.inr hu))⟩,
        fun h ls r hu => (under_cons.mp hu).elim (h.1 ls r) (h.2 ls r)⟩
    rw [hfit]
    constructor
    · rintro ⟨⟨a, b⟩, c, d⟩
      exact ⟨⟨a, c⟩, b, d⟩
    · rintro ⟨⟨a, c⟩, b, d⟩
      exact ⟨⟨a, b⟩, c, d⟩
end

theorem peripheral_parts {lvl : ValidateLevel} {p : PeripheralInfo} :
    (∀ q, PeripheralHas p q → q.Valid lvl) ↔ PeripheralValid p lvl ∧
      PropsValid p.defaultRegisterProperties lvl ∧ ∀ l, p.registers = some l → Good lvl l := by
  constructor
  · intro h
    exact ⟨h _ .self, h _ .props, fun l hl n hn q hq => h q (.node hl hn hq)⟩
  · rintro ⟨h1, h2, h3⟩ q hq
    cases hq with
    | self => exact h1
    | props => exact h2
    | node hl hn hq => exact h3 _ hl _ hn _ hq

/-- The registers of the peripheral, unless it is derived. -/
def PeripheralFit (lvl : ValidateLevel) (outer : RegisterProperties) (p : Peripheral) : Prop :=
  p.info.derivedFrom = none → ∀ l, p.info.registers = some l →
    Fit lvl [p.info.defaultRegisterProperties, outer] l

theorem peripheral_good {lvl : ValidateLevel} {outer : RegisterProperties} {p p' : Peripheral}
    (h : PeripheralFilled [outer] p p') : (∀ q, PeripheralHas p'.info q → q.Valid lvl) ↔
      (∀ q, PeripheralHas p.info q → q.Valid lvl) ∧ PeripheralFit lvl outer p := by
  cases h with
  | derived hd =>
    refine ⟨fun h => ⟨h, fun hn => ?_⟩, fun h => h.1⟩
    rw [hn] at hd
    cases hd
  | bare hr =>
    refine ⟨fun h => ⟨h, fun _ l hl => ?_⟩, fun h => h.1⟩
    rw [hr] at hl
    cases hl
  | @own cs cs' hd hr hf =>
    rw [peripheral_parts, peripheral_parts, mapInfo_info]
    have hg := rcs_good (lvl := lvl) hf
    have hv : PeripheralValid { p.info with registers := some cs' } lvl ↔ PeripheralValid p.info lvl := by
      simp only [PeripheralValid, AtLevel, hr, ne_eq, Option.some.injEq, filled_nil_iff hf]
    have hfit : PeripheralFit lvl outer p ↔ Fit lvl [p.info.defaultRegisterProperties, outer] cs :=
      ⟨fun h => h hd cs hr, fun h _ l hl => by rw [hr] at hl; cases hl; exact h⟩
    rw [hv, hfit]
    constructor
    · rintro ⟨h1, h2, h3⟩
      obtain ⟨h4, h5⟩ := hg.mp (h3 cs' rfl)
      exact ⟨⟨h1, h2, fun l hl => by rw [hr] at hl; cases hl; exact h4⟩, h5⟩
    · rintro ⟨⟨h1, h2, h3⟩, h5⟩
      exact ⟨h1, h2, fun l hl => by cases hl; exact hg.mpr ⟨h3 cs hr, h5⟩⟩

end FillValid

open FillValid

/-- **C67.** A device is valid after property expansion exactly if it was valid before and, for every
register outside derived elements, the properties that the register and the levels around it give together
are valid too. -/
theorem C67_exact (d : Device) (lvl : ValidateLevel) :
    (expandProperties d).validateAll lvl = .ok () ↔ d.validateAll lvl = .ok () ∧
      ∀ levels r, Governed d levels r → PropsValid (nearest (r.info.properties :: levels)) lvl := by
  rw [C16_validate_all, C16_validate_all]
  obtain ⟨hd, hp⟩ := C40_nearest d
  generalize hps : (expandProperties d).peripherals = ps at hd hp
  rw [hd]
  have hne : ps = [] ↔ d.peripherals = [] := by
    revert hp
    generalize d.peripherals = l
    intro hp
    cases hp <;> simp
  have hdv : DeviceValid { d with peripherals := ps } lvl ↔ DeviceValid d lvl := by
    simp only [DeviceValid, AtLevel, ne_eq, hne]
  have hall : (∀ p ∈ ps, ∀ q, PeripheralHas p.info q → q.Valid lvl) ↔
      (∀ p ∈ d.peripherals, ∀ q, PeripheralHas p.info q → q.Valid lvl) ∧
        ∀ p ∈ d.peripherals, PeripheralFit lvl d.defaultRegisterProperties p := by
    clear hd hps hne hdv
    revert hp
    generalize d.peripherals = l
    intro hp
    induction hp with
    | nil => simp
    | cons h1 _ ih =>
      rw [List.forall_mem_cons, List.forall_mem_cons, List.forall_mem_cons, peripheral_good h1, ih]
      constructor
      · rintro ⟨⟨a, b⟩, c, d⟩
        exact ⟨⟨a, c⟩, b, d⟩
      · rintro ⟨⟨a, c⟩, b, d⟩
        exact ⟨⟨a, b⟩, c, d⟩
  have hparts : ∀ x : Device, (∀ q, DeviceHas x q → q.Valid lvl) ↔
      PropsValid x.defaultRegisterProperties lvl ∧ ∀ p ∈ x.peripherals, ∀ q, PeripheralHas p.info q → q.Valid lvl := by
    intro x
    constructor
    · exact fun h => ⟨h _ .props, fun p hp q hq => h q (.peripheral hp hq)⟩
    · rintro ⟨h1, h2⟩ q hq
      cases hq with
      | props => exact h1
      | peripheral hp hq => exact h2 _ hp _ hq
  have hfit : (∀ p ∈ d.peripherals, PeripheralFit lvl d.defaultRegisterProperties p) ↔
      ∀ levels r, Governed d levels r → PropsValid (nearest (r.info.properties :: levels)) lvl := by
    constructor
    · rintro h levels r ⟨p, hp, hn, l, hl, hu⟩
      exact h p hp hn l hl levels r hu
    · intro h p hp hn l hl levels r hu
      exact h levels r ⟨p, hp, hn, l, hl, hu⟩
  rw [hparts, hparts, hdv, hall, ← hfit]
  constructor
  · rintro ⟨a, b, c, e⟩
    exact ⟨⟨a, b, c⟩, e⟩
  · rintro ⟨⟨a, b, c⟩, e⟩
    exact ⟨a, b, c, e⟩

/-- **C67.** In particular property expansion repairs nothing. -/
theorem C67_before (d : Device) (lvl : ValidateLevel) (h : (expandProperties d).validateAll lvl = .ok ()) :
    d.validateAll lvl = .ok () := ((C67_exact d lvl).mp h).1

namespace FillValid

/-- The levels of a register are among the properties of the device. -/
theorem under_levels {outer levels : List RegisterProperties} {cs : List RegisterCluster} {r : Register}
    (h : Under outer cs levels r) : InTree cs (.register r) ∧ ∀ p ∈ levels, p ∈ outer ∨
      ∃ h d cs', InTree cs (.cluster h d cs') ∧ p = h.defaultRegisterProperties := by
  induction h with
  | here h _ => exact ⟨.here h, fun p hp => .inl hp⟩
  | inside hm _ _ ih =>
    refine ⟨.inside hm ih.1, fun p hp => ?_⟩
    rcases ih.2 p hp with h | ⟨h', d', cs', hi, rfl⟩
    · rcases List.mem_cons.mp h with rfl | h
      · exact .inr ⟨_, _, _, .here hm, rfl⟩
      · exact .inl h
    · exact .inr ⟨_, _, _, .inside hm hi, rfl⟩

/-- All the properties around a register, and its own, are properties of the device. -/
theorem governed_props {d : Device} {levels : List RegisterProperties} {r : Register}
    (h : Governed d levels r) : ∀ p ∈ r.info.properties :: levels, DeviceHas d (.props p) := by
  obtain ⟨p, hp, _, l, hl, hu⟩ := h
  obtain ⟨h1, h2⟩ := under_levels hu
  intro q hq
  rcases List.mem_cons.mp hq with rfl | hq
  · exact .peripheral hp (.node hl h1 (.register .props))
  · rcases h2 q hq with h | ⟨_, _, _, hi, rfl⟩
    · simp only [List.mem_cons, List.not_mem_nil, or_false] at h
      rcases h with rfl | rfl
      · exact .peripheral hp .props
      · exact .props
    · exact .peripheral hp (.node hl hi .props)

/-- Of properties given together or not at all, the nearest ones come from one level. -/
theorem nearest_together {levels : List RegisterProperties} (h : ∀ p ∈ levels, TogetherOrNot p) :
    (∃ p ∈ levels, (nearest levels).size = p.size ∧ (nearest levels).resetValue = p.resetValue ∧
      (nearest levels).resetMask = p.resetMask) ∨
    ((nearest levels).size = none ∧ (nearest levels).resetValue = none ∧ (nearest levels).resetMask = none) := by
  induction levels with
  | nil => exact .inr ⟨rfl, rfl, rfl⟩
  | cons p ps ih =>
    rcases h p (by simp) with ⟨h1, h2, h3⟩ | ⟨h1, h2, h3⟩
    · refine .inl ⟨p, by simp, ?_⟩
      obtain ⟨s, h1⟩ := Option.ne_none_iff_exists'.mp h1
      obtain ⟨v, h2⟩ := Option.ne_none_iff_exists'.mp h2
      obtain ⟨m, h3⟩ := Option.ne_none_iff_exists'.mp h3
      simp [nearest, h1, h2, h3]
    · have e : (nearest (p :: ps)).size = (nearest ps).size ∧
          (nearest (p :: ps)).resetValue = (nearest ps).resetValue ∧
          (nearest (p :: ps)).resetMask = (nearest ps).resetMask := by simp [nearest, h1, h2, h3]
      rw [e.1, e.2.1, e.2.2]
      rcases ih fun q hq => h q (by simp [hq]) with ⟨q, hq, h4⟩ | h4
      · exact .inl ⟨q, by simp [hq], h4⟩
      · exact .inr h4

end FillValid

/-- **C67.** A device whose levels each give size, reset value and reset mask together or not at all stays
valid. -/
theorem C67_together (d : Device) (lvl : ValidateLevel) (h : d.validateAll lvl = .ok ())
    (ht : ∀ p, DeviceHas d (.props p) → TogetherOrNot p) : (expandProperties d).validateAll lvl = .ok () := by
  refine (C67_exact d lvl).mpr ⟨h, fun levels r hg => ?_⟩
  have hp := governed_props hg
  rw [C16_validate_all] at h
  rcases nearest_together fun p hp' => ht p (hp p hp') with ⟨p, hm, h1, h2, h3⟩ | ⟨h1, h2, h3⟩
  · have := h.2 _ (hp p hm)
    simpa only [Part.Valid, PropsValid, h1, h2, h3] using this
  · simp [PropsValid, AtLevel, h1, h2, h3]

/-! ## Validity can be lost -/

/-- A device as they are usually written: the defaults are those of a register of 32 bits, and there is a
register of 16 bits. -/
def halfWord : Device :=
  { Sample.device [.single (Sample.peripheralInfo "P" 0x1000 none (some
      [.register (.single { Sample.registerInfo "R" 0 with properties := { size := some 16 } })]))] with
    defaultRegisterProperties :=
      { size := some 32, access := some .readWrite, resetValue := some 0, resetMask := some 0xffffffff } }

/-- **C67.** Validity can be lost at level Strict: the register of 16 bits gets a reset mask of 32 bits. -/
theorem C67_mask_lost : halfWord.validateAll .strict = .ok () ∧
    (expandProperties halfWord).validateAll .weak = .ok () ∧
    (expandProperties halfWord).validateAll .strict ≠ .ok () := by decide +kernel

/-- **C67.** And at level Weak: the reset value of the device does not fit into the size of the register. -/
theorem C67_value_lost : ∃ d : Device, d.validateAll .strict = .ok () ∧
    (expandProperties d).validateAll .weak ≠ .ok () :=
  ⟨{ Sample.device [.single (Sample.peripheralInfo "P" 0x1000 none (some
      [.cluster { Sample.clusterHead "C" 0x10 with defaultRegisterProperties := { size := some 8 } } none
        [.register (.single (Sample.registerInfo "R" 0))]]))] with
    defaultRegisterProperties := { resetValue := some 0x100 } }, by decide +kernel, by decide +kernel⟩

-- The same register below a peripheral that gives all three: valid before and after.
example : let d := { halfWord with
      peripherals := [.single { Sample.peripheralInfo "P" 0x1000 none (some
        [.register (.single (Sample.registerInfo "R" 0))]) with
        defaultRegisterProperties := { size := some 16, resetValue := some 1, resetMask := some 0xffff } }] }
    d.validateAll .strict = .ok () ∧ (expandProperties d).validateAll .strict = .ok () := by decide +kernel

-- And by the theorem.
example : let d := { halfWord with
      peripherals := [.single { Sample.peripheralInfo "P" 0x1000 none (some
        [.register (.single (Sample.registerInfo "R" 0))]) with
        defaultRegisterProperties := { size := some 16, resetValue := some 1, resetMask := some 0xffff } }] }
    (expandProperties d).validateAll .strict = .ok () := by
  refine C67_together _ _ (by decide +kernel) fun p hp => ?_
  cases hp with
  | props => exact .inl (by simp [halfWord])
  | @peripheral q _ hq hp =>
    simp only [List.mem_singleton] at hq
    subst hq
    cases hp with
    | props => exact .inl (by simp [MaybeArray.info])
    | node hl hi hn =>
      simp only [MaybeArray.info, Sample.peripheralInfo, Option.some.injEq] at hl
      subst hl
      cases hi with
      | here hm =>
        simp only [List.mem_singleton] at hm
        subst hm
        cases hn with
        | register hr =>
          cases hr with
          | props => exact .inr ⟨rfl, rfl, rfl⟩
          | field hf => simp [MaybeArray.info, Sample.registerInfo] at hf
      | inside hm => simp at hm

-- `C67_exact` and `C67_before` on a device that is still valid after its registers got their properties.
example : let d := Sample.device [.single { Sample.peripheralInfo "P" 0x1000 none (some
        [.register (.single (Sample.registerInfo "R" 0))]) with
        defaultRegisterProperties := { size := some 16, resetValue := some 1, resetMask := some 0xffff } }]
    d.validateAll .strict = .ok () ∧
      ∀ levels r, Governed d levels r → PropsValid (nearest (r.info.properties :: levels)) .strict :=
  (C67_exact _ .strict).mp (by decide +kernel)

end Svd
