import Verif.Model.Expand
import Verif.Spec.Props
import Verif.Props.EncodeTotal

/-!
# C40: property expansion
-/

namespace Svd

open Spec

theorem nearest_cons (p : RegisterProperties) (levels : List RegisterProperties) :
    p.deriveFrom (nearest levels) = nearest (p :: levels) := by
  rcases p with ⟨_ | _, _ | _, _ | _, _ | _, _ | _⟩ <;>
    simp [RegisterProperties.deriveFrom, nearest, List.findSome?]

theorem nearest_one (p : RegisterProperties) : nearest [p] = p := by
  rcases p with ⟨_ | _, _ | _, _ | _, _ | _, _ | _⟩ <;> simp [nearest, List.findSome?]

theorem expandPropertiesRegister_filled (levels : List RegisterProperties) (r : Register) :
    RegisterFilled levels r (expandPropertiesRegister (nearest levels) r) := by
  unfold expandPropertiesRegister
  split
  · exact .derived ‹_›
  · simp only [nearest_cons]
    exact .own (Option.not_isSome_iff_eq_none.mp ‹_›)

mutual
theorem expandPropertiesRC_filled : ∀ (levels : List RegisterProperties) (c : RegisterCluster),
    RcFilled levels c (expandPropertiesRC (nearest levels) c)
  | levels, .register r => by
    unfold expandPropertiesRC
    exact .register (expandPropertiesRegister_filled levels r)
  | levels, .cluster h d cs => by
    unfold expandPropertiesRC
    split
    · exact .derived ‹_›
    · rw [nearest_cons]
      exact .cluster (Option.not_isSome_iff_eq_none.mp ‹_›) (expandPropertiesRCs_filled _ cs)
theorem expandPropertiesRCs_filled : ∀ (levels : List RegisterProperties) (cs : List RegisterCluster),
    RcsFilled levels cs (expandPropertiesRCs (nearest levels) cs)
  | _, [] => by unfold expandPropertiesRCs; exact .nil
  | levels, c :: cs => by
    unfold expandPropertiesRCs
    exact .cons (expandPropertiesRC_filled levels c) (expandPropertiesRCs_filled levels cs)
end

theorem expandPropertiesPeripheral_filled (dflt : RegisterProperties) (p : Peripheral) :
    PeripheralFilled [dflt] p (expandPropertiesPeripheral dflt p) := by
  unfold expandPropertiesPeripheral
  split
  · exact .derived ‹_›
  · have hd : p.info.derivedFrom = none := Option.not_isSome_iff_eq_none.mp ‹_›
    cases hr : p.info.registers with
    | none =>
      have : (p.mapInfo fun i =>
          { i with registers := (i.registers.map
              (expandPropertiesRCs (i.defaultRegisterProperties.deriveFrom dflt))) }) = p := by
        cases p <;> (simp only [MaybeArray.info] at hr; simp [MaybeArray.mapInfo, hr]; rw [← hr])
      rw [this]
      exact .bare hr
    | some cs =>
      have e := expandPropertiesRCs_filled [p.info.defaultRegisterProperties, dflt] cs
      rw [← nearest_cons, nearest_one] at e
      have : (p.mapInfo fun i =>
          { i with registers := (i.registers.map
              (expandPropertiesRCs (i.defaultRegisterProperties.deriveFrom dflt))) }) =
          p.mapInfo fun i => { i with
            registers := some
              (expandPropertiesRCs (p.info.defaultRegisterProperties.deriveFrom dflt) cs) } := by
        cases p <;> (simp only [MaybeArray.info] at hr; simp [MaybeArray.mapInfo, hr, MaybeArray.info])
      rw [this]
      exact .own hd hr e

/-- **C40.** Property expansion gives every register outside derived elements, for each property, the
value of the nearest of the register, its enclosing clusters from the inside out, the peripheral and
the device that gives one; nothing else changes. -/
theorem C40_nearest (d : Device) : DeviceFilled d (expandProperties d) := by
  refine ⟨rfl, ?_⟩
  unfold expandProperties
  simp only
  induction d.peripherals with
  | nil => exact .nil
  | cons p ps ih => exact .cons (expandPropertiesPeripheral_filled _ p) ih

/-! ## Running it again -/

theorem registerFilled_fixed {levels : List RegisterProperties} {r r' : Register}
    (h : RegisterFilled levels r r') : RegisterFilled levels r' r' := by
  cases h with
  | derived h => exact .derived h
  | own h =>
    have e : nearest (nearest (r.info.properties :: levels) :: levels) =
        nearest (r.info.properties :: levels) := by
      simp only [nearest, List.findSome?_cons]
      congr 1
      · cases r.info.properties.size <;> simp
        cases List.findSome? (fun p : RegisterProperties => p.size) levels <;> rfl
      · cases r.info.properties.access <;> simp
        cases List.findSome? (fun p : RegisterProperties => p.access) levels <;> rfl
      · cases r.info.properties.protection <;> simp
        cases List.findSome? (fun p : RegisterProperties => p.protection) levels <;> rfl
      · cases r.info.properties.resetValue <;> simp
        cases List.findSome? (fun p : RegisterProperties => p.resetValue) levels <;> rfl
      · cases r.info.properties.resetMask <;> simp
        cases List.findSome? (fun p : RegisterProperties => p.resetMask) levels <;> rfl
    have := RegisterFilled.own (levels := levels)
      (r := r.mapInfo fun i => { i with properties := nearest (i.properties :: levels) })
      (by cases r <;> exact h)
    have e2 : ((r.mapInfo fun i => { i with properties := nearest (i.properties :: levels) }).mapInfo
        fun i => { i with properties := nearest (i.properties :: levels) }) =
        r.mapInfo fun i => { i with properties := nearest (i.properties :: levels) } := by
      cases r <;> (simp only [MaybeArray.mapInfo]; simp only [MaybeArray.info] at e; rw [e])
    rw [e2] at this
    exact this

mutual
theorem rcFilled_fixed : ∀ {levels : List RegisterProperties} {c c' : RegisterCluster},
    RcFilled levels c c' → RcFilled levels c' c'
  | _, _, _, .register h => .register (registerFilled_fixed h)
  | _, _, _, .derived h => .derived h
  | _, _, _, .cluster h hs => .cluster h (rcsFilled_fixed hs)
theorem rcsFilled_fixed : ∀ {levels : List RegisterProperties} {cs cs' : List RegisterCluster},
    RcsFilled levels cs cs' → RcsFilled levels cs' cs'
  | _, _, _, .nil => .nil
  | _, _, _, .cons h hs => .cons (rcFilled_fixed h) (rcsFilled_fixed hs)
end

theorem peripheralFilled_fixed {levels : List RegisterProperties} {p p' : Peripheral}
    (h : PeripheralFilled levels p p') : PeripheralFilled levels p' p' := by
  cases h with
  | derived h => exact .derived h
  | bare h => exact .bare h
  | own h1 h2 h3 =>
    have h4 := rcsFilled_fixed h3
    rename_i cs cs'
    have := PeripheralFilled.own (levels := levels) (cs := cs') (cs' := cs')
      (p := p.mapInfo fun i => { i with registers := some cs' })
      (by cases p <;> exact h1) (by cases p <;> rfl) (by cases p <;> exact h4)
    have e : ((p.mapInfo fun i => { i with registers := some cs' }).mapInfo
      fun i => { i with registers := some cs' }) = p.mapInfo fun i => { i with registers := some cs' } := by
      cases p <;> rfl
    rw [e] at this
    exact this

/-! The relation determines the result, so an element that is its own result is left unchanged. -/

theorem registerFilled_unique {levels : List RegisterProperties} {r a b : Register}
    (h : RegisterFilled levels r a) (h' : RegisterFilled levels r b) : a = b := by
  cases h <;> cases h' <;> simp_all

mutual
theorem rcFilled_unique : ∀ {levels : List RegisterProperties} {c a b : RegisterCluster},
    RcFilled levels c a → RcFilled levels c b → a = b
  | _, _, _, _, .register h, .register h' => by rw [registerFilled_unique h h']
  | _, _, _, _, .derived h, .derived h' => rfl
  | _, _, _, _, .derived h, .cluster h' _ => by rw [h'] at h; cases h
  | _, _, _, _, .cluster h _, .derived h' => by rw [h] at h'; cases h'
  | _, _, _, _, .cluster h hs, .cluster h' hs' => by rw [rcsFilled_unique hs hs']
theorem rcsFilled_unique : ∀ {levels : List RegisterProperties} {cs a b : List RegisterCluster},
    RcsFilled levels cs a → RcsFilled levels cs b → a = b
  | _, _, _, _, .nil, .nil => rfl
  | _, _, _, _, .cons h hs, .cons h' hs' => by rw [rcFilled_unique h h', rcsFilled_unique hs hs']
end

theorem peripheralFilled_unique {levels : List RegisterProperties} {p a b : Peripheral}
    (h : PeripheralFilled levels p a) (h' : PeripheralFilled levels p b) : a = b := by
  cases h <;> cases h' <;> simp_all
  rename_i h _ _ h'
  rw [rcsFilled_unique h h']

/-- **C40.** The description above determines the result. -/
theorem C40_unique (d a b : Device) (h : DeviceFilled d a) (h' : DeviceFilled d b) : a = b := by
  have : ∀ {l m n : List Peripheral} {levels : List RegisterProperties},
      Pairs (PeripheralFilled levels) l m → Pairs (PeripheralFilled levels) l n → m = n := by
    intro l m n levels h1 h2
    induction h1 generalizing n with
    | nil => cases h2; rfl
    | cons x _ ih =>
      cases h2 with
      | cons y ys => rw [peripheralFilled_unique x y, ih ys]
  rw [h.1, h'.1, this h.2 h'.2]

/-- **C40.** Running property expansion again changes nothing. -/
theorem C40_idempotent (d : Device) : expandProperties (expandProperties d) = expandProperties d := by
  refine C40_unique (expandProperties d) _ _ (C40_nearest _) ⟨rfl, ?_⟩
  have := (C40_nearest d).2
  have key : ∀ {l m : List Peripheral}, Pairs (PeripheralFilled [d.defaultRegisterProperties]) l m →
      Pairs (PeripheralFilled [d.defaultRegisterProperties]) m m := by
    intro l m h
    induction h with
    | nil => exact .nil
    | cons x _ ih => exact .cons (peripheralFilled_fixed x) ih
  exact key this

/-- A device whose only register is two levels down, used by the examples: the size is given by the
device and the cluster, the access by the peripheral, the reset value by nobody. -/
def propertyDevice : Device :=
  let d := writableDevice ⟨0, 1, .msbLsb⟩ 1 []
  { d with
    defaultRegisterProperties := { size := some 32, access := some .readOnly }
    peripherals := d.peripherals.map fun p => p.mapInfo fun i => { i with
        defaultRegisterProperties := { access := some .writeOnly }
        registers := i.registers.map fun l => [.cluster
            { name := "C".toList, description := none, alternateCluster := none,
                   headerStructName := none, addressOffset := 0,
                   defaultRegisterProperties := { size := some 16 }, derivedFrom := none }
            none l] } }

-- The register gets the size of the cluster and the access of the peripheral.
example : (expandProperties propertyDevice).peripherals.map (fun p => p.info.registers.map fun l =>
    l.map fun
      | .cluster _ _ [.register r] => some r.info.properties
      | _ => none) =
    [some [some { size := some 16, access := some .writeOnly }]] := by decide +kernel

-- `C40_nearest` and `C40_unique`: the only device that `propertyDevice` can be filled to.
example : DeviceFilled propertyDevice (expandProperties propertyDevice) ∧ expandProperties propertyDevice ≠ propertyDevice ∧
    ∀ d, DeviceFilled propertyDevice d → d = expandProperties propertyDevice :=
  ⟨C40_nearest _, by decide +kernel, fun _ h => C40_unique _ _ _ h (C40_nearest _)⟩

end Svd
