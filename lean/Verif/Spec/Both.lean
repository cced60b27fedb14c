import Verif.Spec.Document
import Verif.Spec.Full
import Verif.Spec.Props
import Verif.Spec.Valid

/-! # Reading a file with both kinds of expansion -/

namespace Svd.Spec

/-- `d` is what a document stands for: the first device element on the top level describes `d0`; the
register properties are filled in if this is wanted; then references and arrays are expanded if this is
wanted. -/
def ReadAs (names : Str → Option DimElement → List Str) (oc ignoreEnums wantProperties wantExpand : Bool)
    (level : ValidateLevel) (top : List Xml) (d : Device) : Prop :=
  ∃ before x after d0 d1, top = before ++ x :: after ∧ (∀ y ∈ before, y.hasTag "device" = false) ∧
    DeviceSays oc ignoreEnums level x d0 ∧
    (wantProperties = true → DeviceFilled d0 d1) ∧ (wantProperties = false → d1 = d0) ∧
    (wantExpand = true → DeviceFull names d1 d) ∧ (wantExpand = false → d = d1)

/-- Every property that `p` gives is given by `q`. -/
structure GivesAll (p q : RegisterProperties) : Prop where
  size : p.size ≠ none → q.size ≠ none
  access : p.access ≠ none → q.access ≠ none
  protection : p.protection ≠ none → q.protection ≠ none
  resetValue : p.resetValue ≠ none → q.resetValue ≠ none
  resetMask : p.resetMask ≠ none → q.resetMask ≠ none

/-- Peripherals and clusters with a reference have nothing of their own inside. -/
def DerivedBare (d : Device) : Prop :=
  ∀ p ∈ d.peripherals, (p.info.derivedFrom ≠ none → p.info.registers = none) ∧
    ∀ l, p.info.registers = some l → ∀ h dim cs, InTree l (.cluster h dim cs) →
      h.derivedFrom ≠ none → cs = []

/-- A way from a list of registers and clusters down to one hardware register, with the properties of the
clusters passed, from the inside out, followed by `levels`. -/
inductive LeafWith : List RegisterProperties → List RegisterCluster → List (Str × Nat) → RegisterInfo →
    List RegisterProperties → Prop where
  | register {levels cs r l i} : .register r ∈ cs → RegisterExpanded r l → i ∈ l →
      LeafWith levels cs [(i.name, i.addressOffset.toNat)] i levels
  | cluster {levels cs h sub way i lv} : .cluster h none sub ∈ cs →
      LeafWith (h.defaultRegisterProperties :: levels) sub way i lv →
      LeafWith levels cs ((h.name, h.addressOffset.toNat) :: way) i lv
  | clusters {levels cs h d sub k name off way i lv} : .cluster h (some d) sub ∈ cs → k < d.dim.toNat →
      ClusterPlace h d k name off → LeafWith (h.defaultRegisterProperties :: levels) sub way i lv →
      LeafWith levels cs ((name, off) :: way) i lv

/-- `rs` are the hardware registers of `cs`: each is found by going down through instances of the clusters,
is named by joining the names passed, is at the sum of the offsets passed, and has each property of the
nearest level that gives it. -/
def HardwareRegisters (levels : List RegisterProperties) (cs : List RegisterCluster)
    (rs : List RegisterInfo) : Prop :=
  ∀ r', r' ∈ rs ↔ ∃ way r lv, LeafWith levels cs way r lv ∧
    r'.name = "_".toList.intercalate (way.map (·.1)) ∧
    r'.addressOffset.toNat = (way.map (·.2)).sum ∧
    r' = { r with name := r'.name, addressOffset := r'.addressOffset,
                  properties := nearest (r.properties :: lv) }

/-- Every peripheral of `l` comes from `p` and has the hardware registers of `p`. -/
def PeripheralHardware (top : RegisterProperties) (p : Peripheral) (l : List Peripheral) : Prop :=
  ∀ q ∈ l, (p.info.registers = none → q.info.registers = none) ∧
    ∀ cs, p.info.registers = some cs → ∃ rs, q.info.registers = some (rs.map fun r => .register (.single r)) ∧
      HardwareRegisters [p.info.defaultRegisterProperties, top] cs rs

end Svd.Spec
