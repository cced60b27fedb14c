import Verif.Spec.Props
import Verif.Spec.Valid

/-! # Which levels of a device govern the properties of a register -/

namespace Svd.Spec

/-- The register stands somewhere in the tree, neither it nor a cluster around it is derived, and `levels`
are the default properties around it from the inside out, those around the tree being `outer`. -/
inductive Under : List RegisterProperties → List RegisterCluster → List RegisterProperties → Register → Prop where
  | here {outer l r} : RegisterCluster.register r ∈ l → r.info.derivedFrom = none → Under outer l outer r
  | inside {outer l h d cs levels r} : RegisterCluster.cluster h d cs ∈ l → h.derivedFrom = none →
      Under (h.defaultRegisterProperties :: outer) cs levels r → Under outer l levels r

/-- The register stands somewhere in the device, nothing around it is derived, and `levels` are the default
properties around it, from the inside out. -/
def Governed (d : Device) (levels : List RegisterProperties) (r : Register) : Prop :=
  ∃ p ∈ d.peripherals, p.info.derivedFrom = none ∧ ∃ l, p.info.registers = some l ∧
    Under [p.info.defaultRegisterProperties, d.defaultRegisterProperties] l levels r

/-- Size, reset value and reset mask are given together or not at all. -/
def TogetherOrNot (p : RegisterProperties) : Prop :=
  (p.size ≠ none ∧ p.resetValue ≠ none ∧ p.resetMask ≠ none) ∨
    (p.size = none ∧ p.resetValue = none ∧ p.resetMask = none)

end Svd.Spec
