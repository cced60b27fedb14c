import Verif.Spec.Instance
import Verif.Spec.Name

/-! # All elements of a device are called by identifiers once arrays are expanded -/

namespace Svd.Spec

/-- The name of a single element is an identifier; an array has elements and their names are
identifiers. -/
def NameFits (name : Str) : Option DimElement → Prop
  | none => Ident name
  | some d => 1 ≤ d.dim.toNat ∧ ∀ k idx n, k < d.dim.toNat → (indexList d)[k]? = some idx →
      InstanceName d idx name n → Ident n

/-- The field. -/
def FieldNamesFit (f : Field) : Prop := NameFits f.info.name f.dim?

/-- The register and its fields. -/
def RegisterNamesFit (r : Register) : Prop :=
  NameFits r.info.name r.dim? ∧ ∀ l, r.info.fields = some l → ∀ f ∈ l, FieldNamesFit f

mutual
/-- The register or cluster and everything in it. -/
def RcNamesFit : RegisterCluster → Prop
  | .register r => RegisterNamesFit r
  | .cluster h d cs => NameFits h.name d ∧ RcsNamesFit cs
/-- Everything in the list. -/
def RcsNamesFit : List RegisterCluster → Prop
  | [] => True
  | c :: cs => RcNamesFit c ∧ RcsNamesFit cs
end

/-- The peripheral and everything in it. -/
def PeripheralNamesFit (p : Peripheral) : Prop :=
  NameFits p.info.name p.dim? ∧ ∀ l, p.info.registers = some l → RcsNamesFit l

/-- Everything in the device. -/
def DeviceNamesFit (d : Device) : Prop := ∀ p ∈ d.peripherals, PeripheralNamesFit p

end Svd.Spec
