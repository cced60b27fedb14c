import Verif.Model.Types

/-! # Devices without arrays, clusters and references -/

namespace Svd.Spec

/-- One field, with its own enumerated values. -/
inductive FlatField : Field → Prop where
  | mk {i : FieldInfo} : i.derivedFrom = none → (∀ e ∈ i.enumeratedValues, e.derivedFrom = none) →
      FlatField (.single i)

/-- One register, with its own flat fields. -/
inductive FlatRegister : RegisterCluster → Prop where
  | mk {i : RegisterInfo} : i.derivedFrom = none → (∀ l, i.fields = some l → ∀ f ∈ l, FlatField f) →
      FlatRegister (.register (.single i))

/-- One peripheral, with its own flat registers. -/
inductive FlatPeripheral : Peripheral → Prop where
  | mk {i : PeripheralInfo} : i.derivedFrom = none →
      (∀ l, i.registers = some l → ∀ r ∈ l, FlatRegister r) → FlatPeripheral (.single i)

/-- No arrays, no clusters, no `derivedFrom` anywhere. -/
def FlatDevice (d : Device) : Prop := ∀ p ∈ d.peripherals, FlatPeripheral p

end Svd.Spec
