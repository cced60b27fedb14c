import Verif.Spec.RoundTrip

/-! # Devices whose expansion can be written -/

namespace Svd.Spec

/-- An array has elements, and its indexes are texts that the format keeps. -/
def CleanIndexes (d : DimElement) : Prop :=
  1 ≤ d.dim.toNat ∧ ∀ l, d.dimIndex = some l → ∀ p ∈ l, Text p

/-- All arrays of the device are such. -/
def ArraysClean (d : Device) : Prop := DeviceParts (fun _ => True) CleanIndexes d

/-- The bits of a field end before bit `2 ^ 32 - 1`. -/
def RangeEnds (b : BitRange) : Prop := b.offset.toNat + b.width.toNat < 2 ^ 32

/-- Those of all fields of the device do. -/
def FieldsEnd (d : Device) : Prop := DeviceParts (fun f => RangeEnds f.bitRange) (fun _ => True) d

/-- The bits of the last element of a field array end before bit `2 ^ 32 - 1`. -/
def FieldEnds : Field → Prop
  | .single i => RangeEnds i.bitRange
  | .array i d =>
    i.bitRange.offset.toNat + (d.dim.toNat - 1) * d.dimIncrement.toNat + i.bitRange.width.toNat < 2 ^ 32

/-- Those of all fields of the device do. -/
def FieldArraysEnd (d : Device) : Prop :=
  ∀ p ∈ d.peripherals, ∀ l, p.info.registers = some l → ∀ r, InTree l (.register r) →
    ∀ fs, r.info.fields = some fs → ∀ f ∈ fs, FieldEnds f

end Svd.Spec
