import Verif.Model.Types

/-! # Something holds for every field description and every array description of a device -/

namespace Svd.Spec

/-- `D` holds of the array description, if there is one. -/
def DimPart {α : Type} (D : DimElement → Prop) : MaybeArray α → Prop
  | .single _ => True
  | .array _ d => D d

/-- The field and its array description. -/
def FieldParts (F : FieldInfo → Prop) (D : DimElement → Prop) (f : Field) : Prop :=
  F f.info ∧ DimPart D f

/-- The register's fields and its array description. -/
def RegisterParts (F : FieldInfo → Prop) (D : DimElement → Prop) (r : Register) : Prop :=
  (∀ l, r.info.fields = some l → ∀ f ∈ l, FieldParts F D f) ∧ DimPart D r

mutual
/-- The register or cluster and everything in it. -/
def RcParts (F : FieldInfo → Prop) (D : DimElement → Prop) : RegisterCluster → Prop
  | .register r => RegisterParts F D r
  | .cluster _ d cs => (∀ x, d = some x → D x) ∧ RcsParts F D cs
/-- Everything in a list of registers and clusters. -/
def RcsParts (F : FieldInfo → Prop) (D : DimElement → Prop) : List RegisterCluster → Prop
  | [] => True
  | c :: cs => RcParts F D c ∧ RcsParts F D cs
end

/-- Everything in a peripheral. -/
def PeripheralParts (F : FieldInfo → Prop) (D : DimElement → Prop) (p : Peripheral) : Prop :=
  (∀ l, p.info.registers = some l → RcsParts F D l) ∧ DimPart D p

/-- Everything in a device. -/
def DeviceParts (F : FieldInfo → Prop) (D : DimElement → Prop) (d : Device) : Prop :=
  ∀ p ∈ d.peripherals, PeripheralParts F D p

/-- A range of at least one bit that ends before bit `2 ^ 32 - 1`. -/
def WritableRange (b : BitRange) : Prop := 1 ≤ b.width.toNat ∧ b.offset.toNat + b.width.toNat < 2 ^ 32

/-- If there is an index list, it has an entry for every element. -/
def EnoughIndexes (d : DimElement) : Prop := ∀ l, d.dimIndex = some l → d.dim.toNat ≤ l.length

/-- The index list does not contain both 0 and 2^32 - 1. -/
def NotBothEnds (d : DimElement) : Prop :=
  ∀ l, d.dimIndex = some l → ¬ ("0".toList ∈ l ∧ "4294967295".toList ∈ l)

end Svd.Spec
