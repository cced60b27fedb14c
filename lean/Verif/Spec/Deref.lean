import Verif.Spec.Full
import Verif.Spec.Valid

/-! # A device with all its references followed, its arrays and clusters still being there -/

namespace Svd.Spec

section
variable (names : Str → Option DimElement → List Str)

/-- The field of register `b`, with its own reference and those of its enumerated values followed. -/
def FieldDeref (d : Device) (b : RegisterPath) (f g : Field) : Prop :=
  ∃ f' home evs, FieldResolved names d b f f' home ∧
    Pairs (EnumsResolved names d home) f'.info.enumeratedValues evs ∧
    g = f'.mapInfo fun i => { i with enumeratedValues := evs }

/-- The fields at home in register `b`. -/
inductive FieldsDeref (d : Device) (b : RegisterPath) : Option (List Field) → Option (List Field) → Prop where
  | none : FieldsDeref d b none none
  | some {fs gs} : Pairs (FieldDeref names d b) fs gs → FieldsDeref d b (some fs) (some gs)

/-- The register in block `b`, with its own reference and then those of its fields followed. -/
def RegisterDeref (d : Device) (b : BlockPath) (r g : Register) : Prop :=
  ∃ r' home fs, RegisterResolved names d b r r' home ∧ FieldsDeref names d home r'.info.fields fs ∧
    g = r'.mapInfo fun i => { i with fields := fs }

mutual
/-- The register or cluster in block `b`. -/
inductive RcDeref (d : Device) : BlockPath → RegisterCluster → RegisterCluster → Prop where
  | register {b r g} : RegisterDeref names d b r g → RcDeref d b (.register r) (.register g)
  | cluster {b h dim cs c home gs} :
      ClusterResolved names d b (MaybeArray.mk' { h with children := cs } dim) c home →
      RcsDeref d home c.info.children gs →
      RcDeref d b (.cluster h dim cs) (.cluster c.info.toClusterHead c.dim? gs)
/-- One after the other. -/
inductive RcsDeref (d : Device) : BlockPath → List RegisterCluster → List RegisterCluster → Prop where
  | nil {b} : RcsDeref d b [] []
  | cons {b c cs g gs} : RcDeref d b c g → RcsDeref d b cs gs → RcsDeref d b (c :: cs) (g :: gs)
end

/-- The registers at home in block `b`. -/
inductive RegistersDeref (d : Device) (b : BlockPath) :
    Option (List RegisterCluster) → Option (List RegisterCluster) → Prop where
  | none : RegistersDeref d b none none
  | some {cs gs} : RcsDeref names d b cs gs → RegistersDeref d b (some cs) (some gs)

/-- The peripheral. -/
def PeripheralDeref (d : Device) (p g : Peripheral) : Prop :=
  ∃ p' home rs, PeripheralResolved names d p p' home ∧ RegistersDeref names d home p'.info.registers rs ∧
    g = p'.mapInfo fun i => { i with registers := rs }

/-- The peripherals one by one; the rest of the device stays. -/
def DeviceDeref (d g : Device) : Prop :=
  ∃ ps, Pairs (PeripheralDeref names d) d.peripherals ps ∧ g = { d with peripherals := ps }

end

/-! ## The validation rules that inheriting can break -/

/-- The values of the enumerations and the limits of the constraint fit into the field. -/
def ValuesFit (f : FieldInfo) : Prop :=
  f.bitRange.width.toNat < 64 →
    (∀ g ∈ f.enumeratedValues, ∀ e ∈ g.values, ∀ v, e.value = some v → v.toNat < 2 ^ f.bitRange.width.toNat) ∧
    ∀ lo hi, f.writeConstraint = some (.range ⟨lo, hi⟩) → lo.toNat ≤ hi.toNat ∧ hi.toNat < 2 ^ f.bitRange.width.toNat

/-- Size against reset value and mask, width against values, the usages of enumerations, and empty lists. -/
def Part.Fits (lvl : ValidateLevel) : Part → Prop
  | .props p => PropsValid p lvl
  | .peripheral p => AtLevel True (p.registers ≠ some []) lvl
  | .register r => AtLevel True (r.fields ≠ some []) lvl
  | .field f => AtLevel (ValuesFit f) (UsagesValid f.enumeratedValues) lvl
  | _ => True

end Svd.Spec
