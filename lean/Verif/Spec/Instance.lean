import Verif.Spec.Dim

/-! # What the instances of an array are -/

namespace Svd.Spec

/-- Replacing the non-overlapping occurrences of `pat`, found from the left, by `new`. -/
inductive Replaced (pat new : Str) : Str → Str → Prop where
  | nil : Replaced pat new [] []
  | hit {s t} : Replaced pat new s t → Replaced pat new (pat ++ s) (new ++ t)
  | skip {c s t} : ¬ pat <+: (c :: s) → Replaced pat new s t → Replaced pat new (c :: s) (c :: t)

/-- Putting an index into a text: `[%s]` first, then the remaining `%s`. -/
def Substituted (idx s t : Str) : Prop :=
  ∃ m, Replaced ['[', '%', 's', ']'] idx s m ∧ Replaced ['%', 's'] idx m t

/-- The same for an optional text. -/
def SubstitutedOpt (idx : Str) (s t : Option Str) : Prop :=
  (s = none ∧ t = none) ∨ ∃ a b, s = some a ∧ t = some b ∧ Substituted idx a b

/-- `e` is the first entry of `dimArrayIndex` whose number is written `idx`. -/
def ValueFor (d : DimElement) (idx : Str) (e : EnumeratedValue) : Prop :=
  ∃ dai pre post, d.dimArrayIndex = some dai ∧ dai.values = pre ++ e :: post ∧
    (∃ v, e.value = some v ∧ decimal v.toNat = idx) ∧
    ∀ x ∈ pre, ∀ v, x.value = some v → decimal v.toNat ≠ idx

/-- The name of the instance with index `idx`: that of its `dimArrayIndex` entry, or else the array's
name with the index put in. -/
def InstanceName (d : DimElement) (idx name new : Str) : Prop :=
  (∃ e, ValueFor d idx e ∧ new = e.name) ∨
    ((¬ ∃ e, ValueFor d idx e) ∧ Substituted idx name new)

/-- The description likewise. -/
def InstanceDescription (d : DimElement) (idx : Str) (desc new : Option Str) : Prop :=
  (∃ e s, ValueFor d idx e ∧ e.description = some s ∧ new = some s) ∨
    ((¬ ∃ e s, ValueFor d idx e ∧ e.description = some s) ∧ SubstitutedOpt idx desc new)

/-- Instance `k` of a field array. -/
def FieldInstance (info : FieldInfo) (d : DimElement) (k : Nat) (new : FieldInfo) : Prop :=
  ∃ idx, (indexList d)[k]? = some idx ∧
    InstanceName d idx info.name new.name ∧
    InstanceDescription d idx info.description new.description ∧
    new.bitRange.offset.toNat = info.bitRange.offset.toNat + k * d.dimIncrement.toNat ∧
    new.bitRange.width = info.bitRange.width ∧ new.bitRange.rangeType = .offsetWidth ∧
    new = { info with name := new.name, description := new.description, bitRange := new.bitRange }

/-- Instance `k` of a register array. -/
def RegisterInstance (info : RegisterInfo) (d : DimElement) (k : Nat) (new : RegisterInfo) : Prop :=
  ∃ idx, (indexList d)[k]? = some idx ∧
    InstanceName d idx info.name new.name ∧
    InstanceDescription d idx info.description new.description ∧
    new.addressOffset.toNat = info.addressOffset.toNat + k * d.dimIncrement.toNat ∧
    SubstitutedOpt idx info.displayName new.displayName ∧
    new = { info with name := new.name, description := new.description,
                      addressOffset := new.addressOffset, displayName := new.displayName }

/-- Instance `k` of a cluster array. -/
def ClusterInstance (info : ClusterInfo) (d : DimElement) (k : Nat) (new : ClusterInfo) : Prop :=
  ∃ idx, (indexList d)[k]? = some idx ∧
    InstanceName d idx info.name new.name ∧
    InstanceDescription d idx info.description new.description ∧
    new.addressOffset.toNat = info.addressOffset.toNat + k * d.dimIncrement.toNat ∧
    new = { info with name := new.name, description := new.description,
                      addressOffset := new.addressOffset }

/-- Instance `k` of a peripheral array. -/
def PeripheralInstance (info : PeripheralInfo) (d : DimElement) (k : Nat) (new : PeripheralInfo) :
    Prop :=
  ∃ idx, (indexList d)[k]? = some idx ∧
    InstanceName d idx info.name new.name ∧
    InstanceDescription d idx info.description new.description ∧
    new.baseAddress.toNat = info.baseAddress.toNat + k * d.dimIncrement.toNat ∧
    SubstitutedOpt idx info.displayName new.displayName ∧
    new = { info with name := new.name, description := new.description,
                      baseAddress := new.baseAddress, displayName := new.displayName }

/-- A list of exactly `d.dim` instances, in index order. -/
def Instances {α : Type} (inst : Nat → α → Prop) (d : DimElement) (l : List α) : Prop :=
  l.length = d.dim.toNat ∧ ∀ k a, l[k]? = some a → inst k a

end Svd.Spec
