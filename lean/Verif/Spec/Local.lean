import Verif.Spec.Index

/-! # The peripherals called by a name -/

namespace Svd.Spec

/-- The peripheral can be referred to as `n`: by its own name, or as an instance of the array. -/
def Calls (p : Peripheral) (n : Str) : Prop := Named p.info.name p.dim? n

open Classical in
/-- The peripherals that can be referred to as `n`, in the order of the document. -/
noncomputable def called (d : Device) (n : Str) : List Peripheral :=
  d.peripherals.filter fun p => decide (Calls p n)

/-- Every name of a peripheral of `d` stands for the same peripherals in `d'`. -/
def NamesKept (d d' : Device) : Prop :=
  ∀ p ∈ d.peripherals, ∀ n, Calls p n → called d' n = called d n

/-- No two peripherals share a name. -/
def DistinctNames (l : List Peripheral) : Prop :=
  l.Pairwise fun p q => ∀ n, ¬ (Calls p n ∧ Calls q n)

/-! ## References that stay among peripherals called by certain names -/

section
variable (N : Str → Prop)

/-- What precedes the first dot is such a name. -/
def PathStays (s : Str) : Prop := ∀ n t, s = n ++ '.' :: t → '.' ∉ n → N n

/-- A reference to enumerated values names a peripheral only if it has at least three dots. -/
def EnumPathStays (s : Str) : Prop := ∀ n t, s = n ++ '.' :: t → '.' ∉ n → 2 ≤ t.count '.' → N n

/-- The enumerated values. -/
def EnumsStay (e : EnumeratedValues) : Prop := ∀ s, e.derivedFrom = some s → EnumPathStays N s

/-- The field and its enumerated values. -/
def FieldStays (f : Field) : Prop :=
  (∀ s, f.info.derivedFrom = some s → PathStays N s) ∧ ∀ e ∈ f.info.enumeratedValues, EnumsStay N e

/-- The register and its fields. -/
def RegisterStays (r : Register) : Prop :=
  (∀ s, r.info.derivedFrom = some s → PathStays N s) ∧
    ∀ l, r.info.fields = some l → ∀ f ∈ l, FieldStays N f

mutual
/-- The register or cluster and everything in it. -/
def RcStays : RegisterCluster → Prop
  | .register r => RegisterStays N r
  | .cluster h _ cs => (∀ s, h.derivedFrom = some s → PathStays N s) ∧ RcsStay cs
/-- All of them. -/
def RcsStay : List RegisterCluster → Prop
  | [] => True
  | c :: cs => RcStays c ∧ RcsStay cs
end

/-- The peripheral and everything in it. -/
def PeripheralStays (p : Peripheral) : Prop :=
  (∀ s, p.info.derivedFrom = some s → N s) ∧ ∀ l, p.info.registers = some l → RcsStay N l

end

/-- No reference leaves the device. -/
def SelfContained (d : Device) : Prop :=
  ∀ p ∈ d.peripherals, PeripheralStays (fun n => ∃ q ∈ d.peripherals, Calls q n) p

end Svd.Spec
