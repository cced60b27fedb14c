import Verif.Model.Types
import Verif.Spec.Name

/-! # What the validation levels demand, as logical conditions on the data -/

namespace Svd.Spec

/-- How strict a level is. -/
def strictness : ValidateLevel → Nat
  | .disabled => 0
  | .weak => 1
  | .strict => 2

/-- The conditions `weak` hold from level Weak on, `strict` at level Strict. -/
def AtLevel (weak strict : Prop) (lvl : ValidateLevel) : Prop :=
  (1 ≤ strictness lvl → weak) ∧ (2 ≤ strictness lvl → strict)

def PropsValid (p : RegisterProperties) : ValidateLevel → Prop :=
  AtLevel
    (∀ s v, p.size = some s → p.resetValue = some v → v.toNat < 2 ^ s.toNat)
    ((∀ s m, p.size = some s → p.resetMask = some m → m.toNat < 2 ^ s.toNat) ∧
      ∀ v m, p.resetValue = some v → p.resetMask = some m →
        ∀ i, v.toNat.testBit i = true → m.toNat.testBit i = true)

def EnumValueValid (e : EnumeratedValue) : ValidateLevel → Prop :=
  AtLevel (e.value ≠ none ∨ e.isDefault = some true)
    (PlainName e.name ∧ ¬ (e.value ≠ none ∧ e.isDefault = some true))

def EnumsValid (e : EnumeratedValues) : ValidateLevel → Prop :=
  AtLevel (e.derivedFrom = none → e.values ≠ [])
    ((∀ n, e.name = some n → PlainName n) ∧ ∀ n, e.derivedFrom = some n → DerivedName n)

/-- The values can be meant for reading alone. -/
def MayBeRead (e : EnumeratedValues) : Prop := e.derivedFrom ≠ none ∨ e.usage = some .read
/-- The values can be meant for writing alone. -/
def MayBeWrite (e : EnumeratedValues) : Prop := e.derivedFrom ≠ none ∨ e.usage = some .write

/-- One group of enumerated values, or one for reading and one for writing. -/
def UsagesValid (l : List EnumeratedValues) : Prop :=
  l.length ≤ 2 ∧ ∀ a b, l = [a, b] → (MayBeRead a ∧ MayBeWrite b) ∨ (MayBeRead b ∧ MayBeWrite a)

def FieldValid (f : FieldInfo) : ValidateLevel → Prop :=
  AtLevel
    (1 ≤ f.bitRange.width.toNat ∧
      (f.bitRange.width.toNat < 64 →
        (∀ g ∈ f.enumeratedValues, ∀ e ∈ g.values, ∀ v, e.value = some v →
          v.toNat < 2 ^ f.bitRange.width.toNat) ∧
        ∀ lo hi, f.writeConstraint = some (.range ⟨lo, hi⟩) →
          lo.toNat ≤ hi.toNat ∧ hi.toNat < 2 ^ f.bitRange.width.toNat))
    (DimableName f.name ∧ (∀ n, f.derivedFrom = some n → DerivedName n) ∧
      UsagesValid f.enumeratedValues)

def RegisterValid (r : RegisterInfo) : ValidateLevel → Prop :=
  AtLevel True
    (DimableName r.name ∧ (∀ n, r.alternateGroup = some n → PlainName n) ∧
      (∀ n, r.alternateRegister = some n → DimableName n) ∧
      (∀ n, r.derivedFrom = some n → DerivedName n) ∧
      (r.derivedFrom = none → r.fields ≠ some []))

def ClusterValid (c : ClusterInfo) : ValidateLevel → Prop :=
  AtLevel True
    (DimableName c.name ∧ (∀ n, c.derivedFrom = some n → DerivedName n) ∧
      (c.derivedFrom = none → c.children ≠ []))

def PeripheralValid (p : PeripheralInfo) : ValidateLevel → Prop :=
  AtLevel True
    (DimableName p.name ∧ (∀ n, p.derivedFrom = some n → DimableName n) ∧
      (p.derivedFrom = none → p.registers ≠ some []))

def DeviceValid (d : Device) : ValidateLevel → Prop := AtLevel (d.peripherals ≠ []) True

/-- A node of a register tree, at any depth. -/
inductive InTree : List RegisterCluster → RegisterCluster → Prop where
  | here {l n} : n ∈ l → InTree l n
  | inside {l h d cs n} : RegisterCluster.cluster h d cs ∈ l → InTree cs n → InTree l n

/-- Parts of a device that have validation conditions. -/
inductive Part where
  | props (p : RegisterProperties)
  | peripheral (p : PeripheralInfo)
  | cluster (c : ClusterInfo)
  | register (r : RegisterInfo)
  | field (f : FieldInfo)
  | enums (e : EnumeratedValues)
  | enumValue (e : EnumeratedValue)

def Part.Valid (lvl : ValidateLevel) : Part → Prop
  | .props p => PropsValid p lvl
  | .peripheral p => PeripheralValid p lvl
  | .cluster c => ClusterValid c lvl
  | .register r => RegisterValid r lvl
  | .field f => FieldValid f lvl
  | .enums e => EnumsValid e lvl
  | .enumValue e => EnumValueValid e lvl

/-- Parts of a field. -/
inductive FieldHas (f : FieldInfo) : Part → Prop where
  | self : FieldHas f (.field f)
  | enums {g} : g ∈ f.enumeratedValues → FieldHas f (.enums g)
  | enumValue {g e} : g ∈ f.enumeratedValues → e ∈ g.values → FieldHas f (.enumValue e)

/-- Parts of a register. -/
inductive RegisterHas (r : RegisterInfo) : Part → Prop where
  | self : RegisterHas r (.register r)
  | props : RegisterHas r (.props r.properties)
  | field {fs f p} : r.fields = some fs → f ∈ fs → FieldHas f.info p → RegisterHas r p

/-- Parts of a register tree node, not counting its descendants. -/
inductive NodeHas : RegisterCluster → Part → Prop where
  | register {r p} : RegisterHas r.info p → NodeHas (.register r) p
  | cluster {h d cs} : NodeHas (.cluster h d cs) (.cluster { h with children := cs })
  | props {h d cs} : NodeHas (.cluster h d cs) (.props h.defaultRegisterProperties)

/-- Parts of a peripheral. -/
inductive PeripheralHas (p : PeripheralInfo) : Part → Prop where
  | self : PeripheralHas p (.peripheral p)
  | props : PeripheralHas p (.props p.defaultRegisterProperties)
  | node {l n q} : p.registers = some l → InTree l n → NodeHas n q → PeripheralHas p q

/-- Parts of a device. -/
inductive DeviceHas (d : Device) : Part → Prop where
  | props : DeviceHas d (.props d.defaultRegisterProperties)
  | peripheral {p q} : p ∈ d.peripherals → PeripheralHas p.info q → DeviceHas d q

end Svd.Spec
