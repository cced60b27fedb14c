import Verif.Spec.Index
import Verif.Spec.Lists

/-! # Devices that differ in order only

Two devices are the same apart from the order of their peripherals, of the registers and clusters on each
level and of the fields of each register, and apart from the notation of the bit ranges. -/

namespace Svd.Spec

/-- Every element of the first list has its own counterpart in the second; the order does not matter. -/
inductive Mixed {α β : Type} (R : α → β → Prop) : List α → List β → Prop where
  | nil : Mixed R [] []
  | cons {a b l m₁ m₂} : R a b → Mixed R l (m₁ ++ m₂) → Mixed R (a :: l) (m₁ ++ b :: m₂)

/-- The same field, its bit range perhaps in another notation. -/
def FieldAlike (f f' : Field) : Prop :=
  ∃ t, f' = f.mapInfo fun i => { i with bitRange := { i.bitRange with rangeType := t } }

/-- The fields of a register. -/
inductive FieldsShuffled : Option (List Field) → Option (List Field) → Prop where
  | none : FieldsShuffled none none
  | some {fs fs'} : Mixed FieldAlike fs fs' → FieldsShuffled (some fs) (some fs')

/-- The same register with its fields shuffled. -/
def RegisterShuffled (r r' : Register) : Prop :=
  ∃ fs, FieldsShuffled r.info.fields fs ∧ r' = r.mapInfo fun i => { i with fields := fs }

mutual
/-- The same register or cluster with its content shuffled. -/
inductive RcShuffled : RegisterCluster → RegisterCluster → Prop where
  | register {r r'} : RegisterShuffled r r' → RcShuffled (.register r) (.register r')
  | cluster {h d cs cs'} : RcsShuffled cs cs' → RcShuffled (.cluster h d cs) (.cluster h d cs')
/-- The same registers and clusters in any order, with their contents shuffled. -/
inductive RcsShuffled : List RegisterCluster → List RegisterCluster → Prop where
  | nil : RcsShuffled [] []
  | cons {c c' cs m₁ m₂} : RcShuffled c c' → RcsShuffled cs (m₁ ++ m₂) →
      RcsShuffled (c :: cs) (m₁ ++ c' :: m₂)
end

/-- The same cluster with its content shuffled. -/
def ClusterShuffled (c c' : Cluster) : Prop :=
  c'.dim? = c.dim? ∧ ∃ cs, RcsShuffled c.info.children cs ∧ c'.info = { c.info with children := cs }

/-- The registers and clusters of a peripheral. -/
inductive RegistersShuffled : Option (List RegisterCluster) → Option (List RegisterCluster) → Prop where
  | none : RegistersShuffled none none
  | some {cs cs'} : RcsShuffled cs cs' → RegistersShuffled (some cs) (some cs')

/-- The same peripheral with its content shuffled. -/
def PeripheralShuffled (p p' : Peripheral) : Prop :=
  ∃ rs, RegistersShuffled p.info.registers rs ∧ p' = p.mapInfo fun i => { i with registers := rs }

/-- The same device with its content shuffled. -/
def DeviceShuffled (d e : Device) : Prop :=
  ∃ ps, Mixed PeripheralShuffled d.peripherals ps ∧ e = { d with peripherals := ps }

/-- A path never denotes two different elements, and a name in a register never two groups of enumerated
values in different fields. -/
structure Unambiguous (d : Device) : Prop where
  peripherals : ∀ q p p', PeripheralAt d q p → PeripheralAt d q p' → p = p'
  clusters : ∀ q c c', ClusterAt d q c → ClusterAt d q c' → c = c'
  registers : ∀ q r r', RegisterAt d q r → RegisterAt d q r' → r = r'
  fields : ∀ q f f', FieldAt d q f → FieldAt d q f' → f = f'
  enums : ∀ q e e', EnumAt d q e → EnumAt d q e' → e = e'
  groups : ∀ q r fs f g e e', RegisterAt d q r → r.info.fields = some fs → f ∈ fs → g ∈ fs →
    e ∈ f.info.enumeratedValues → e' ∈ g.info.enumeratedValues → e.name ≠ none → e.name = e'.name → f = g

end Svd.Spec
