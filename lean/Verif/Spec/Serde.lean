import Verif.Model.Serde

/-! # What survives a conversion with serde -/

namespace Svd.Spec

/-- The list of indexes of the array can be written as one text. -/
def JoinableIndexes (d : DimElement) : Prop :=
  ∀ l, d.dimIndex = some l → l ≠ [] ∧ ∀ p ∈ l, '-' ∉ p ∧ ',' ∉ p

/-- The description of an array, if it has a list of indexes. -/
def indexed (d : DimElement) : Option DimElement := if d.dimIndex = none then none else some d

/-- An array without a list of indexes becomes a single element. -/
def keepIndexed {α : Type} : MaybeArray α → MaybeArray α
  | .single i => .single i
  | .array i d => if d.dimIndex = none then .single i else .array i d

/-- The fields of the register and the register itself. -/
def keptRegister (r : Register) : Register :=
  keepIndexed (r.mapInfo fun i => { i with fields := i.fields.map fun l => l.map keepIndexed })

mutual
def keptRc : RegisterCluster → RegisterCluster
  | .register r => .register (keptRegister r)
  | .cluster h d cs => .cluster h (d.bind indexed) (keptRcs cs)
def keptRcs : List RegisterCluster → List RegisterCluster
  | [] => []
  | c :: cs => keptRc c :: keptRcs cs
end

def keptPeripheral (p : Peripheral) : Peripheral :=
  keepIndexed (p.mapInfo fun i => { i with registers := i.registers.map keptRcs })

/-- The device after a conversion: arrays without a list of indexes are single elements, and the attributes
concerning the schema have their default values. -/
def kept (d : Device) : Device :=
  { d with
    peripherals := d.peripherals.map keptPeripheral
    xmlnsXs := "http://www.w3.org/2001/XMLSchema-instance".toList
    noNamespaceSchemaLocation := "CMSIS-SVD_Schema_1_1.xsd".toList
    schemaVersion := "1.1".toList }

mutual
/-- The same value with the entries of maps in another order. -/
def Reordered : Val → Val → Prop
  | .arr l, w => ∃ l', w = .arr l' ∧ ReorderedList l l'
  | .obj es, w => ∃ es' es'', w = .obj es' ∧ ReorderedEntries es es'' ∧ es''.Perm es'
  | .null, w => w = .null
  | .bool b, w => w = .bool b
  | .num n, w => w = .num n
  | .str s, w => w = .str s
  | .other, w => w = .other
def ReorderedList : List Val → List Val → Prop
  | [], l' => l' = []
  | v :: l, l' => ∃ w r, l' = w :: r ∧ Reordered v w ∧ ReorderedList l r
def ReorderedEntries : List (String × Val) → List (String × Val) → Prop
  | [], l' => l' = []
  | (k, v) :: l, l' => ∃ w r, l' = (k, w) :: r ∧ Reordered v w ∧ ReorderedEntries l r
end

end Svd.Spec
