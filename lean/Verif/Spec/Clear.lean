import Verif.Spec.Instance
import Verif.Spec.Lists

/-! # Devices whose elements keep different names when they are expanded -/

namespace Svd.Spec

/-- The names of an element: its own, or those of the elements of the array. -/
def InstanceNames (name : Str) : Option DimElement → List Str → Prop
  | none, l => l = [name]
  | some d, l => Instances (fun k n => ∃ idx, (indexList d)[k]? = some idx ∧ InstanceName d idx name n) d l

/-- The names of a register or cluster. -/
def RcNames : RegisterCluster → List Str → Prop
  | .register r => InstanceNames r.info.name r.dim?
  | .cluster h d _ => InstanceNames h.name d

/-- It is a cluster. -/
def IsCluster : RegisterCluster → Prop
  | .register _ => False
  | .cluster .. => True

/-- The fields have different names. -/
def FieldsClear (fs : List Field) : Prop :=
  ∃ ls, Pairs (fun (f : Field) l => InstanceNames f.info.name f.dim? l) fs ls ∧ ls.flatten.Nodup

/-- On every level the registers and clusters have different names, the name of a cluster and an underscore are
never the beginning of another name next to it, and the fields of the registers have different names. -/
inductive Clear : List RegisterCluster → Prop where
  | mk {cs ls} : Pairs RcNames cs ls → ls.flatten.Nodup →
      (∀ c l, (c, l) ∈ cs.zip ls → IsCluster c → ∀ n ∈ l, ∀ m ∈ ls.flatten, ¬ n ++ ['_'] <+: m) →
      (∀ r fs, .register r ∈ cs → r.info.fields = some fs → FieldsClear fs) →
      (∀ h d sub, .cluster h d sub ∈ cs → Clear sub) → Clear cs

/-- The peripherals have different names, and the same holds inside each. -/
def DeviceClear (d : Device) : Prop :=
  (∃ ls, Pairs (fun (p : Peripheral) l => InstanceNames p.info.name p.dim? l) d.peripherals ls ∧ ls.flatten.Nodup) ∧
    ∀ p ∈ d.peripherals, ∀ cs, p.info.registers = some cs → Clear cs

/-- The name of a register or cluster. -/
def rcName : RegisterCluster → Str
  | .register r => r.info.name
  | .cluster h _ _ => h.name

/-- The peripherals have different names, the registers and clusters directly in a peripheral have, and so have
the fields of these registers. -/
def Distinct (d : Device) : Prop :=
  (d.peripherals.map fun p => p.info.name).Nodup ∧
    ∀ p ∈ d.peripherals, ∀ cs, p.info.registers = some cs → (cs.map rcName).Nodup ∧
      ∀ r fs, .register r ∈ cs → r.info.fields = some fs → (fs.map fun f => f.info.name).Nodup

end Svd.Spec
