import Verif.Spec.Written

/-! # C81: what can be written as XML -/

namespace Svd.Spec

section
variable (oc : Bool) {α : Type}

/-- Only descending offsets are a problem, with overflow checks, when there is something to compare: the offset whose
32-bit pattern is the smallest signed number has no negation. -/
def Sortable (off : α → Nat) (s : Option Sorting) (l : List α) : Prop :=
  oc = true → s = some .offsetReversed → 2 ≤ l.length → ∀ a ∈ l, off a % 2 ^ 32 ≠ 2 ^ 31

/-- The elements that are compared are all of them, or the derived and the other ones separately. -/
def SortableDerivable (off : α → Nat) (der : α → Prop) [DecidablePred der] : DerivableSorting → List α → Prop
  | .unchanged s, l => Sortable oc off s l
  | .deriveLast s, l =>
    Sortable oc off s (l.filter fun x => ¬ der x) ∧ Sortable oc off s (l.filter fun x => der x)

/-- Registers and clusters may be compared separately as well. -/
def SortableRc : RcSorting → List RegisterCluster → Prop
  | .unchanged s, l => sortable s l
  | .registersFirst s, l => sortable s (l.filter isReg) ∧ sortable s (l.filter fun c => ¬ isReg c)
  | .clustersFirst s, l => sortable s (l.filter isReg) ∧ sortable s (l.filter fun c => ¬ isReg c)
where sortable := SortableDerivable oc (fun c : RegisterCluster => c.addressOffset.toNat)
        (fun c => c.derivedFrom ≠ none)

end

section
variable (oc : Bool) (cfg : EncConfig)

/-- With overflow checks, the last bit has to exist if the notation to be used names it. -/
def RangeWritable (b : BitRange) : Prop :=
  oc = true → cfg.fieldBitRange.getD b.rangeType ≠ .offsetWidth →
    1 ≤ b.offset.toNat + b.width.toNat ∧ b.offset.toNat + b.width.toNat < 2 ^ 32

/-- A list of indexes has to be one whose range can be computed. -/
def IndexesWritable (d : DimElement) : Prop := d.dimIndex ≠ none → Written.Countable oc d

def FieldWritable (f : Field) : Prop :=
  (∀ d, f.dim? = some d → IndexesWritable oc d) ∧ RangeWritable oc cfg f.info.bitRange

def RegisterWritable (r : Register) : Prop :=
  (∀ d, r.dim? = some d → IndexesWritable oc d) ∧
  ∀ l, r.info.fields = some l →
    SortableDerivable oc (fun f : Field => f.info.bitRange.offset.toNat)
      (fun f => f.info.derivedFrom ≠ none ∨ ∃ e ∈ f.info.enumeratedValues, e.derivedFrom ≠ none) cfg.fieldSorting l ∧
    ∀ f ∈ l, FieldWritable oc cfg f

mutual
/-- The children of a cluster are not sorted. -/
def RcWritable : RegisterCluster → Prop
  | .register r => RegisterWritable oc cfg r
  | .cluster _ d cs => (∀ x, d = some x → IndexesWritable oc x) ∧ RcsWritable cs
def RcsWritable : List RegisterCluster → Prop
  | [] => True
  | c :: cs => RcWritable c ∧ RcsWritable cs
end

def PeripheralWritable (p : Peripheral) : Prop :=
  (∀ d, p.dim? = some d → IndexesWritable oc d) ∧
  ∀ l, p.info.registers = some l → SortableRc oc cfg.registerClusterSorting l ∧ RcsWritable oc cfg l

def DeviceWritable (d : Device) : Prop :=
  SortableDerivable oc (fun p : Peripheral => p.info.baseAddress.toNat) (fun p => p.info.derivedFrom ≠ none)
    cfg.peripheralSorting d.peripherals ∧
  ∀ p ∈ d.peripherals, PeripheralWritable oc cfg p

end

end Svd.Spec
