import Verif.Model.Types
import Verif.Spec.Lists

/-! # Register properties taken from the enclosing elements -/

namespace Svd.Spec

/-- For each property separately, the value given by the first of the levels that gives one.  The
levels are listed from the inside out. -/
def nearest (levels : List RegisterProperties) : RegisterProperties where
  size := levels.findSome? fun p => p.size
  access := levels.findSome? fun p => p.access
  protection := levels.findSome? fun p => p.protection
  resetValue := levels.findSome? fun p => p.resetValue
  resetMask := levels.findSome? fun p => p.resetMask

/-- `r'` is `r` with each property taken from the nearest of the register itself and the enclosing
levels; a derived register is left alone. -/
inductive RegisterFilled (levels : List RegisterProperties) : Register → Register → Prop where
  | derived {r} : r.info.derivedFrom.isSome → RegisterFilled levels r r
  | own {r} : r.info.derivedFrom = none →
      RegisterFilled levels r (r.mapInfo fun i => { i with properties := nearest (i.properties :: levels) })

mutual
/-- The same for all registers in a register or cluster; derived clusters are left alone. -/
inductive RcFilled : List RegisterProperties → RegisterCluster → RegisterCluster → Prop where
  | register {levels r r'} : RegisterFilled levels r r' → RcFilled levels (.register r) (.register r')
  | derived {levels h d cs} : h.derivedFrom.isSome → RcFilled levels (.cluster h d cs) (.cluster h d cs)
  | cluster {levels h d cs cs'} : h.derivedFrom = none →
      RcsFilled (h.defaultRegisterProperties :: levels) cs cs' →
      RcFilled levels (.cluster h d cs) (.cluster h d cs')
/-- The same for a list, element by element. -/
inductive RcsFilled : List RegisterProperties → List RegisterCluster → List RegisterCluster → Prop where
  | nil {levels} : RcsFilled levels [] []
  | cons {levels c c' cs cs'} : RcFilled levels c c' → RcsFilled levels cs cs' →
      RcsFilled levels (c :: cs) (c' :: cs')
end

/-- The same for a peripheral; a derived peripheral is left alone. -/
inductive PeripheralFilled (levels : List RegisterProperties) : Peripheral → Peripheral → Prop where
  | derived {p} : p.info.derivedFrom.isSome → PeripheralFilled levels p p
  | bare {p} : p.info.registers = none → PeripheralFilled levels p p
  | own {p cs cs'} : p.info.derivedFrom = none → p.info.registers = some cs →
      RcsFilled (p.info.defaultRegisterProperties :: levels) cs cs' →
      PeripheralFilled levels p (p.mapInfo fun i => { i with registers := some cs' })

/-- The same for all peripherals, starting with the device's own properties; everything else in the
device is the same. -/
def DeviceFilled (d d' : Device) : Prop :=
  d' = { d with peripherals := d'.peripherals } ∧
    Pairs (PeripheralFilled [d.defaultRegisterProperties]) d.peripherals d'.peripherals

end Svd.Spec
