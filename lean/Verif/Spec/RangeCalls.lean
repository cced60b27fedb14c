import Verif.Model.Build

/-! # Calls that set the bit range of a field builder -/

namespace Svd.Spec

/-- One call of a setter of svd-rs/src/field.rs:156-185. -/
inductive RangeCall where
  | offset (v : U32)
  | width (v : U32)
  | range (r : BitRange)
  deriving DecidableEq, Repr

/-- The offset that a call sets. -/
def RangeCall.offset? : RangeCall → Option U32
  | .offset v => some v
  | _ => none

/-- The width that a call sets. -/
def RangeCall.width? : RangeCall → Option U32
  | .width v => some v
  | _ => none

/-- The call sets no whole range. -/
def RangeCall.part : RangeCall → Prop
  | .range _ => False
  | _ => True

/-- The offset set last, if any, otherwise `o`. -/
def lastOffset (o : U32) (l : List RangeCall) : U32 := (l.filterMap RangeCall.offset?).getLastD o

/-- The width set last, if any, otherwise `w`. -/
def lastWidth (w : U32) (l : List RangeCall) : U32 := (l.filterMap RangeCall.width?).getLastD w

end Svd.Spec
