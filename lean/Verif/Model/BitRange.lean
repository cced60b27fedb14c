import Verif.Model.Types

/-!
# Bit ranges (svd-rs/src/bitrange.rs)
-/

namespace Svd
namespace BitRange

/-- svd-rs/src/bitrange.rs:35-37. -/
def lsb (b : BitRange) : U32 := b.offset

/-- svd-rs/src/bitrange.rs:39-41: `offset + width - 1`. -/
def msb (oc : Bool) (b : BitRange) : M U32 := do
  let s ← addC oc b.offset b.width
  subC oc s 1

/-- svd-rs/src/bitrange.rs:43-45. -/
def bitRange (oc : Bool) (b : BitRange) : M Str := do
  let m ← b.msb oc
  .ok ("[".toList ++ decString m ++ ":".toList ++ decString b.lsb ++ "]".toList)

/-- svd-rs/src/bitrange.rs:47-53. -/
def fromOffsetWidth (offset width : U32) : BitRange :=
  { offset := offset, width := width, rangeType := .offsetWidth }

/-- svd-rs/src/bitrange.rs:56-62: width `msb - lsb + 1`. -/
def fromMsbLsb (oc : Bool) (msb lsb : U32) : M BitRange := do
  let d ← subC oc msb lsb
  let w ← addC oc d 1
  .ok { offset := lsb, width := w, rangeType := .msbLsb }

/-- svd-rs/src/bitrange.rs:64-76.  `parse::<u32>().ok()?` drops the error. -/
def fromBitRange (oc : Bool) (text : Str) : M (Option BitRange) :=
  if !("[".toList.isPrefixOf text) || !("]".toList.isSuffixOf text) then .ok none
  else
    match splitOn ':' ((text.drop 1).dropLast) with
    | p :: q :: _ =>
      match fromStrRadix 32 10 p with
      | .error _ => .ok none
      | .ok msb =>
        match fromStrRadix 32 10 q with
        | .error _ => .ok none
        | .ok lsb => do
          let d ← subC oc msb lsb
          let w ← addC oc d 1
          .ok (some { offset := lsb, width := w, rangeType := .bitRange })
    | _ => .ok none

end BitRange
end Svd
