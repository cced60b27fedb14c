import Verif.Model.Parse
import Verif.Model.Expand

/-!
# `parse_with_config` with expansion, and the hand-written serde conversions
-/

namespace Svd

/-- svd-parser/src/lib.rs:119-180 `parse_with_config` after reading the XML text: parse, then expand
properties, then expand, as requested. -/
def parseWithConfig (oc : Bool) (fuel : Nat) (cfg : ParseConfig) (top : List Xml) : M Device := do
  let d ← parseDocument oc cfg top
  let d := if cfg.expandProperties then expandProperties d else d
  if cfg.expand then Svd.expand oc fuel d else .ok d

/-- svd-rs/src/bitrange.rs:84-100 `SerBitRange`. -/
inductive SerBitRange where
  | bitRange (text : Str)
  | offsetWidth (bitOffset bitWidth : U32)
  | msbLsb (lsb msb : U32)
  deriving DecidableEq, Repr

/-- svd-rs/src/bitrange.rs:102-118 `From<BitRange>`. -/
def BitRange.toSer (oc : Bool) (br : BitRange) : M SerBitRange :=
  match br.rangeType with
  | .bitRange => do
    let s ← br.bitRange oc
    .ok (.bitRange s)
  | .offsetWidth => .ok (.offsetWidth br.offset br.width)
  | .msbLsb => do
    let m ← br.msb oc
    .ok (.msbLsb br.lsb m)

/-- svd-rs/src/bitrange.rs:135-143 the conversion in `Deserialize for BitRange`; `none` is the custom
error. -/
def SerBitRange.toBitRange (oc : Bool) : SerBitRange → M (Option BitRange)
  | .bitRange s => BitRange.fromBitRange oc s
  | .offsetWidth o w => .ok (some (BitRange.fromOffsetWidth o w))
  | .msbLsb l m => do
    let r ← BitRange.fromMsbLsb oc m l
    .ok (some r)

/-- svd-rs/src/dimelement.rs:262-265 `DimIndex`: an index list or a text. -/
inductive SerDimIndex where
  | array (l : List Str)
  | string (s : Str)
  deriving DecidableEq, Repr

/-- svd-rs/src/dimelement.rs:267-279 `deserialize_dim_index` after serde; `none` is the error. -/
def deserializeDimIndex : Option SerDimIndex → Option (Option (List Str))
  | none => some none
  | some (.array a) => some (some a)
  | some (.string s) => (DimElement.parseIndexes s).map some

/-- svd-rs/src/dimelement.rs:281-286 `serialize_dim_index` (a missing list is skipped by serde,
svd-rs/src/dimelement.rs:27). -/
def serializeDimIndex : Option (List Str) → M SerDimIndex
  | none => panics .unwrap
  | some l => .ok (.string (joinWith ",".toList l))

end Svd
