import Verif.Model.Num
import Verif.Model.Types

/-!
# Encoder configuration (svd-encoder/src/config.rs)
-/

namespace Svd

/-- svd-encoder/src/config.rs:7-25. -/
inductive IdentifierFormat where
  | camel | pascal | snake | constant
  deriving DecidableEq, Repr

/-- svd-encoder/src/config.rs:30-38. -/
def IdentifierFormat.parse (s : Str) : Option IdentifierFormat :=
  if s = "Camel".toList then some .camel
  else if s = "Pascal".toList then some .pascal
  else if s = "Snake".toList then some .snake
  else if s = "Constant".toList then some .constant
  else none

/-- svd-encoder/src/config.rs:105-117. -/
def NumberFormat.parse (s : Str) : Option NumberFormat :=
  if s = "UpperHex".toList then some .upperHex
  else if s = "UpperHex8".toList then some .upperHex8
  else if s = "UpperHex16".toList then some .upperHex16
  else if s = "LowerHex".toList then some .lowerHex
  else if s = "LowerHex8".toList then some .lowerHex8
  else if s = "LowerHex16".toList then some .lowerHex16
  else if s = "Dec".toList then some .dec
  else if s = "Bin".toList then some .bin
  else none

/-- svd-encoder/src/config.rs:153-167 `FieldBitRangeFormat` (a wrapped `BitRangeType`) from text. -/
def BitRangeType.parse (s : Str) : Option BitRangeType :=
  if s = "BitRange".toList then some .bitRange
  else if s = "OffsetWidth".toList then some .offsetWidth
  else if s = "MsbLsb".toList then some .msbLsb
  else none

/-- svd-encoder/src/config.rs:172-179. -/
inductive Sorting where
  | offset | offsetReversed | name
  deriving DecidableEq, Repr

/-- svd-encoder/src/config.rs:182-192. -/
def Sorting.fromParts (parts : List Str) : Option Sorting :=
  if parts.contains "Offset".toList then some .offset
  else if parts.contains "OffsetReversed".toList then some .offsetReversed
  else if parts.contains "Name".toList then some .name
  else none

/-- svd-encoder/src/config.rs:196-199. -/
inductive DerivableSorting where
  | unchanged (s : Option Sorting)
  | deriveLast (s : Option Sorting)
  deriving DecidableEq, Repr

/-- svd-encoder/src/config.rs:202-209. -/
def DerivableSorting.fromParts (parts : List Str) : DerivableSorting :=
  let sorting := Sorting.fromParts parts
  if parts.contains "DerivedLast".toList then .deriveLast sorting else .unchanged sorting

/-- svd-encoder/src/config.rs:215-218: never an error. -/
def DerivableSorting.parse (s : Str) : DerivableSorting :=
  DerivableSorting.fromParts (splitOn ',' s)

/-- svd-encoder/src/config.rs:228-232. -/
inductive RcSorting where
  | unchanged (s : DerivableSorting)
  | registersFirst (s : DerivableSorting)
  | clustersFirst (s : DerivableSorting)
  deriving DecidableEq, Repr

/-- svd-encoder/src/config.rs:243-253: never an error. -/
def RcSorting.parse (s : Str) : RcSorting :=
  let parts := splitOn ',' s
  let ds := DerivableSorting.fromParts parts
  if parts.contains "RegistersFirst".toList then .registersFirst ds
  else if parts.contains "ClustersFirst".toList then .clustersFirst ds
  else .unchanged ds

/-- svd-encoder/src/config.rs:259-370 `Config`, with the defaults of 372-400. -/
structure EncConfig where
  peripheralName : Option IdentifierFormat := none
  peripheralBaseAddress : NumberFormat := .upperHex8
  peripheralSorting : DerivableSorting := .unchanged none
  addressBlockOffset : NumberFormat := .upperHex
  addressBlockSize : NumberFormat := .upperHex
  interruptName : Option IdentifierFormat := none
  clusterName : Option IdentifierFormat := none
  clusterAddressOffset : NumberFormat := .upperHex
  registerClusterSorting : RcSorting := .unchanged (.unchanged none)
  registerName : Option IdentifierFormat := none
  registerAddressOffset : NumberFormat := .upperHex
  registerSize : NumberFormat := .lowerHex
  registerResetValue : NumberFormat := .upperHex16
  registerResetMask : NumberFormat := .upperHex16
  fieldName : Option IdentifierFormat := none
  fieldBitRange : Option BitRangeType := none
  fieldSorting : DerivableSorting := .unchanged none
  enumeratedValuesName : Option IdentifierFormat := none
  enumeratedValueName : Option IdentifierFormat := none
  enumeratedValueValue : NumberFormat := .dec
  dimDim : NumberFormat := .dec
  dimIncrement : NumberFormat := .upperHex
  dimArrayIndexHeaderEnumName : Option IdentifierFormat := none
  deriving DecidableEq, Repr

/-- `value.parse().unwrap()` (svd-encoder/src/config.rs:408-432). -/
def unwrapParse {α} (o : Option α) : M α :=
  match o with
  | some a => .ok a
  | none => panics .unwrap

/-- svd-encoder/src/config.rs:406-437 `update`; the message about an unknown key is not modelled. -/
def EncConfig.update (c : EncConfig) (name value : Str) : M EncConfig :=
  if name = "peripheral_name".toList then do
    let v ← unwrapParse (IdentifierFormat.parse value); .ok { c with peripheralName := some v }
  else if name = "peripheral_base_address".toList then do
    let v ← unwrapParse (NumberFormat.parse value); .ok { c with peripheralBaseAddress := v }
  else if name = "peripheral_sorting".toList then
    .ok { c with peripheralSorting := DerivableSorting.parse value }
  else if name = "address_block_offset".toList then do
    let v ← unwrapParse (NumberFormat.parse value); .ok { c with addressBlockOffset := v }
  else if name = "address_block_size".toList then do
    let v ← unwrapParse (NumberFormat.parse value); .ok { c with addressBlockSize := v }
  else if name = "interrupt_name".toList then do
    let v ← unwrapParse (IdentifierFormat.parse value); .ok { c with interruptName := some v }
  else if name = "cluster_name".toList then do
    let v ← unwrapParse (IdentifierFormat.parse value); .ok { c with clusterName := some v }
  else if name = "cluster_address_offset".toList then do
    let v ← unwrapParse (NumberFormat.parse value); .ok { c with clusterAddressOffset := v }
  else if name = "register_cluster_sorting".toList then
    .ok { c with registerClusterSorting := RcSorting.parse value }
  else if name = "register_name".toList then do
    let v ← unwrapParse (IdentifierFormat.parse value); .ok { c with registerName := some v }
  else if name = "register_address_offset".toList then do
    let v ← unwrapParse (NumberFormat.parse value); .ok { c with registerAddressOffset := v }
  else if name = "register_size".toList then do
    let v ← unwrapParse (NumberFormat.parse value); .ok { c with registerSize := v }
  else if name = "register_reset_value".toList then do
    let v ← unwrapParse (NumberFormat.parse value); .ok { c with registerResetValue := v }
  else if name = "register_reset_mask".toList then do
    let v ← unwrapParse (NumberFormat.parse value); .ok { c with registerResetMask := v }
  else if name = "field_name".toList then do
    let v ← unwrapParse (IdentifierFormat.parse value); .ok { c with fieldName := some v }
  else if name = "field_bit_range".toList then do
    let v ← unwrapParse (BitRangeType.parse value); .ok { c with fieldBitRange := some v }
  else if name = "field_sorting".toList then
    .ok { c with fieldSorting := DerivableSorting.parse value }
  else if name = "enumerated_values_name".toList then do
    let v ← unwrapParse (IdentifierFormat.parse value); .ok { c with enumeratedValuesName := some v }
  else if name = "enumerated_value_name".toList then do
    let v ← unwrapParse (IdentifierFormat.parse value); .ok { c with enumeratedValueName := some v }
  else if name = "enumerated_value_value".toList then do
    let v ← unwrapParse (NumberFormat.parse value); .ok { c with enumeratedValueValue := v }
  else if name = "dim_dim".toList then do
    let v ← unwrapParse (NumberFormat.parse value); .ok { c with dimDim := v }
  else if name = "dim_increment".toList then do
    let v ← unwrapParse (NumberFormat.parse value); .ok { c with dimIncrement := v }
  else if name = "dim_array_index_header_enum_name".toList then do
    let v ← unwrapParse (IdentifierFormat.parse value)
    .ok { c with dimArrayIndexHeaderEnumName := some v }
  else .ok c

/-- svd-encoder/src/config.rs:41-64 `change_case`; `cc` stands for the crate convert_case
(`with_boundaries(..).to_case(..)`), an arbitrary function in the theorems. -/
def changeCase (cc : IdentifierFormat → Str → Str) (s : Str) (case : Option IdentifierFormat) : Str :=
  match case with
  | none => s
  | some f => replaceStr "%S".toList "%s".toList (cc f s)

end Svd
