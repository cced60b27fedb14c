import Verif.Model.Config

/-! # The encoder configuration as a table of options -/

namespace Svd.Spec

/-- The value of an option. -/
inductive Setting where
  | case (f : Option IdentifierFormat)
  | number (f : NumberFormat)
  | range (t : Option BitRangeType)
  | order (s : DerivableSorting)
  | rcOrder (s : RcSorting)
  deriving DecidableEq, Repr

/-- The options of a configuration under their public names. -/
def settings (c : EncConfig) : List (String × Setting) :=
  [("peripheral_name", .case c.peripheralName),
   ("peripheral_base_address", .number c.peripheralBaseAddress),
   ("peripheral_sorting", .order c.peripheralSorting),
   ("address_block_offset", .number c.addressBlockOffset),
   ("address_block_size", .number c.addressBlockSize),
   ("interrupt_name", .case c.interruptName),
   ("cluster_name", .case c.clusterName),
   ("cluster_address_offset", .number c.clusterAddressOffset),
   ("register_cluster_sorting", .rcOrder c.registerClusterSorting),
   ("register_name", .case c.registerName),
   ("register_address_offset", .number c.registerAddressOffset),
   ("register_size", .number c.registerSize),
   ("register_reset_value", .number c.registerResetValue),
   ("register_reset_mask", .number c.registerResetMask),
   ("field_name", .case c.fieldName),
   ("field_bit_range", .range c.fieldBitRange),
   ("field_sorting", .order c.fieldSorting),
   ("enumerated_values_name", .case c.enumeratedValuesName),
   ("enumerated_value_name", .case c.enumeratedValueName),
   ("enumerated_value_value", .number c.enumeratedValueValue),
   ("dim_dim", .number c.dimDim),
   ("dim_increment", .number c.dimIncrement),
   ("dim_array_index_header_enum_name", .case c.dimArrayIndexHeaderEnumName)]

def caseSpelling : List (String × IdentifierFormat) :=
  [("Camel", .camel), ("Pascal", .pascal), ("Snake", .snake), ("Constant", .constant)]

def numberSpelling : List (String × NumberFormat) :=
  [("UpperHex", .upperHex), ("UpperHex8", .upperHex8), ("UpperHex16", .upperHex16),
   ("LowerHex", .lowerHex), ("LowerHex8", .lowerHex8), ("LowerHex16", .lowerHex16),
   ("Dec", .dec), ("Bin", .bin)]

def rangeSpelling : List (String × BitRangeType) :=
  [("BitRange", .bitRange), ("OffsetWidth", .offsetWidth), ("MsbLsb", .msbLsb)]

/-- The key named in a comma separated list of words; the first of these wins. -/
def keyNamed (words : List String) : Option Sorting :=
  if "Offset" ∈ words then some .offset
  else if "OffsetReversed" ∈ words then some .offsetReversed
  else if "Name" ∈ words then some .name
  else none

/-- With the position of derived elements. -/
def orderNamed (words : List String) : DerivableSorting :=
  if "DerivedLast" ∈ words then .deriveLast (keyNamed words) else .unchanged (keyNamed words)

/-- With the position of registers and clusters. -/
def rcOrderNamed (words : List String) : RcSorting :=
  if "RegistersFirst" ∈ words then .registersFirst (orderNamed words)
  else if "ClustersFirst" ∈ words then .clustersFirst (orderNamed words)
  else .unchanged (orderNamed words)

/-- The text is the words with commas between them. -/
def Words (value : String) (words : List String) : Prop :=
  words ≠ [] ∧ value.toList = [','].intercalate (words.map String.toList) ∧
    ∀ w ∈ words, ',' ∉ w.toList

/-- The value a text denotes, for an option now having the first value. -/
inductive Denotes (value : String) : Setting → Setting → Prop where
  | case {old f} : (value, f) ∈ caseSpelling → Denotes value (.case old) (.case (some f))
  | number {old f} : (value, f) ∈ numberSpelling → Denotes value (.number old) (.number f)
  | range {old t} : (value, t) ∈ rangeSpelling → Denotes value (.range old) (.range (some t))
  | order {old words} : Words value words → Denotes value (.order old) (.order (orderNamed words))
  | rcOrder {old words} : Words value words →
      Denotes value (.rcOrder old) (.rcOrder (rcOrderNamed words))

end Svd.Spec
