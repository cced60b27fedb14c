import Verif.Model.Encode
import Verif.Model.Setters
import Verif.Model.Validate

/-!
# The tests of the repository, repeated on the model

The entries of tests/src/*.rs (the objects, the documents read and the documents written), of
svd-rs/src/registerproperties.rs:159-185 and of svd-parser/src/lib.rs:300-306.  The entries of
bitrange.rs, enumeratedvalues.rs and registerproperties.rs, which tests/src/lib.rs has commented
out, are here as well.  These are tests of the model, not proofs of a property.

The trees of the documents read contain the white space between the tags; those of the documents
written do not (tests/src/lib.rs:38 reads them with xmltree, which drops it).
-/

namespace Svd.Tests

/-- An element that has only text. -/
def leaf (tag : String) (s : String) : Xml := .elem tag [] [.text s.toList]

/-- White space between tags. -/
def sp : Xml := .text "\n  ".toList

/-- tests/src/lib.rs:14-47 `run_test` for one entry: the object is built, reading the first
document gives the object, and writing the object gives the second document. -/
def runTest {α} [DecidableEq α] (obj : M α) (parse : Xml → M α) (encode : α → M Xml)
    (input output : Xml) : Bool :=
  match obj, parse input with
  | .ok o, .ok e =>
    decide (e = o) &&
      match encode e with
      | .ok t => decide (t = output)
      | .error _ => false
  | _, _ => false

/-- The cases used by the tests, on words without separators: what convert_case gives for
`WS0`, `test`, `MODE` and `WRITECTRL`. -/
def cc : IdentifierFormat → Str → Str
  | .snake, s => s.map Char.toLower
  | .constant, s => s.map Char.toUpper
  | .pascal, c :: s => c.toUpper :: s.map Char.toLower
  | _, s => s

/-- `encode_config.update(..)` some times, from the default configuration. -/
def updated (l : List (String × String)) : M EncConfig :=
  l.foldlM (fun c p => c.update p.1.toList p.2.toList) {}

/-- An encoder with an updated configuration. -/
def withConfig {α} (l : List (String × String)) (enc : EncConfig → α → M Xml) (x : α) : M Xml := do
  let c ← updated l
  enc c x

/-- tests/src/addressblock.rs: input 1. -/
def addressBlockIn : Xml :=
  .elem "addressBlock" [] [
    sp, leaf "offset" "0x0", sp, leaf "size" "0xF00", sp, leaf "usage" "registers", sp]

/-- tests/src/addressblock.rs: output 1. -/
def addressBlockOut : Xml :=
  .elem "addressBlock" [] [
    leaf "offset" "0", leaf "size" "0x00000F00", leaf "usage" "registers"]

/-- tests/src/cpu.rs: input 1. -/
def cpuIn : Xml :=
  .elem "cpu" [] [
    sp, leaf "name" "EFM32JG12B500F512GM48", sp, leaf "revision" "5.1.1", sp,
    leaf "endian" "little", sp, leaf "mpuPresent" "true", sp, leaf "fpuPresent" "true", sp,
    leaf "nvicPrioBits" "8", sp, leaf "vendorSystickConfig" "false", sp]

/-- tests/src/cpu.rs: output 1. -/
def cpuOut : Xml :=
  .elem "cpu" [] [
    leaf "name" "EFM32JG12B500F512GM48", leaf "revision" "5.1.1", leaf "endian" "little",
    leaf "mpuPresent" "true", leaf "fpuPresent" "true", leaf "nvicPrioBits" "8",
    leaf "vendorSystickConfig" "false"]

/-- tests/src/dimelement.rs: input 1. -/
def dimAIn : Xml :=
  .elem "dimElement" [] [
    sp, leaf "dim" "2", sp, leaf "dimIncrement" "0x4", sp, leaf "dimIndex" "10,20", sp]

/-- tests/src/dimelement.rs: output 1. -/
def dimAOut : Xml :=
  .elem "dimElement" [] [
    leaf "dim" "2", leaf "dimIncrement" "0x4", leaf "dimIndex" "10,20"]

/-- tests/src/dimelement.rs: input 2. -/
def dimBIn : Xml :=
  .elem "dimElement" [] [
    sp, leaf "dim" "3", sp, leaf "dimIncrement" "0x4", sp, leaf "dimIndex" "3-5", sp]

/-- tests/src/dimelement.rs: output 2. -/
def dimBOut : Xml :=
  .elem "dimElement" [] [
    leaf "dim" "3", leaf "dimIncrement" "0x4", leaf "dimIndex" "3-5"]

/-- tests/src/dimelement.rs: input 3. -/
def dimCIn : Xml :=
  .elem "dimElement" [] [
    sp, leaf "dim" "3", sp, leaf "dimIncrement" "0x4", sp, leaf "dimIndex" "3,5,4", sp]

/-- tests/src/dimelement.rs: output 3. -/
def dimCOut : Xml :=
  .elem "dimElement" [] [
    leaf "dim" "3", leaf "dimIncrement" "0x4", leaf "dimIndex" "3,5,4"]

/-- tests/src/dimelement.rs: input 4. -/
def dimDIn : Xml :=
  .elem "dimElement" [] [
    sp, leaf "dim" "1", sp, leaf "dimIncrement" "0x0", sp, leaf "dimIndex" "3-3", sp]

/-- tests/src/dimelement.rs: output 4. -/
def dimDOut : Xml :=
  .elem "dimElement" [] [
    leaf "dim" "1", leaf "dimIncrement" "0x0", leaf "dimIndex" "3-3"]

/-- tests/src/dimelement.rs: input 5. -/
def dimEIn : Xml :=
  .elem "dimElement" [] [
    sp, leaf "dim" "14", sp, leaf "dimIncrement" "0xF", sp]

/-- tests/src/dimelement.rs: output 5. -/
def dimEOut : Xml :=
  .elem "dimElement" [] [
    leaf "dim" "0xE", leaf "dimIncrement" "0xf"]

/-- tests/src/enumeratedvalue.rs: input 1. -/
def valueAIn : Xml :=
  .elem "enumeratedValue" [] [
    sp, leaf "name" "WS0", sp,
    leaf "description" "Zero wait-states inserted in fetch or read transfers", sp, leaf "value" "0",
    sp]

/-- tests/src/enumeratedvalue.rs: output 1. -/
def valueAOut : Xml :=
  .elem "enumeratedValue" [] [
    leaf "name" "WS0", leaf "description" "Zero wait-states inserted in fetch or read transfers",
    leaf "value" "0"]

/-- tests/src/enumeratedvalue.rs: input 2. -/
def valueBIn : Xml :=
  .elem "enumeratedValue" [] [
    sp, leaf "name" "WS0", sp,
    leaf "description" "Zero wait-states inserted in fetch or read transfers", sp, leaf "value" "0",
    sp]

/-- tests/src/enumeratedvalue.rs: output 2. -/
def valueBOut : Xml :=
  .elem "enumeratedValue" [] [
    leaf "name" "Ws0", leaf "description" "Zero wait-states inserted in fetch or read transfers",
    leaf "value" "0b0"]

/-- tests/src/field.rs: input 1. -/
def fieldAIn : Xml :=
  .elem "field" [("derivedFrom", "other_field".toList)] [
    sp, leaf "dim" "2", sp, leaf "dimIncrement" "0x4", sp, leaf "dimIndex" "10,20", sp,
    leaf "name" "MODE%s", sp, leaf "bitOffset" "24", sp, leaf "bitWidth" "2", sp]

/-- tests/src/field.rs: output 1. -/
def fieldAOut : Xml :=
  .elem "field" [("derivedFrom", "other_field".toList)] [
    leaf "dim" "2", leaf "dimIncrement" "0x4", leaf "dimIndex" "10,20", leaf "name" "MODE%s",
    leaf "bitOffset" "24", leaf "bitWidth" "2"]

/-- tests/src/field.rs: input 2. -/
def fieldBIn : Xml :=
  .elem "field" [("derivedFrom", "other_field".toList)] [
    sp, leaf "name" "MODE", sp, leaf "bitOffset" "24", sp, leaf "bitWidth" "2", sp]

/-- tests/src/field.rs: output 2. -/
def fieldBOut : Xml :=
  .elem "field" [("derivedFrom", "other_field".toList)] [
    leaf "name" "mode", leaf "lsb" "24", leaf "msb" "25"]

/-- tests/src/field.rs: input 3. -/
def fieldCIn : Xml :=
  .elem "field" [] [
    sp, leaf "name" "MODE", sp, leaf "description" "Read Mode", sp, leaf "bitOffset" "24", sp,
    leaf "bitWidth" "2", sp, leaf "access" "read-write", sp,
    .elem "enumeratedValues" [] [
      sp,
      .elem "enumeratedValue" [] [
        sp, leaf "name" "WS0", sp,
        leaf "description" "Zero wait-states inserted in fetch or read transfers", sp,
        leaf "value" "0", sp],
      sp],
    sp]

/-- tests/src/field.rs: output 3. -/
def fieldCOut : Xml :=
  .elem "field" [] [
    leaf "name" "MODE", leaf "description" "Read Mode", leaf "bitOffset" "24", leaf "bitWidth" "2",
    leaf "access" "read-write",
    .elem "enumeratedValues" [] [
      .elem "enumeratedValue" [] [
        leaf "name" "WS0",
        leaf "description" "Zero wait-states inserted in fetch or read transfers", leaf "value" "0"]]]

/-- tests/src/field.rs: input 4. -/
def fieldDIn : Xml :=
  .elem "field" [("derivedFrom", "other_field".toList)] [
    sp, leaf "name" "MODE", sp, leaf "bitOffset" "24", sp, leaf "bitWidth" "2", sp]

/-- tests/src/field.rs: output 4. -/
def fieldDOut : Xml :=
  .elem "field" [("derivedFrom", "other_field".toList)] [
    leaf "name" "MODE", leaf "bitOffset" "24", leaf "bitWidth" "2"]

/-- tests/src/interrupt.rs: input 1. -/
def interruptAIn : Xml :=
  .elem "interrupt" [] [
    sp, leaf "name" "test", sp, leaf "description" "description", sp, leaf "value" "14", sp]

/-- tests/src/interrupt.rs: output 1. -/
def interruptAOut : Xml :=
  .elem "interrupt" [] [
    leaf "name" "test", leaf "description" "description", leaf "value" "14"]

/-- tests/src/interrupt.rs: input 2. -/
def interruptBIn : Xml :=
  .elem "interrupt" [] [
    sp, leaf "name" "test", sp, leaf "description" "description", sp, leaf "value" "14", sp]

/-- tests/src/interrupt.rs: output 2. -/
def interruptBOut : Xml :=
  .elem "interrupt" [] [
    leaf "name" "TEST", leaf "description" "description", leaf "value" "14"]

/-- tests/src/register.rs: input 1. -/
def registerAIn : Xml :=
  .elem "register" [] [
    sp, leaf "dim" "2", sp, leaf "dimIncrement" "0x4", sp, leaf "dimIndex" "10,20", sp,
    leaf "name" "MODE%s", sp, leaf "addressOffset" "0x8", sp]

/-- tests/src/register.rs: output 1. -/
def registerAOut : Xml :=
  .elem "register" [] [
    leaf "dim" "2", leaf "dimIncrement" "0x4", leaf "dimIndex" "10,20", leaf "name" "MODE%s",
    leaf "addressOffset" "0x8"]

/-- tests/src/register.rs: input 2. -/
def registerBIn : Xml :=
  .elem "register" [("derivedFrom", "derived_from".toList)] [
    sp, leaf "name" "WRITECTRL", sp, leaf "description" "Write Control Register", sp,
    leaf "alternateGroup" "alternate_group", sp, leaf "alternateRegister" "alternate_register", sp,
    leaf "addressOffset" "0x8", sp, leaf "size" "0x20", sp, leaf "access" "read-write", sp,
    leaf "resetValue" "0x00000000", sp, leaf "resetMask" "0x00000023", sp,
    leaf "modifiedWriteValues" "oneToToggle", sp,
    .elem "fields" [] [
      sp,
      .elem "field" [] [
        sp, leaf "name" "WREN", sp, leaf "description" "Enable Write/Erase Controller", sp,
        leaf "bitOffset" "0", sp, leaf "bitWidth" "1", sp, leaf "access" "read-write", sp],
      sp],
    sp]

/-- tests/src/register.rs: output 2. -/
def registerBOut : Xml :=
  .elem "register" [("derivedFrom", "derived_from".toList)] [
    leaf "name" "WRITECTRL", leaf "description" "Write Control Register",
    leaf "alternateGroup" "alternate_group", leaf "alternateRegister" "alternate_register",
    leaf "addressOffset" "0x8", leaf "size" "0x20", leaf "access" "read-write",
    leaf "resetValue" "0x00000000", leaf "resetMask" "0x00000023",
    leaf "modifiedWriteValues" "oneToToggle",
    .elem "fields" [] [
      .elem "field" [] [
        leaf "name" "WREN", leaf "description" "Enable Write/Erase Controller",
        leaf "bitOffset" "0", leaf "bitWidth" "1", leaf "access" "read-write"]]]

/-- tests/src/register.rs: input 3. -/
def registerCIn : Xml :=
  .elem "register" [("derivedFrom", "derived_from".toList)] [
    sp, leaf "name" "WRITECTRL", sp, leaf "description" "Write Control Register", sp,
    leaf "alternateGroup" "alternate_group", sp, leaf "alternateRegister" "alternate_register", sp,
    leaf "addressOffset" "0xC", sp, leaf "size" "0x20", sp, leaf "access" "read-write", sp,
    leaf "resetValue" "0xFEDCBA", sp, leaf "resetMask" "0xFFFFFFFF", sp,
    leaf "modifiedWriteValues" "oneToToggle", sp,
    .elem "fields" [] [
      sp,
      .elem "field" [] [
        sp, leaf "name" "WREN", sp, leaf "description" "Enable Write/Erase Controller", sp,
        leaf "bitOffset" "0", sp, leaf "bitWidth" "1", sp, leaf "access" "read-write", sp],
      sp],
    sp]

/-- tests/src/register.rs: output 3. -/
def registerCOut : Xml :=
  .elem "register" [("derivedFrom", "derived_from".toList)] [
    leaf "name" "writectrl", leaf "description" "Write Control Register",
    leaf "alternateGroup" "alternate_group", leaf "alternateRegister" "alternate_register",
    leaf "addressOffset" "0xC", leaf "size" "32", leaf "access" "read-write",
    leaf "resetValue" "0x00fedcba", leaf "resetMask" "0xFFFFFFFF",
    leaf "modifiedWriteValues" "oneToToggle",
    .elem "fields" [] [
      .elem "field" [] [
        leaf "name" "WREN", leaf "description" "Enable Write/Erase Controller",
        leaf "bitRange" "[0:0]", leaf "access" "read-write"]]]

/-! ## Keywords: tests/src/{access,endian,usage,modifiedwritevalues}.rs

The text written is the one the encoders put into the node. -/

example : [(Access.readOnly, "read-only"), (.readWrite, "read-write"),
    (.readWriteOnce, "read-writeOnce"), (.writeOnly, "write-only"), (.writeOnce, "writeOnce")].all
    (fun p => runTest (.ok p.1) parseAccess (fun a => .ok (newNode "access" a.asStr))
      (leaf "access" p.2) (leaf "access" p.2)) = true := by decide +kernel

example : [(Endian.little, "little"), (.big, "big"), (.selectable, "selectable"),
    (.other, "other")].all
    (fun p => runTest (.ok p.1) parseEndian (fun a => .ok (newNode "endian" a.asStr))
      (leaf "endian" p.2) (leaf "endian" p.2)) = true := by decide +kernel

example : [(Usage.read, "read"), (.write, "write"), (.readWrite, "read-write")].all
    (fun p => runTest (.ok p.1) parseUsage (fun a => .ok (newNode "usage" a.asStr))
      (leaf "usage" p.2) (leaf "usage" p.2)) = true := by decide +kernel

example : runTest (.ok ModifiedWriteValues.oneToToggle) parseModifiedWriteValues
    (fun a => .ok (newNode "modifiedWriteValues" a.asStr))
    (leaf "modifiedWriteValues" "oneToToggle") (leaf "modifiedWriteValues" "oneToToggle") = true := by
  decide +kernel

/-! ## tests/src/writeconstraint.rs -/

example : [(WriteConstraint.writeAsRead true, leaf "writeAsRead" "true"),
    (.useEnumeratedValues true, leaf "useEnumeratedValues" "true"),
    (.range ⟨1, 10⟩, .elem "range" [] [leaf "minimum" "1", leaf "maximum" "10"])].all
    (fun p => runTest (.ok p.1) parseWriteConstraint (fun w => .ok (encodeWriteConstraint w))
      (.elem "writeConstraint" [] [p.2]) (.elem "writeConstraint" [] [p.2])) = true := by
  decide +kernel

/-! ## tests/src/addressblock.rs -/

example : runTest
    ((((({} : AddressBlockBuilder).withOffset 0).withSize 0xF00).withUsage .registers).withProtection
      none |>.build .strict)
    (parseAddressBlock {})
    (withConfig [("address_block_offset", "Dec"), ("address_block_size", "UpperHex8")]
      fun c a => .ok (encodeAddressBlock c a))
    addressBlockIn addressBlockOut = true := by decide +kernel

/-! ## tests/src/cpu.rs -/

example : runTest
    (((((((({} : CpuBuilder).withName "EFM32JG12B500F512GM48".toList).withRevision
      "5.1.1".toList).withEndian .little).withMpuPresent true).withFpuPresent
      true).withNvicPriorityBits 8).withHasVendorSystick false |>.build .strict)
    (parseCpu {}) (fun c => .ok (encodeCpu c)) cpuIn cpuOut = true := by decide +kernel

/-! ## tests/src/dimelement.rs -/

/-- `DimElement::builder().dim(n).dim_increment(inc).dim_index(idx).build(Strict)`. -/
def dim (n inc : U32) (idx : Option (List String)) : M DimElement :=
  ((({} : DimElementBuilder).withDim n).withDimIncrement inc).withDimIndex
    (idx.map (·.map String.toList)) |>.build .strict

example : runTest (dim 2 4 (some ["10", "20"])) (parseDimElement {}) (encodeDimElement true cc {})
    dimAIn dimAOut = true := by decide +kernel

example : runTest (dim 3 4 (some ["3", "4", "5"])) (parseDimElement {}) (encodeDimElement true cc {})
    dimBIn dimBOut = true := by decide +kernel

example : runTest (dim 3 4 (some ["3", "5", "4"])) (parseDimElement {}) (encodeDimElement true cc {})
    dimCIn dimCOut = true := by decide +kernel

example : runTest (dim 1 0 (some ["3"])) (parseDimElement {}) (encodeDimElement true cc {})
    dimDIn dimDOut = true := by decide +kernel

example : runTest (dim 14 15 none) (parseDimElement {})
    (withConfig [("dim_dim", "UpperHex"), ("dim_increment", "LowerHex")] (encodeDimElement true cc))
    dimEIn dimEOut = true := by decide +kernel

/-! ## tests/src/enumeratedvalue.rs -/

/-- The value of both entries. -/
def ws0 : M EnumeratedValue :=
  ((({} : EnumeratedValueBuilder).withName "WS0".toList).withDescription
    (some "Zero wait-states inserted in fetch or read transfers".toList)).withValue (some 0)
    |>.build .strict

example : runTest ws0 (parseEnumeratedValue {}) (fun e => .ok (encodeEnumeratedValue cc {} e))
    valueAIn valueAOut = true := by decide +kernel

example : runTest ws0 (parseEnumeratedValue {})
    (withConfig [("enumerated_value_name", "Pascal"), ("enumerated_value_value", "Bin")]
      fun c e => .ok (encodeEnumeratedValue cc c e))
    valueBIn valueBOut = true := by decide +kernel

/-! ## tests/src/field.rs -/

/-- `Field::Array(..)`. -/
def fieldA : M Field := do
  let f ← ((({} : FieldInfoBuilder).withName "MODE%s".toList).withDerivedFrom
    (some "other_field".toList)).setBitRange (.fromOffsetWidth 24 2) |>.build .strict
  let d ← dim 2 4 (some ["10", "20"])
  .ok (.array f d)

/-- The field of the entries 2 and 4. -/
def fieldB : M FieldInfo :=
  ((({} : FieldInfoBuilder).withName "MODE".toList).withDerivedFrom
    (some "other_field".toList)).setBitRange ⟨24, 2, .offsetWidth⟩ |>.build .strict

/-- The field of the entry 3. -/
def fieldC : M FieldInfo := do
  let v ← ws0
  let vs ← ({} : EnumeratedValuesBuilder).withValues [v] |>.build .strict
  (((({} : FieldInfoBuilder).withName "MODE".toList).withDescription
    (some "Read Mode".toList)).setBitRange ⟨24, 2, .offsetWidth⟩).withAccess (some .readWrite)
    |>.withEnumeratedValues [vs] |>.build .strict

example : [true, false].all (fun oc =>
    runTest fieldA (parseField oc {}) (encodeField oc cc {}) fieldAIn fieldAOut) = true := by
  decide +kernel

example : [true, false].all (fun oc =>
    runTest fieldB (parseFieldInfo oc {})
      (withConfig [("field_name", "Snake"), ("field_bit_range", "MsbLsb")]
        (encodeFieldInfo oc cc)) fieldBIn fieldBOut) = true := by decide +kernel

example : [true, false].all (fun oc =>
    runTest fieldC (parseFieldInfo oc {}) (encodeFieldInfo oc cc {}) fieldCIn fieldCOut) = true := by
  decide +kernel

example : [true, false].all (fun oc =>
    runTest fieldB (parseFieldInfo oc {}) (encodeFieldInfo oc cc {}) fieldDIn fieldDOut) = true := by
  decide +kernel

/-! ## tests/src/interrupt.rs -/

/-- The interrupt of both entries. -/
def interrupt : M Interrupt :=
  ((({} : InterruptBuilder).withName "test".toList).withDescription
    (some "description".toList)).withValue 14 |>.build .strict

example : runTest interrupt (parseInterrupt {}) (fun i => .ok (encodeInterrupt cc {} i))
    interruptAIn interruptAOut = true := by decide +kernel

example : runTest interrupt (parseInterrupt {})
    (withConfig [("interrupt_name", "Constant")] fun c i => .ok (encodeInterrupt cc c i))
    interruptBIn interruptBOut = true := by decide +kernel

/-! ## tests/src/register.rs -/

/-- `Register::Array(..)`. -/
def registerA : M Register := do
  let r ← (({} : RegisterInfoBuilder).withName "MODE%s".toList).withAddressOffset 8
    |>.build .strict
  let d ← dim 2 4 (some ["10", "20"])
  .ok (.array r d)

/-- The register of the entries 2 and 3. -/
def registerB (offset : U32) (value mask : U64) : M RegisterInfo := do
  let f ← (((({} : FieldInfoBuilder).withName "WREN".toList).withDescription
    (some "Enable Write/Erase Controller".toList)).setBitRange ⟨0, 1, .offsetWidth⟩).withAccess
    (some .readWrite) |>.build .strict
  ((((((((((({} : RegisterInfoBuilder).withName "WRITECTRL".toList).withAlternateGroup
    (some "alternate_group".toList)).withAlternateRegister
    (some "alternate_register".toList)).withDerivedFrom (some "derived_from".toList)).withDescription
    (some "Write Control Register".toList)).withAddressOffset offset).withSize (some 32)).withAccess
    (some .readWrite)).withResetValue (some value)).withResetMask (some mask)).withFields
    (some [.single f]) |>.withModifiedWriteValues (some .oneToToggle) |>.build .strict

example : [true, false].all (fun oc =>
    runTest registerA (parseRegister oc {}) (encodeRegister oc cc {})
      registerAIn registerAOut) = true := by decide +kernel

example : [true, false].all (fun oc =>
    runTest (registerB 8 0 0x23) (parseRegisterInfo oc {}) (encodeRegisterInfo oc cc {})
      registerBIn registerBOut) = true := by decide +kernel

example : [true, false].all (fun oc =>
    runTest (registerB 12 0xFEDCBA 0xFFFFFFFF) (parseRegisterInfo oc {})
      (withConfig [("register_name", "Snake"), ("register_address_offset", "UpperHex"),
        ("register_size", "Dec"), ("register_reset_value", "LowerHex16"),
        ("register_reset_mask", "UpperHex16"), ("field_bit_range", "BitRange")]
        (encodeRegisterInfo oc cc))
      registerCIn registerCOut) = true := by decide +kernel

/-! ## tests/src/bitrange.rs -/

example : [true, false].all (fun oc =>
    [((⟨16, 4, .bitRange⟩ : BitRange), [leaf "bitRange" "[19:16]"]),
      (⟨16, 4, .offsetWidth⟩, [leaf "bitOffset" "16", leaf "bitWidth" "4"]),
      (⟨16, 4, .msbLsb⟩, [leaf "lsb" "16", leaf "msb" "19"])].all fun p =>
      runTest (.ok p.1) (parseBitRange oc)
        (fun b => (encodeBitRange oc {} b).map (.elem "fake" []))
        (.elem "fake" [] p.2) (.elem "fake" [] p.2)) = true := by decide +kernel

/-! ## tests/src/enumeratedvalues.rs -/

/-- tests/src/enumeratedvalues.rs: the document read. -/
def valuesIn : Xml :=
  .elem "enumeratedValues" [("derivedFrom", "fake_derivation".toList)] [
    sp,
    .elem "enumeratedValue" [] [
      sp, leaf "name" "WS0", sp,
      leaf "description" "Zero wait-states inserted in fetch or read transfers", sp,
      leaf "isDefault" "true", sp],
    sp,
    .elem "enumeratedValue" [] [
      sp, leaf "name" "WS1", sp,
      leaf "description" "One wait-state inserted for each fetch or read transfer. See Flash Wait-States table for details",
      sp, leaf "value" "1", sp],
    sp]

/-- tests/src/enumeratedvalues.rs: the document written. -/
def valuesOut : Xml :=
  .elem "enumeratedValues" [("derivedFrom", "fake_derivation".toList)] [
    .elem "enumeratedValue" [] [
      leaf "name" "WS0", leaf "description" "Zero wait-states inserted in fetch or read transfers",
      leaf "isDefault" "true"],
    .elem "enumeratedValue" [] [
      leaf "name" "WS1",
      leaf "description" "One wait-state inserted for each fetch or read transfer. See Flash Wait-States table for details",
      leaf "value" "1"]]

/-- tests/src/enumeratedvalues.rs: one valid child. -/
def valueChild : Xml :=
  .elem "enumeratedValue" [] [
    sp, leaf "name" "WS0", sp,
    leaf "description" "Zero wait-states inserted in fetch or read transfers", sp, leaf "value" "0",
    sp]

/-- tests/src/enumeratedvalues.rs: the object. -/
def values : M EnumeratedValues := do
  let a ← ((({} : EnumeratedValueBuilder).withName "WS0".toList).withDescription
    (some "Zero wait-states inserted in fetch or read transfers".toList)).withIsDefault (some true)
    |>.build .strict
  let b ← ((({} : EnumeratedValueBuilder).withName "WS1".toList).withDescription
    (some ("One wait-state inserted for each fetch or read transfer. ".toList ++
      "See Flash Wait-States table for details".toList))).withValue (some 1) |>.build .strict
  (({} : EnumeratedValuesBuilder).withDerivedFrom (some "fake_derivation".toList)).withValues [a, b]
    |>.build .strict

example : runTest values (parseEnumeratedValues {})
    (fun e => .ok (encodeEnumeratedValues cc {} e)) valuesIn valuesOut = true := by decide +kernel

/-- `valid_children`. -/
def parseValues (l : List Xml) : Bool :=
  (parseEnumeratedValues {} (.elem "enumeratedValues" [] l)).isOk

example : parseValues [valueChild, leaf "name" "foo"] = true ∧
    parseValues [valueChild, leaf "headerEnumName" "foo"] = true ∧
    parseValues [valueChild, leaf "usage" "read"] = true ∧
    parseValues [] = false ∧
    parseValues [valueChild, .elem "enumerateValue" [] []] = false ∧
    parseValues [valueChild, .elem "enumeratedValues" [] []] = false := by decide +kernel

/-! ## tests/src/registerproperties.rs -/

example : runTest
    (.ok ((((({} : RegisterProperties).withSize (some 64)).withResetValue
      (some 0x11223344)).withResetMask (some 0xffffffff)).withAccess (some .readOnly)))
    (parseRegisterProperties {}) (fun p => .ok (.elem "mock" [] (encodeProperties {} p)))
    (.elem "mock" [] [sp, leaf "size" "64", sp, leaf "access" "read-only", sp,
      leaf "resetValue" "0x11223344", sp, leaf "resetMask" "0xFFFFFFFF", sp])
    (.elem "mock" [] [leaf "size" "0x40", leaf "access" "read-only",
      leaf "resetValue" "0x11223344", leaf "resetMask" "0xFFFFFFFF"]) = true := by decide +kernel

/-! ## svd-rs/src/registerproperties.rs:163-184 -/

/-- `check_reset_value(..)` at the level `Strict`. -/
def resetValue (size : Option U32) (value mask : Option U64) : Bool :=
  (checkResetValue size value mask .strict).isOk

example : resetValue none none none = true ∧ resetValue (some 8) none none = true ∧
    resetValue (some 8) none (some 0xff) = true ∧
    resetValue (some 32) (some 0xfaceface) none = true ∧
    resetValue (some 32) (some 0xfaceface) (some 0xffffffff) = true ∧
    resetValue (some 8) none (some 0x100) = false ∧
    resetValue (some 1) (some 0x02) none = false ∧
    resetValue (some 8) (some 0x80) (some 0x01) = false := by decide +kernel

/-! ## svd-parser/src/lib.rs:300-306 -/

example : trimUtf8Bom [0xef, 0xbb, 0xbf, 0x78, 0x79, 0x7a] = [0x78, 0x79, 0x7a] ∧
    trimUtf8Bom [0x78, 0x79, 0x7a] = [0x78, 0x79, 0x7a] := by decide +kernel

end Svd.Tests
