import Verif.Model.Path
import Verif.Model.Num

/-! # The texts of errors

`Display` of the error types of svd-rs and svd-parser, and the texts given to `anyhow!` in
svd-parser/src/expand.rs. -/

namespace Svd

/-- `{}` of a number. -/
def decText (n : Nat) : Str := Nat.toDigits 10 n

/-- `Display` of `std::num::ParseIntError`. -/
def IntErrorKind.text : IntErrorKind → Str
  | .empty => "cannot parse integer from empty string".toList
  | .invalidDigit => "invalid digit found in string".toList
  | .posOverflow => "number too large to fit in target type".toList

/-- `Debug` derived for svd-parser/src/bitrange.rs:4-11 `InvalidBitRange`. -/
def InvalidBitRange.debug : InvalidBitRange → Str
  | .syntax => "Syntax".toList
  | .parseError => "ParseError".toList
  | .msbLsb => "MsbLsb".toList
  | .empty => "Empty".toList
  | .size => "Size".toList

/-- `{:?}` of an `Option<u64>`. -/
def debugOption : Option U64 → Str
  | none => "None".toList
  | some v => "Some(".toList ++ decText v.toNat ++ ")".toList

/-- `{:?}` of a `Vec<String>`, with `{:?}` of strings given. -/
def debugList (dbg : Str → Str) (l : List Str) : Str :=
  "[".toList ++ (", ".toList).intercalate (l.map dbg) ++ "]".toList

/-- `Debug` derived for svd-parser/src/expand.rs:13-17 `BlockPath`, 93-97 `RegisterPath` and 140-144
`FieldPath`; `{:?}` of strings is given. -/
def debugFieldPath (dbg : Str → Str) (peripheral : Str) (clusters : List Str) (register field : Str) : Str :=
  "FieldPath { register: RegisterPath { block: BlockPath { peripheral: ".toList ++ dbg peripheral ++
  ", path: ".toList ++ debugList dbg clusters ++ " }, name: ".toList ++ dbg register ++ " }, name: ".toList ++
  dbg field ++ " }".toList

/-- The word for an element that refers to itself (svd-parser/src/expand.rs:402, 437, 472, 572, 609, 637). -/
def selfDerivedWord (what : String) : Str :=
  if what = "cluster" then "Cluster".toList
  else if what = "register" then "Register".toList
  else if what = "field" then "Field".toList
  else if what = "enumeratedValues" then "EnumeratedValues".toList
  else "Peripheral".toList

/-- svd-parser/src/lib.rs:224-267, svd-rs/src/lib.rs:134-187 and the `Error` types of the modules
(bitrange.rs:5, cluster.rs:19, device.rs:10, enumeratedvalue.rs:37-44, enumeratedvalues.rs:42,
field.rs:16, peripheral.rs:19, register.rs:16, registerproperties.rs:7-15, writeconstraint.rs:35-39),
`ParseBoolError` of std, and svd-parser/src/expand.rs:402, 407, 437, 442, 472, 477, 572, 609, 623-627,
637, 644.  `.1.end - 1` of enumeratedvalue.rs:43 can overflow.  Errors of serde have no text here. -/
def Err.message (oc : Bool) (dbg : Str → Str) : Err → M Str
  | .missingTag t => .ok ("Expected a <".toList ++ t.toList ++ "> tag, found none".toList)
  | .emptyTag t => .ok ("Expected content in <".toList ++ t.toList ++ "> tag, found none".toList)
  | .parseInt k => .ok ("Failed to parse `".toList ++ k.text ++ "`".toList)
  | .unknownEndian s => .ok ("Unknown endianness `".toList ++ s ++ "`".toList)
  | .unknownAccessType s => .ok ("unknown access variant '".toList ++ s ++ "' found".toList)
  | .invalidBitRange k => .ok ("Bit range invalid, ".toList ++ k.debug)
  | .unknownWriteConstraint => .ok "Unknown write constraint".toList
  | .moreThanOneWriteConstraint => .ok "Multiple wc found".toList
  | .unknownUsageVariant => .ok "Unknown usage variant".toList
  | .unknownAddressBlockUsageVariant => .ok "Unknown usage variant for addressBlock".toList
  | .notExpectedTag t => .ok ("Expected a <".toList ++ t.toList ++ ">, found ...".toList)
  | .invalidRegisterCluster t =>
    .ok ("Invalid RegisterCluster (expected register or cluster), found ".toList ++ t.toList)
  | .invalidDatatype s => .ok ("Invalid datatype variant, found ".toList ++ s)
  | .invalidModifiedWriteValues s => .ok ("Invalid modifiedWriteValues variant, found ".toList ++ s)
  | .invalidReadAction s => .ok ("Invalid readAction variant, found ".toList ++ s)
  | .invalidProtection s => .ok ("Invalid protection variant, found ".toList ++ s)
  | .invalidBooleanValue s =>
    .ok ("The content of the element could not be parsed to a boolean value ".toList ++ s ++
      ": provided string was not `true` or `false`".toList)
  | .incorrectDimIndexesCount n k =>
    .ok ("dimIndex tag must contain ".toList ++ decText n ++ " indexes, found ".toList ++ decText k)
  | .dimIndexParse => .ok "Failed to parse dimIndex".toList
  | .missingPlaceholder s t =>
    .ok ("Name `".toList ++ s ++ "` in tag `".toList ++ t.toList ++ "` is missing a %s placeholder".toList)
  | .uninitialized w => .ok ("`Build error: `".toList ++ w.toList ++ "` must be initialized".toList)
  | .invalidName s _ => .ok ("`Name check error: Name `".toList ++ s ++ "` contains unexpected symbol".toList)
  | .emptyDevice => .ok "`Device error: Device must contain at least one peripheral".toList
  | .emptyRegisters => .ok "`Peripheral error: Peripheral have `registers` tag, but it is empty".toList
  | .emptyCluster => .ok "`Cluster error: Cluster must contain at least one Register or Cluster".toList
  | .emptyFields => .ok "`Register error: Register have `fields` tag, but it is empty".toList
  | .zeroWidth => .ok "`BitRange error: bitRange width of 0 does not make sense".toList
  | .incompatibleEnumeratedValues =>
    .ok "`Field error: You can have 0, 1 or 2 enumeratedValues with different usage".toList
  | .enumAbsentValue => .ok "`EnumeratedValue error: EnumeratedValue has no `value` or `is_default`".toList
  | .enumValueAndDefault v =>
    .ok ("`EnumeratedValue error: EnumeratedValue with `value` (passed ".toList ++ debugOption v ++
      ") should not have `is_default(True)`".toList)
  | .enumOutOfRange v lo hi =>
    if hi = 0 ∧ oc = true then panics .overflow
    else .ok ("`EnumeratedValue error: Value ".toList ++ decText v.toNat ++ " out of range [".toList ++
      decText lo.toNat ++ " - ".toList ++ decText (hi - 1).toNat ++ "]".toList)
  | .enumEmpty => .ok "`EnumeratedValues error: EnumeratedValues is empty".toList
  | .resetValueTooLarge v s =>
    .ok ("`RegisterProperties error: Reset value 0x".toList ++ lowerHexDigits v.toNat ++
      " doesn't fit in ".toList ++ decText s.toNat ++ " bits".toList)
  | .resetMaskTooLarge v s =>
    .ok ("`RegisterProperties error: Mask value 0x".toList ++ lowerHexDigits v.toNat ++
      " doesn't fit in ".toList ++ decText s.toNat ++ " bits".toList)
  | .resetMaskConflict v m =>
    .ok ("`RegisterProperties error: Reset value 0x".toList ++ lowerHexDigits v.toNat ++
      " conflicts with mask '0x".toList ++ lowerHexDigits m.toNat ++ "'".toList)
  | .wcReversedRange lo hi =>
    .ok ("`WriteConstraint error: Range minimum ".toList ++ decText lo.toNat ++
      " is greater than maximum ".toList ++ decText hi.toNat)
  | .wcOutOfRange v lo hi =>
    .ok ("`WriteConstraint error: Value ".toList ++ decText v.toNat ++ " out of range ".toList ++
      decText lo.toNat ++ "..".toList ++ decText hi.toNat)
  | .selfDerived what path => .ok (selfDerivedWord what ++ " ".toList ++ path ++ " is self-derived".toList)
  | .notFound what path => .ok (what.toList ++ " ".toList ++ path ++ " not found".toList)
  | .enumsNotFound path p cs r f =>
    .ok ("enumeratedValues ".toList ++ path ++ " not found, parent field: ".toList ++ debugFieldPath dbg p cs r f)
  | .deserialize => .ok []

end Svd
