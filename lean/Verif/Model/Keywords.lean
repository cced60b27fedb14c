import Verif.Model.Types

/-!
# Keyword types: `parse_str` and `as_str`
-/

namespace Svd

namespace Access

/-- svd-rs/src/access.rs:32-34. -/
def canRead : Access → Bool
  | readOnly | readWrite | readWriteOnce => true
  | _ => false

/-- svd-rs/src/access.rs:37-39. -/
def canWrite : Access → Bool
  | readOnly => false
  | _ => true

/-- svd-rs/src/access.rs:50-59. -/
def parseStr (s : Str) : Option Access :=
  if s = "read-only".toList then some readOnly
  else if s = "read-write".toList then some readWrite
  else if s = "read-writeOnce".toList then some readWriteOnce
  else if s = "write-only".toList then some writeOnly
  else if s = "writeOnce".toList then some writeOnce
  else none

/-- svd-rs/src/access.rs:62-70. -/
def asStr : Access → Str
  | readOnly => "read-only".toList
  | readWrite => "read-write".toList
  | readWriteOnce => "read-writeOnce".toList
  | writeOnly => "write-only".toList
  | writeOnce => "writeOnce".toList

end Access

namespace Usage

/-- svd-rs/src/usage.rs:26-33. -/
def parseStr (s : Str) : Option Usage :=
  if s = "read".toList then some read
  else if s = "write".toList then some write
  else if s = "read-write".toList then some readWrite
  else none

/-- svd-rs/src/usage.rs:36-42. -/
def asStr : Usage → Str
  | read => "read".toList
  | write => "write".toList
  | readWrite => "read-write".toList

end Usage

namespace Protection

/-- svd-rs/src/protection.rs:30-37. -/
def parseStr (s : Str) : Option Protection :=
  if s = "s".toList then some secure
  else if s = "n".toList then some nonSecure
  else if s = "p".toList then some privileged
  else none

/-- svd-rs/src/protection.rs:40-46. -/
def asStr : Protection → Str
  | secure => "s".toList
  | nonSecure => "n".toList
  | privileged => "p".toList

end Protection

namespace Endian

/-- svd-rs/src/endian.rs:27-35. -/
def parseStr (s : Str) : Option Endian :=
  if s = "little".toList then some little
  else if s = "big".toList then some big
  else if s = "selectable".toList then some selectable
  else if s = "other".toList then some other
  else none

/-- svd-rs/src/endian.rs:38-45. -/
def asStr : Endian → Str
  | little => "little".toList
  | big => "big".toList
  | selectable => "selectable".toList
  | other => "other".toList

end Endian

namespace ReadAction

/-- svd-rs/src/readaction.rs:30-39. -/
def parseStr (s : Str) : Option ReadAction :=
  if s = "clear".toList then some clear
  else if s = "set".toList then some set
  else if s = "modify".toList then some modify
  else if s = "modifyExternal".toList then some modifyExternal
  else none

/-- svd-rs/src/readaction.rs:42-49. -/
def asStr : ReadAction → Str
  | clear => "clear".toList
  | set => "set".toList
  | modify => "modify".toList
  | modifyExternal => "modifyExternal".toList

end ReadAction

namespace ModifiedWriteValues

/-- svd-rs/src/modifiedwritevalues.rs:46-60. -/
def parseStr (s : Str) : Option ModifiedWriteValues :=
  if s = "oneToClear".toList then some oneToClear
  else if s = "oneToSet".toList then some oneToSet
  else if s = "oneToToggle".toList then some oneToToggle
  else if s = "zeroToClear".toList then some zeroToClear
  else if s = "zeroToSet".toList then some zeroToSet
  else if s = "zeroToToggle".toList then some zeroToToggle
  else if s = "clear".toList then some clear
  else if s = "set".toList then some set
  else if s = "modify".toList then some modify
  else none

/-- svd-rs/src/modifiedwritevalues.rs:63-75. -/
def asStr : ModifiedWriteValues → Str
  | oneToClear => "oneToClear".toList
  | oneToSet => "oneToSet".toList
  | oneToToggle => "oneToToggle".toList
  | zeroToClear => "zeroToClear".toList
  | zeroToSet => "zeroToSet".toList
  | zeroToToggle => "zeroToToggle".toList
  | clear => "clear".toList
  | set => "set".toList
  | modify => "modify".toList

end ModifiedWriteValues

namespace DataType

/-- svd-rs/src/datatype.rs:45-65. -/
def parseStr (s : Str) : Option DataType :=
  if s = "uint8_t".toList then some u8
  else if s = "uint16_t".toList then some u16
  else if s = "uint32_t".toList then some u32
  else if s = "uint64_t".toList then some u64
  else if s = "int8_t".toList then some i8
  else if s = "int16_t".toList then some i16
  else if s = "int32_t".toList then some i32
  else if s = "int64_t".toList then some i64
  else if s = "uint8_t *".toList then some u8Ptr
  else if s = "uint16_t *".toList then some u16Ptr
  else if s = "uint32_t *".toList then some u32Ptr
  else if s = "uint64_t *".toList then some u64Ptr
  else if s = "int8_t *".toList then some i8Ptr
  else if s = "int16_t *".toList then some i16Ptr
  else if s = "int32_t *".toList then some i32Ptr
  else if s = "int64_t *".toList then some i64Ptr
  else none

/-- svd-rs/src/datatype.rs:68-87. -/
def asStr : DataType → Str
  | u8 => "uint8_t".toList
  | u16 => "uint16_t".toList
  | u32 => "uint32_t".toList
  | u64 => "uint64_t".toList
  | i8 => "int8_t".toList
  | i16 => "int16_t".toList
  | i32 => "int32_t".toList
  | i64 => "int64_t".toList
  | u8Ptr => "uint8_t *".toList
  | u16Ptr => "uint16_t *".toList
  | u32Ptr => "uint32_t *".toList
  | u64Ptr => "uint64_t *".toList
  | i8Ptr => "int8_t *".toList
  | i16Ptr => "int16_t *".toList
  | i32Ptr => "int32_t *".toList
  | i64Ptr => "int64_t *".toList

end DataType

namespace AddressBlockUsage

/-- svd-rs/src/addressblock.rs:46-53. -/
def parseStr (s : Str) : Option AddressBlockUsage :=
  if s = "registers".toList then some registers
  else if s = "buffer".toList then some buffer
  else if s = "reserved".toList then some reserved
  else none

/-- svd-rs/src/addressblock.rs:56-62. -/
def asStr : AddressBlockUsage → Str
  | registers => "registers".toList
  | buffer => "buffer".toList
  | reserved => "reserved".toList

end AddressBlockUsage

end Svd
