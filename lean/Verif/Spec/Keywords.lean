import Verif.Model.Types

/-!
# The spellings of the SVD keywords

Transcribed from the CMSIS-SVD schema documentation (the enumerated string types `accessType`,
`usage`, `protectionStringType`, `endianType`, `readActionType`, `modifiedWriteValuesType`,
`dataTypeType` and the address block usage), not from the parser.
-/

namespace Svd.Spec

def accessSpelling : List (String × Access) :=
  [("read-only", .readOnly), ("write-only", .writeOnly), ("read-write", .readWrite),
   ("writeOnce", .writeOnce), ("read-writeOnce", .readWriteOnce)]

def usageSpelling : List (String × Usage) :=
  [("read", .read), ("write", .write), ("read-write", .readWrite)]

def protectionSpelling : List (String × Protection) :=
  [("s", .secure), ("n", .nonSecure), ("p", .privileged)]

def endianSpelling : List (String × Endian) :=
  [("little", .little), ("big", .big), ("selectable", .selectable), ("other", .other)]

def readActionSpelling : List (String × ReadAction) :=
  [("clear", .clear), ("set", .set), ("modify", .modify), ("modifyExternal", .modifyExternal)]

def modifiedWriteValuesSpelling : List (String × ModifiedWriteValues) :=
  [("oneToClear", .oneToClear), ("oneToSet", .oneToSet), ("oneToToggle", .oneToToggle),
   ("zeroToClear", .zeroToClear), ("zeroToSet", .zeroToSet), ("zeroToToggle", .zeroToToggle),
   ("clear", .clear), ("set", .set), ("modify", .modify)]

def dataTypeSpelling : List (String × DataType) :=
  [("uint8_t", .u8), ("uint16_t", .u16), ("uint32_t", .u32), ("uint64_t", .u64),
   ("int8_t", .i8), ("int16_t", .i16), ("int32_t", .i32), ("int64_t", .i64),
   ("uint8_t *", .u8Ptr), ("uint16_t *", .u16Ptr), ("uint32_t *", .u32Ptr),
   ("uint64_t *", .u64Ptr), ("int8_t *", .i8Ptr), ("int16_t *", .i16Ptr),
   ("int32_t *", .i32Ptr), ("int64_t *", .i64Ptr)]

def addressBlockUsageSpelling : List (String × AddressBlockUsage) :=
  [("registers", .registers), ("buffer", .buffer), ("reserved", .reserved)]

end Svd.Spec
