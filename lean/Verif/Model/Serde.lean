import Verif.Model.Top

/-!
# Serialisation and deserialisation with serde

The code that `derive(serde::Serialize, serde::Deserialize)` generates for the types of svd-rs, according to
the attributes in the source, and the hand-written implementations.  A value of a self-describing format
(JSON, YAML) is a tree; that the text of such a format represents the tree faithfully is trusted.

Simplifications: errors are not told apart; if there are several faults, which of them is reported is not
modelled; negative numbers and numbers with a fraction are one value `other` that no type accepts; a struct
given as a sequence of its fields, and a variant without content given as a map, are not accepted.
-/

namespace Svd

/-- A value of the format. -/
inductive Val where
  | null
  | bool (b : Bool)
  | num (n : Nat)
  | str (s : Str)
  | arr (l : List Val)
  | obj (es : List (String × Val))
  /-- any other number -/
  | other

/-- The entries of a map. -/
abbrev Entries := List (String × Val)

/-! ## Reading -/

/-- The values with a key. -/
def hits (k : String) (es : Entries) : List Val := (es.filter fun e => e.1 == k).map (·.2)

/-- The entries with other keys than those of the struct: what derived code with a `flatten` attribute leaves
to the flattened fields. -/
def rest (own : List String) (es : Entries) : Entries := es.filter fun e => !own.contains e.1

/-- A serde error. -/
def bad {α} : M α := fail .deserialize

/-- A field that has to be there.  A key that occurs twice is an error. -/
def reqField {α} (de : Val → M α) (k : String) (es : Entries) : M α :=
  match hits k es with
  | [v] => de v
  | _ => bad

/-- A field of type `Option`: it may be missing or null. -/
def optField {α} (de : Val → M α) (k : String) (es : Entries) : M (Option α) :=
  match hits k es with
  | [] => .ok none
  | [.null] => .ok none
  | [v] => do
    let a ← de v
    .ok (some a)
  | _ => bad

/-- A field of type `Vec` with the attribute `default`. -/
def listField {α} (de : Val → M (List α)) (k : String) (es : Entries) : M (List α) :=
  match hits k es with
  | [] => .ok []
  | [v] => de v
  | _ => bad

/-- Reading a `bool` (serde). -/
def deBool : Val → M Bool
  | .bool b => .ok b
  | _ => bad

/-- Reading an unsigned integer of `n` bits (serde). -/
def deInt (n : Nat) : Val → M (BitVec n)
  | .num m => if m < 2 ^ n then .ok (BitVec.ofNat n m) else bad
  | _ => bad

/-- Reading a `String` (serde). -/
def deStr : Val → M Str
  | .str s => .ok s
  | _ => bad

/-- Reading a `Vec` (serde). -/
def deList {α} (de : Val → M α) : Val → M (List α)
  | .arr l => l.mapM de
  | _ => bad

/-- A struct. -/
def deStruct {α} (de : Entries → M α) : Val → M α
  | .obj es => de es
  | _ => bad

/-- An enum without contents. -/
def deUnit {α} (all : List α) (name : α → String) : Val → M α
  | .str s =>
    match all.find? (fun a => (name a).toList == s) with
    | some a => .ok a
    | none => bad
  | _ => bad

/-! ## Writing -/

/-- A field. -/
def entry (k : String) (v : Val) : Entries := [(k, v)]

/-- A field with `skip_serializing_if = "Option::is_none"`. -/
def optEntry {α} (k : String) (ser : α → Val) (o : Option α) : Entries :=
  (o.map fun a => (k, ser a)).toList

/-- The same for a type that cannot always be written. -/
def optEntryM {α} (k : String) (ser : α → M Val) : Option α → M Entries
  | none => .ok []
  | some a => do
    let v ← ser a
    .ok (entry k v)

/-- A field with `skip_serializing_if = "Vec::is_empty"`. -/
def listEntry (k : String) (l : List Val) : Entries :=
  if l.isEmpty then [] else [(k, .arr l)]

/-- A list of elements that cannot always be written. -/
def serListM {α} (ser : α → M Val) (l : List α) : M Val := do
  let vs ← l.mapM ser
  .ok (.arr vs)

/-- Writing an unsigned integer (serde). -/
def serInt {n : Nat} (x : BitVec n) : Val := .num x.toNat

/-- Writing an enum without contents (serde): the name of the variant. -/
def serUnit {α} (name : α → String) (a : α) : Val := .str (name a).toList

/-! ## Enumerations -/

/-- svd-rs/src/access.rs:3-28 (names from the attributes). -/
def Access.serdeName : Access → String
  | .readOnly => "read-only"
  | .readWrite => "read-write"
  | .readWriteOnce => "read-writeOnce"
  | .writeOnce => "writeOnce"
  | .writeOnly => "write-only"

/-- The variants (svd-rs/src/access.rs:3-28). -/
def Access.all : List Access := [.readOnly, .readWrite, .readWriteOnce, .writeOnce, .writeOnly]

/-- svd-rs/src/usage.rs:3-16 (kebab-case). -/
def Usage.serdeName : Usage → String
  | .read => "read"
  | .write => "write"
  | .readWrite => "read-write"

/-- The variants (svd-rs/src/usage.rs:3-16). -/
def Usage.all : List Usage := [.read, .write, .readWrite]

/-- svd-rs/src/protection.rs:6-20. -/
def Protection.serdeName : Protection → String
  | .secure => "s"
  | .nonSecure => "n"
  | .privileged => "p"

/-- The variants (svd-rs/src/protection.rs:6-20). -/
def Protection.all : List Protection := [.secure, .nonSecure, .privileged]

/-- svd-rs/src/endian.rs:2-17 (kebab-case). -/
def Endian.serdeName : Endian → String
  | .little => "little"
  | .big => "big"
  | .selectable => "selectable"
  | .other => "other"

/-- The variants (svd-rs/src/endian.rs:2-17). -/
def Endian.all : List Endian := [.little, .big, .selectable, .other]

/-- svd-rs/src/readaction.rs:2-20 (camelCase). -/
def ReadAction.serdeName : ReadAction → String
  | .clear => "clear"
  | .set => "set"
  | .modify => "modify"
  | .modifyExternal => "modifyExternal"

/-- The variants (svd-rs/src/readaction.rs:2-20). -/
def ReadAction.all : List ReadAction := [.clear, .set, .modify, .modifyExternal]

/-- svd-rs/src/modifiedwritevalues.rs:3-36 (camelCase). -/
def ModifiedWriteValues.serdeName : ModifiedWriteValues → String
  | .oneToClear => "oneToClear"
  | .oneToSet => "oneToSet"
  | .oneToToggle => "oneToToggle"
  | .zeroToClear => "zeroToClear"
  | .zeroToSet => "zeroToSet"
  | .zeroToToggle => "zeroToToggle"
  | .clear => "clear"
  | .set => "set"
  | .modify => "modify"

/-- The variants (svd-rs/src/modifiedwritevalues.rs:3-36). -/
def ModifiedWriteValues.all : List ModifiedWriteValues :=
  [.oneToClear, .oneToSet, .oneToToggle, .zeroToClear, .zeroToSet, .zeroToToggle, .clear, .set, .modify]

/-- svd-rs/src/datatype.rs:2-41 (snake_case). -/
def DataType.serdeName : DataType → String
  | .u8 => "u8"
  | .u16 => "u16"
  | .u32 => "u32"
  | .u64 => "u64"
  | .i8 => "i8"
  | .i16 => "i16"
  | .i32 => "i32"
  | .i64 => "i64"
  | .u8Ptr => "u8_ptr"
  | .u16Ptr => "u16_ptr"
  | .u32Ptr => "u32_ptr"
  | .u64Ptr => "u64_ptr"
  | .i8Ptr => "i8_ptr"
  | .i16Ptr => "i16_ptr"
  | .i32Ptr => "i32_ptr"
  | .i64Ptr => "i64_ptr"

/-- The variants (svd-rs/src/datatype.rs:2-41). -/
def DataType.all : List DataType :=
  [.u8, .u16, .u32, .u64, .i8, .i16, .i32, .i64, .u8Ptr, .u16Ptr, .u32Ptr, .u64Ptr, .i8Ptr, .i16Ptr, .i32Ptr,
   .i64Ptr]

/-- svd-rs/src/addressblock.rs:23-36 (kebab-case). -/
def AddressBlockUsage.serdeName : AddressBlockUsage → String
  | .registers => "registers"
  | .buffer => "buffer"
  | .reserved => "reserved"

/-- The variants (svd-rs/src/addressblock.rs:23-36). -/
def AddressBlockUsage.all : List AddressBlockUsage := [.registers, .buffer, .reserved]

/-- See the names above. -/
def serAccess := serUnit Access.serdeName
/-- See the names above. -/
def deAccess := deUnit Access.all Access.serdeName
/-- See the names above. -/
def serUsage := serUnit Usage.serdeName
/-- See the names above. -/
def deUsage := deUnit Usage.all Usage.serdeName
/-- See the names above. -/
def serProtection := serUnit Protection.serdeName
/-- See the names above. -/
def deProtection := deUnit Protection.all Protection.serdeName
/-- See the names above. -/
def serEndian := serUnit Endian.serdeName
/-- See the names above. -/
def deEndian := deUnit Endian.all Endian.serdeName
/-- See the names above. -/
def serReadAction := serUnit ReadAction.serdeName
/-- See the names above. -/
def deReadAction := deUnit ReadAction.all ReadAction.serdeName
/-- See the names above. -/
def serModified := serUnit ModifiedWriteValues.serdeName
/-- See the names above. -/
def deModified := deUnit ModifiedWriteValues.all ModifiedWriteValues.serdeName
/-- See the names above. -/
def serDataType := serUnit DataType.serdeName
/-- See the names above. -/
def deDataType := deUnit DataType.all DataType.serdeName
/-- See the names above. -/
def serBlockUsage := serUnit AddressBlockUsage.serdeName
/-- See the names above. -/
def deBlockUsage := deUnit AddressBlockUsage.all AddressBlockUsage.serdeName

/-! ## Small structs -/

/-- svd-rs/src/writeconstraint.rs:20-29. -/
def serRange (r : WriteConstraintRange) : Val :=
  .obj (entry "minimum" (serInt r.min) ++ entry "maximum" (serInt r.max))

/-- svd-rs/src/writeconstraint.rs:20-29. -/
def deRange : Val → M WriteConstraintRange := deStruct fun es => do
  let min ← reqField (deInt 64) "minimum" es
  let max ← reqField (deInt 64) "maximum" es
  .ok { min := min, max := max }

/-- svd-rs/src/writeconstraint.rs:4-17: an enum with contents is a map with one entry. -/
def serWriteConstraint : WriteConstraint → Val
  | .writeAsRead b => .obj (entry "writeAsRead" (.bool b))
  | .useEnumeratedValues b => .obj (entry "useEnumeratedValues" (.bool b))
  | .range r => .obj (entry "range" (serRange r))

/-- svd-rs/src/writeconstraint.rs:4-17. -/
def deWriteConstraint : Val → M WriteConstraint
  | .obj [(k, v)] =>
    if k = "writeAsRead" then do
      let b ← deBool v
      .ok (.writeAsRead b)
    else if k = "useEnumeratedValues" then do
      let b ← deBool v
      .ok (.useEnumeratedValues b)
    else if k = "range" then do
      let r ← deRange v
      .ok (.range r)
    else bad
  | _ => bad

/-- svd-rs/src/enumeratedvalue.rs:4-31 (no renaming). -/
def serEnumValue (v : EnumeratedValue) : Val :=
  .obj (entry "name" (.str v.name) ++ optEntry "description" .str v.description ++
    optEntry "value" serInt v.value ++ optEntry "is_default" .bool v.isDefault)

/-- svd-rs/src/enumeratedvalue.rs:4-31. -/
def deEnumValue : Val → M EnumeratedValue := deStruct fun es => do
  let name ← reqField deStr "name" es
  let description ← optField deStr "description" es
  let value ← optField (deInt 64) "value" es
  let isDefault ← optField deBool "is_default" es
  .ok { name := name, description := description, value := value, isDefault := isDefault }

/-- svd-rs/src/enumeratedvalues.rs:4-36 (no renaming). -/
def serEnums (e : EnumeratedValues) : Val :=
  .obj (optEntry "name" .str e.name ++ optEntry "usage" serUsage e.usage ++
    optEntry "derived_from" .str e.derivedFrom ++ listEntry "values" (e.values.map serEnumValue))

/-- svd-rs/src/enumeratedvalues.rs:4-36. -/
def deEnums : Val → M EnumeratedValues := deStruct fun es => do
  let name ← optField deStr "name" es
  let usage ← optField deUsage "usage" es
  let derivedFrom ← optField deStr "derived_from" es
  let values ← listField (deList deEnumValue) "values" es
  .ok { name := name, usage := usage, derivedFrom := derivedFrom, values := values }

/-- svd-rs/src/dimelement.rs:53-69. -/
def serDimArrayIndex (d : DimArrayIndex) : Val :=
  .obj (optEntry "headerEnumName" .str d.headerEnumName ++ entry "values" (.arr (d.values.map serEnumValue)))

/-- svd-rs/src/dimelement.rs:53-69. -/
def deDimArrayIndex : Val → M DimArrayIndex := deStruct fun es => do
  let headerEnumName ← optField deStr "headerEnumName" es
  let values ← reqField (deList deEnumValue) "values" es
  .ok { headerEnumName := headerEnumName, values := values }

/-- svd-rs/src/interrupt.rs:4-20 (no renaming). -/
def serInterrupt (i : Interrupt) : Val :=
  .obj (entry "name" (.str i.name) ++ optEntry "description" .str i.description ++
    entry "value" (serInt i.value))

/-- svd-rs/src/interrupt.rs:4-20. -/
def deInterrupt : Val → M Interrupt := deStruct fun es => do
  let name ← reqField deStr "name" es
  let description ← optField deStr "description" es
  let value ← reqField (deInt 32) "value" es
  .ok { name := name, description := description, value := value }

/-- svd-rs/src/addressblock.rs:4-20 (no renaming). -/
def serAddressBlock (b : AddressBlock) : Val :=
  .obj (entry "offset" (serInt b.offset) ++ entry "size" (serInt b.size) ++
    entry "usage" (serBlockUsage b.usage) ++ optEntry "protection" serProtection b.protection)

/-- svd-rs/src/addressblock.rs:4-20. -/
def deAddressBlock : Val → M AddressBlock := deStruct fun es => do
  let offset ← reqField (deInt 32) "offset" es
  let size ← reqField (deInt 32) "size" es
  let usage ← reqField deBlockUsage "usage" es
  let protection ← optField deProtection "protection" es
  .ok { offset := offset, size := size, usage := usage, protection := protection }

/-- svd-rs/src/cpu.rs:3-99 (camelCase, some fields renamed). -/
def serCpu (c : Cpu) : Val :=
  .obj (entry "name" (.str c.name) ++ entry "revision" (.str c.revision) ++ entry "endian" (serEndian c.endian) ++
    entry "mpuPresent" (.bool c.mpuPresent) ++ entry "fpuPresent" (.bool c.fpuPresent) ++
    optEntry "fpuDP" .bool c.fpuDoublePrecision ++ optEntry "dspPresent" .bool c.dspPresent ++
    optEntry "icachePresent" .bool c.icachePresent ++ optEntry "dcachePresent" .bool c.dcachePresent ++
    optEntry "itcmPresent" .bool c.itcmPresent ++ optEntry "dtcmPresent" .bool c.dtcmPresent ++
    optEntry "vtorPresent" .bool c.vtorPresent ++ entry "nvicPrioBits" (serInt c.nvicPriorityBits) ++
    entry "vendorSystickConfig" (.bool c.hasVendorSystick) ++
    optEntry "deviceNumInterrupts" serInt c.deviceNumInterrupts ++
    optEntry "sauNumRegions" serInt c.sauNumRegions)

/-- svd-rs/src/cpu.rs:3-99. -/
def deCpu : Val → M Cpu := deStruct fun es => do
  let name ← reqField deStr "name" es
  let revision ← reqField deStr "revision" es
  let endian ← reqField deEndian "endian" es
  let mpuPresent ← reqField deBool "mpuPresent" es
  let fpuPresent ← reqField deBool "fpuPresent" es
  let fpuDP ← optField deBool "fpuDP" es
  let dsp ← optField deBool "dspPresent" es
  let icache ← optField deBool "icachePresent" es
  let dcache ← optField deBool "dcachePresent" es
  let itcm ← optField deBool "itcmPresent" es
  let dtcm ← optField deBool "dtcmPresent" es
  let vtor ← optField deBool "vtorPresent" es
  let nvic ← reqField (deInt 32) "nvicPrioBits" es
  let systick ← reqField deBool "vendorSystickConfig" es
  let num ← optField (deInt 32) "deviceNumInterrupts" es
  let sau ← optField (deInt 32) "sauNumRegions" es
  .ok { name := name, revision := revision, endian := endian, mpuPresent := mpuPresent, fpuPresent := fpuPresent,
        fpuDoublePrecision := fpuDP, dspPresent := dsp, icachePresent := icache, dcachePresent := dcache,
        itcmPresent := itcm, dtcmPresent := dtcm, vtorPresent := vtor, nvicPriorityBits := nvic,
        hasVendorSystick := systick, deviceNumInterrupts := num, sauNumRegions := sau }

/-! ## Flattened structs -/

/-- svd-rs/src/registerproperties.rs:18-60. -/
def serProperties (p : RegisterProperties) : Entries :=
  optEntry "size" serInt p.size ++ optEntry "access" serAccess p.access ++
    optEntry "protection" serProtection p.protection ++ optEntry "resetValue" serInt p.resetValue ++
    optEntry "resetMask" serInt p.resetMask

/-- svd-rs/src/registerproperties.rs:18-60. -/
def deProperties (es : Entries) : M RegisterProperties := do
  let size ← optField (deInt 32) "size" es
  let access ← optField deAccess "access" es
  let protection ← optField deProtection "protection" es
  let resetValue ← optField (deInt 64) "resetValue" es
  let resetMask ← optField (deInt 64) "resetMask" es
  .ok { size := size, access := access, protection := protection, resetValue := resetValue,
        resetMask := resetMask }

/-- svd-rs/src/dimelement.rs:262-265 `DimIndex` as untagged enum. -/
def serDimIndexVal : SerDimIndex → Val
  | .array l => .arr (l.map .str)
  | .string s => .str s

/-- svd-rs/src/dimelement.rs:267-271: the first variant that can be read. -/
def deDimIndexVal (v : Val) : M SerDimIndex :=
  match deList deStr v with
  | .ok l => .ok (.array l)
  | .error _ =>
    match deStr v with
    | .ok s => .ok (.string s)
    | .error _ => bad

/-- svd-rs/src/dimelement.rs:267-279 `deserialize_dim_index`. -/
def deDimIndex : Val → M (Option (List Str))
  | .null => .ok none
  | v => do
    let s ← deDimIndexVal v
    match deserializeDimIndex (some s) with
    | some l => .ok l
    | none => bad

/-- svd-rs/src/dimelement.rs:6-45.  The list of indexes is only written if there is one (line 27). -/
def serDim (d : DimElement) : M Entries := do
  let idx ← (match d.dimIndex with
    | none => .ok []
    | some l => do
      let s ← serializeDimIndex (some l)
      .ok (entry "dimIndex" (serDimIndexVal s)) : M Entries)
  .ok (entry "dim" (serInt d.dim) ++ entry "dimIncrement" (serInt d.dimIncrement) ++ idx ++
    optEntry "dimName" .str d.dimName ++ optEntry "dimArrayIndex" serDimArrayIndex d.dimArrayIndex)

/-- svd-rs/src/dimelement.rs:6-45.  The field `dim_index` has no attribute `default`, so that with
`deserialize_with` (line 25) it has to be there. -/
def deDim (es : Entries) : M DimElement := do
  let dim ← reqField (deInt 32) "dim" es
  let dimIncrement ← reqField (deInt 32) "dimIncrement" es
  let dimIndex ← reqField deDimIndex "dimIndex" es
  let dimName ← optField deStr "dimName" es
  let dimArrayIndex ← optField deDimArrayIndex "dimArrayIndex" es
  .ok { dim := dim, dimIncrement := dimIncrement, dimIndex := dimIndex, dimName := dimName,
        dimArrayIndex := dimArrayIndex }

/-- The keys of `DimElement`. -/
def dimKeys : List String := ["dim", "dimIncrement", "dimIndex", "dimName", "dimArrayIndex"]

/-- svd-rs/src/array.rs:118-131. -/
def serArray {α} (ser : α → M Entries) : MaybeArray α → M Val
  | .single i => do
    let es ← ser i
    .ok (.obj es)
  | .array i d => do
    let ds ← serDim d
    let es ← ser i
    .ok (.obj (ds ++ es))

/-- svd-rs/src/array.rs:110-116: a flattened `Option` is `None` if the struct cannot be read. -/
def deDimOpt (es : Entries) : M (Option DimElement) :=
  match deDim es with
  | .ok d => .ok (some d)
  | .error (.err _) => .ok none
  | .error f => .error f

/-- svd-rs/src/array.rs:133-148. -/
def deArray {α} (de : Entries → M α) : Val → M (MaybeArray α) := deStruct fun es => do
  let dim ← deDimOpt es
  let info ← de (rest dimKeys es)
  match dim with
  | some d => .ok (.array info d)
  | none => .ok (.single info)

/-! ## Fields -/

/-- svd-rs/src/bitrange.rs:84-100 `SerBitRange` as untagged enum. -/
def serSerBitRange : SerBitRange → Entries
  | .bitRange s => entry "bitRange" (.str s)
  | .offsetWidth o w => entry "bitOffset" (serInt o) ++ entry "bitWidth" (serInt w)
  | .msbLsb l m => entry "lsb" (serInt l) ++ entry "msb" (serInt m)

/-- svd-rs/src/bitrange.rs:84-100: the first variant that can be read. -/
def deSerBitRange (es : Entries) : M SerBitRange :=
  match reqField deStr "bitRange" es with
  | .ok s => .ok (.bitRange s)
  | .error _ =>
    match (do
      let o ← reqField (deInt 32) "bitOffset" es
      let w ← reqField (deInt 32) "bitWidth" es
      .ok (SerBitRange.offsetWidth o w) : M SerBitRange) with
    | .ok r => .ok r
    | .error _ => do
      let l ← reqField (deInt 32) "lsb" es
      let m ← reqField (deInt 32) "msb" es
      .ok (.msbLsb l m)

/-- svd-rs/src/bitrange.rs:120-128 `Serialize`. -/
def serBitRange (oc : Bool) (b : BitRange) : M Entries := do
  let s ← b.toSer oc
  .ok (serSerBitRange s)

/-- svd-rs/src/bitrange.rs:130-145 `Deserialize`. -/
def deBitRange (oc : Bool) (es : Entries) : M BitRange := do
  let s ← deSerBitRange es
  let o ← s.toBitRange oc
  match o with
  | some b => .ok b
  | none => bad

/-- svd-rs/src/field.rs:21-85. -/
def serFieldInfo (oc : Bool) (f : FieldInfo) : M Entries := do
  let br ← serBitRange oc f.bitRange
  .ok (entry "name" (.str f.name) ++ optEntry "description" .str f.description ++ br ++
    optEntry "access" serAccess f.access ++ optEntry "modifiedWriteValues" serModified f.modifiedWriteValues ++
    optEntry "writeConstraint" serWriteConstraint f.writeConstraint ++
    optEntry "readAction" serReadAction f.readAction ++
    listEntry "enumeratedValues" (f.enumeratedValues.map serEnums) ++
    optEntry "derivedFrom" .str f.derivedFrom)

/-- The keys of `FieldInfo`. -/
def fieldKeys : List String :=
  ["name", "description", "access", "modifiedWriteValues", "writeConstraint", "readAction", "enumeratedValues",
   "derivedFrom"]

/-- svd-rs/src/field.rs:21-85. -/
def deFieldInfo (oc : Bool) (es : Entries) : M FieldInfo := do
  let name ← reqField deStr "name" es
  let description ← optField deStr "description" es
  let access ← optField deAccess "access" es
  let mwv ← optField deModified "modifiedWriteValues" es
  let wc ← optField deWriteConstraint "writeConstraint" es
  let ra ← optField deReadAction "readAction" es
  let evs ← listField (deList deEnums) "enumeratedValues" es
  let df ← optField deStr "derivedFrom" es
  let br ← deBitRange oc (rest fieldKeys es)
  .ok { name := name, description := description, bitRange := br, access := access, modifiedWriteValues := mwv,
        writeConstraint := wc, readAction := ra, enumeratedValues := evs, derivedFrom := df }

/-- svd-rs/src/field.rs:10 `Field` with svd-rs/src/array.rs:108-148. -/
def serField (oc : Bool) : Field → M Val := serArray (serFieldInfo oc)
/-- svd-rs/src/field.rs:10 `Field` with svd-rs/src/array.rs:108-148. -/
def deField (oc : Bool) : Val → M Field := deArray (deFieldInfo oc)

/-! ## Registers and clusters -/

/-- svd-rs/src/register.rs:21-112. -/
def serRegisterInfo (oc : Bool) (r : RegisterInfo) : M Entries := do
  let fields ← optEntryM "fields" (serListM (serField oc)) r.fields
  .ok (entry "name" (.str r.name) ++ optEntry "displayName" .str r.displayName ++
    optEntry "description" .str r.description ++ optEntry "alternateGroup" .str r.alternateGroup ++
    optEntry "alternateRegister" .str r.alternateRegister ++ entry "addressOffset" (serInt r.addressOffset) ++
    serProperties r.properties ++ optEntry "datatype" serDataType r.datatype ++
    optEntry "modifiedWriteValues" serModified r.modifiedWriteValues ++
    optEntry "writeConstraint" serWriteConstraint r.writeConstraint ++
    optEntry "readAction" serReadAction r.readAction ++ fields ++ optEntry "derivedFrom" .str r.derivedFrom)

/-- The keys of `RegisterInfo`. -/
def registerKeys : List String :=
  ["name", "displayName", "description", "alternateGroup", "alternateRegister", "addressOffset", "datatype",
   "modifiedWriteValues", "writeConstraint", "readAction", "fields", "derivedFrom"]

/-- svd-rs/src/register.rs:21-112. -/
def deRegisterInfo (oc : Bool) (es : Entries) : M RegisterInfo := do
  let name ← reqField deStr "name" es
  let displayName ← optField deStr "displayName" es
  let description ← optField deStr "description" es
  let alternateGroup ← optField deStr "alternateGroup" es
  let alternateRegister ← optField deStr "alternateRegister" es
  let addressOffset ← reqField (deInt 32) "addressOffset" es
  let datatype ← optField deDataType "datatype" es
  let mwv ← optField deModified "modifiedWriteValues" es
  let wc ← optField deWriteConstraint "writeConstraint" es
  let ra ← optField deReadAction "readAction" es
  let fields ← optField (deList (deField oc)) "fields" es
  let df ← optField deStr "derivedFrom" es
  let props ← deProperties (rest registerKeys es)
  .ok { name := name, displayName := displayName, description := description, alternateGroup := alternateGroup,
        alternateRegister := alternateRegister, addressOffset := addressOffset, properties := props,
        datatype := datatype, modifiedWriteValues := mwv, writeConstraint := wc, readAction := ra,
        fields := fields, derivedFrom := df }

/-- svd-rs/src/register.rs:10 `Register` with svd-rs/src/array.rs:108-148. -/
def serRegister (oc : Bool) : Register → M Val := serArray (serRegisterInfo oc)
/-- svd-rs/src/register.rs:10 `Register` with svd-rs/src/array.rs:108-148. -/
def deRegister (oc : Bool) : Val → M Register := deArray (deRegisterInfo oc)

/-- svd-rs/src/cluster.rs:24-74, given the children. -/
def serClusterInfo (h : ClusterHead) (children : List Val) : Entries :=
  entry "name" (.str h.name) ++ optEntry "description" .str h.description ++
    optEntry "alternateCluster" .str h.alternateCluster ++ optEntry "headerStructName" .str h.headerStructName ++
    entry "addressOffset" (serInt h.addressOffset) ++ serProperties h.defaultRegisterProperties ++
    entry "children" (.arr children) ++ optEntry "derivedFrom" .str h.derivedFrom

mutual
/-- svd-rs/src/registercluster.rs:4-16 (lowercase). -/
def serRc (oc : Bool) : RegisterCluster → M Val
  | .register r => do
    let v ← serRegister oc r
    .ok (.obj (entry "register" v))
  | .cluster h d cs => do
    let vs ← serRcs oc cs
    let v ← serArray (fun i : ClusterInfo => .ok (serClusterInfo i.toClusterHead vs))
      (MaybeArray.mk' { h with children := cs } d)
    .ok (.obj (entry "cluster" v))
/-- svd-rs/src/registercluster.rs:4-16. -/
def serRcs (oc : Bool) : List RegisterCluster → M (List Val)
  | [] => .ok []
  | c :: cs => do
    let v ← serRc oc c
    let vs ← serRcs oc cs
    .ok (v :: vs)
end

/-- svd-rs/src/registercluster.rs:4-16. -/
def serRcList (oc : Bool) (l : List RegisterCluster) : M Val := do
  let vs ← serRcs oc l
  .ok (.arr vs)

/-- The keys of `ClusterInfo`. -/
def clusterKeys : List String :=
  ["name", "description", "alternateCluster", "headerStructName", "addressOffset", "children", "derivedFrom"]

/-- svd-rs/src/cluster.rs:24-74, given the children. -/
def deClusterInfo (children : M (List RegisterCluster)) (es : Entries) : M ClusterInfo := do
  let name ← reqField deStr "name" es
  let description ← optField deStr "description" es
  let alternateCluster ← optField deStr "alternateCluster" es
  let headerStructName ← optField deStr "headerStructName" es
  let addressOffset ← reqField (deInt 32) "addressOffset" es
  let children ← children
  let df ← optField deStr "derivedFrom" es
  let props ← deProperties (rest clusterKeys es)
  .ok { name := name, description := description, alternateCluster := alternateCluster,
        headerStructName := headerStructName, addressOffset := addressOffset,
        defaultRegisterProperties := props, derivedFrom := df, children := children }

mutual
/-- svd-rs/src/registercluster.rs:4-16: a map with one entry. -/
def deRc (oc : Bool) : Val → M RegisterCluster
  | .obj [(k, v)] =>
    if k = "register" then do
      let r ← deRegister oc v
      .ok (.register r)
    else if k = "cluster" then deCluster oc v
    else bad
  | _ => bad
/-- svd-rs/src/cluster.rs:13 with svd-rs/src/array.rs:133-148. -/
def deCluster (oc : Bool) : Val → M RegisterCluster
  | .obj es => do
    let c ← deArray (deClusterInfo
      (if (hits "children" es).length = 1 then deChildren oc es else bad)) (.obj es)
    .ok (.ofCluster c)
  | _ => bad
/-- The field `children`, which is there once. -/
def deChildren (oc : Bool) : List (String × Val) → M (List RegisterCluster)
  | [] => .ok []
  | (k, v) :: es => if k = "children" then deRcList oc v else deChildren oc es
/-- svd-rs/src/cluster.rs:13. -/
def deRcList (oc : Bool) : Val → M (List RegisterCluster)
  | .arr l => deRcs oc l
  | _ => bad
/-- svd-rs/src/cluster.rs:13. -/
def deRcs (oc : Bool) : List Val → M (List RegisterCluster)
  | [] => .ok []
  | v :: vs => do
    let c ← deRc oc v
    let cs ← deRcs oc vs
    .ok (c :: cs)
end

/-! ## Peripherals and devices -/

/-- svd-rs/src/peripheral.rs:24-126. -/
def serPeripheralInfo (oc : Bool) (p : PeripheralInfo) : M Entries := do
  let registers ← optEntryM "registers" (serRcList oc) p.registers
  .ok (entry "name" (.str p.name) ++ optEntry "displayName" .str p.displayName ++
    optEntry "version" .str p.version ++ optEntry "description" .str p.description ++
    optEntry "alternatePeripheral" .str p.alternatePeripheral ++ optEntry "groupName" .str p.groupName ++
    optEntry "prependToName" .str p.prependToName ++ optEntry "appendToName" .str p.appendToName ++
    optEntry "headerStructName" .str p.headerStructName ++ entry "baseAddress" (serInt p.baseAddress) ++
    serProperties p.defaultRegisterProperties ++
    optEntry "addressBlock" (fun l => .arr (l.map serAddressBlock)) p.addressBlock ++
    listEntry "interrupt" (p.interrupt.map serInterrupt) ++ registers ++
    optEntry "derivedFrom" .str p.derivedFrom)

/-- The keys of `PeripheralInfo`. -/
def peripheralKeys : List String :=
  ["name", "displayName", "version", "description", "alternatePeripheral", "groupName", "prependToName",
   "appendToName", "headerStructName", "baseAddress", "addressBlock", "interrupt", "registers", "derivedFrom"]

/-- svd-rs/src/peripheral.rs:24-126. -/
def dePeripheralInfo (oc : Bool) (es : Entries) : M PeripheralInfo := do
  let name ← reqField deStr "name" es
  let displayName ← optField deStr "displayName" es
  let version ← optField deStr "version" es
  let description ← optField deStr "description" es
  let alternatePeripheral ← optField deStr "alternatePeripheral" es
  let groupName ← optField deStr "groupName" es
  let prependToName ← optField deStr "prependToName" es
  let appendToName ← optField deStr "appendToName" es
  let headerStructName ← optField deStr "headerStructName" es
  let baseAddress ← reqField (deInt 64) "baseAddress" es
  let addressBlock ← optField (deList deAddressBlock) "addressBlock" es
  let interrupt ← listField (deList deInterrupt) "interrupt" es
  let registers ← optField (deRcList oc) "registers" es
  let df ← optField deStr "derivedFrom" es
  let props ← deProperties (rest peripheralKeys es)
  .ok { name := name, displayName := displayName, version := version, description := description,
        alternatePeripheral := alternatePeripheral, groupName := groupName, prependToName := prependToName,
        appendToName := appendToName, headerStructName := headerStructName, baseAddress := baseAddress,
        defaultRegisterProperties := props, addressBlock := addressBlock, interrupt := interrupt,
        registers := registers, derivedFrom := df }

/-- svd-rs/src/peripheral.rs:13 `Peripheral` with svd-rs/src/array.rs:108-148. -/
def serPeripheral (oc : Bool) : Peripheral → M Val := serArray (serPeripheralInfo oc)
/-- svd-rs/src/peripheral.rs:13 `Peripheral` with svd-rs/src/array.rs:108-148. -/
def dePeripheral (oc : Bool) : Val → M Peripheral := deArray (dePeripheralInfo oc)

/-- svd-rs/src/device.rs:15-108; the last three fields are skipped. -/
def serDevice (oc : Bool) (d : Device) : M Val := do
  let ps ← serListM (serPeripheral oc) d.peripherals
  .ok (.obj (optEntry "vendor" .str d.vendor ++ optEntry "vendorID" .str d.vendorId ++
    entry "name" (.str d.name) ++ optEntry "series" .str d.series ++ entry "version" (.str d.version) ++
    entry "description" (.str d.description) ++ optEntry "licenseText" .str d.licenseText ++
    optEntry "cpu" serCpu d.cpu ++ optEntry "headerSystemFilename" .str d.headerSystemFilename ++
    optEntry "headerDefinitionsPrefix" .str d.headerDefinitionsPrefix ++
    entry "addressUnitBits" (serInt d.addressUnitBits) ++ entry "width" (serInt d.width) ++
    serProperties d.defaultRegisterProperties ++ entry "peripherals" ps))

/-- The keys of `Device`. -/
def deviceKeys : List String :=
  ["vendor", "vendorID", "name", "series", "version", "description", "licenseText", "cpu",
   "headerSystemFilename", "headerDefinitionsPrefix", "addressUnitBits", "width", "peripherals"]

/-- svd-rs/src/device.rs:15-108. -/
def deDevice (oc : Bool) : Val → M Device := deStruct fun es => do
  let vendor ← optField deStr "vendor" es
  let vendorId ← optField deStr "vendorID" es
  let name ← reqField deStr "name" es
  let series ← optField deStr "series" es
  let version ← reqField deStr "version" es
  let description ← reqField deStr "description" es
  let licenseText ← optField deStr "licenseText" es
  let cpu ← optField deCpu "cpu" es
  let headerSystemFilename ← optField deStr "headerSystemFilename" es
  let headerDefinitionsPrefix ← optField deStr "headerDefinitionsPrefix" es
  let addressUnitBits ← reqField (deInt 32) "addressUnitBits" es
  let width ← reqField (deInt 32) "width" es
  let peripherals ← reqField (deList (dePeripheral oc)) "peripherals" es
  let props ← deProperties (rest deviceKeys es)
  .ok { vendor := vendor, vendorId := vendorId, name := name, series := series, version := version,
        description := description, licenseText := licenseText, cpu := cpu,
        headerSystemFilename := headerSystemFilename, headerDefinitionsPrefix := headerDefinitionsPrefix,
        addressUnitBits := addressUnitBits, width := width, defaultRegisterProperties := props,
        peripherals := peripherals, xmlnsXs := defaultXmlnsXs,
        noNamespaceSchemaLocation := defaultNoNamespaceSchemaLocation, schemaVersion := defaultSchemaVersion }

end Svd
