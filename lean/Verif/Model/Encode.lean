import Verif.Model.Config
import Verif.Model.Keywords
import Verif.Model.BitRange
import Verif.Model.Dim
import Verif.Model.Xml

/-!
# The encoder (crate svd-encoder)

Written XML is an `Xml` tree (xmltree's `Element`); attribute maps are association lists.
`oc` = overflow checks; `cc` = the crate convert_case (see `changeCase`).
`EncodeError` has no values, so the only faults are panics.
-/

namespace Svd

open Xml

/-- svd-encoder/src/lib.rs:79-83 `new_node`. -/
def newNode (name : String) (text : Str) : Xml := .elem name [] [.text text]

/-- `if let Some(v) = &o { children.push(f(v)) }`. -/
def optNode {α} (o : Option α) (f : α → Xml) : List Xml :=
  match o with
  | some a => [f a]
  | none => []

/-- svd-encoder/src/lib.rs:70-75 `merge`: append the children; attributes of the second win. -/
def mergeElem (a b : Xml) : Xml :=
  match a, b with
  | .elem t as cs, .elem _ bs ds => .elem t (bs ++ as.filter fun p => !(bs.any fun q => q.1 == p.1)) (cs ++ ds)
  | a, _ => a

/-- `elem.attributes.insert("derivedFrom", change_case(v, ..))` when present. -/
def derivedAttr (cc : IdentifierFormat → Str → Str) (o : Option Str) (f : Option IdentifierFormat) :
    List (String × Str) :=
  match o with
  | some v => [("derivedFrom", changeCase cc v f)]
  | none => []

/-- `format!("{}", b)` of a boolean. -/
def boolStr (b : Bool) : Str := if b then "true".toList else "false".toList

/-! ## Stable sorting -/

/-- Rust's stable `sort_by_key`.  The key function is called only when there is something to
compare, so a panicking key function does not panic on lists of length at most one. -/
def sortByKey {α κ : Type} (le : κ → κ → Bool) (key : α → M κ) (l : List α) : M (List α) :=
  if l.length < 2 then .ok l
  else do
    let keyed ← l.mapM fun a => do
      let k ← key a
      .ok (k, a)
    .ok ((keyed.mergeSort fun x y => le x.1 y.1).map (·.2))

/-- `-(x as i32)` for `x` truncated to 32 bits: negating `i32::MIN` overflows. -/
def negI32 (oc : Bool) (x : U32) : M Int :=
  if x.toInt = -2147483648 then (if oc then panics .overflow else .ok (-2147483648))
  else .ok (-x.toInt)

/-- The common part of svd-encoder/src/device.rs:97-107, peripheral.rs:142-152 and
register.rs:114-124: sort by the offset (`off`), by its negation as `i32` (`off32` is the offset
cast to 32 bits), or by name. -/
def sortRefs {α : Type} (oc : Bool) (off : α → Nat) (off32 : α → U32) (nm : α → Str)
    (sorting : Option Sorting) (l : List α) : M (List α) :=
  match sorting with
  | none => .ok l
  | some .offset => sortByKey (fun a b => decide (a ≤ b)) (fun a => .ok (off a)) l
  | some .offsetReversed => sortByKey (fun a b => decide (a ≤ b)) (fun a => negI32 oc (off32 a)) l
  | some .name => sortByKey strLe (fun a => .ok (nm a)) l

/-- svd-encoder/src/device.rs:109-134, peripheral.rs:154-180, register.rs:126-160: derived
elements (`der`) last if requested. -/
def sortDerived {α : Type} (srt : Option Sorting → List α → M (List α)) (der : α → Bool)
    (sorting : DerivableSorting) (l : List α) : M (List α) :=
  match sorting with
  | .unchanged s => srt s l
  | .deriveLast s => do
    let common ← srt s (l.filter fun a => !der a)
    let derived ← srt s (l.filter der)
    .ok (common ++ derived)

/-- svd-encoder/src/device.rs:97-107 `sort_peripherals`. -/
def sortPeripherals (oc : Bool) : Option Sorting → List Peripheral → M (List Peripheral) :=
  sortRefs oc (fun p => p.info.baseAddress.toNat) (fun p => p.info.baseAddress.setWidth 32)
    (fun p => p.info.name)

/-- svd-encoder/src/device.rs:109-134 `sort_derived_peripherals`. -/
def sortDerivedPeripherals (oc : Bool) : DerivableSorting → List Peripheral → M (List Peripheral) :=
  sortDerived (sortPeripherals oc) (fun p => p.info.derivedFrom.isSome)

/-- svd-encoder/src/peripheral.rs:142-152 `sort_register_cluster`. -/
def sortRegisterCluster (oc : Bool) :
    Option Sorting → List RegisterCluster → M (List RegisterCluster) :=
  sortRefs oc (fun r => r.addressOffset.toNat) (fun r => r.addressOffset) (fun r => r.name)

/-- svd-encoder/src/peripheral.rs:154-180 `sort_derived_register_cluster`. -/
def sortDerivedRegisterCluster (oc : Bool) :
    DerivableSorting → List RegisterCluster → M (List RegisterCluster) :=
  sortDerived (sortRegisterCluster oc) (fun r => r.derivedFrom.isSome)

/-- `matches!(rc, RegisterCluster::Register(_))`. -/
def RegisterCluster.isRegister : RegisterCluster → Bool
  | .register _ => true
  | .cluster .. => false

/-- svd-encoder/src/peripheral.rs:182-203 `rc_sort`. -/
def rcSort (oc : Bool) (v : List RegisterCluster) (sorting : DerivableSorting)
    (registerFirst : Bool) : M (List RegisterCluster) := do
  let regs ← sortDerivedRegisterCluster oc sorting (v.filter fun rc => rc.isRegister)
  let cs ← sortDerivedRegisterCluster oc sorting (v.filter fun rc => !rc.isRegister)
  .ok (if registerFirst then regs ++ cs else cs ++ regs)

/-- svd-encoder/src/peripheral.rs:107-122: the order in which the children are written. -/
def sortRc (oc : Bool) (sorting : RcSorting) (v : List RegisterCluster) :
    M (List RegisterCluster) :=
  match sorting with
  | .unchanged (.unchanged none) => .ok v
  | .unchanged s => sortDerivedRegisterCluster oc s v
  | .registersFirst s => rcSort oc v s true
  | .clustersFirst s => rcSort oc v s false

/-- svd-encoder/src/register.rs:114-124 `sort_fields`; `bit_offset()` is svd-rs/src/field.rs:360-362. -/
def sortFields (oc : Bool) : Option Sorting → List Field → M (List Field) :=
  sortRefs oc (fun f => f.info.bitRange.offset.toNat) (fun f => f.info.bitRange.offset)
    (fun f => f.info.name)

/-- svd-encoder/src/register.rs:137-151: a field counts as derived if it or one of its enumerated
values is. -/
def fieldDerived (f : Field) : Bool :=
  f.info.derivedFrom.isSome || f.info.enumeratedValues.any fun ev => ev.derivedFrom.isSome

/-- svd-encoder/src/register.rs:126-160 `sort_derived_fields`. -/
def sortDerivedFields (oc : Bool) : DerivableSorting → List Field → M (List Field) :=
  sortDerived (sortFields oc) fieldDerived

/-! ## Encoders -/

section
variable (oc : Bool) (cc : IdentifierFormat → Str → Str) (cfg : EncConfig)

/-- svd-encoder/src/registerproperties.rs:8-38. -/
def encodeProperties (p : RegisterProperties) : List Xml :=
  optNode p.size (fun v => newNode "size" (formatNumber v cfg.registerSize)) ++
  optNode p.access (fun v => newNode "access" v.asStr) ++
  optNode p.protection (fun v => newNode "protection" v.asStr) ++
  optNode p.resetValue (fun v => newNode "resetValue" (formatNumber v cfg.registerResetValue)) ++
  optNode p.resetMask (fun v => newNode "resetMask" (formatNumber v cfg.registerResetMask))

/-- svd-encoder/src/enumeratedvalue.rs:11-34. -/
def encodeEnumeratedValue (e : EnumeratedValue) : Xml :=
  .elem "enumeratedValue" []
    ([newNode "name" (changeCase cc e.name cfg.enumeratedValueName)] ++
     optNode e.description (newNode "description") ++
     optNode e.value (fun v => newNode "value" (formatNumber v cfg.enumeratedValueValue)) ++
     optNode e.isDefault (fun v => newNode "isDefault" (boolStr v)))

/-- svd-encoder/src/enumeratedvalues.rs:8-34. -/
def encodeEnumeratedValues (e : EnumeratedValues) : Xml :=
  .elem "enumeratedValues" (derivedAttr cc e.derivedFrom cfg.enumeratedValuesName)
    (optNode e.name (fun d => newNode "name" (changeCase cc d cfg.enumeratedValuesName)) ++
     optNode e.usage (fun v => newNode "usage" v.asStr) ++
     e.values.map (encodeEnumeratedValue cc cfg))

/-- svd-encoder/src/dimelement.rs:42-57. -/
def encodeDimArrayIndex (d : DimArrayIndex) : Xml :=
  .elem "dimArrayIndex" []
    (optNode d.headerEnumName
      (fun n => newNode "headerEnumName" (changeCase cc n cfg.dimArrayIndexHeaderEnumName)) ++
     d.values.map (encodeEnumeratedValue cc cfg))

/-- svd-encoder/src/dimelement.rs:18-25: the text of dimIndex. -/
def dimIndexText (d : DimElement) (di : List Str) : M Str := do
  match ← d.indexesAsRange oc with
  | some (a, b) => .ok (decString a ++ "-".toList ++ decString b)
  | none => .ok (joinWith ",".toList di)

/-- svd-encoder/src/dimelement.rs:18-25: the element dimIndex. -/
def encodeDimIndex (d : DimElement) : M (List Xml) :=
  match d.dimIndex with
  | some di => do
    let s ← dimIndexText oc d di
    .ok [newNode "dimIndex" s]
  | none => .ok []

/-- svd-encoder/src/dimelement.rs:8-36. -/
def encodeDimElement (d : DimElement) : M Xml := do
  let di ← encodeDimIndex oc d
  .ok (.elem "dimElement" []
    ([newNode "dim" (formatNumber d.dim cfg.dimDim),
      newNode "dimIncrement" (formatNumber d.dimIncrement cfg.dimIncrement)] ++
     di ++
     optNode d.dimName (newNode "dimName") ++
     optNode d.dimArrayIndex (encodeDimArrayIndex cc cfg)))

/-- svd-encoder/src/{cluster.rs:13-23, field.rs:10-20, peripheral.rs:15-25, register.rs:15-25}: an
array is the element with the children of the dim element first; `info` is the outcome of encoding
the description. -/
def encodeArray (tag : String) (dim : Option DimElement) (info : M Xml) : M Xml :=
  match dim with
  | none => info
  | some d => do
    let a ← encodeDimElement oc cc cfg d
    let i ← info
    .ok (mergeElem (mergeElem (.elem tag [] []) a) i)

/-- svd-encoder/src/bitrange.rs:8-25. -/
def encodeBitRange (br : BitRange) : M (List Xml) :=
  match cfg.fieldBitRange.getD br.rangeType with
  | .bitRange => do
    let s ← br.bitRange oc
    .ok [newNode "bitRange" s]
  | .msbLsb => do
    let m ← br.msb oc
    .ok [newNode "lsb" (decString br.lsb), newNode "msb" (decString m)]
  | .offsetWidth =>
    .ok [newNode "bitOffset" (decString br.offset), newNode "bitWidth" (decString br.width)]

/-- svd-encoder/src/writeconstraint.rs:8-20 and 26-33. -/
def encodeWriteConstraint (w : WriteConstraint) : Xml :=
  .elem "writeConstraint" []
    [match w with
     | .writeAsRead v => newNode "writeAsRead" (boolStr v)
     | .useEnumeratedValues v => newNode "useEnumeratedValues" (boolStr v)
     | .range r => .elem "range" []
        [newNode "minimum" (decString r.min), newNode "maximum" (decString r.max)]]

/-- svd-encoder/src/field.rs:26-71. -/
def encodeFieldInfo (f : FieldInfo) : M Xml := do
  let br ← encodeBitRange oc cfg f.bitRange
  .ok (.elem "field" (derivedAttr cc f.derivedFrom cfg.fieldName)
    ([newNode "name" (changeCase cc f.name cfg.fieldName)] ++
     optNode f.description (newNode "description") ++
     br ++
     optNode f.access (fun v => newNode "access" v.asStr) ++
     optNode f.modifiedWriteValues (fun v => newNode "modifiedWriteValues" v.asStr) ++
     optNode f.writeConstraint encodeWriteConstraint ++
     optNode f.readAction (fun v => newNode "readAction" v.asStr) ++
     f.enumeratedValues.map (encodeEnumeratedValues cc cfg)))

/-- svd-encoder/src/field.rs:10-20. -/
def encodeField (f : Field) : M Xml :=
  encodeArray oc cc cfg "field" f.dim? (encodeFieldInfo oc cc cfg f.info)

/-- svd-encoder/src/register.rs:82-101: the element fields, omitted when empty. -/
def encodeFields (fs : Option (List Field)) : M (List Xml) :=
  match fs with
  | none => .ok []
  | some v => do
    let sorted ← (if cfg.fieldSorting = .unchanged none then .ok v
      else sortDerivedFields oc cfg.fieldSorting v : M (List Field))
    let children ← sorted.mapM (encodeField oc cc cfg)
    .ok (if children.isEmpty then [] else [.elem "fields" [] children])

/-- svd-encoder/src/register.rs:31-111. -/
def encodeRegisterInfo (r : RegisterInfo) : M Xml := do
  let fields ← encodeFields oc cc cfg r.fields
  .ok (.elem "register" (derivedAttr cc r.derivedFrom cfg.registerName)
    ([newNode "name" (changeCase cc r.name cfg.registerName)] ++
     optNode r.displayName (newNode "displayName") ++
     optNode r.description (newNode "description") ++
     optNode r.alternateGroup (newNode "alternateGroup") ++
     optNode r.alternateRegister
       (fun v => newNode "alternateRegister" (changeCase cc v cfg.registerName)) ++
     [newNode "addressOffset" (formatNumber r.addressOffset cfg.registerAddressOffset)] ++
     encodeProperties cfg r.properties ++
     optNode r.datatype (fun v => newNode "dataType" v.asStr) ++
     optNode r.modifiedWriteValues (fun v => newNode "modifiedWriteValues" v.asStr) ++
     optNode r.writeConstraint encodeWriteConstraint ++
     optNode r.readAction (fun v => newNode "readAction" v.asStr) ++
     fields))

/-- svd-encoder/src/register.rs:15-25. -/
def encodeRegister (r : Register) : M Xml :=
  encodeArray oc cc cfg "register" r.dim? (encodeRegisterInfo oc cc cfg r.info)

/-- svd-encoder/src/cluster.rs:29-75, given the outcome of encoding the children (cluster children
are written in their order: the sorting options do not apply here). -/
def encodeClusterWith (h : ClusterHead) (children : M (List Xml)) : M Xml := do
  let children ← children
  .ok (.elem "cluster" (derivedAttr cc h.derivedFrom cfg.clusterName)
    ([newNode "name" (changeCase cc h.name cfg.clusterName)] ++
     optNode h.description (newNode "description") ++
     optNode h.alternateCluster
       (fun v => newNode "alternateCluster" (changeCase cc v cfg.clusterName)) ++
     optNode h.headerStructName (newNode "headerStructName") ++
     [newNode "addressOffset" (formatNumber h.addressOffset cfg.clusterAddressOffset)] ++
     encodeProperties cfg h.defaultRegisterProperties ++
     children))

mutual
/-- svd-encoder/src/registercluster.rs:8-13, cluster.rs:13-23 and 29-75. -/
def encodeRegisterCluster : RegisterCluster → M Xml
  | .register r => encodeRegister oc cc cfg r
  | .cluster h d cs =>
    encodeArray oc cc cfg "cluster" d (encodeClusterWith cc cfg h (encodeRegisterClusters cs))
/-- svd-encoder/src/cluster.rs:62-65. -/
def encodeRegisterClusters : List RegisterCluster → M (List Xml)
  | [] => .ok []
  | c :: cs => do
    let x ← encodeRegisterCluster c
    let xs ← encodeRegisterClusters cs
    .ok (x :: xs)
end

/-- svd-encoder/src/addressblock.rs:8-33. -/
def encodeAddressBlock (a : AddressBlock) : Xml :=
  .elem "addressBlock" []
    ([newNode "offset" (formatNumber a.offset cfg.addressBlockOffset),
      newNode "size" (formatNumber a.size cfg.addressBlockSize),
      newNode "usage" a.usage.asStr] ++
     optNode a.protection (fun v => newNode "protection" v.asStr))

/-- svd-encoder/src/interrupt.rs:8-20. -/
def encodeInterrupt (i : Interrupt) : Xml :=
  .elem "interrupt" []
    ([newNode "name" (changeCase cc i.name cfg.interruptName)] ++
     optNode i.description (newNode "description") ++
     [newNode "value" (decString i.value)])

/-- svd-encoder/src/peripheral.rs:106-129: the element registers. -/
def encodeRegisters (rs : Option (List RegisterCluster)) : M (List Xml) :=
  match rs with
  | none => .ok []
  | some v => do
    let sorted ← sortRc oc cfg.registerClusterSorting v
    let children ← sorted.mapM (encodeRegisterCluster oc cc cfg)
    .ok [.elem "registers" [] children]

/-- svd-encoder/src/peripheral.rs:31-139. -/
def encodePeripheralInfo (p : PeripheralInfo) : M Xml := do
  let registers ← encodeRegisters oc cc cfg p.registers
  .ok (.elem "peripheral" (derivedAttr cc p.derivedFrom cfg.peripheralName)
    ([newNode "name" (changeCase cc p.name cfg.peripheralName)] ++
     optNode p.displayName (newNode "displayName") ++
     optNode p.version (newNode "version") ++
     optNode p.description (newNode "description") ++
     optNode p.alternatePeripheral
       (fun v => newNode "alternatePeripheral" (changeCase cc v cfg.peripheralName)) ++
     optNode p.groupName (newNode "groupName") ++
     optNode p.prependToName
       (fun v => newNode "prependToName" (changeCase cc v cfg.peripheralName)) ++
     optNode p.appendToName
       (fun v => newNode "appendToName" (changeCase cc v cfg.peripheralName)) ++
     optNode p.headerStructName
       (fun v => newNode "headerStructName" (changeCase cc v cfg.peripheralName)) ++
     [newNode "baseAddress" (formatNumber p.baseAddress cfg.peripheralBaseAddress)] ++
     encodeProperties cfg p.defaultRegisterProperties ++
     (p.addressBlock.getD []).map (encodeAddressBlock cfg) ++
     p.interrupt.map (encodeInterrupt cc cfg) ++
     registers))

/-- svd-encoder/src/peripheral.rs:15-25. -/
def encodePeripheral (p : Peripheral) : M Xml :=
  encodeArray oc cc cfg "peripheral" p.dim? (encodePeripheralInfo oc cc cfg p.info)

/-- svd-encoder/src/cpu.rs:7-55. -/
def encodeCpu (c : Cpu) : Xml :=
  .elem "cpu" []
    ([newNode "name" c.name, newNode "revision" c.revision, newNode "endian" c.endian.asStr,
      newNode "mpuPresent" (boolStr c.mpuPresent), newNode "fpuPresent" (boolStr c.fpuPresent)] ++
     optNode c.fpuDoublePrecision (fun v => newNode "fpuDP" (boolStr v)) ++
     optNode c.dspPresent (fun v => newNode "dspPresent" (boolStr v)) ++
     optNode c.icachePresent (fun v => newNode "icachePresent" (boolStr v)) ++
     optNode c.dcachePresent (fun v => newNode "dcachePresent" (boolStr v)) ++
     optNode c.itcmPresent (fun v => newNode "itcmPresent" (boolStr v)) ++
     optNode c.dtcmPresent (fun v => newNode "dtcmPresent" (boolStr v)) ++
     optNode c.vtorPresent (fun v => newNode "vtorPresent" (boolStr v)) ++
     [newNode "nvicPrioBits" (decString c.nvicPriorityBits),
      newNode "vendorSystickConfig" (boolStr c.hasVendorSystick)] ++
     optNode c.deviceNumInterrupts (fun v => newNode "deviceNumInterrupts" (decString v)) ++
     optNode c.sauNumRegions (fun v => newNode "sauNumRegions" (decString v)))

/-- svd-encoder/src/device.rs:12-94. -/
def encodeDevice (d : Device) : M Xml := do
  let sorted ← (if cfg.peripheralSorting = .unchanged none then .ok d.peripherals
    else sortDerivedPeripherals oc cfg.peripheralSorting d.peripherals : M (List Peripheral))
  let peripherals ← sorted.mapM (encodePeripheral oc cc cfg)
  .ok (.elem "device"
    [("schemaVersion", d.schemaVersion), ("xmlns:xs", d.xmlnsXs),
     ("xs:noNamespaceSchemaLocation", d.noNamespaceSchemaLocation)]
    (optNode d.vendor (newNode "vendor") ++
     optNode d.vendorId (newNode "vendorID") ++
     [newNode "name" d.name] ++
     optNode d.series (newNode "series") ++
     [newNode "version" d.version, newNode "description" d.description] ++
     optNode d.licenseText (newNode "licenseText") ++
     optNode d.cpu encodeCpu ++
     optNode d.headerSystemFilename (newNode "headerSystemFilename") ++
     optNode d.headerDefinitionsPrefix (newNode "headerDefinitionsPrefix") ++
     [newNode "addressUnitBits" (decString d.addressUnitBits),
      newNode "width" (decString d.width)] ++
     encodeProperties cfg d.defaultRegisterProperties ++
     [.elem "peripherals" [] peripherals]))

end

end Svd
