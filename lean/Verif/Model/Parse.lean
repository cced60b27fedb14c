import Verif.Model.Xml
import Verif.Model.Keywords
import Verif.Model.Dim
import Verif.Model.Build

/-!
# The parser (crate svd-parser)

Every function takes `oc` (overflow checks, see `arith`) and the configuration.  The node id
attached to errors and the context text of svd-parser/src/lib.rs:133-167 are in `Model/Located.lean`.
-/

namespace Svd

open Xml

/-- svd-parser/src/lib.rs:40-52 `Config`. -/
structure ParseConfig where
  validateLevel : ValidateLevel := .weak
  expand : Bool := false
  expandProperties : Bool := false
  ignoreEnums : Bool := false
  deriving DecidableEq

/-- svd-parser/src/access.rs. -/
def parseAccess : Xml → M Access := parseKeyword Access.parseStr .unknownAccessType
/-- svd-parser/src/endian.rs. -/
def parseEndian : Xml → M Endian := parseKeyword Endian.parseStr .unknownEndian
/-- svd-parser/src/usage.rs. -/
def parseUsage : Xml → M Usage := parseKeyword Usage.parseStr fun _ => .unknownUsageVariant
/-- svd-parser/src/protection.rs. -/
def parseProtection : Xml → M Protection := parseKeyword Protection.parseStr .invalidProtection
/-- svd-parser/src/readaction.rs. -/
def parseReadAction : Xml → M ReadAction := parseKeyword ReadAction.parseStr .invalidReadAction
/-- svd-parser/src/modifiedwritevalues.rs. -/
def parseModifiedWriteValues : Xml → M ModifiedWriteValues :=
  parseKeyword ModifiedWriteValues.parseStr .invalidModifiedWriteValues
/-- svd-parser/src/datatype.rs. -/
def parseDataType : Xml → M DataType := parseKeyword DataType.parseStr .invalidDatatype
/-- svd-parser/src/addressblock.rs:23-33. -/
def parseAddressBlockUsage : Xml → M AddressBlockUsage :=
  parseKeyword AddressBlockUsage.parseStr fun _ => .unknownAddressBlockUsageVariant

/-- svd-parser/src/registerproperties.rs:9-18. -/
def parseRegisterProperties (cfg : ParseConfig) (t : Xml) : M RegisterProperties := do
  let size ← optional "size" t (parseInt 32)
  let access ← optional "access" t parseAccess
  let protection ← optional "protection" t parseProtection
  let resetValue ← optional "resetValue" t (parseInt 64)
  let resetMask ← optional "resetMask" t (parseInt 64)
  RegisterProperties.build
    { size := size, access := access, protection := protection, resetValue := resetValue,
      resetMask := resetMask } cfg.validateLevel

/-- `tree.get_child_bool(k).ok()` (svd-parser/src/enumeratedvalue.rs:18): any error is dropped. -/
def okOnly {α} (m : M α) : M (Option α) :=
  match m with
  | .ok a => .ok (some a)
  | .error (.err _) => .ok none
  | .error e => .error e

/-- svd-parser/src/enumeratedvalue.rs:9-21. -/
def parseEnumeratedValue (cfg : ParseConfig) (t : Xml) : M EnumeratedValue := do
  if !t.hasTag "enumeratedValue" then fail (.notExpectedTag "enumeratedValue") else
  let name ← t.getChildText "name"
  let description ← t.getChildTextOpt "description"
  let value ← optional "value" t (parseInt 64)
  let isDefault ← okOnly (t.getChildBool "isDefault")
  EnumeratedValueBuilder.build
    { name := some name, description := description, value := value, isDefault := isDefault }
    cfg.validateLevel

/-- The children of enumeratedValues / dimArrayIndex that are not among the known tags `skip` must be
`enumeratedValue` (svd-parser/src/enumeratedvalues.rs:18-32, dimelement.rs:30-41). -/
def parseValueList (cfg : ParseConfig) (skip : List String) (t : Xml) : M (List EnumeratedValue) :=
  (t.children.filter fun c => c.isElement && !skip.contains c.tag).mapM fun c =>
    if c.hasTag "enumeratedValue" then parseEnumeratedValue cfg c
    else fail (.notExpectedTag "enumeratedValue")

/-- svd-parser/src/enumeratedvalues.rs:9-36. -/
def parseEnumeratedValues (cfg : ParseConfig) (t : Xml) : M EnumeratedValues := do
  if !t.hasTag "enumeratedValues" then fail (.notExpectedTag "enumeratedValues") else
  let name ← t.getChildTextOpt "name"
  let usage ← optional "usage" t parseUsage
  let values ← parseValueList cfg ["name", "headerEnumName", "usage"] t
  EnumeratedValuesBuilder.build
    { name := name, usage := usage, derivedFrom := t.attr "derivedFrom", values := some values }
    cfg.validateLevel

/-- svd-parser/src/dimelement.rs:26-44. -/
def parseDimArrayIndex (cfg : ParseConfig) (t : Xml) : M DimArrayIndex := do
  let headerEnumName ← t.getChildTextOpt "headerEnumName"
  let values ← parseValueList cfg ["headerEnumName"] t
  .ok { headerEnumName := headerEnumName, values := values }

/-- svd-parser/src/dimelement.rs:54-57. -/
def parseDimIndex (t : Xml) : M (List Str) := do
  let text ← t.getText
  okOr (DimElement.parseIndexes text) .dimIndexParse

/-- svd-parser/src/dimelement.rs:9-18. -/
def parseDimElement (cfg : ParseConfig) (t : Xml) : M DimElement := do
  let dim ← getChildInt 32 t "dim"
  let dimIncrement ← getChildInt 32 t "dimIncrement"
  let dimIndex ← optional "dimIndex" t parseDimIndex
  let dimName ← t.getChildTextOpt "dimName"
  let dimArrayIndex ← optional "dimArrayIndex" t (parseDimArrayIndex cfg)
  DimElementBuilder.build
    { dim := some dim, dimIncrement := some dimIncrement, dimIndex := dimIndex,
      dimName := dimName, dimArrayIndex := dimArrayIndex } cfg.validateLevel

/-- svd-parser/src/lib.rs:289-298 `check_has_placeholder`. -/
def checkHasPlaceholder (name : Str) (tag : String) : M Unit :=
  if containsSub "%s".toList name then .ok () else fail (.missingPlaceholder name tag)

/-- svd-parser/src/array.rs:4-30 `parse_array`; `info` is the outcome of `T::parse(tree)`, `nm` its
name. -/
def parseArray {α} (cfg : ParseConfig) (tag : String) (nm : α → Str) (t : Xml) (info : M α) :
    M (MaybeArray α) := do
  if !t.hasTag tag then fail (.notExpectedTag tag) else
  let info ← info
  if (t.getChild "dimIncrement").isSome then do
    let d ← parseDimElement cfg t
    checkHasPlaceholder (nm info) tag
    match d.dimIndex with
    | some l =>
      if d.dim.toNat ≠ l.length then fail (.incorrectDimIndexesCount d.dim.toNat l.length)
      else .ok (.array info d)
    | none => .ok (.array info d)
  else .ok (.single info)

/-- The two numbers of the notation `[msb:lsb]` (svd-parser/src/bitrange.rs:24-54). -/
def parseBitRangeText (text : Str) : M (U32 × U32) :=
  if !("[".toList.isPrefixOf text) then fail (.invalidBitRange .syntax)
  else if !("]".toList.isSuffixOf text) then fail (.invalidBitRange .syntax)
  else
    match splitOn ':' ((text.drop 1).dropLast) with
    | [] => fail (.invalidBitRange .syntax)
    | p :: ps =>
      match fromStrRadix 32 10 p with
      | .error _ => fail (.invalidBitRange .parseError)
      | .ok msb =>
        match ps with
        | [] => fail (.invalidBitRange .syntax)
        | q :: _ =>
          match fromStrRadix 32 10 q with
          | .error _ => fail (.invalidBitRange .parseError)
          | .ok lsb => .ok (msb, lsb)

/-- `.map_err(|_| e)` on `Err` results (svd-parser/src/bitrange.rs:59-80). -/
def mapErr {α} (m : M α) (e : Err) : M α :=
  match m with
  | .ok a => .ok a
  | .error (.err _) => fail e
  | .error f => .error f

/-- svd-parser/src/bitrange.rs:87-94: `start > end` is an error, the width is `end - start + 1`. -/
def finishBitRange (oc : Bool) (msb lsb : U32) (ty : BitRangeType) : M BitRange :=
  if lsb.toNat > msb.toNat then fail (.invalidBitRange .size)
  else do
    let d ← subC oc msb lsb
    let w ← addC oc d 1
    .ok { offset := lsb, width := w, rangeType := ty }

/-- svd-parser/src/bitrange.rs:18-95. -/
def parseBitRange (oc : Bool) (t : Xml) : M BitRange :=
  match t.getChild "bitRange" with
  | some range =>
    match range.textOf with
    | none => fail (.invalidBitRange .empty)
    | some txt => do
      let p ← parseBitRangeText txt
      finishBitRange oc p.1 p.2 .bitRange
  | none =>
    match t.getChild "lsb", t.getChild "msb" with
    | some lsb, some msb => do
      let m ← mapErr (parseInt 32 msb) (.invalidBitRange .msbLsb)
      let l ← mapErr (parseInt 32 lsb) (.invalidBitRange .msbLsb)
      finishBitRange oc m l .msbLsb
    | _, _ =>
      match t.getChild "bitOffset", t.getChild "bitWidth" with
      | some offset, some width => do
        let o ← mapErr (parseInt 32 offset) (.invalidBitRange .parseError)
        let w ← mapErr (parseInt 32 width) (.invalidBitRange .parseError)
        .ok { offset := o, width := w, rangeType := .offsetWidth }
      | _, _ => fail (.invalidBitRange .syntax)

/-- svd-parser/src/writeconstraint.rs:33-38. -/
def parseWriteConstraintRange (t : Xml) : M WriteConstraintRange := do
  let min ← getChildInt 64 t "minimum"
  let max ← getChildInt 64 t "maximum"
  .ok { min := min, max := max }

/-- svd-parser/src/writeconstraint.rs:9-25: `first_element_child().unwrap()` panics when there is no
element child. -/
def parseWriteConstraint (t : Xml) : M WriteConstraint :=
  match t.children.filter isElement with
  | [] => panics .unwrap
  | child :: rest =>
    if !rest.isEmpty then fail .moreThanOneWriteConstraint
    else if child.tag = "writeAsRead" then do
      let b ← t.getChildBool "writeAsRead"
      .ok (.writeAsRead b)
    else if child.tag = "useEnumeratedValues" then do
      let b ← t.getChildBool "useEnumeratedValues"
      .ok (.useEnumeratedValues b)
    else if child.tag = "range" then do
      let e ← t.getChildElem "range"
      let r ← parseWriteConstraintRange e
      .ok (.range r)
    else fail .unknownWriteConstraint

/-- svd-parser/src/field.rs:22-57. -/
def parseFieldInfo (oc : Bool) (cfg : ParseConfig) (t : Xml) : M FieldInfo := do
  if !t.hasTag "field" then fail (.notExpectedTag "field") else
  let bitRange ← parseBitRange oc t
  let name ← t.getChildText "name"
  let description ← t.getChildTextOpt "description"
  let access ← optional "access" t parseAccess
  let mwv ← optional "modifiedWriteValues" t parseModifiedWriteValues
  let wc ← (if !cfg.ignoreEnums then optional "writeConstraint" t parseWriteConstraint else .ok none :
    M (Option WriteConstraint))
  let ra ← optional "readAction" t parseReadAction
  let evs ← (if !cfg.ignoreEnums then
      (t.children.filter (hasTag "enumeratedValues")).mapM (parseEnumeratedValues cfg)
    else .ok [] : M (List EnumeratedValues))
  let b := FieldInfoBuilder.setBitRange { name := some name, description := description } bitRange
  FieldInfoBuilder.build
    { b with
      access := access, modifiedWriteValues := mwv, writeConstraint := wc, readAction := ra,
      enumeratedValues := some evs, derivedFrom := t.attr "derivedFrom" } cfg.validateLevel

/-- svd-parser/src/field.rs:12-14. -/
def parseField (oc : Bool) (cfg : ParseConfig) (t : Xml) : M Field :=
  parseArray cfg "field" FieldInfo.name t (parseFieldInfo oc cfg t)

/-- svd-parser/src/register.rs:22-58. -/
def parseRegisterInfo (oc : Bool) (cfg : ParseConfig) (t : Xml) : M RegisterInfo := do
  let name ← t.getChildText "name"
  let displayName ← t.getChildTextOpt "displayName"
  let description ← t.getChildTextOpt "description"
  let alternateGroup ← t.getChildTextOpt "alternateGroup"
  let alternateRegister ← t.getChildTextOpt "alternateRegister"
  let addressOffset ← getChildInt 32 t "addressOffset"
  let properties ← parseRegisterProperties cfg t
  let datatype ← optional "dataType" t parseDataType
  let mwv ← optional "modifiedWriteValues" t parseModifiedWriteValues
  let wc ← optional "writeConstraint" t parseWriteConstraint
  let ra ← optional "readAction" t parseReadAction
  let fields ← (match t.getChild "fields" with
    | some fs => do
      let l ← (fs.children.filter isElement).mapM (parseField oc cfg)
      .ok (some l)
    | none => .ok none : M (Option (List Field)))
  RegisterInfoBuilder.build
    { name := some name, displayName := displayName, description := description,
      alternateGroup := alternateGroup, alternateRegister := alternateRegister,
      addressOffset := some addressOffset, properties := properties, datatype := datatype,
      modifiedWriteValues := mwv, writeConstraint := wc, readAction := ra, fields := fields,
      derivedFrom := t.attr "derivedFrom" } cfg.validateLevel

/-- svd-parser/src/register.rs:12-14. -/
def parseRegister (oc : Bool) (cfg : ParseConfig) (t : Xml) : M Register :=
  parseArray cfg "register" RegisterInfo.name t (parseRegisterInfo oc cfg t)

/-- svd-parser/src/cluster.rs:19-40 except for the children, whose outcome is given. -/
def parseClusterInfoWith (cfg : ParseConfig) (t : Xml) (kids : M (List RegisterCluster)) :
    M ClusterInfo := do
  let name ← t.getChildText "name"
  let description ← t.getChildTextOpt "description"
  let alternateCluster ← t.getChildTextOpt "alternateCluster"
  let headerStructName ← t.getChildTextOpt "headerStructName"
  let addressOffset ← getChildInt 32 t "addressOffset"
  let props ← parseRegisterProperties cfg t
  let children ← kids
  ClusterInfoBuilder.build
    { name := some name, description := description, alternateCluster := alternateCluster,
      headerStructName := headerStructName, addressOffset := some addressOffset,
      defaultRegisterProperties := props, children := some children,
      derivedFrom := t.attr "derivedFrom" } cfg.validateLevel

mutual
/-- svd-parser/src/registercluster.rs:10-18, cluster.rs:9-11 and 19-40. -/
def parseRegisterCluster (oc : Bool) (cfg : ParseConfig) : Xml → M RegisterCluster
  | .elem tag attrs kids =>
    if tag = "register" then do
      let r ← parseRegister oc cfg (.elem tag attrs kids)
      .ok (.register r)
    else if tag = "cluster" then do
      let c ← parseArray cfg "cluster" (fun c => c.name) (.elem tag attrs kids)
        (parseClusterInfoWith cfg (.elem tag attrs kids) (parseClusterKids oc cfg kids))
      .ok (RegisterCluster.ofCluster c)
    else fail (.invalidRegisterCluster tag)
  | _ => fail (.invalidRegisterCluster "")
/-- svd-parser/src/cluster.rs:28-35: the register and cluster children of a cluster. -/
def parseClusterKids (oc : Bool) (cfg : ParseConfig) : List Xml → M (List RegisterCluster)
  | [] => .ok []
  | x :: xs =>
    if x.hasTag "register" || x.hasTag "cluster" then do
      let a ← parseRegisterCluster oc cfg x
      let r ← parseClusterKids oc cfg xs
      .ok (a :: r)
    else parseClusterKids oc cfg xs
end

/-- svd-parser/src/addressblock.rs:9-20. -/
def parseAddressBlock (cfg : ParseConfig) (t : Xml) : M AddressBlock := do
  let offset ← getChildInt 32 t "offset"
  let size ← getChildInt 32 t "size"
  let u ← t.getChildElem "usage"
  let usage ← parseAddressBlockUsage u
  let protection ← optional "protection" t parseProtection
  AddressBlockBuilder.build
    { offset := some offset, size := some size, usage := some usage, protection := protection }
    cfg.validateLevel

/-- svd-parser/src/interrupt.rs:9-21. -/
def parseInterrupt (cfg : ParseConfig) (t : Xml) : M Interrupt := do
  if !t.hasTag "interrupt" then fail (.notExpectedTag "interrupt") else
  let name ← t.getChildText "name"
  let description ← t.getChildTextOpt "description"
  let value ← getChildInt 32 t "value"
  InterruptBuilder.build { name := some name, description := description, value := some value }
    cfg.validateLevel

/-- svd-parser/src/peripheral.rs:21-72. -/
def parsePeripheralInfo (oc : Bool) (cfg : ParseConfig) (t : Xml) : M PeripheralInfo := do
  if !t.hasTag "peripheral" then fail (.notExpectedTag "peripheral") else
  let name ← t.getChildText "name"
  let displayName ← t.getChildTextOpt "displayName"
  let version ← t.getChildTextOpt "version"
  let description ← t.getChildTextOpt "description"
  let alternatePeripheral ← t.getChildTextOpt "alternatePeripheral"
  let groupName ← t.getChildTextOpt "groupName"
  let prependToName ← t.getChildTextOpt "prependToName"
  let appendToName ← t.getChildTextOpt "appendToName"
  let headerStructName ← t.getChildTextOpt "headerStructName"
  let baseAddress ← getChildInt 64 t "baseAddress"
  let props ← parseRegisterProperties cfg t
  let ab ← (t.children.filter (hasTag "addressBlock")).mapM (parseAddressBlock cfg)
  let interrupt ← (t.children.filter (hasTag "interrupt")).mapM (parseInterrupt cfg)
  let registers ← (match t.getChild "registers" with
    | some rs => do
      let l ← (rs.children.filter isElement).mapM (parseRegisterCluster oc cfg)
      .ok (some l)
    | none => .ok none : M (Option (List RegisterCluster)))
  PeripheralInfoBuilder.build
    { name := some name, displayName := displayName, version := version,
      description := description, alternatePeripheral := alternatePeripheral,
      groupName := groupName, prependToName := prependToName, appendToName := appendToName,
      headerStructName := headerStructName, baseAddress := some baseAddress,
      defaultRegisterProperties := props, addressBlock := if ab.isEmpty then none else some ab,
      interrupt := some interrupt, registers := registers, derivedFrom := t.attr "derivedFrom" }
    cfg.validateLevel

/-- svd-parser/src/peripheral.rs:11-13. -/
def parsePeripheral (oc : Bool) (cfg : ParseConfig) (t : Xml) : M Peripheral :=
  parseArray cfg "peripheral" PeripheralInfo.name t (parsePeripheralInfo oc cfg t)

/-- svd-parser/src/cpu.rs:10-34. -/
def parseCpu (cfg : ParseConfig) (t : Xml) : M Cpu := do
  if !t.hasTag "cpu" then fail (.notExpectedTag "cpu") else
  let name ← t.getChildText "name"
  let revision ← t.getChildText "revision"
  let e ← t.getChildElem "endian"
  let endian ← parseEndian e
  let mpuPresent ← t.getChildBool "mpuPresent"
  let fpuPresent ← t.getChildBool "fpuPresent"
  let fpuDP ← optional "fpuDP" t parseBool
  let dsp ← optional "dspPresent" t parseBool
  let icache ← optional "icachePresent" t parseBool
  let dcache ← optional "dcachePresent" t parseBool
  let itcm ← optional "itcmPresent" t parseBool
  let dtcm ← optional "dtcmPresent" t parseBool
  let vtor ← optional "vtorPresent" t parseBool
  let nvic ← getChildInt 32 t "nvicPrioBits"
  let systick ← t.getChildBool "vendorSystickConfig"
  let num ← optional "deviceNumInterrupts" t (parseInt 32)
  let sau ← optional "sauNumRegions" t (parseInt 32)
  CpuBuilder.build
    { name := some name, revision := some revision, endian := some endian,
      mpuPresent := some mpuPresent, fpuPresent := some fpuPresent, fpuDoublePrecision := fpuDP,
      dspPresent := dsp, icachePresent := icache, dcachePresent := dcache, itcmPresent := itcm,
      dtcmPresent := dtcm, vtorPresent := vtor, nvicPriorityBits := some nvic,
      hasVendorSystick := some systick, deviceNumInterrupts := num, sauNumRegions := sau }
    cfg.validateLevel

/-- svd-parser/src/device.rs:10-60.  The namespace bound to the prefix `xs` is the attribute
`xmlns:xs` of the device element (declarations can only be there or on no ancestor), and the
attribute `noNamespaceSchemaLocation` of that namespace is the one written with prefix `xs`
(another prefix bound to the same namespace is not modelled). -/
def parseDevice (oc : Bool) (cfg : ParseConfig) (t : Xml) : M Device := do
  if !t.hasTag "device" then fail (.notExpectedTag "device") else
  let vendor ← t.getChildTextOpt "vendor"
  let vendorId ← t.getChildTextOpt "vendorID"
  let name ← t.getChildText "name"
  let series ← t.getChildTextOpt "series"
  let licenseText ← t.getChildTextOpt "licenseText"
  let cpu ← optional "cpu" t (parseCpu cfg)
  let headerSystemFilename ← t.getChildTextOpt "headerSystemFilename"
  let headerDefinitionsPrefix ← t.getChildTextOpt "headerDefinitionsPrefix"
  let props ← parseRegisterProperties cfg t
  let ps ← t.getChildElem "peripherals"
  let peripherals ← (ps.children.filter isElement).mapM (parsePeripheral oc cfg)
  let version ← t.getChildTextOpt "version"
  let description ← t.getChildTextOpt "description"
  let addressUnitBits ← optional "addressUnitBits" t (parseInt 32)
  let width ← optional "width" t (parseInt 32)
  DeviceBuilder.build
    { vendor := vendor, vendorId := vendorId, name := some name, series := series,
      version := version, description := description, licenseText := licenseText, cpu := cpu,
      headerSystemFilename := headerSystemFilename,
      headerDefinitionsPrefix := headerDefinitionsPrefix, addressUnitBits := addressUnitBits,
      width := width, defaultRegisterProperties := props, peripherals := some peripherals,
      xmlnsXs := t.attr "xmlns:xs",
      noNamespaceSchemaLocation :=
        if (t.attr "xmlns:xs").isSome then t.attr "xs:noNamespaceSchemaLocation" else none,
      schemaVersion := t.attr "schemaVersion" } cfg.validateLevel

/-- svd-parser/src/lib.rs:126-132: `parse_with_config` up to and including `Device::parse`, on the
top-level nodes of the document. -/
def parseDocument (oc : Bool) (cfg : ParseConfig) (top : List Xml) : M Device := do
  let d ← okOr (top.find? (hasTag "device")) (.missingTag "device")
  parseDevice oc cfg d

/-- svd-parser/src/lib.rs:183-189 `trim_utf8_bom`, on bytes. -/
def trimUtf8Bom (s : List UInt8) : List UInt8 :=
  if s.length > 2 && [0xEF, 0xBB, 0xBF].isPrefixOf s then s.drop 3 else s

end Svd
