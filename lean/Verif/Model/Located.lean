import Verif.Model.Parse

/-!
# The parser with the positions of its errors

`Model/Parse.lean` leaves out the node an error is attached to (`SVDErrorAt.id`,
svd-parser/src/lib.rs:269-287).  Here are the same functions with it, and the messages that
`parse_with_config` adds to an error (svd-parser/src/lib.rs:120-169).  A node id is the list of the child
positions that lead to the node from the root of the document (roxmltree numbers the nodes in document
order; only equality and ancestors matter here).
-/

namespace Svd

/-- roxmltree `NodeId`. -/
abbrev NodeId := List Nat

/-- roxmltree `Node`: a node and where it is. -/
structure Node where
  id : NodeId
  xml : Xml

/-- How a parser function can end other than by returning a value, with `SVDErrorAt`. -/
inductive LFault where
  | err (e : Err) (id : NodeId)
  | panic (p : Panic)
  | diverge
  deriving DecidableEq

/-- Outcome of a parser function. -/
abbrev L := Except LFault

namespace Node

/-- svd-parser/src/lib.rs:283-287 `at`, used as `.map_err(|e| e.at(tree.id()))` and
`.ok_or_else(|| ..at(tree.id()))`: every error is attached to this node. -/
def «at» {α} (n : Node) : M α → L α
  | .ok a => .ok a
  | .error (.err e) => .error (.err e n.id)
  | .error (.panic p) => .error (.panic p)
  | .error .diverge => .error .diverge

/-- roxmltree `children()`. -/
def children (n : Node) : List Node := n.xml.children.mapIdx fun i x => ⟨n.id ++ [i], x⟩

/-- roxmltree `is_element()`. -/
def isElement (n : Node) : Bool := n.xml.isElement

/-- roxmltree `has_tag_name(name)`. -/
def hasTag (k : String) (n : Node) : Bool := n.xml.hasTag k

/-- roxmltree `attribute(name)`. -/
def attr (n : Node) (k : String) : Option Str := n.xml.attr k

/-- svd-parser/src/elementext.rs:33-38 `get_child`. -/
def getChild (n : Node) (k : String) : Option Node := n.children.find? (hasTag k)

/-- svd-parser/src/elementext.rs:71-80 `get_text`. -/
def getText (n : Node) : L Str :=
  match n.xml.textOf with
  | some s => .ok (trim s)
  | none => .error (.err (.emptyTag n.xml.tag) n.id)

/-- svd-parser/src/elementext.rs:39-60 `get_child_text_opt`. -/
def getChildTextOpt (n : Node) (k : String) : L (Option Str) :=
  match n.getChild k with
  | some c =>
    match c.getText with
    | .ok s => .ok (some s)
    | .error (.err (.emptyTag _) _) => .ok none
    | .error e => .error e
  | none => .ok none

/-- svd-parser/src/elementext.rs:61-68 `get_child_text`. -/
def getChildText (n : Node) (k : String) : L Str := do
  let o ← n.getChildTextOpt k
  n.at (okOr o (.missingTag k))

/-- svd-parser/src/elementext.rs:83-86 `get_child_elem`. -/
def getChildElem (n : Node) (k : String) : L Node := n.at (okOr (n.getChild k) (.missingTag k))

/-- svd-parser/src/types.rs:8-36 (`w` = 32) and 38-66 (`w` = 64). -/
def parseInt (w : Nat) (n : Node) : L (BitVec w) := do
  let text ← n.getText
  n.at (match parseIntText w text with
    | .ok v => .ok v
    | .error k => fail (.parseInt k))

/-- svd-parser/src/types.rs:70-86 `BoolParse::parse`. -/
def parseBool (n : Node) : L Bool := do
  let text ← n.getText
  n.at (okOr (parseBoolText text) (.invalidBooleanValue text))

/-- svd-parser/src/elementext.rs:89-98 `get_child_u32`, `get_child_u64`. -/
def getChildInt (w : Nat) (n : Node) (k : String) : L (BitVec w) := do
  let s ← n.getChildElem k
  parseInt w s

/-- svd-parser/src/elementext.rs:101-104 `get_child_bool`. -/
def getChildBool (n : Node) (k : String) : L Bool := do
  let s ← n.getChildElem k
  parseBool s

/-- svd-parser/src/lib.rs:98-111 `optional`. -/
def optional {α} (k : String) (n : Node) (p : Node → L α) : L (Option α) :=
  match n.getChild k with
  | none => .ok none
  | some c => do
    let r ← p c
    .ok (some r)

/-- The keyword parsers (svd-parser/src/access.rs:9-13, endian.rs:9-13, usage.rs:9-13, protection.rs:8-12,
readaction.rs:9-13, modifiedwritevalues.rs:9-14, datatype.rs:9-13, addressblock.rs:28-32). -/
def parseKeyword {α} (parseStr : Str → Option α) (e : Str → Err) (n : Node) : L α := do
  let text ← n.getText
  n.at (okOr (parseStr text) (e text))

/-- svd-parser/src/access.rs:9-13. -/
def parseAccess : Node → L Access := parseKeyword Access.parseStr .unknownAccessType
/-- svd-parser/src/endian.rs:9-13. -/
def parseEndian : Node → L Endian := parseKeyword Endian.parseStr .unknownEndian
/-- svd-parser/src/usage.rs:9-13. -/
def parseUsage : Node → L Usage := parseKeyword Usage.parseStr fun _ => .unknownUsageVariant
/-- svd-parser/src/protection.rs:8-12. -/
def parseProtection : Node → L Protection := parseKeyword Protection.parseStr .invalidProtection
/-- svd-parser/src/readaction.rs:9-13. -/
def parseReadAction : Node → L ReadAction := parseKeyword ReadAction.parseStr .invalidReadAction
/-- svd-parser/src/modifiedwritevalues.rs:9-14. -/
def parseModifiedWriteValues : Node → L ModifiedWriteValues :=
  parseKeyword ModifiedWriteValues.parseStr .invalidModifiedWriteValues
/-- svd-parser/src/datatype.rs:9-13. -/
def parseDataType : Node → L DataType := parseKeyword DataType.parseStr .invalidDatatype
/-- svd-parser/src/addressblock.rs:28-32. -/
def parseAddressBlockUsage : Node → L AddressBlockUsage :=
  parseKeyword AddressBlockUsage.parseStr fun _ => .unknownAddressBlockUsageVariant

/-- svd-parser/src/registerproperties.rs:9-18. -/
def parseRegisterProperties (cfg : ParseConfig) (n : Node) : L RegisterProperties := do
  let size ← optional "size" n (parseInt 32)
  let access ← optional "access" n parseAccess
  let protection ← optional "protection" n parseProtection
  let resetValue ← optional "resetValue" n (parseInt 64)
  let resetMask ← optional "resetMask" n (parseInt 64)
  n.at (RegisterProperties.build
    { size := size, access := access, protection := protection, resetValue := resetValue,
      resetMask := resetMask } cfg.validateLevel)

/-- `.ok()` (svd-parser/src/enumeratedvalue.rs:18): any error is dropped. -/
def okOnly {α} (m : L α) : L (Option α) :=
  match m with
  | .ok a => .ok (some a)
  | .error (.err _ _) => .ok none
  | .error e => .error e

/-- svd-parser/src/enumeratedvalue.rs:9-21. -/
def parseEnumeratedValue (cfg : ParseConfig) (n : Node) : L EnumeratedValue := do
  if !n.hasTag "enumeratedValue" then n.at (fail (.notExpectedTag "enumeratedValue")) else
  let name ← n.getChildText "name"
  let description ← n.getChildTextOpt "description"
  let value ← optional "value" n (parseInt 64)
  let isDefault ← okOnly (n.getChildBool "isDefault")
  n.at (EnumeratedValueBuilder.build
    { name := some name, description := description, value := value, isDefault := isDefault }
    cfg.validateLevel)

/-- svd-parser/src/enumeratedvalues.rs:18-32, dimelement.rs:30-41: other children are reported where they
are. -/
def parseValueList (cfg : ParseConfig) (skip : List String) (n : Node) : L (List EnumeratedValue) :=
  (n.children.filter fun c => c.isElement && !skip.contains c.xml.tag).mapM fun c =>
    if c.hasTag "enumeratedValue" then parseEnumeratedValue cfg c
    else c.at (fail (.notExpectedTag "enumeratedValue"))

/-- svd-parser/src/enumeratedvalues.rs:9-36. -/
def parseEnumeratedValues (cfg : ParseConfig) (n : Node) : L EnumeratedValues := do
  if !n.hasTag "enumeratedValues" then n.at (fail (.notExpectedTag "enumeratedValues")) else
  let name ← n.getChildTextOpt "name"
  let usage ← optional "usage" n parseUsage
  let values ← parseValueList cfg ["name", "headerEnumName", "usage"] n
  n.at (EnumeratedValuesBuilder.build
    { name := name, usage := usage, derivedFrom := n.attr "derivedFrom", values := some values }
    cfg.validateLevel)

/-- svd-parser/src/dimelement.rs:26-44. -/
def parseDimArrayIndex (cfg : ParseConfig) (n : Node) : L DimArrayIndex := do
  let headerEnumName ← n.getChildTextOpt "headerEnumName"
  let values ← parseValueList cfg ["headerEnumName"] n
  .ok { headerEnumName := headerEnumName, values := values }

/-- svd-parser/src/dimelement.rs:54-57. -/
def parseDimIndex (n : Node) : L (List Str) := do
  let text ← n.getText
  n.at (okOr (DimElement.parseIndexes text) .dimIndexParse)

/-- svd-parser/src/dimelement.rs:9-18. -/
def parseDimElement (cfg : ParseConfig) (n : Node) : L DimElement := do
  let dim ← getChildInt 32 n "dim"
  let dimIncrement ← getChildInt 32 n "dimIncrement"
  let dimIndex ← optional "dimIndex" n parseDimIndex
  let dimName ← n.getChildTextOpt "dimName"
  let dimArrayIndex ← optional "dimArrayIndex" n (parseDimArrayIndex cfg)
  n.at (DimElementBuilder.build
    { dim := some dim, dimIncrement := some dimIncrement, dimIndex := dimIndex,
      dimName := dimName, dimArrayIndex := dimArrayIndex } cfg.validateLevel)

/-- svd-parser/src/array.rs:4-30 `parse_array`. -/
def parseArray {α} (cfg : ParseConfig) (tag : String) (nm : α → Str) (n : Node) (info : L α) :
    L (MaybeArray α) := do
  if !n.hasTag tag then n.at (fail (.notExpectedTag tag)) else
  let info ← info
  if (n.getChild "dimIncrement").isSome then do
    let d ← parseDimElement cfg n
    n.at (checkHasPlaceholder (nm info) tag)
    match d.dimIndex with
    | some l =>
      if d.dim.toNat ≠ l.length then n.at (fail (.incorrectDimIndexesCount d.dim.toNat l.length))
      else .ok (.array info d)
    | none => .ok (.array info d)
  else .ok (.single info)

/-- svd-parser/src/bitrange.rs:18-95: every error is attached to the field, those of the numbers are
replaced. -/
def parseBitRange (oc : Bool) (n : Node) : L BitRange := n.at (Svd.parseBitRange oc n.xml)

/-- svd-parser/src/writeconstraint.rs:33-38. -/
def parseWriteConstraintRange (n : Node) : L WriteConstraintRange := do
  let min ← getChildInt 64 n "minimum"
  let max ← getChildInt 64 n "maximum"
  .ok { min := min, max := max }

/-- svd-parser/src/writeconstraint.rs:9-25. -/
def parseWriteConstraint (n : Node) : L WriteConstraint :=
  match n.children.filter isElement with
  | [] => .error (.panic .unwrap)
  | child :: rest =>
    if !rest.isEmpty then n.at (fail .moreThanOneWriteConstraint)
    else if child.xml.tag = "writeAsRead" then do
      let b ← n.getChildBool "writeAsRead"
      .ok (.writeAsRead b)
    else if child.xml.tag = "useEnumeratedValues" then do
      let b ← n.getChildBool "useEnumeratedValues"
      .ok (.useEnumeratedValues b)
    else if child.xml.tag = "range" then do
      let e ← n.getChildElem "range"
      let r ← parseWriteConstraintRange e
      .ok (.range r)
    else n.at (fail .unknownWriteConstraint)

/-- svd-parser/src/field.rs:22-57. -/
def parseFieldInfo (oc : Bool) (cfg : ParseConfig) (n : Node) : L FieldInfo := do
  if !n.hasTag "field" then n.at (fail (.notExpectedTag "field")) else
  let bitRange ← parseBitRange oc n
  let name ← n.getChildText "name"
  let description ← n.getChildTextOpt "description"
  let access ← optional "access" n parseAccess
  let mwv ← optional "modifiedWriteValues" n parseModifiedWriteValues
  let wc ← (if !cfg.ignoreEnums then optional "writeConstraint" n parseWriteConstraint else .ok none :
    L (Option WriteConstraint))
  let ra ← optional "readAction" n parseReadAction
  let evs ← (if !cfg.ignoreEnums then
      (n.children.filter (hasTag "enumeratedValues")).mapM (parseEnumeratedValues cfg)
    else .ok [] : L (List EnumeratedValues))
  let b := FieldInfoBuilder.setBitRange { name := some name, description := description } bitRange
  n.at (FieldInfoBuilder.build
    { b with
      access := access, modifiedWriteValues := mwv, writeConstraint := wc, readAction := ra,
      enumeratedValues := some evs, derivedFrom := n.attr "derivedFrom" } cfg.validateLevel)

/-- svd-parser/src/field.rs:12-14. -/
def parseField (oc : Bool) (cfg : ParseConfig) (n : Node) : L Field :=
  parseArray cfg "field" FieldInfo.name n (parseFieldInfo oc cfg n)

/-- svd-parser/src/register.rs:22-58. -/
def parseRegisterInfo (oc : Bool) (cfg : ParseConfig) (n : Node) : L RegisterInfo := do
  let name ← n.getChildText "name"
  let displayName ← n.getChildTextOpt "displayName"
  let description ← n.getChildTextOpt "description"
  let alternateGroup ← n.getChildTextOpt "alternateGroup"
  let alternateRegister ← n.getChildTextOpt "alternateRegister"
  let addressOffset ← getChildInt 32 n "addressOffset"
  let properties ← parseRegisterProperties cfg n
  let datatype ← optional "dataType" n parseDataType
  let mwv ← optional "modifiedWriteValues" n parseModifiedWriteValues
  let wc ← optional "writeConstraint" n parseWriteConstraint
  let ra ← optional "readAction" n parseReadAction
  let fields ← (match n.getChild "fields" with
    | some fs => do
      let l ← (fs.children.filter isElement).mapM (parseField oc cfg)
      .ok (some l)
    | none => .ok none : L (Option (List Field)))
  n.at (RegisterInfoBuilder.build
    { name := some name, displayName := displayName, description := description,
      alternateGroup := alternateGroup, alternateRegister := alternateRegister,
      addressOffset := some addressOffset, properties := properties, datatype := datatype,
      modifiedWriteValues := mwv, writeConstraint := wc, readAction := ra, fields := fields,
      derivedFrom := n.attr "derivedFrom" } cfg.validateLevel)

/-- svd-parser/src/register.rs:12-14. -/
def parseRegister (oc : Bool) (cfg : ParseConfig) (n : Node) : L Register :=
  parseArray cfg "register" RegisterInfo.name n (parseRegisterInfo oc cfg n)

/-- svd-parser/src/cluster.rs:19-40 except for the children, whose outcome is given. -/
def parseClusterInfoWith (cfg : ParseConfig) (n : Node) (kids : L (List RegisterCluster)) :
    L ClusterInfo := do
  let name ← n.getChildText "name"
  let description ← n.getChildTextOpt "description"
  let alternateCluster ← n.getChildTextOpt "alternateCluster"
  let headerStructName ← n.getChildTextOpt "headerStructName"
  let addressOffset ← getChildInt 32 n "addressOffset"
  let props ← parseRegisterProperties cfg n
  let children ← kids
  n.at (ClusterInfoBuilder.build
    { name := some name, description := description, alternateCluster := alternateCluster,
      headerStructName := headerStructName, addressOffset := some addressOffset,
      defaultRegisterProperties := props, children := some children,
      derivedFrom := n.attr "derivedFrom" } cfg.validateLevel)

mutual
/-- svd-parser/src/registercluster.rs:10-18, cluster.rs:9-11 and 19-40, on the node and its id. -/
def parseRegisterCluster (oc : Bool) (cfg : ParseConfig) (id : NodeId) : Xml → L RegisterCluster
  | .elem tag attrs kids =>
    if tag = "register" then do
      let r ← parseRegister oc cfg ⟨id, .elem tag attrs kids⟩
      .ok (.register r)
    else if tag = "cluster" then do
      let c ← parseArray cfg "cluster" (fun c => c.name) ⟨id, .elem tag attrs kids⟩
        (parseClusterInfoWith cfg ⟨id, .elem tag attrs kids⟩ (parseClusterKids oc cfg id 0 kids))
      .ok (RegisterCluster.ofCluster c)
    else .error (.err (.invalidRegisterCluster tag) id)
  | .text _ => .error (.err (.invalidRegisterCluster "") id)
  | .other => .error (.err (.invalidRegisterCluster "") id)
/-- svd-parser/src/cluster.rs:28-35: the children from position `i` on of the cluster with this id. -/
def parseClusterKids (oc : Bool) (cfg : ParseConfig) (id : NodeId) (i : Nat) :
    List Xml → L (List RegisterCluster)
  | [] => .ok []
  | x :: xs =>
    if x.hasTag "register" || x.hasTag "cluster" then do
      let a ← parseRegisterCluster oc cfg (id ++ [i]) x
      let r ← parseClusterKids oc cfg id (i + 1) xs
      .ok (a :: r)
    else parseClusterKids oc cfg id (i + 1) xs
end

/-- svd-parser/src/addressblock.rs:9-20. -/
def parseAddressBlock (cfg : ParseConfig) (n : Node) : L AddressBlock := do
  let offset ← getChildInt 32 n "offset"
  let size ← getChildInt 32 n "size"
  let u ← n.getChildElem "usage"
  let usage ← parseAddressBlockUsage u
  let protection ← optional "protection" n parseProtection
  n.at (AddressBlockBuilder.build
    { offset := some offset, size := some size, usage := some usage, protection := protection }
    cfg.validateLevel)

/-- svd-parser/src/interrupt.rs:9-21. -/
def parseInterrupt (cfg : ParseConfig) (n : Node) : L Interrupt := do
  if !n.hasTag "interrupt" then n.at (fail (.notExpectedTag "interrupt")) else
  let name ← n.getChildText "name"
  let description ← n.getChildTextOpt "description"
  let value ← getChildInt 32 n "value"
  n.at (InterruptBuilder.build { name := some name, description := description, value := some value }
    cfg.validateLevel)

/-- svd-parser/src/peripheral.rs:21-72. -/
def parsePeripheralInfo (oc : Bool) (cfg : ParseConfig) (n : Node) : L PeripheralInfo := do
  if !n.hasTag "peripheral" then n.at (fail (.notExpectedTag "peripheral")) else
  let name ← n.getChildText "name"
  let displayName ← n.getChildTextOpt "displayName"
  let version ← n.getChildTextOpt "version"
  let description ← n.getChildTextOpt "description"
  let alternatePeripheral ← n.getChildTextOpt "alternatePeripheral"
  let groupName ← n.getChildTextOpt "groupName"
  let prependToName ← n.getChildTextOpt "prependToName"
  let appendToName ← n.getChildTextOpt "appendToName"
  let headerStructName ← n.getChildTextOpt "headerStructName"
  let baseAddress ← getChildInt 64 n "baseAddress"
  let props ← parseRegisterProperties cfg n
  let ab ← (n.children.filter (hasTag "addressBlock")).mapM (parseAddressBlock cfg)
  let interrupt ← (n.children.filter (hasTag "interrupt")).mapM (parseInterrupt cfg)
  let registers ← (match n.getChild "registers" with
    | some rs => do
      let l ← (rs.children.filter isElement).mapM fun c => parseRegisterCluster oc cfg c.id c.xml
      .ok (some l)
    | none => .ok none : L (Option (List RegisterCluster)))
  n.at (PeripheralInfoBuilder.build
    { name := some name, displayName := displayName, version := version,
      description := description, alternatePeripheral := alternatePeripheral,
      groupName := groupName, prependToName := prependToName, appendToName := appendToName,
      headerStructName := headerStructName, baseAddress := some baseAddress,
      defaultRegisterProperties := props, addressBlock := if ab.isEmpty then none else some ab,
      interrupt := some interrupt, registers := registers, derivedFrom := n.attr "derivedFrom" }
    cfg.validateLevel)

/-- svd-parser/src/peripheral.rs:11-13. -/
def parsePeripheral (oc : Bool) (cfg : ParseConfig) (n : Node) : L Peripheral :=
  parseArray cfg "peripheral" PeripheralInfo.name n (parsePeripheralInfo oc cfg n)

/-- svd-parser/src/cpu.rs:10-34. -/
def parseCpu (cfg : ParseConfig) (n : Node) : L Cpu := do
  if !n.hasTag "cpu" then n.at (fail (.notExpectedTag "cpu")) else
  let name ← n.getChildText "name"
  let revision ← n.getChildText "revision"
  let e ← n.getChildElem "endian"
  let endian ← parseEndian e
  let mpuPresent ← n.getChildBool "mpuPresent"
  let fpuPresent ← n.getChildBool "fpuPresent"
  let fpuDP ← optional "fpuDP" n parseBool
  let dsp ← optional "dspPresent" n parseBool
  let icache ← optional "icachePresent" n parseBool
  let dcache ← optional "dcachePresent" n parseBool
  let itcm ← optional "itcmPresent" n parseBool
  let dtcm ← optional "dtcmPresent" n parseBool
  let vtor ← optional "vtorPresent" n parseBool
  let nvic ← getChildInt 32 n "nvicPrioBits"
  let systick ← n.getChildBool "vendorSystickConfig"
  let num ← optional "deviceNumInterrupts" n (parseInt 32)
  let sau ← optional "sauNumRegions" n (parseInt 32)
  n.at (CpuBuilder.build
    { name := some name, revision := some revision, endian := some endian,
      mpuPresent := some mpuPresent, fpuPresent := some fpuPresent, fpuDoublePrecision := fpuDP,
      dspPresent := dsp, icachePresent := icache, dcachePresent := dcache, itcmPresent := itcm,
      dtcmPresent := dtcm, vtorPresent := vtor, nvicPriorityBits := some nvic,
      hasVendorSystick := some systick, deviceNumInterrupts := num, sauNumRegions := sau }
    cfg.validateLevel)

/-- svd-parser/src/device.rs:10-60. -/
def parseDevice (oc : Bool) (cfg : ParseConfig) (n : Node) : L Device := do
  if !n.hasTag "device" then n.at (fail (.notExpectedTag "device")) else
  let vendor ← n.getChildTextOpt "vendor"
  let vendorId ← n.getChildTextOpt "vendorID"
  let name ← n.getChildText "name"
  let series ← n.getChildTextOpt "series"
  let licenseText ← n.getChildTextOpt "licenseText"
  let cpu ← optional "cpu" n (parseCpu cfg)
  let headerSystemFilename ← n.getChildTextOpt "headerSystemFilename"
  let headerDefinitionsPrefix ← n.getChildTextOpt "headerDefinitionsPrefix"
  let props ← parseRegisterProperties cfg n
  let ps ← n.getChildElem "peripherals"
  let peripherals ← (ps.children.filter isElement).mapM (parsePeripheral oc cfg)
  let version ← n.getChildTextOpt "version"
  let description ← n.getChildTextOpt "description"
  let addressUnitBits ← optional "addressUnitBits" n (parseInt 32)
  let width ← optional "width" n (parseInt 32)
  n.at (DeviceBuilder.build
    { vendor := vendor, vendorId := vendorId, name := some name, series := series,
      version := version, description := description, licenseText := licenseText, cpu := cpu,
      headerSystemFilename := headerSystemFilename,
      headerDefinitionsPrefix := headerDefinitionsPrefix, addressUnitBits := addressUnitBits,
      width := width, defaultRegisterProperties := props, peripherals := some peripherals,
      xmlnsXs := n.attr "xmlns:xs",
      noNamespaceSchemaLocation :=
        if (n.attr "xmlns:xs").isSome then n.attr "xs:noNamespaceSchemaLocation" else none,
      schemaVersion := n.attr "schemaVersion" } cfg.validateLevel)

end Node

/-! ## The messages added to an error -/

/-- The top-level nodes of a document (`tree.root().children()`). -/
def topNodes (top : List Xml) : List Node := top.mapIdx fun i x => ⟨[i], x⟩

/-- roxmltree `tree.get_node(id)` among the given siblings. -/
def getNode (sibs : List Xml) : NodeId → Option Xml
  | [] => none
  | [i] => sibs[i]?
  | i :: j :: id =>
    match sibs[i]? with
    | some x => getNode x.children (j :: id)
    | none => none

/-- A context added to an error; the text position `at {}` is the node id. -/
inductive Context where
  /-- ``Parsing {tag} `{name}` at {}`` -/
  | parsing (tag : String) (name : Str) (id : NodeId)
  /-- `Parsing unknown {tag} at {}` -/
  | parsingUnknown (tag : String) (id : NodeId)
  /-- `at {}` -/
  | «at» (id : NodeId)
  /-- ``In {tag} `{name}` `` -/
  | within (tag : String) (name : Str)
  /-- `In unknown {tag}` -/
  | withinUnknown (tag : String)
  deriving DecidableEq, Repr

/-- svd-parser/src/lib.rs:120-124 `get_name`. -/
def nodeName (x : Xml) : Option Str := (x.getChild "name").bind Xml.textOf

/-- svd-parser/src/lib.rs:140-148: the context of the node itself. -/
def ownContext (id : NodeId) (x : Xml) : Context :=
  if x.tag = "" then .at id
  else
    match nodeName x with
    | some name => .parsing x.tag name id
    | none => .parsingUnknown x.tag id

/-- svd-parser/src/lib.rs:153-164: the context of an ancestor. -/
def outerContext (x : Xml) : List Context :=
  if ["device", "peripheral", "register", "field", "enumeratedValue", "interrupt"].contains x.tag then
    match nodeName x with
    | some name => [.within x.tag name]
    | none => [.withinUnknown x.tag]
  else []

/-- roxmltree `ancestors().skip(1)` up to the root of the document, which is left out
(svd-parser/src/lib.rs:149-152). -/
def ancestorIds (id : NodeId) : List NodeId :=
  ((List.range id.length).map fun k => id.take k).reverse.filter fun a => a ≠ []

/-- svd-parser/src/lib.rs:136-167: what is added to an error at `id`, the first addition first;
`tree.get_node(id).unwrap()` panics if there is no such node. -/
def contexts (top : List Xml) (id : NodeId) : M (List Context) :=
  match getNode top id with
  | none => panics .unwrap
  | some x => .ok (ownContext id x ::
      (ancestorIds id).flatMap fun a => ((getNode top a).map outerContext).getD [])

/-- What `parse_with_config` reports, up to the expansion. -/
inductive Report where
  /-- the error without a context: no `device` element (svd-parser/src/lib.rs:129-131) -/
  | plain (e : Err)
  /-- the error and its contexts -/
  | «at» (e : Err) (cs : List Context)
  | panic (p : Panic)
  | diverge
  deriving DecidableEq

/-- svd-parser/src/lib.rs:126-169: `parse_with_config` up to and including `Device::parse` and its error
messages. -/
def parseReport (oc : Bool) (cfg : ParseConfig) (top : List Xml) : Except Report Device :=
  match (topNodes top).find? (Node.hasTag "device") with
  | none => .error (.plain (.missingTag "device"))
  | some n =>
    match Node.parseDevice oc cfg n with
    | .ok d => .ok d
    | .error (.panic p) => .error (.panic p)
    | .error .diverge => .error .diverge
    | .error (.err e id) =>
      match contexts top id with
      | .ok cs => .error (.at e cs)
      | .error (.panic p) => .error (.panic p)
      | .error _ => .error .diverge

end Svd
