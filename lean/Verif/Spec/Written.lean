import Verif.Model.Config
import Verif.Model.Xml
import Verif.Spec.Num
import Verif.Spec.Dim
import Verif.Spec.Sort
import Verif.Spec.Lists
import Verif.Spec.Instance
import Verif.Spec.Keywords

/-!
# What is written for a device

Which text stands in which element, for every option of the encoder: the number format and the identifier
format that govern each element, the notation of the bits, the order of the elements.
-/

namespace Svd.Written

open Spec

/-! ## Texts -/

/-- A digit of the alphabet: its value is its position. -/
def digitOf (alphabet : String) (c : Char) (d : Nat) : Prop := alphabet.toList[d]? = some c

/-- No zeros in front. -/
def Shortest (s : Str) : Prop := ∀ r, s = '0' :: r → r = []

/-- At least `k` digits, more only if they are needed. -/
def AtLeast (k : Nat) (s : Str) : Prop := s.length = k ∨ (k < s.length ∧ Shortest s)

/-- `s` has the value `n` in the notation with the digits of the alphabet. -/
def Digits (alphabet : String) (s : Str) (n : Nat) : Prop :=
  Positional (digitOf alphabet) alphabet.toList.length s n

def upper : String := "0123456789ABCDEF"
def lower : String := "0123456789abcdef"

/-- The number `n` in a number format: the formats with 8 and with 16 digits both use 8 digits for the
numbers below 2^32. -/
inductive InFormat : NumberFormat → Nat → Str → Prop where
  | dec {n s} : Digits "0123456789" s n → Shortest s → InFormat .dec n s
  | bin {n s} : Digits "01" s n → Shortest s → InFormat .bin n ('0' :: 'b' :: s)
  | upperHex {n s} : Digits upper s n → Shortest s → InFormat .upperHex n ('0' :: 'x' :: s)
  | lowerHex {n s} : Digits lower s n → Shortest s → InFormat .lowerHex n ('0' :: 'x' :: s)
  | upperHex8 {n s} : Digits upper s n → AtLeast 8 s → InFormat .upperHex8 n ('0' :: 'x' :: s)
  | lowerHex8 {n s} : Digits lower s n → AtLeast 8 s → InFormat .lowerHex8 n ('0' :: 'x' :: s)
  | upperHex16 {n s} : Digits upper s n → AtLeast (if n < 2 ^ 32 then 8 else 16) s →
      InFormat .upperHex16 n ('0' :: 'x' :: s)
  | lowerHex16 {n s} : Digits lower s n → AtLeast (if n < 2 ^ 32 then 8 else 16) s →
      InFormat .lowerHex16 n ('0' :: 'x' :: s)

/-- A name in an identifier format; `cc` stands for the conversion, which also changes the placeholder
`%s`: it is restored. -/
def Renamed (cc : IdentifierFormat → Str → Str) : Option IdentifierFormat → Str → Str → Prop
  | none, s, s' => s' = s
  | some f, s, s' => Replaced ['%', 'S'] ['%', 's'] (cc f s) s'

/-! ## Parts of the content of an element -/

/-- A part of the content of an element: which lists of nodes it may be. -/
abbrev Part := List Xml → Prop

/-- The parts one after the other. -/
def Seq : List Part → Part
  | [], l => l = []
  | p :: ps, l => ∃ a b, p a ∧ Seq ps b ∧ l = a ++ b

/-- One element with a text and nothing else. -/
def text (tag : String) (P : Str → Prop) : Part := fun l => ∃ s, P s ∧ l = [.elem tag [] [.text s]]

/-- The text as it is. -/
def plain (tag : String) (s : Str) : Part := text tag fun s' => s' = s

/-- A number. -/
def number {w : Nat} (tag : String) (f : NumberFormat) (v : BitVec w) : Part := text tag (InFormat f v.toNat)

/-- A truth value. -/
def flag (tag : String) (b : Bool) : Part := plain tag (match b with | true => "true".toList | false => "false".toList)

/-- A keyword. -/
def word {α : Type} (tag : String) (table : List (String × α)) (a : α) : Part :=
  text tag fun s => ∃ w, (w, a) ∈ table ∧ s = w.toList

/-- Nothing for an absent value. -/
def may {α : Type} (o : Option α) (p : α → Part) : Part :=
  match o with
  | some a => p a
  | none => fun l => l = []

/-- One node. -/
def one (P : Xml → Prop) : Part := fun l => ∃ x, P x ∧ l = [x]

/-- One node for each, in the same order. -/
def each {α : Type} (R : α → Xml → Prop) (l : List α) : Part := Pairs R l

/-- An element with the content. -/
def Node (tag : String) (attributes : List (String × Str) → Prop) (ps : List Part) (x : Xml) : Prop :=
  ∃ as cs, attributes as ∧ Seq ps cs ∧ x = .elem tag as cs

/-- Without attributes. -/
def bare (as : List (String × Str)) : Prop := as = []

section
variable (oc : Bool) (cc : IdentifierFormat → Str → Str) (cfg : EncConfig)

/-- A name. -/
def name (tag : String) (f : Option IdentifierFormat) (s : Str) : Part := text tag (Renamed cc f s)

/-- The attribute `derivedFrom` of a derived element. -/
def derived (f : Option IdentifierFormat) (o : Option Str) (as : List (String × Str)) : Prop :=
  match o with
  | some v => ∃ s, Renamed cc f v s ∧ as = [("derivedFrom", s)]
  | none => as = []

/-! ## The order of elements -/

/-- The low 32 bits as a signed number, except that the smallest one counts as the largest. -/
def rank (n : Nat) : Int := if n % 2 ^ 32 ≤ 2 ^ 31 then (n % 2 ^ 32 : Nat) else (n % 2 ^ 32 : Nat) - 2 ^ 32

/-- The order of one list.  Descending offsets are compared as signed numbers of 32 bits; with overflow
checks nothing is written if the smallest of those is to be compared. -/
def Placed {α : Type} (off : α → Nat) (nm : α → Str) : Option Sorting → List α → List α → Prop
  | none, l, l' => l' = l
  | some .offset, l, l' => StableSorted (· ≤ ·) off l l'
  | some .offsetReversed, l, l' =>
    StableSorted (· ≥ ·) (fun a => rank (off a)) l l' ∧
      (oc = true → 2 ≤ l.length → ∀ a ∈ l, off a % 2 ^ 32 ≠ 2 ^ 31)
  | some .name, l, l' => StableSorted TextLe nm l l'

/-- Derived elements last, if asked for. -/
def PlacedDerivable {α : Type} (off : α → Nat) (nm : α → Str) (der : α → Prop) [DecidablePred der] :
    DerivableSorting → List α → List α → Prop
  | .unchanged s, l, l' => Placed oc off nm s l l'
  | .deriveLast s, l, l' => ∃ a b, l' = a ++ b ∧ Placed oc off nm s (l.filter fun x => ¬ der x) a ∧
      Placed oc off nm s (l.filter fun x => der x) b

/-- Registers or clusters first, if asked for. -/
def PlacedRc : RcSorting → List RegisterCluster → List RegisterCluster → Prop
  | .unchanged s, l, l' => sorted s l l'
  | .registersFirst s, l, l' => ∃ a b, l' = a ++ b ∧ sorted s (l.filter isReg) a ∧
      sorted s (l.filter fun c => ¬ isReg c) b
  | .clustersFirst s, l, l' => ∃ a b, l' = a ++ b ∧ sorted s (l.filter fun c => ¬ isReg c) a ∧
      sorted s (l.filter isReg) b
where sorted := PlacedDerivable oc (fun c : RegisterCluster => c.addressOffset.toNat) (fun c => c.name)
        (fun c => c.derivedFrom ≠ none)

/-! ## The elements -/

/-- The register properties. -/
def properties (p : RegisterProperties) : List Part :=
  [may p.size (number "size" cfg.registerSize),
   may p.access (word "access" accessSpelling),
   may p.protection (word "protection" protectionSpelling),
   may p.resetValue (number "resetValue" cfg.registerResetValue),
   may p.resetMask (number "resetMask" cfg.registerResetMask)]

def EnumValueWritten (e : EnumeratedValue) : Xml → Prop :=
  Node "enumeratedValue" bare
    [name cc "name" cfg.enumeratedValueName e.name,
     may e.description (plain "description"),
     may e.value (number "value" cfg.enumeratedValueValue),
     may e.isDefault (flag "isDefault")]

def EnumsWritten (e : EnumeratedValues) : Xml → Prop :=
  Node "enumeratedValues" (derived cc cfg.enumeratedValuesName e.derivedFrom)
    [may e.name (name cc "name" cfg.enumeratedValuesName),
     may e.usage (word "usage" usageSpelling),
     each (EnumValueWritten cc cfg) e.values]

/-- Whether the indexes are a range is found out by reading them as numbers, one after the other as far as they
are plain numbers of 32 bits.  If all are, there have to be as many as elements, and with overflow checks not both the
smallest and the largest number. -/
def Countable (d : DimElement) : Prop :=
  (∀ s ∈ (indexList d).take d.dim.toNat, ∃ n < 2 ^ 32, s = decimal n) →
    d.dim.toNat ≤ (indexList d).length ∧
    (oc = true → ¬ (decimal 0 ∈ (indexList d).take d.dim.toNat ∧
      decimal (2 ^ 32 - 1) ∈ (indexList d).take d.dim.toNat))

/-- The text of `dimIndex`: a range if the indexes are one, the list with commas otherwise. -/
def IndexesWritten (d : DimElement) (l : List Str) (s : Str) : Prop :=
  Countable oc d ∧
    ((∃ a b, b < 2 ^ 32 ∧ IsIndexRange d a b ∧ s = decimal a ++ '-' :: decimal b) ∨
     ((∀ a b, b < 2 ^ 32 → ¬ IsIndexRange d a b) ∧ s = joinWith [','] l))

/-- The description of an array. -/
def dims : Option DimElement → List Part
  | none => []
  | some d =>
    [number "dim" cfg.dimDim d.dim,
     number "dimIncrement" cfg.dimIncrement d.dimIncrement,
     may d.dimIndex fun l => text "dimIndex" (IndexesWritten oc d l),
     may d.dimName (plain "dimName"),
     may d.dimArrayIndex fun a => one (Node "dimArrayIndex" bare
       [may a.headerEnumName (name cc "headerEnumName" cfg.dimArrayIndexHeaderEnumName),
        each (EnumValueWritten cc cfg) a.values])]

/-- The position of the last bit: with overflow checks, there has to be one. -/
def LastBit (b : BitRange) (n : Nat) : Prop :=
  if oc then n + 1 = b.offset.toNat + b.width.toNat ∧ n + 1 < 2 ^ 32
  else n < 2 ^ 32 ∧ (n + 1) % 2 ^ 32 = (b.offset.toNat + b.width.toNat) % 2 ^ 32

/-- The notation asked for, or else its own. -/
def notationOf (b : BitRange) : BitRangeType :=
  match cfg.fieldBitRange with
  | some t => t
  | none => b.rangeType

/-- The bits of a field. -/
def bits (b : BitRange) : Part :=
  match notationOf cfg b with
  | .bitRange => text "bitRange" fun s => ∃ n, LastBit oc b n ∧
      s = '[' :: decimal n ++ ':' :: decimal b.offset.toNat ++ [']']
  | .msbLsb => Seq [number "lsb" .dec b.offset,
      text "msb" fun s => ∃ n, LastBit oc b n ∧ InFormat .dec n s]
  | .offsetWidth => Seq [number "bitOffset" .dec b.offset, number "bitWidth" .dec b.width]

/-- What may be written. -/
def constraint (w : WriteConstraint) : Part :=
  one (Node "writeConstraint" bare
    [match w with
     | .writeAsRead b => flag "writeAsRead" b
     | .useEnumeratedValues b => flag "useEnumeratedValues" b
     | .range r => one (Node "range" bare [number "minimum" .dec r.min, number "maximum" .dec r.max])])

def FieldWritten (f : Field) : Xml → Prop :=
  Node "field" (derived cc cfg.fieldName f.info.derivedFrom)
    (dims oc cc cfg f.dim? ++
    [name cc "name" cfg.fieldName f.info.name,
     may f.info.description (plain "description"),
     bits oc cfg f.info.bitRange,
     may f.info.access (word "access" accessSpelling),
     may f.info.modifiedWriteValues (word "modifiedWriteValues" modifiedWriteValuesSpelling),
     may f.info.writeConstraint constraint,
     may f.info.readAction (word "readAction" readActionSpelling),
     each (EnumsWritten cc cfg) f.info.enumeratedValues])

/-- The fields of a register in the order asked for; nothing for an empty list. -/
def fields (l : List Field) : Part := fun cs =>
  (l = [] ∧ cs = []) ∨
  (l ≠ [] ∧ ∃ l', PlacedDerivable oc (fun f : Field => f.info.bitRange.offset.toNat) (fun f => f.info.name)
      (fun f => f.info.derivedFrom ≠ none ∨ ∃ e ∈ f.info.enumeratedValues, e.derivedFrom ≠ none)
      cfg.fieldSorting l l' ∧
    one (Node "fields" bare [each (FieldWritten oc cc cfg) l']) cs)

def RegisterWritten (r : Register) : Xml → Prop :=
  Node "register" (derived cc cfg.registerName r.info.derivedFrom)
    (dims oc cc cfg r.dim? ++
    [name cc "name" cfg.registerName r.info.name,
     may r.info.displayName (plain "displayName"),
     may r.info.description (plain "description"),
     may r.info.alternateGroup (plain "alternateGroup"),
     may r.info.alternateRegister (name cc "alternateRegister" cfg.registerName),
     number "addressOffset" cfg.registerAddressOffset r.info.addressOffset] ++
    properties cfg r.info.properties ++
    [may r.info.datatype (word "dataType" dataTypeSpelling),
     may r.info.modifiedWriteValues (word "modifiedWriteValues" modifiedWriteValuesSpelling),
     may r.info.writeConstraint constraint,
     may r.info.readAction (word "readAction" readActionSpelling),
     may r.info.fields (fields oc cc cfg)])

mutual
/-- The children of a cluster are written in their order, whatever the option. -/
def RcWritten : RegisterCluster → Xml → Prop
  | .register r => RegisterWritten oc cc cfg r
  | .cluster h d children =>
    Node "cluster" (derived cc cfg.clusterName h.derivedFrom)
      (dims oc cc cfg d ++
      [name cc "name" cfg.clusterName h.name,
       may h.description (plain "description"),
       may h.alternateCluster (name cc "alternateCluster" cfg.clusterName),
       may h.headerStructName (plain "headerStructName"),
       number "addressOffset" cfg.clusterAddressOffset h.addressOffset] ++
      properties cfg h.defaultRegisterProperties ++
      [RcsWritten children])
def RcsWritten : List RegisterCluster → Part
  | [], l => l = []
  | c :: cs, l => ∃ x xs, RcWritten c x ∧ RcsWritten cs xs ∧ l = x :: xs
end

def BlockWritten (a : AddressBlock) : Xml → Prop :=
  Node "addressBlock" bare
    [number "offset" cfg.addressBlockOffset a.offset,
     number "size" cfg.addressBlockSize a.size,
     word "usage" addressBlockUsageSpelling a.usage,
     may a.protection (word "protection" protectionSpelling)]

def InterruptWritten (i : Interrupt) : Xml → Prop :=
  Node "interrupt" bare
    [name cc "name" cfg.interruptName i.name,
     may i.description (plain "description"),
     number "value" .dec i.value]

def PeripheralWritten (p : Peripheral) : Xml → Prop :=
  Node "peripheral" (derived cc cfg.peripheralName p.info.derivedFrom)
    (dims oc cc cfg p.dim? ++
    [name cc "name" cfg.peripheralName p.info.name,
     may p.info.displayName (plain "displayName"),
     may p.info.version (plain "version"),
     may p.info.description (plain "description"),
     may p.info.alternatePeripheral (name cc "alternatePeripheral" cfg.peripheralName),
     may p.info.groupName (plain "groupName"),
     may p.info.prependToName (name cc "prependToName" cfg.peripheralName),
     may p.info.appendToName (name cc "appendToName" cfg.peripheralName),
     may p.info.headerStructName (name cc "headerStructName" cfg.peripheralName),
     number "baseAddress" cfg.peripheralBaseAddress p.info.baseAddress] ++
    properties cfg p.info.defaultRegisterProperties ++
    [may p.info.addressBlock (each (BlockWritten cfg)),
     each (InterruptWritten cc cfg) p.info.interrupt,
     may p.info.registers fun l => one fun x => ∃ l', PlacedRc oc cfg.registerClusterSorting l l' ∧
       Node "registers" bare [each (RcWritten oc cc cfg) l'] x])

def CpuWritten (c : Cpu) : Xml → Prop :=
  Node "cpu" bare
    [plain "name" c.name,
     plain "revision" c.revision,
     word "endian" endianSpelling c.endian,
     flag "mpuPresent" c.mpuPresent,
     flag "fpuPresent" c.fpuPresent,
     may c.fpuDoublePrecision (flag "fpuDP"),
     may c.dspPresent (flag "dspPresent"),
     may c.icachePresent (flag "icachePresent"),
     may c.dcachePresent (flag "dcachePresent"),
     may c.itcmPresent (flag "itcmPresent"),
     may c.dtcmPresent (flag "dtcmPresent"),
     may c.vtorPresent (flag "vtorPresent"),
     number "nvicPrioBits" .dec c.nvicPriorityBits,
     flag "vendorSystickConfig" c.hasVendorSystick,
     may c.deviceNumInterrupts (number "deviceNumInterrupts" .dec),
     may c.sauNumRegions (number "sauNumRegions" .dec)]

def DeviceWritten (d : Device) : Xml → Prop :=
  Node "device" (fun as => as =
      [("schemaVersion", d.schemaVersion), ("xmlns:xs", d.xmlnsXs),
       ("xs:noNamespaceSchemaLocation", d.noNamespaceSchemaLocation)])
    ([may d.vendor (plain "vendor"),
      may d.vendorId (plain "vendorID"),
      plain "name" d.name,
      may d.series (plain "series"),
      plain "version" d.version,
      plain "description" d.description,
      may d.licenseText (plain "licenseText"),
      may d.cpu (fun c => one (CpuWritten c)),
      may d.headerSystemFilename (plain "headerSystemFilename"),
      may d.headerDefinitionsPrefix (plain "headerDefinitionsPrefix"),
      number "addressUnitBits" .dec d.addressUnitBits,
      number "width" .dec d.width] ++
     properties cfg d.defaultRegisterProperties ++
     [one fun x => ∃ l, PlacedDerivable oc (fun p : Peripheral => p.info.baseAddress.toNat)
        (fun p => p.info.name) (fun p => p.info.derivedFrom ≠ none) cfg.peripheralSorting d.peripherals l ∧
        Node "peripherals" bare [each (PeripheralWritten oc cc cfg) l] x])

end

end Svd.Written
