import Verif.Model.Xml
import Verif.Spec.Num
import Verif.Spec.Str
import Verif.Spec.Dim
import Verif.Spec.Name
import Verif.Spec.Keywords
import Verif.Spec.Valid

/-!
# What an error says about the node it is attached to

`Blame lvl x e`: the message `e` is true of the node `x`, and the level `lvl` demands what is violated.
-/

namespace Svd.Spec

/-- The node reached from `x` by the child positions `r`. -/
inductive AtPath : Xml → List Nat → Xml → Prop where
  | self (x : Xml) : AtPath x [] x
  | child {x c y : Xml} {i : Nat} {r : List Nat} : x.children[i]? = some c → AtPath c r y → AtPath x (i :: r) y

/-- The text of the element, without the whitespace around it. -/
def ReadsText (x : Xml) (s : Str) : Prop := ∃ t, x.textOf = some t ∧ IsTrimmed t s

/-- The element holds the number `v` of at most `w` bits. -/
def ReadsNumber (w : Nat) (x : Xml) (v : Nat) : Prop := ∃ s, ReadsText x s ∧ IntLiteral s v ∧ v < 2 ^ w

/-- The element holds the truth value true. -/
def ReadsTrue (x : Xml) : Prop := ReadsText x "true".toList ∨ ReadsText x "1".toList

/-- The first child with this name has the text `s`. -/
def ChildText (x : Xml) (k : String) (s : Str) : Prop := ∃ c, x.getChild k = some c ∧ ReadsText c s

/-- The first child with this name holds the number `v`. -/
def ChildNumber (w : Nat) (x : Xml) (k : String) (v : Nat) : Prop :=
  ∃ c, x.getChild k = some c ∧ ReadsNumber w c v

/-- Elements that can be arrays. -/
def arrayTags : List String := ["peripheral", "cluster", "register", "field"]

/-- Elements with register properties. -/
def propertyElements : List String := ["device", "peripheral", "cluster", "register"]

/-- The children that an element has to have. -/
def requiredChildren : List (String × List String) :=
  [("device", ["name", "peripherals"]),
   ("cpu", ["name", "revision", "endian", "mpuPresent", "fpuPresent", "nvicPrioBits", "vendorSystickConfig"]),
   ("peripheral", ["name", "baseAddress"]),
   ("addressBlock", ["offset", "size", "usage"]),
   ("interrupt", ["name", "value"]),
   ("cluster", ["name", "addressOffset"]),
   ("register", ["name", "addressOffset"]),
   ("field", ["name"]),
   ("enumeratedValue", ["name"]),
   ("range", ["minimum", "maximum"])]

/-- The element has to have a child `k`. -/
def Requires (x : Xml) (k : String) : Prop :=
  (∃ ks, (x.tag, ks) ∈ requiredChildren ∧ k ∈ ks) ∨
    (x.tag ∈ arrayTags ∧ k = "dim" ∧ x.getChild "dimIncrement" ≠ none)

/-- Elements that hold a number, and its number of bits. -/
def numberTags : List (String × Nat) :=
  [("size", 32), ("resetValue", 64), ("resetMask", 64), ("dim", 32), ("dimIncrement", 32),
   ("value", 64), ("value", 32), ("minimum", 64), ("maximum", 64), ("addressOffset", 32), ("offset", 32),
   ("baseAddress", 64), ("nvicPrioBits", 32), ("deviceNumInterrupts", 32), ("sauNumRegions", 32),
   ("addressUnitBits", 32), ("width", 32)]

/-- Elements that hold a truth value. -/
def boolTags : List String :=
  ["mpuPresent", "fpuPresent", "fpuDP", "dspPresent", "icachePresent", "dcachePresent", "itcmPresent",
   "dtcmPresent", "vtorPresent", "vendorSystickConfig", "writeAsRead", "useEnumeratedValues"]

/-- Elements that hold a keyword. -/
def keywordTags : List String :=
  ["access", "endian", "usage", "protection", "readAction", "modifiedWriteValues", "dataType"]

/-- Elements that have to have a text. -/
def valueTags : List String := numberTags.map (·.1) ++ boolTags ++ keywordTags ++ ["dimIndex"]

/-- The element `tag` has the text `s`, which is not one of these words. -/
def WrongWord {α : Type} (x : Xml) (tag : String) (table : List (String × α)) (s : Str) : Prop :=
  x.tag = tag ∧ ReadsText x s ∧ ∀ p ∈ table, p.1.toList ≠ s

/-- The text `[m:l]`; a second colon and what follows it are ignored by the reader. -/
def RangeText (t : Str) (m l : Nat) : Prop :=
  ∃ p q rest, t = '[' :: (p ++ ':' :: q ++ rest) ++ [']'] ∧ (rest = [] ∨ ∃ r', rest = ':' :: r') ∧
    DecNumber p m ∧ DecNumber q l

/-- The field gives the bits `l ..= m` by a text or by two elements. -/
inductive GivesBits (x : Xml) (m l : Nat) : Prop where
  | text {r t} : x.getChild "bitRange" = some r → r.textOf = some t → RangeText t m l → GivesBits x m l
  | elements : x.getChild "bitRange" = none → ChildNumber 32 x "msb" m → ChildNumber 32 x "lsb" l →
      GivesBits x m l

/-- The field has neither of these notations. -/
def NoBits (x : Xml) : Prop :=
  x.getChild "bitRange" = none ∧ (x.getChild "lsb" = none ∨ x.getChild "msb" = none)

/-- The number of bits of a field (0 for all `2 ^ 32` bits). -/
inductive FieldWidth (x : Xml) (w : Nat) : Prop where
  | bits {m l} : GivesBits x m l → l ≤ m → w = (m - l + 1) % 2 ^ 32 → FieldWidth x w
  | width : NoBits x → ChildNumber 32 x "bitWidth" w → FieldWidth x w

/-- What is wrong with the bits of a field. -/
def BadRange (x : Xml) : InvalidBitRange → Prop
  | .empty => ∃ r, x.getChild "bitRange" = some r ∧ r.textOf = none
  | .syntax =>
    (∃ r t, x.getChild "bitRange" = some r ∧ r.textOf = some t ∧
      ¬ ∃ p q, t = '[' :: (p ++ ':' :: q) ++ [']']) ∨
    (NoBits x ∧ (x.getChild "bitOffset" = none ∨ x.getChild "bitWidth" = none))
  | .parseError =>
    (∃ r t, x.getChild "bitRange" = some r ∧ r.textOf = some t ∧ (∃ i, t = '[' :: i ++ [']']) ∧
      ¬ ∃ m l, RangeText t m l) ∨
    (NoBits x ∧ ∃ o w, x.getChild "bitOffset" = some o ∧ x.getChild "bitWidth" = some w ∧
      ¬ ((∃ v, ReadsNumber 32 o v) ∧ ∃ v, ReadsNumber 32 w v))
  | .msbLsb =>
    x.getChild "bitRange" = none ∧ ∃ l m, x.getChild "lsb" = some l ∧ x.getChild "msb" = some m ∧
      ¬ ((∃ v, ReadsNumber 32 l v) ∧ ∃ v, ReadsNumber 32 m v)
  | .size => ∃ m l, m < l ∧ GivesBits x m l

/-- Where the language of the name is that of plain names. -/
def plainNames : List (String × String) :=
  [("enumeratedValue", "name"), ("enumeratedValues", "name"), ("register", "alternateGroup")]

/-- Where the name can have a placeholder. -/
def dimableNames : List (String × String) :=
  [("field", "name"), ("register", "name"), ("register", "alternateRegister"), ("cluster", "name"),
   ("peripheral", "name")]

/-- The name `s` given under `k` is not allowed. -/
inductive BadName (x : Xml) (k : String) (s : Str) : Prop where
  | plain : (x.tag, k) ∈ plainNames → ChildText x k s → ¬ PlainName s → BadName x k s
  | dimable : (x.tag, k) ∈ dimableNames → ChildText x k s → ¬ DimableName s → BadName x k s
  | derived {d : Str} {l : List Str} : x.tag ∈ ["cluster", "register", "field", "enumeratedValues"] →
      k = "derivedFrom" → x.attr k = some d → d = joinWith ['.'] l → s ∈ l → ¬ DimableName s →
      ¬ DerivedName d → BadName x k s
  | derivedPeripheral : x.tag = "peripheral" → k = "derivedFrom" → x.attr k = some s → ¬ DimableName s →
      BadName x k s

/-- The group of enumerated values can be meant for this use alone. -/
def MayBe (u : String) (g : Xml) : Prop := g.attr "derivedFrom" ≠ none ∨ ChildText g "usage" u.toList

/-- The groups of enumerated values of a field. -/
def valueGroups (x : Xml) : List Xml := x.children.filter (Xml.hasTag "enumeratedValues")

/-- A write constraint by range. -/
def ConstraintRange (x : Xml) (lo hi : Nat) : Prop :=
  ∃ w r, x.getChild "writeConstraint" = some w ∧ w.getChild "range" = some r ∧
    ChildNumber 64 r "minimum" lo ∧ ChildNumber 64 r "maximum" hi

/-- No element inside. -/
def NoElements (x : Xml) : Prop := ∀ c ∈ x.children, c.isElement = false

/-- The message is true of the node. -/
def Blame (lvl : ValidateLevel) (x : Xml) : Err → Prop
  | .missingTag k => Requires x k ∧
      (x.getChild k = none ∨ (k = "name" ∨ k = "revision") ∧ ∀ c, x.getChild k = some c → c.textOf = none)
  | .emptyTag t => x.tag = t ∧ t ∈ valueTags ∧ x.textOf = none
  | .parseInt _ => (∃ s, ReadsText x s) ∧ ∃ w, (x.tag, w) ∈ numberTags ∧ ∀ v, ¬ ReadsNumber w x v
  | .invalidBooleanValue s => x.tag ∈ boolTags ∧ ReadsText x s ∧
      s ∉ ["true".toList, "1".toList, "false".toList, "0".toList]
  | .unknownAccessType s => WrongWord x "access" accessSpelling s
  | .unknownEndian s => WrongWord x "endian" endianSpelling s
  | .invalidProtection s => WrongWord x "protection" protectionSpelling s
  | .invalidReadAction s => WrongWord x "readAction" readActionSpelling s
  | .invalidModifiedWriteValues s => WrongWord x "modifiedWriteValues" modifiedWriteValuesSpelling s
  | .invalidDatatype s => WrongWord x "dataType" dataTypeSpelling s
  | .unknownUsageVariant => ∃ s, WrongWord x "usage" usageSpelling s
  | .unknownAddressBlockUsageVariant => ∃ s, WrongWord x "usage" addressBlockUsageSpelling s
  | .notExpectedTag t => t ∈ ["enumeratedValue", "field", "peripheral"] ∧ x.isElement = true ∧ x.tag ≠ t
  | .invalidRegisterCluster t =>
      x.isElement = true ∧ x.tag = t ∧ t ≠ "register" ∧ t ≠ "cluster"
  | .invalidBitRange k => x.tag = "field" ∧ BadRange x k
  | .unknownWriteConstraint => x.tag = "writeConstraint" ∧
      ∃ c, x.children.filter Xml.isElement = [c] ∧ c.tag ∉ ["writeAsRead", "useEnumeratedValues", "range"]
  | .moreThanOneWriteConstraint => x.tag = "writeConstraint" ∧ 2 ≤ (x.children.filter Xml.isElement).length
  | .incorrectDimIndexesCount e f => x.tag ∈ arrayTags ∧ ChildNumber 32 x "dim" e ∧
      (∃ s l, ChildText x "dimIndex" s ∧ IndexText s l ∧ l.length = f) ∧ e ≠ f
  | .dimIndexParse => x.tag = "dimIndex" ∧ ∃ s, ReadsText x s ∧ ¬ ∃ l, IndexText s l
  | .missingPlaceholder s t => x.tag = t ∧ t ∈ arrayTags ∧ x.getChild "dimIncrement" ≠ none ∧
      ChildText x "name" s ∧ ¬ ∃ a b, s = a ++ "%s".toList ++ b
  | .uninitialized k => lvl = .strict ∧ x.tag = "device" ∧
      (k ∈ ["version", "description"] ∧ (∀ s, ¬ ChildText x k s) ∨
        k ∈ ["addressUnitBits", "width"] ∧ x.getChild k = none)
  | .invalidName s k => lvl = .strict ∧ BadName x k s
  | .emptyDevice => lvl ≠ .disabled ∧ x.tag = "device" ∧ ∃ c, x.getChild "peripherals" = some c ∧ NoElements c
  | .emptyRegisters => lvl = .strict ∧ x.tag = "peripheral" ∧ x.attr "derivedFrom" = none ∧
      ∃ c, x.getChild "registers" = some c ∧ NoElements c
  | .emptyFields => lvl = .strict ∧ x.tag = "register" ∧ x.attr "derivedFrom" = none ∧
      ∃ c, x.getChild "fields" = some c ∧ NoElements c
  | .emptyCluster => lvl = .strict ∧ x.tag = "cluster" ∧ x.attr "derivedFrom" = none ∧
      ∀ c ∈ x.children, c.hasTag "register" = false ∧ c.hasTag "cluster" = false
  | .zeroWidth => lvl ≠ .disabled ∧ x.tag = "field" ∧ FieldWidth x 0
  | .incompatibleEnumeratedValues => lvl = .strict ∧ x.tag = "field" ∧
      (3 ≤ (valueGroups x).length ∨ ∃ a b, valueGroups x = [a, b] ∧
        ¬ (MayBe "read" a ∧ MayBe "write" b ∨ MayBe "read" b ∧ MayBe "write" a))
  | .enumAbsentValue => lvl ≠ .disabled ∧ x.tag = "enumeratedValue" ∧ x.getChild "value" = none ∧
      ∀ c, x.getChild "isDefault" = some c → ¬ ReadsTrue c
  | .enumValueAndDefault v => lvl = .strict ∧ x.tag = "enumeratedValue" ∧
      (∃ n, v = some n ∧ ChildNumber 64 x "value" n.toNat) ∧
      ∃ c, x.getChild "isDefault" = some c ∧ ReadsTrue c
  | .enumOutOfRange v lo hi => lvl ≠ .disabled ∧ x.tag = "field" ∧ lo.toNat = 0 ∧
      (∃ w, FieldWidth x w ∧ w < 64 ∧ hi.toNat = 2 ^ w) ∧ hi.toNat ≤ v.toNat ∧
      ∃ g ∈ valueGroups x, ∃ c ∈ g.children, c.hasTag "enumeratedValue" = true ∧
        ChildNumber 64 c "value" v.toNat
  | .enumEmpty => lvl ≠ .disabled ∧ x.tag = "enumeratedValues" ∧ x.attr "derivedFrom" = none ∧
      ∀ c ∈ x.children, c.hasTag "enumeratedValue" = false
  | .resetValueTooLarge v s => lvl ≠ .disabled ∧ x.tag ∈ propertyElements ∧ ChildNumber 32 x "size" s.toNat ∧
      ChildNumber 64 x "resetValue" v.toNat ∧ 2 ^ s.toNat ≤ v.toNat
  | .resetMaskTooLarge m s => lvl = .strict ∧ x.tag ∈ propertyElements ∧ ChildNumber 32 x "size" s.toNat ∧
      ChildNumber 64 x "resetMask" m.toNat ∧ 2 ^ s.toNat ≤ m.toNat
  | .resetMaskConflict v m => lvl = .strict ∧ x.tag ∈ propertyElements ∧
      ChildNumber 64 x "resetValue" v.toNat ∧ ChildNumber 64 x "resetMask" m.toNat ∧
      ∃ i, v.toNat.testBit i = true ∧ m.toNat.testBit i = false
  | .wcReversedRange lo hi => lvl ≠ .disabled ∧ x.tag = "field" ∧ ConstraintRange x lo.toNat hi.toNat ∧
      hi.toNat < lo.toNat
  | .wcOutOfRange v lo hi => lvl ≠ .disabled ∧ x.tag = "field" ∧ lo.toNat = 0 ∧
      (∃ w, FieldWidth x w ∧ w < 64 ∧ hi.toNat = 2 ^ w) ∧ hi.toNat ≤ v.toNat ∧
      ∃ min max, ConstraintRange x min max ∧ min ≤ max ∧
        (v.toNat = min ∨ min < hi.toNat ∧ v.toNat = max)
  | .selfDerived _ _ | .notFound _ _ | .enumsNotFound .. | .deserialize => False

end Svd.Spec
