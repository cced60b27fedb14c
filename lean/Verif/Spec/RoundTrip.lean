import Verif.Model.Config
import Verif.Model.Xml
import Verif.Spec.Str
import Verif.Spec.Lists
import Verif.Spec.Sort
import Verif.Spec.Valid
import Verif.Spec.Parts
import Verif.Spec.Layout
import Verif.Spec.Read

/-!
# What can be written to a file and read back, and what comes back

The conditions are about what the file format can express: texts survive only without whitespace
around them, an index list only if its entries contain no separators, and so on.
-/

namespace Svd.Spec

/-! ## Which devices can be expressed -/

/-- A text that the format keeps: something without whitespace around it. -/
def Text (s : Str) : Prop := s ≠ [] ∧ IsTrimmed s s

/-- The text, if there is one. -/
def OptText (o : Option Str) : Prop := ∀ s, o = some s → Text s

def EnumValueFits (e : EnumeratedValue) : Prop := Text e.name ∧ OptText e.description

def EnumsFits (e : EnumeratedValues) : Prop := OptText e.name ∧ ∀ v ∈ e.values, EnumValueFits v

/-- An array description: as many indexes as elements, without the separators of the notation, not only
an empty one, and without whitespace around the list; not both ends of the 32-bit range (see `NotBothEnds`); the values of the array index valid. -/
structure DimFits (lvl : ValidateLevel) (d : DimElement) : Prop where
  index : ∀ l, d.dimIndex = some l → l ≠ [] ∧ l ≠ [[]] ∧ l.length = d.dim.toNat ∧
    (∀ p ∈ l, '-' ∉ p ∧ ',' ∉ p) ∧ OuterClean l
  ends : NotBothEnds d
  name : OptText d.dimName
  array : ∀ a, d.dimArrayIndex = some a → OptText a.headerEnumName ∧
    ∀ v ∈ a.values, EnumValueFits v ∧ EnumValueValid v lvl

/-- An array has the place for the index in its name. -/
def ArrayFits (lvl : ValidateLevel) (name : Str) (d : Option DimElement) : Prop :=
  ∀ x, d = some x → (∃ a b, name = a ++ "%s".toList ++ b) ∧ DimFits lvl x

structure FieldFits (lvl : ValidateLevel) (f : Field) : Prop where
  name : Text f.info.name
  description : OptText f.info.description
  range : WritableRange f.info.bitRange
  enums : ∀ e ∈ f.info.enumeratedValues, EnumsFits e
  array : ArrayFits lvl f.info.name f.dim?

structure RegisterFits (lvl : ValidateLevel) (r : Register) : Prop where
  name : Text r.info.name
  displayName : OptText r.info.displayName
  description : OptText r.info.description
  alternateGroup : OptText r.info.alternateGroup
  alternateRegister : OptText r.info.alternateRegister
  /-- No fields and an empty list of fields cannot be told apart. -/
  nonempty : r.info.fields ≠ some []
  fields : ∀ l, r.info.fields = some l → ∀ f ∈ l, FieldFits lvl f
  array : ArrayFits lvl r.info.name r.dim?

structure ClusterHeadFits (h : ClusterHead) : Prop where
  name : Text h.name
  description : OptText h.description
  alternateCluster : OptText h.alternateCluster
  headerStructName : OptText h.headerStructName

mutual
def RcFits (lvl : ValidateLevel) : RegisterCluster → Prop
  | .register r => RegisterFits lvl r
  | .cluster h d cs => ClusterHeadFits h ∧ ArrayFits lvl h.name d ∧ RcsFits lvl cs
def RcsFits (lvl : ValidateLevel) : List RegisterCluster → Prop
  | [] => True
  | c :: cs => RcFits lvl c ∧ RcsFits lvl cs
end

structure PeripheralFits (lvl : ValidateLevel) (p : Peripheral) : Prop where
  name : Text p.info.name
  displayName : OptText p.info.displayName
  version : OptText p.info.version
  description : OptText p.info.description
  alternatePeripheral : OptText p.info.alternatePeripheral
  groupName : OptText p.info.groupName
  prependToName : OptText p.info.prependToName
  appendToName : OptText p.info.appendToName
  headerStructName : OptText p.info.headerStructName
  /-- No address blocks and an empty list of them cannot be told apart. -/
  nonempty : p.info.addressBlock ≠ some []
  interrupts : ∀ i ∈ p.info.interrupt, Text i.name ∧ OptText i.description
  registers : ∀ l, p.info.registers = some l → RcsFits lvl l
  array : ArrayFits lvl p.info.name p.dim?

/-- A device that can be written and read back at the level. -/
structure Expressible (lvl : ValidateLevel) (d : Device) : Prop where
  vendor : OptText d.vendor
  vendorId : OptText d.vendorId
  name : Text d.name
  series : OptText d.series
  version : Text d.version
  /-- Below level Strict an empty description is what a missing one is read as. -/
  description : Text d.description ∨ (d.description = [] ∧ lvl ≠ .strict)
  licenseText : OptText d.licenseText
  cpu : ∀ c, d.cpu = some c → Text c.name ∧ Text c.revision
  headerSystemFilename : OptText d.headerSystemFilename
  headerDefinitionsPrefix : OptText d.headerDefinitionsPrefix
  peripherals : ∀ p ∈ d.peripherals, PeripheralFits lvl p
  valid : DeviceValid d lvl ∧ ∀ p, DeviceHas d p → p.Valid lvl

/-! ## What is read -/

/-- `y` is what the XML reader may return for a file written from `x` and laid out in any way:
indentation, comments, and so on (see `Layout`). -/
def Reread (x y : Xml) : Prop := Layout (asRead x) y

/-! ## What comes back -/

/-- The configuration keeps names as they are. -/
structure KeepsNames (cfg : EncConfig) : Prop where
  peripheral : cfg.peripheralName = none
  interrupt : cfg.interruptName = none
  cluster : cfg.clusterName = none
  register : cfg.registerName = none
  field : cfg.fieldName = none
  enumeratedValues : cfg.enumeratedValuesName = none
  enumeratedValue : cfg.enumeratedValueName = none
  headerEnum : cfg.dimArrayIndexHeaderEnumName = none

/-- `l'` has the elements of `l`, in the order `ord`.  When the key asks for descending offsets the
order is only demanded if all offsets are below 2^31 (the encoder gets it wrong otherwise, see
C29). -/
def Arranged {α : Type} (key : Option Sorting) (off : α → Nat) (ord : List α → List α → Prop)
    (l l' : List α) : Prop :=
  l'.Perm l ∧ ((key = some .offsetReversed → ∀ a ∈ l, off a < 2 ^ 31) → ord l l')

/-- The field in the notation asked for. -/
def inNotation (n : Option BitRangeType) (f : FieldInfo) : FieldInfo :=
  { f with bitRange := { f.bitRange with rangeType := n.getD f.bitRange.rangeType } }

/-- The fields in the order and notation asked for. -/
inductive FieldsPresented (cfg : EncConfig) : Option (List Field) → Option (List Field) → Prop
  | none : FieldsPresented cfg none none
  | some {l l' : List Field} :
      Arranged (sortingOf cfg.fieldSorting) (fun f => f.info.bitRange.offset.toNat)
        (OrderedDerivable (fun f => f.info.bitRange.offset.toNat) (fun f => f.info.name)
          (fun f => f.info.derivedFrom.isSome ||
            f.info.enumeratedValues.any fun ev => ev.derivedFrom.isSome) cfg.fieldSorting) l l' →
      FieldsPresented cfg (some l) (some (l'.map (·.mapInfo (inNotation cfg.fieldBitRange))))

mutual
/-- The register or cluster with its fields in the order and notation asked for; the children of a
cluster stay in order. -/
inductive RcPresented (cfg : EncConfig) : RegisterCluster → RegisterCluster → Prop
  | register {r : Register} {fs : Option (List Field)} : FieldsPresented cfg r.info.fields fs →
      RcPresented cfg (.register r) (.register (r.mapInfo fun i => { i with fields := fs }))
  | cluster {h d cs cs'} : RcsPresented cfg cs cs' → RcPresented cfg (.cluster h d cs) (.cluster h d cs')
inductive RcsPresented (cfg : EncConfig) : List RegisterCluster → List RegisterCluster → Prop
  | nil : RcsPresented cfg [] []
  | cons {c c' cs cs'} : RcPresented cfg c c' → RcsPresented cfg cs cs' →
      RcsPresented cfg (c :: cs) (c' :: cs')
end

/-- The registers and clusters of a peripheral in the order asked for. -/
inductive RegistersPresented (cfg : EncConfig) :
    Option (List RegisterCluster) → Option (List RegisterCluster) → Prop
  | none : RegistersPresented cfg none none
  | some {l l' l'' : List RegisterCluster} :
      Arranged (rcSortingOf cfg.registerClusterSorting) (fun r => r.addressOffset.toNat)
        (OrderedRc (fun r => r.addressOffset.toNat) (fun r => r.name) (fun r => r.derivedFrom.isSome)
          cfg.registerClusterSorting) l l' →
      RcsPresented cfg l' l'' → RegistersPresented cfg (some l) (some l'')

/-- The peripheral, its registers and its fields in the order and notation asked for. -/
inductive PeripheralPresented (cfg : EncConfig) : Peripheral → Peripheral → Prop
  | mk {p : Peripheral} {rs : Option (List RegisterCluster)} :
      RegistersPresented cfg p.info.registers rs →
      PeripheralPresented cfg p (p.mapInfo fun i => { i with registers := rs })

/-- The device, with everything in the order and notation asked for and no other difference. -/
def Presented (cfg : EncConfig) (d d' : Device) : Prop :=
  ∃ l ps, Arranged (sortingOf cfg.peripheralSorting) (fun p : Peripheral => p.info.baseAddress.toNat)
      (OrderedDerivable (fun p => p.info.baseAddress.toNat) (fun p => p.info.name)
        (fun p => p.info.derivedFrom.isSome) cfg.peripheralSorting) d.peripherals l ∧
    Pairs (PeripheralPresented cfg) l ps ∧ d' = { d with peripherals := ps }

end Svd.Spec
