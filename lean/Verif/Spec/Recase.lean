import Verif.Spec.RoundTrip
import Verif.Spec.Written

/-!
# A device with its identifiers renamed

One function for each kind of identifier.
-/

namespace Svd.Spec

/-- New names for the identifiers of each kind. -/
structure Renaming where
  peripheral : Str → Str := id
  interrupt : Str → Str := id
  cluster : Str → Str := id
  register : Str → Str := id
  field : Str → Str := id
  enums : Str → Str := id
  value : Str → Str := id
  headerEnum : Str → Str := id

/-- The renaming is what the configuration asks for: each kind of identifier has its own format; `cc` stands for
the conversion. -/
structure Converts (cc : IdentifierFormat → Str → Str) (cfg : EncConfig) (r : Renaming) : Prop where
  peripheral : ∀ s, Written.Renamed cc cfg.peripheralName s (r.peripheral s)
  interrupt : ∀ s, Written.Renamed cc cfg.interruptName s (r.interrupt s)
  cluster : ∀ s, Written.Renamed cc cfg.clusterName s (r.cluster s)
  register : ∀ s, Written.Renamed cc cfg.registerName s (r.register s)
  field : ∀ s, Written.Renamed cc cfg.fieldName s (r.field s)
  enums : ∀ s, Written.Renamed cc cfg.enumeratedValuesName s (r.enums s)
  value : ∀ s, Written.Renamed cc cfg.enumeratedValueName s (r.value s)
  headerEnum : ∀ s, Written.Renamed cc cfg.dimArrayIndexHeaderEnumName s (r.headerEnum s)

namespace Renaming

variable (r : Renaming)

def onValue (e : EnumeratedValue) : EnumeratedValue := { e with name := r.value e.name }

/-- A reference to other enumerated values is renamed as a whole, whatever path it has. -/
def onEnums (e : EnumeratedValues) : EnumeratedValues :=
  { e with name := e.name.map r.enums, derivedFrom := e.derivedFrom.map r.enums, values := e.values.map r.onValue }

/-- The indexes and the name of an array type stay. -/
def onDim (d : DimElement) : DimElement :=
  { d with dimArrayIndex := d.dimArrayIndex.map fun a =>
      { headerEnumName := a.headerEnumName.map r.headerEnum, values := a.values.map r.onValue } }

def onArray {α : Type} (f : α → α) : MaybeArray α → MaybeArray α
  | .single i => .single (f i)
  | .array i d => .array (f i) (r.onDim d)

def onFieldInfo (f : FieldInfo) : FieldInfo :=
  { f with name := r.field f.name, derivedFrom := f.derivedFrom.map r.field,
           enumeratedValues := f.enumeratedValues.map r.onEnums }

def onField : Field → Field := r.onArray r.onFieldInfo

/-- The display name and the alternate group stay. -/
def onRegisterInfo (i : RegisterInfo) : RegisterInfo :=
  { i with name := r.register i.name, alternateRegister := i.alternateRegister.map r.register,
           derivedFrom := i.derivedFrom.map r.register, fields := i.fields.map fun l => l.map r.onField }

def onRegister : Register → Register := r.onArray r.onRegisterInfo

/-- The name of the structure of a cluster stays. -/
def onHead (h : ClusterHead) : ClusterHead :=
  { h with name := r.cluster h.name, alternateCluster := h.alternateCluster.map r.cluster,
           derivedFrom := h.derivedFrom.map r.cluster }

mutual
def onRc : RegisterCluster → RegisterCluster
  | .register x => .register (r.onRegister x)
  | .cluster h d cs => .cluster (r.onHead h) (d.map r.onDim) (onRcs cs)
def onRcs : List RegisterCluster → List RegisterCluster
  | [] => []
  | c :: cs => onRc c :: onRcs cs
end

def onInterrupt (i : Interrupt) : Interrupt := { i with name := r.interrupt i.name }

/-- The name of the structure of a peripheral and what is put around the names of its registers are renamed like
peripherals; the display name and the group stay. -/
def onPeripheralInfo (p : PeripheralInfo) : PeripheralInfo :=
  { p with name := r.peripheral p.name, alternatePeripheral := p.alternatePeripheral.map r.peripheral,
           prependToName := p.prependToName.map r.peripheral, appendToName := p.appendToName.map r.peripheral,
           headerStructName := p.headerStructName.map r.peripheral, derivedFrom := p.derivedFrom.map r.peripheral,
           interrupt := p.interrupt.map r.onInterrupt, registers := p.registers.map r.onRcs }

def onPeripheral : Peripheral → Peripheral := r.onArray r.onPeripheralInfo

/-- The device keeps its own name. -/
def onDevice (d : Device) : Device := { d with peripherals := d.peripherals.map r.onPeripheral }

end Renaming

end Svd.Spec
