import Verif.Spec.Chain
import Verif.Spec.Lists

/-! # The same reference, spelled in two ways

A field, register or cluster beside the one that refers to it can be referred to by its name alone or by
its full path; a group of enumerated values in another field of the register by the names from the field
on, from the register on, or by its full path. -/

namespace Svd.Spec

/-- The same reference, written at `home`: both spellings point to the same place.  (`none`: it is not
known where the reference will be read, and it must be written in the same way.) -/
def SameRef {κ : Type} (points : κ → Str → κ → Str → Prop) (home : Option κ) (a b : Option Str) : Prop :=
  a = b ∨ ∃ k s s' q n, home = some k ∧ a = some s ∧ b = some s' ∧ points k s q n ∧ points k s' q n

section
variable (N : Str → Prop)

/-- The same group of enumerated values, its reference perhaps spelled in another way.  `N` holds for the
name of the group and not for a reference spelled in another way: a reference equal to the name of the
group is taken for the group itself before it is read as a path. -/
def EnumSpelled (home : Option FieldPath) (e e' : EnumeratedValues) : Prop :=
  ∃ s, SameRef EnumRef home e.derivedFrom s ∧ e' = { e with derivedFrom := s } ∧
    (∀ n, e.name = some n → N n) ∧
    (e.derivedFrom ≠ s → ∀ t, e.derivedFrom = some t ∨ s = some t → ¬ N t)

/-- The same field, the references of it and its enumerated values perhaps spelled in another way.  In an
array, or in a field that has a reference itself, those of the enumerated values are spelled as before. -/
def FieldSpelled (home : Option RegisterPath) (f f' : Field) : Prop :=
  ∃ s es, SameRef FieldRef home f.info.derivedFrom s ∧
    f' = f.mapInfo (fun i => { i with derivedFrom := s, enumeratedValues := es }) ∧
    Pairs (EnumSpelled N (if f.info.derivedFrom = none ∧ f.dim? = none then
      home.map fun q => ⟨q, f.info.name⟩ else none)) f.info.enumeratedValues es

/-- The same fields, if any. -/
def FieldsSpelled (home : Option RegisterPath) : Option (List Field) → Option (List Field) → Prop
  | none, none => True
  | some l, some l' => Pairs (FieldSpelled N home) l l'
  | _, _ => False

/-- The same register, the references of it and its fields perhaps spelled in another way.  In an array,
or in a register that has a reference itself, those of the fields are spelled as before. -/
def RegisterSpelled (home : Option BlockPath) (r r' : Register) : Prop :=
  ∃ s fs, SameRef BlockRef home r.info.derivedFrom s ∧
    r' = r.mapInfo (fun i => { i with derivedFrom := s, fields := fs }) ∧
    FieldsSpelled N (if r.info.derivedFrom = none ∧ r.dim? = none then home.map fun b => ⟨b, r.info.name⟩
      else none) r.info.fields fs

mutual
/-- The same register or cluster, the references of it and of everything in it perhaps spelled in
another way.  In an array, or in a cluster that has a reference itself, those of the children are spelled
as before. -/
def RcSpelled (home : Option BlockPath) : RegisterCluster → RegisterCluster → Prop
  | .register r, x => match x with
    | .register r' => RegisterSpelled N home r r'
    | .cluster .. => False
  | .cluster h d cs, x => match x with
    | .register _ => False
    | .cluster h' d' cs' => d' = d ∧ SameRef BlockRef home h.derivedFrom h'.derivedFrom ∧
        h' = { h with derivedFrom := h'.derivedFrom } ∧
        RcsSpelled (if h.derivedFrom = none ∧ d = none then
          home.map fun b => ⟨b.peripheral, b.path ++ [h.name]⟩ else none) cs cs'
/-- The same for a list. -/
def RcsSpelled (home : Option BlockPath) : List RegisterCluster → List RegisterCluster → Prop
  | [], x => x = []
  | c :: cs, x => match x with
    | [] => False
    | c' :: cs' => RcSpelled home c c' ∧ RcsSpelled home cs cs'
end

/-- The same registers and clusters, if any. -/
def ChildrenSpelled (home : Option BlockPath) :
    Option (List RegisterCluster) → Option (List RegisterCluster) → Prop
  | none, none => True
  | some l, some l' => RcsSpelled N home l l'
  | _, _ => False

/-- The same peripheral, the references in it perhaps spelled in another way.  In an array, or in a
peripheral that has a reference itself, they are spelled as before. -/
def PeripheralSpelled (p p' : Peripheral) : Prop :=
  ∃ rs, p' = p.mapInfo (fun i => { i with registers := rs }) ∧
    ChildrenSpelled N (if p.info.derivedFrom = none ∧ p.dim? = none then some ⟨p.info.name, []⟩ else none)
      p.info.registers rs

/-- The same device, references of enumerated values, fields, registers and
clusters perhaps spelled in another way. -/
def DeviceSpelled (d e : Device) : Prop :=
  ∃ ps, e = { d with peripherals := ps } ∧ Pairs (PeripheralSpelled N) d.peripherals ps

end

end Svd.Spec
