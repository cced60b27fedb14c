import Verif.Model.Iter

/-!
# Mutable iterators and lookups

A mutable reference into a tree is a place in the tree; using it is reading and writing at the place.
`f` is what the caller does with each reference, with a state `σ` of its own.
-/

namespace Svd

/-- The index of a child, the index of a child of this child, and so on. -/
abbrev Place := List Nat

/-- What a place refers to. -/
def nodeAt : List RegisterCluster → Place → Option RegisterCluster
  | _, [] => none
  | t, [i] => t[i]?
  | t, i :: p => match t[i]? with
    | some (.cluster _ _ cs) => nodeAt cs p
    | _ => none

/-- Writing through a place. -/
def putAt : List RegisterCluster → Place → RegisterCluster → List RegisterCluster
  | t, [], _ => t
  | t, [i], c => t.set i c
  | t, i :: p, c => match t[i]? with
    | some (.cluster h d cs) => t.set i (.cluster h d (putAt cs p c))
    | _ => t

/-- svd-rs/src/registercluster.rs:154-171 `AllRegistersIterMut::next`: the reference and the remaining stack
(top at the head, as in `allRegistersNext`).  The outer `none` is a loop that does not end. -/
def allRegistersNextMut (t : List RegisterCluster) (rem : List Place) :
    Option (Option (Place × Register × List Place)) :=
  match rem with
  | [] => some none
  | p :: rem => match nodeAt t p with
    | some (.register r) => some (some (p, r, rem))
    | some (.cluster _ _ cs) =>
      allRegistersNextMut t ((List.range cs.length).map (fun i => p ++ [i]) ++ rem)
    | none => some none
partial_fixpoint

/-- A loop over `AllRegistersIterMut` that does `f` with every register. -/
def loopAllMut {σ : Type} (f : Register → σ → Register × σ) (t : List RegisterCluster) (rem : List Place)
    (s : σ) : Option (List RegisterCluster × σ) := do
  match ← allRegistersNextMut t rem with
  | none => some (t, s)
  | some (p, r, rem) => loopAllMut f (putAt t p (.register (f r s).1)) rem (f r s).2
partial_fixpoint

/-- svd-rs/src/cluster.rs:290-301, peripheral.rs:476-490 `all_registers_mut`, `reg_iter_mut`, in a loop. -/
def forAllRegistersMut {σ : Type} (f : Register → σ → Register × σ) (t : List RegisterCluster) (s : σ) :
    Option (List RegisterCluster × σ) :=
  loopAllMut f t ((List.range t.length).map fun i => [i]) s

/-- svd-rs/src/registercluster.rs:82-91 `RegisterIterMut` (cluster.rs:310-315, peripheral.rs:430-438
`registers_mut`), in a loop. -/
def forRegistersMut {σ : Type} (f : Register → σ → Register × σ) :
    List RegisterCluster → σ → List RegisterCluster × σ
  | [], s => ([], s)
  | .register r :: cs, s =>
    let (r, s) := f r s
    let (cs, s) := forRegistersMut f cs s
    (.register r :: cs, s)
  | c :: cs, s =>
    let (cs, s) := forRegistersMut f cs s
    (c :: cs, s)

/-- svd-rs/src/registercluster.rs:114-123 `ClusterIterMut` (cluster.rs:324-329, peripheral.rs:450-458
`clusters_mut`), in a loop. -/
def forClustersMut {σ : Type} (f : Cluster → σ → Cluster × σ) :
    List RegisterCluster → σ → List RegisterCluster × σ
  | [], s => ([], s)
  | .cluster h d ch :: cs, s =>
    let (c, s) := f (MaybeArray.mk' { h with children := ch } d) s
    let (cs, s) := forClustersMut f cs s
    (.ofCluster c :: cs, s)
  | c :: cs, s =>
    let (cs, s) := forClustersMut f cs s
    (c :: cs, s)

/-- `iter_mut().find(p)` and `f` with the reference; `none` if there is none. -/
def findMut {α : Type} (p : α → Bool) (f : α → α) : List α → Option (List α)
  | [] => none
  | a :: l => if p a then some (f a :: l) else (findMut p f l).map (a :: ·)

/-- svd-rs/src/cluster.rs:336-339, peripheral.rs:497-500 `get_mut_register`. -/
def getMutRegister (name : Str) (f : Register → Register) :
    List RegisterCluster → Option (List RegisterCluster)
  | [] => none
  | .register r :: cs =>
    if r.info.name == name then some (.register (f r) :: cs)
    else (getMutRegister name f cs).map (.register r :: ·)
  | c :: cs => (getMutRegister name f cs).map (c :: ·)

/-- svd-rs/src/cluster.rs:346-349, peripheral.rs:507-510 `get_mut_cluster`. -/
def getMutCluster (name : Str) (f : Cluster → Cluster) :
    List RegisterCluster → Option (List RegisterCluster)
  | [] => none
  | .cluster h d ch :: cs =>
    if h.name == name then some (.ofCluster (f (MaybeArray.mk' { h with children := ch } d)) :: cs)
    else (getMutCluster name f cs).map (.cluster h d ch :: ·)
  | c :: cs => (getMutCluster name f cs).map (c :: ·)

/-- svd-rs/src/peripheral.rs:517-520 `get_mut_interrupt`. -/
def PeripheralInfo.getMutInterrupt (p : PeripheralInfo) (name : Str) (f : Interrupt → Interrupt) :
    Option PeripheralInfo :=
  (findMut (fun i => i.name == name) f p.interrupt).map fun l => { p with interrupt := l }

/-- svd-rs/src/device.rs:403-406 `get_mut_peripheral`. -/
def Device.getMutPeripheral (d : Device) (name : Str) (f : Peripheral → Peripheral) : Option Device :=
  (findMut (fun p => p.info.name == name) f d.peripherals).map fun l => { d with peripherals := l }

/-- svd-rs/src/register.rs:406-422 `fields_mut`, `get_mut_field`. -/
def RegisterInfo.getMutField (r : RegisterInfo) (name : Str) (f : Field → Field) : Option RegisterInfo :=
  match r.fields with
  | some l => (findMut (fun p => p.info.name == name) f l).map fun l => { r with fields := some l }
  | none => none

/-- svd-rs/src/enumeratedvalues.rs:182-185 `get_mut_value`. -/
def EnumeratedValues.getMutValue (e : EnumeratedValues) (name : Str) (f : EnumeratedValue → EnumeratedValue) :
    Option EnumeratedValues :=
  (findMut (fun v => v.name == name) f e.values).map fun l => { e with values := l }

/-- svd-rs/src/field.rs:395-404 `get_mut_enumerated_values`. -/
def FieldInfo.getMutEnumeratedValues (f : FieldInfo) (usage : Usage)
    (g : EnumeratedValues → EnumeratedValues) : Option FieldInfo :=
  if f.enumeratedValues.length = 1 ∨ f.enumeratedValues.length = 2 then
    (findMut (fun ev => ev.usageOf == some usage) g f.enumeratedValues).map fun l =>
      { f with enumeratedValues := l }
  else none

end Svd
