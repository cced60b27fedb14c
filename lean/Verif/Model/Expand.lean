import Verif.Model.Path
import Verif.Model.Dim
import Verif.Model.Derive
import Verif.Model.Iter

/-!
# Index and expansion (svd-parser/src/expand.rs:243-723)

The hash maps are association lists with the newest entry first.  The functions that follow
`derivedFrom` references recurse without a bound in the source; they take a fuel argument here and
return `diverge` when it is used up.
-/

namespace Svd

/-- svd-parser/src/expand.rs:244-250. -/
structure Index where
  peripherals : List (BlockPath × Peripheral) := []
  clusters : List (BlockPath × Cluster) := []
  registers : List (RegisterPath × Register) := []
  fields : List (FieldPath × Field) := []
  evs : List (EnumPath × EnumeratedValues) := []

/-- `HashMap::get`. -/
def mapGet {κ α : Type} [DecidableEq κ] (m : List (κ × α)) (k : κ) : Option α :=
  (m.find? fun p => p.1 == k).map (·.2)

namespace Index

/-- svd-parser/src/expand.rs:318-322 and 327-331: the named enumerated values of a field. -/
def addEvs (ix : Index) (fpath : FieldPath) : List EnumeratedValues → Index
  | [] => ix
  | e :: es =>
    match e.name with
    | some n => addEvs { ix with evs := (fpath.newEnum n, e) :: ix.evs } fpath es
    | none => addEvs ix fpath es

/-- svd-parser/src/expand.rs:317-323 = 326-332: one name of a field. -/
def addFieldAs (ix : Index) (path : RegisterPath) (f : Field) (name : Str) : Index :=
  let fpath := path.newField name
  let ix := ix.addEvs fpath f.info.enumeratedValues
  { ix with fields := (fpath, f) :: ix.fields }

/-- The names under which an element is indexed: the instance names of an array (`names(info, dim)`),
then the name itself. -/
def indexNames (name : Str) (dim : Option DimElement) : M (List Str) :=
  match dim with
  | some d => do
    let ns ← names name d
    .ok (ns ++ [name])
  | none => .ok [name]

/-- svd-parser/src/expand.rs:314-333 `add_field`. -/
def addField (ix : Index) (path : RegisterPath) (f : Field) : M Index := do
  let ns ← indexNames f.info.name f.dim?
  .ok (ns.foldl (fun ix n => ix.addFieldAs path f n) ix)

/-- svd-parser/src/expand.rs:301-305 = 308-312: one name of a register. -/
def addRegisterAs (ix : Index) (path : BlockPath) (r : Register) (name : Str) : M Index := do
  let rpath := path.newRegister name
  let ix ← r.info.fieldList.foldlM (fun ix f => addField ix rpath f) ix
  .ok { ix with registers := (rpath, r) :: ix.registers }

/-- svd-parser/src/expand.rs:298-313 `add_register`. -/
def addRegister (ix : Index) (path : BlockPath) (r : Register) : M Index := do
  let ns ← indexNames r.info.name r.dim?
  ns.foldlM (fun ix n => addRegisterAs ix path r n) ix

/-- `for r in c.registers() { self.add_register(&path, r) }` (svd-parser/src/expand.rs:257-259,
267-269, 280-282, 290-292). -/
def addRegisters (path : BlockPath) : Index → List RegisterCluster → M Index
  | ix, [] => .ok ix
  | ix, .register r :: cs => do
    let ix ← addRegister ix path r
    addRegisters path ix cs
  | ix, .cluster .. :: cs => addRegisters path ix cs

mutual
/-- svd-parser/src/expand.rs:276-297 `add_cluster`, for a child that is a cluster (a register is
skipped: it is handled by `addRegisters`). -/
def addCluster (path : BlockPath) : RegisterCluster → Index → M Index
  | .register _, ix => .ok ix
  | .cluster h d cs, ix => do
    let ns ← indexNames h.name d
    ns.foldlM (fun ix n => do
      let cpath := path.newCluster n
      let ix ← addRegisters cpath ix cs
      let ix ← addClusters cpath cs ix
      .ok { ix with clusters := (cpath, MaybeArray.mk' { h with children := cs } d) :: ix.clusters }) ix
/-- `for c in c.clusters() { self.add_cluster(&path, c) }` (svd-parser/src/expand.rs:260-262, 270-272,
283-285, 293-295). -/
def addClusters (path : BlockPath) : List RegisterCluster → Index → M Index
  | [], ix => .ok ix
  | c :: cs, ix => do
    let ix ← addCluster path c ix
    addClusters path cs ix
end

/-- svd-parser/src/expand.rs:256-263 = 266-273: one name of a peripheral. -/
def addPeripheralAs (ix : Index) (p : Peripheral) (name : Str) : M Index := do
  let path := BlockPath.new name
  let ix ← addRegisters path ix p.info.children
  let ix ← addClusters path p.info.children ix
  .ok { ix with peripherals := (path, p) :: ix.peripherals }

/-- svd-parser/src/expand.rs:253-274 `add_peripheral`. -/
def addPeripheral (ix : Index) (p : Peripheral) : M Index := do
  let ns ← indexNames p.info.name p.dim?
  ns.foldlM (fun ix n => addPeripheralAs ix p n) ix

/-- svd-parser/src/expand.rs:335-341 `create`.  (In the source the instance names of an array are
produced lazily, between the insertions; the only visible effect of producing one is a panic.) -/
def create (d : Device) : M Index :=
  d.peripherals.foldlM (fun ix p => addPeripheral ix p) {}

end Index

/-! ## Following references -/

/-- svd-parser/src/expand.rs:631-653 `derive_peripheral`. -/
def derivePeripheral (ix : Index) : Nat → Peripheral → Str → M (Peripheral × Option BlockPath)
  | 0, _, _ => .error .diverge
  | n + 1, p, dpath =>
    if dpath = p.info.name then fail (.selfDerived "peripheral" dpath)
    else do
      let derpath := BlockPath.new dpath
      let d ← okOr (mapGet ix.peripherals derpath) (.notFound "peripheral" dpath)
      let path := if p.info.registers.isNone then some derpath else none
      let p := Peripheral.deriveFrom p d
      match d.info.derivedFrom with
      | some dpath => derivePeripheral ix n p dpath
      | none => .ok (p, path)

/-- svd-parser/src/expand.rs:385-418 `derive_cluster`. -/
def deriveCluster (ix : Index) : Nat → Cluster → Str → BlockPath → M (Cluster × Option BlockPath)
  | 0, _, _, _ => .error .diverge
  | n + 1, c, dpath, path => do
    let pd ← BlockPath.parseStr dpath
    let dname := pd.2
    let rdpath := pd.1.getD path
    let clusterPath := rdpath.newCluster dname
    if rdpath = path ∧ dname = c.info.name then fail (.selfDerived "cluster" clusterPath.display)
    else do
      let d ← okOr (mapGet ix.clusters clusterPath) (.notFound "cluster" dpath)
      let cpath := if c.info.children.isEmpty then some clusterPath else none
      let c := Cluster.deriveFrom c d
      match d.info.derivedFrom with
      | some dpath => deriveCluster ix n c dpath rdpath
      | none => .ok (c, cpath)

/-- svd-parser/src/expand.rs:420-453 `derive_register`. -/
def deriveRegister (ix : Index) : Nat → Register → Str → BlockPath → M (Register × Option RegisterPath)
  | 0, _, _, _ => .error .diverge
  | n + 1, r, dpath, path => do
    let pd ← RegisterPath.parseStr dpath
    let dname := pd.2
    let rdpath := pd.1.getD path
    let regPath := rdpath.newRegister dname
    if rdpath = path ∧ dname = r.info.name then fail (.selfDerived "register" regPath.display)
    else do
      let d ← okOr (mapGet ix.registers regPath) (.notFound "register" dpath)
      let rpath := if r.info.fields.isNone then some regPath else none
      let r := Register.deriveFrom r d
      match d.info.derivedFrom with
      | some dpath => deriveRegister ix n r dpath rdpath
      | none => .ok (r, rpath)

/-- svd-parser/src/expand.rs:455-488 `derive_field`. -/
def deriveField (ix : Index) : Nat → Field → Str → RegisterPath → M (Field × Option FieldPath)
  | 0, _, _, _ => .error .diverge
  | n + 1, f, dpath, rpath => do
    let pd ← FieldPath.parseStr dpath
    let dname := pd.2
    let rdpath := pd.1.getD rpath
    let fieldPath := rdpath.newField dname
    if rdpath = rpath ∧ dname = f.info.name then fail (.selfDerived "field" fieldPath.display)
    else do
      let d ← okOr (mapGet ix.fields fieldPath) (.notFound "field" dpath)
      let fpath := if f.info.enumeratedValues.isEmpty then some fieldPath else none
      let f := Field.deriveFrom f d
      match d.info.derivedFrom with
      | some dpath => deriveField ix n f dpath rdpath
      | none => .ok (f, fpath)

/-- svd-parser/src/expand.rs:578-588: a bare name is looked up in the fields of the same register, in
order. -/
def findEnumInRegister (ix : Index) (rdpath : RegisterPath) (dname : Str) :
    Option (EnumeratedValues × EnumPath) :=
  match mapGet ix.registers rdpath with
  | none => none
  | some r =>
    r.info.fieldList.findSome? fun f =>
      let epath := (rdpath.newField f.info.name).newEnum dname
      (mapGet ix.evs epath).map fun d => (d, epath)

/-- svd-parser/src/expand.rs:593-607: the field a dotted reference (without its last component) points
to; `v` is not empty. -/
def enumFieldPath (fpath : FieldPath) (v : List Str) : M FieldPath :=
  match v.getLast? with
  | none => panics .unwrap
  | some fdname =>
    if v.dropLast.isEmpty then .ok (fpath.register.newField fdname)
    else do
      let pr ← RegisterPath.parseVec v.dropLast
      match pr.1 with
      | some b => .ok ((b.newRegister pr.2).newField fdname)
      | none => .ok ((fpath.register.block.newRegister pr.2).newField fdname)

/-- svd-parser/src/expand.rs:574-613: resolve a reference to enumerated values. -/
def resolveEnum (ix : Index) (ev : EnumeratedValues) (dpath : Str) (fpath : FieldPath) :
    M (Option (EnumeratedValues × EnumPath)) :=
  match (splitOn '.' dpath).getLast? with
  | none => panics .unwrap
  | some dname =>
    let v := (splitOn '.' dpath).dropLast
    if v.isEmpty then .ok (findEnumInRegister ix fpath.register dname)
    else do
      let fdpath ← enumFieldPath fpath v
      if fdpath = fpath ∧ some dname = ev.name then
        fail (.selfDerived "enumeratedValues" (fpath.display ++ ['.'] ++ dname))
      else
        let epath := fdpath.newEnum dname
        .ok ((mapGet ix.evs epath).map fun d => (d, epath))

/-- svd-parser/src/expand.rs:565-629 `derive_enumerated_values`. -/
def deriveEnumeratedValues (ix : Index) :
    Nat → EnumeratedValues → Str → FieldPath → M (EnumeratedValues × EnumPath)
  | 0, _, _, _ => .error .diverge
  | n + 1, ev, dpath, fpath =>
    if some dpath = ev.name then fail (.selfDerived "enumeratedValues" (fpath.display ++ ['.'] ++ dpath))
    else do
      match ← resolveEnum ix ev dpath fpath with
      | none => fail (.enumsNotFound dpath fpath.register.block.peripheral fpath.register.block.path
          fpath.register.name fpath.name)
      | some (d, epath) =>
        let ev := ev.deriveFrom d
        match d.derivedFrom with
        | some dpath => deriveEnumeratedValues ix n ev dpath epath.field
        | none => .ok (ev, epath)

/-! ## Expansion -/

/-- svd-parser/src/expand.rs:546-551: one enumerated values group. -/
def expandEv (ix : Index) (fuel : Nat) (fpath : FieldPath) (ev : EnumeratedValues) :
    M EnumeratedValues :=
  match ev.derivedFrom with
  | some dpath => do
    let r ← deriveEnumeratedValues ix fuel { ev with derivedFrom := none } dpath fpath
    .ok r.1
  | none => .ok ev

/-- svd-parser/src/expand.rs:533-563 `expand_field`: the fields it appends. -/
def expandField (oc : Bool) (ix : Index) (fuel : Nat) (rpath : RegisterPath) (f : Field) :
    M (List Field) := do
  let ff ← (match f.info.derivedFrom with
    | some dpath =>
      deriveField ix fuel (f.mapInfo fun i => { i with derivedFrom := none }) dpath rpath
    | none => .ok (f, none) : M (Field × Option FieldPath))
  let f := ff.1
  let fpath := ff.2.getD (rpath.newField f.info.name)
  let evs ← f.info.enumeratedValues.mapM (expandEv ix fuel fpath)
  match f.mapInfo fun i => { i with enumeratedValues := evs } with
  | .single i => .ok [.single i]
  | .array i d => do
    let l ← FieldInfo.expand oc i d
    .ok (l.map .single)

/-- svd-parser/src/expand.rs:503-531 `expand_register_array`: what it appends. -/
def expandRegisterArray (oc : Bool) (ix : Index) (fuel : Nat) (path : BlockPath) (r : Register) :
    M (List RegisterCluster) := do
  let rr ← (match r.info.derivedFrom with
    | some dpath =>
      deriveRegister ix fuel (r.mapInfo fun i => { i with derivedFrom := none }) dpath path
    | none => .ok (r, none) : M (Register × Option RegisterPath))
  let r := rr.1
  let rpath := rr.2.getD (path.newRegister r.info.name)
  let fields ← (match r.info.fields with
    | some fs => do
      let l ← fs.mapM (expandField oc ix fuel rpath)
      .ok (some l.flatten)
    | none => .ok none : M (Option (List Field)))
  match r.mapInfo fun i => { i with fields := fields } with
  | .single i => .ok [.register (.single i)]
  | .array i d => do
    let l ← RegisterInfo.expand oc i d
    .ok (l.map fun i => .register (.single i))

/-- svd-parser/src/expand.rs:492-499: one child of an expanded cluster. -/
def flattenChild (oc : Bool) (c : ClusterInfo) (rc : RegisterCluster) : M RegisterCluster :=
  match rc with
  | .cluster .. => panics .unreachable
  | .register r => do
    let off ← addC oc r.info.addressOffset c.addressOffset
    .ok (.register (r.mapInfo fun i =>
      { i with name := c.name ++ ['_'] ++ i.name, addressOffset := off }))

/-- svd-parser/src/expand.rs:490-501 `expand_cluster`: what it appends. -/
def expandCluster (oc : Bool) (c : ClusterInfo) : M (List RegisterCluster) :=
  c.children.mapM (flattenChild oc c)

/-- svd-parser/src/expand.rs:374-381: all instances of a cluster whose children are expanded.
(`cluster::expand` is lazy: instance `i` is flattened before instance `i + 1` is computed.) -/
def flattenCluster (oc : Bool) (c : Cluster) : M (List RegisterCluster) :=
  match c with
  | .single i => expandCluster oc i
  | .array i d => do
    let l ← (List.range d.dim.toNat).mapM fun k => do
      let ci ← i.expandAt oc d k
      expandCluster oc ci
    .ok l.flatten

/-- svd-parser/src/expand.rs:344-383 `expand_register_cluster` and `expand_cluster_array`: what they
append. -/
def expandRC (oc : Bool) (ix : Index) : Nat → BlockPath → RegisterCluster → M (List RegisterCluster)
  | 0, _, _ => .error .diverge
  | n + 1, path, .register r => expandRegisterArray oc ix (n + 1) path r
  | n + 1, path, .cluster h d cs => do
    let c : Cluster := MaybeArray.mk' { h with derivedFrom := none, children := cs } d
    let cc ← (match h.derivedFrom with
      | some dpath => deriveCluster ix (n + 1) c dpath path
      | none => .ok (c, none) : M (Cluster × Option BlockPath))
    let c := cc.1
    let cpath := cc.2.getD (path.newCluster c.info.name)
    let l ← c.info.children.mapM (expandRC oc ix n cpath)
    flattenCluster oc (c.mapInfo fun i => { i with children := l.flatten })

/-- svd-parser/src/expand.rs:663-685: one peripheral. -/
def expandPeripheral (oc : Bool) (ix : Index) (fuel : Nat) (p : Peripheral) : M (List Peripheral) := do
  let pp ← (match p.info.derivedFrom with
    | some dpath => derivePeripheral ix fuel (p.mapInfo fun i => { i with derivedFrom := none }) dpath
    | none => .ok (p, none) : M (Peripheral × Option BlockPath))
  let p := pp.1
  let path := pp.2.getD (BlockPath.new p.info.name)
  let registers ← (match p.info.registers with
    | some rs => do
      let l ← rs.mapM (expandRC oc ix fuel path)
      .ok (some l.flatten)
    | none => .ok none : M (Option (List RegisterCluster)))
  match p.mapInfo fun i => { i with registers := registers } with
  | .single i => .ok [.single i]
  | .array i d => do
    let l ← PeripheralInfo.expand oc i d
    .ok (l.map .single)

/-- svd-parser/src/expand.rs:657-688 `expand`. -/
def expand (oc : Bool) (fuel : Nat) (d : Device) : M Device := do
  let ix ← Index.create d
  let l ← d.peripherals.mapM (expandPeripheral oc ix fuel)
  .ok { d with peripherals := l.flatten }

/-! ## Property expansion -/

/-- svd-parser/src/expand.rs:715-720: a register. -/
def expandPropertiesRegister (dflt : RegisterProperties) (r : Register) : Register :=
  if r.info.derivedFrom.isSome then r
  else r.mapInfo fun i => { i with properties := i.properties.deriveFrom dflt }

mutual
/-- svd-parser/src/expand.rs:707-721: one child. -/
def expandPropertiesRC (dflt : RegisterProperties) : RegisterCluster → RegisterCluster
  | .register r => .register (expandPropertiesRegister dflt r)
  | .cluster h d cs =>
    if h.derivedFrom.isSome then .cluster h d cs
    else .cluster h d (expandPropertiesRCs (h.defaultRegisterProperties.deriveFrom dflt) cs)
/-- svd-parser/src/expand.rs:705-723 `expand_properties_registers`. -/
def expandPropertiesRCs (dflt : RegisterProperties) : List RegisterCluster → List RegisterCluster
  | [] => []
  | c :: cs => expandPropertiesRC dflt c :: expandPropertiesRCs dflt cs
end

/-- svd-parser/src/expand.rs:694-702: one peripheral. -/
def expandPropertiesPeripheral (dflt : RegisterProperties) (p : Peripheral) : Peripheral :=
  if p.info.derivedFrom.isSome then p
  else p.mapInfo fun i =>
    { i with registers :=
        i.registers.map (expandPropertiesRCs (i.defaultRegisterProperties.deriveFrom dflt)) }

/-- svd-parser/src/expand.rs:692-703 `expand_properties`. -/
def expandProperties (d : Device) : Device :=
  { d with peripherals := d.peripherals.map (expandPropertiesPeripheral d.defaultRegisterProperties) }

end Svd
