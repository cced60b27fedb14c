import Verif.Spec.Ground
import Verif.Props.Fails
import Verif.Props.Overflow

/-!
# C79: positions do not matter for whether and how expansion fails
-/

namespace Svd

open Spec

namespace Ground

/-! ## Outcomes -/

theorem map_bind {α β γ : Type} (x : M α) (f : α → M β) (g : β → γ) :
    (x >>= f).map g = x >>= fun a => (f a).map g := by
  cases x <;> rfl

theorem bind_map {α β γ : Type} (x : M α) (g : α → β) (f : β → M γ) :
    (x.map g) >>= f = x >>= fun a => f (g a) := by
  cases x <;> rfl

theorem bind_congr {α β : Type} {x : M α} {f g : α → M β} (h : ∀ a, f a = g a) : x >>= f = x >>= g := by
  cases x with
  | error e => rfl
  | ok a => exact h a

theorem mapM_map {α α' β β' : Type} {f : α → M β} {f' : α' → M β'} {g : α → α'} {k : β → β'} {l : List α}
    (h : ∀ a ∈ l, f' (g a) = (f a).map k) : (l.map g).mapM f' = (l.mapM f).map (List.map k) := by
  induction l with
  | nil => rfl
  | cons a l ih =>
    rw [List.map_cons, mapM_cons, mapM_cons, h a (by simp), ih fun a ha => h a (by simp [ha]), map_bind, bind_map]
    refine bind_congr fun b => ?_
    rw [map_bind, bind_map]
    rfl

theorem mapM_same {α β β' : Type} {f : α → M β} {f' : α → M β'} {k : β → β'} {l : List α}
    (h : ∀ a ∈ l, f' a = (f a).map k) : l.mapM f' = (l.mapM f).map (List.map k) := by
  have := mapM_map (g := id) h
  rwa [List.map_id] at this

theorem foldlM_map {α σ : Type} {f f' : σ → α → M σ} {k : σ → σ} {l : List α} (h : ∀ a ∈ l, ∀ s, f' (k s) a = (f s a).map k)
    (s : σ) : l.foldlM f' (k s) = (l.foldlM f s).map k := by
  induction l generalizing s with
  | nil => rfl
  | cons a l ih =>
    rw [List.foldlM_cons, List.foldlM_cons, h a (by simp), map_bind, bind_map]
    exact bind_congr fun s' => ih (fun a ha => h a (by simp [ha])) s'

theorem foldlM_map' {α α' σ : Type} {f : σ → α → M σ} {f' : σ → α' → M σ} {k : σ → σ} {g : α → α'} {l : List α}
    (h : ∀ a ∈ l, ∀ s, f' (k s) (g a) = (f s a).map k) (s : σ) :
    (l.map g).foldlM f' (k s) = (l.foldlM f s).map k := by
  induction l generalizing s with
  | nil => rfl
  | cons a l ih =>
    rw [List.map_cons, List.foldlM_cons, List.foldlM_cons, h a (by simp), map_bind, bind_map]
    exact bind_congr fun s' => ih (fun a ha => h a (by simp [ha])) s'

/-! ## Elements -/

theorem rcs_map (cs : List RegisterCluster) : groundRcs cs = cs.map groundRc := by
  induction cs with
  | nil => rfl
  | cons c cs ih => rw [groundRcs, ih, List.map_cons]

/-- A cluster. -/
def clusterInfo (c : ClusterInfo) : ClusterInfo := { c with addressOffset := 0, children := c.children.map groundRc }

/-- A cluster or an array of clusters. -/
def cluster : Cluster → Cluster := groundArray clusterInfo

/-- The index. -/
def index (ix : Index) : Index where
  peripherals := ix.peripherals.map fun p => (p.1, groundPeripheral p.2)
  clusters := ix.clusters.map fun p => (p.1, cluster p.2)
  registers := ix.registers.map fun p => (p.1, groundRegister p.2)
  fields := ix.fields.map fun p => (p.1, groundField p.2)
  evs := ix.evs

theorem info {α : Type} (f : α → α) (m : MaybeArray α) : (groundArray f m).info = f m.info := by cases m <;> rfl
theorem dim? {α : Type} (f : α → α) (m : MaybeArray α) : (groundArray f m).dim? = m.dim?.map groundDim := by
  cases m <;> rfl

theorem mapGet_map {κ α β : Type} [DecidableEq κ] (m : List (κ × α)) (g : α → β) (k : κ) :
    mapGet (m.map fun p => (p.1, g p.2)) k = (mapGet m k).map g := by
  unfold mapGet
  induction m with
  | nil => rfl
  | cons p m ih =>
    rw [List.map_cons, List.find?_cons, List.find?_cons]
    cases h : p.1 == k with
    | true => simp
    | false => simpa using ih

theorem okOr_map {α β : Type} (o : Option α) (g : α → β) (e : Err) : okOr (o.map g) e = (okOr o e).map g := by
  cases o <;> rfl

theorem nameAt_ground (n : Str) (d : DimElement) (k : Nat) : nameAt n (groundDim d) k = nameAt n d k := rfl
theorem descriptionAt_ground (n : Option Str) (d : DimElement) (k : Nat) :
    descriptionAt n (groundDim d) k = descriptionAt n d k := rfl
theorem names_ground (n : Str) (d : DimElement) : names n (groundDim d) = names n d := rfl

theorem indexNames_ground (n : Str) (d : Option DimElement) :
    Index.indexNames n (d.map groundDim) = Index.indexNames n d := by
  cases d <;> rfl

/-! ## The index -/

theorem addEvs_ground (ix : Index) (fp : FieldPath) (l : List EnumeratedValues) :
    (index ix).addEvs fp l = index (ix.addEvs fp l) := by
  induction l generalizing ix with
  | nil => rfl
  | cons e l ih =>
    unfold Index.addEvs
    cases e.name with
    | none => exact ih ix
    | some n => exact ih { ix with evs := (fp.newEnum n, e) :: ix.evs }

theorem addFieldAs_ground (ix : Index) (path : RegisterPath) (f : Field) (n : Str) :
    (index ix).addFieldAs path (groundField f) n = index (ix.addFieldAs path f n) := by
  unfold Index.addFieldAs
  have : (groundField f).info.enumeratedValues = f.info.enumeratedValues := by unfold groundField; rw [info]
  simp only [this, addEvs_ground]
  rfl

theorem addField_ground (ix : Index) (path : RegisterPath) (f : Field) :
    (index ix).addField path (groundField f) = (ix.addField path f).map index := by
  unfold Index.addField
  have h1 : (groundField f).info.name = f.info.name := by unfold groundField; rw [info]
  have h2 : (groundField f).dim? = f.dim?.map groundDim := dim? ..
  rw [h1, h2, indexNames_ground, map_bind]
  refine bind_congr fun ns => ?_
  have : ∀ ix, ns.foldl (fun ix n => ix.addFieldAs path (groundField f) n) (index ix) =
      index (ns.foldl (fun ix n => ix.addFieldAs path f n) ix) := by
    induction ns with
    | nil => exact fun _ => rfl
    | cons n ns ih =>
      intro ix
      rw [List.foldl_cons, List.foldl_cons, addFieldAs_ground]
      exact ih _
  rw [this]
  rfl

theorem fieldList_ground (r : Register) : (groundRegister r).info.fieldList = r.info.fieldList.map groundField := by
  unfold groundRegister RegisterInfo.fieldList
  rw [info]
  cases r.info.fields <;> rfl

theorem addRegisterAs_ground (ix : Index) (path : BlockPath) (r : Register) (n : Str) :
    (index ix).addRegisterAs path (groundRegister r) n = (ix.addRegisterAs path r n).map index := by
  unfold Index.addRegisterAs
  simp only []
  rw [fieldList_ground, foldlM_map' (f := fun ix f => Index.addField ix (path.newRegister n) f)
    fun f _ s => addField_ground s _ f, map_bind, bind_map]
  exact bind_congr fun _ => rfl

theorem addRegister_ground (ix : Index) (path : BlockPath) (r : Register) :
    (index ix).addRegister path (groundRegister r) = (ix.addRegister path r).map index := by
  unfold Index.addRegister
  have h1 : (groundRegister r).info.name = r.info.name := by unfold groundRegister; rw [info]
  have h2 : (groundRegister r).dim? = r.dim?.map groundDim := dim? ..
  rw [h1, h2, indexNames_ground, map_bind]
  exact bind_congr fun ns => foldlM_map (fun n _ s => addRegisterAs_ground s path r n) ix

theorem addRegisters_ground (path : BlockPath) (ix : Index) (cs : List RegisterCluster) :
    Index.addRegisters path (index ix) (cs.map groundRc) = (Index.addRegisters path ix cs).map index := by
  induction cs generalizing ix with
  | nil => rfl
  | cons c cs ih =>
    cases c with
    | cluster h d sub => exact ih ix
    | register r =>
      rw [List.map_cons]
      simp only [groundRc, Index.addRegisters]
      rw [addRegister_ground, bind_map, map_bind]
      exact bind_congr fun ix => ih ix

theorem mk'_ground (h : ClusterHead) (d : Option DimElement) (cs : List RegisterCluster) :
    MaybeArray.mk' ({ ({ h with addressOffset := 0 } : ClusterHead) with children := groundRcs cs } : ClusterInfo) (d.map groundDim) =
      cluster (MaybeArray.mk' { h with children := cs } d) := by
  rw [rcs_map]
  cases d <;> rfl

mutual
theorem addCluster_ground (path : BlockPath) : (c : RegisterCluster) → (ix : Index) →
    Index.addCluster path (groundRc c) (index ix) = (Index.addCluster path c ix).map index
  | .register _, _ => rfl
  | .cluster h d cs, ix => by
    simp only [groundRc, Index.addCluster]
    rw [indexNames_ground, map_bind]
    refine bind_congr fun ns => foldlM_map (fun n _ s => ?_) ix
    rw [rcs_map, addRegisters_ground, bind_map, map_bind]
    refine bind_congr fun s1 => ?_
    rw [← rcs_map, addClusters_ground _ cs, bind_map, map_bind]
    refine bind_congr fun s2 => ?_
    rw [mk'_ground]
    rfl
theorem addClusters_ground (path : BlockPath) : (cs : List RegisterCluster) → (ix : Index) →
    Index.addClusters path (groundRcs cs) (index ix) = (Index.addClusters path cs ix).map index
  | [], _ => rfl
  | c :: cs, ix => by
    simp only [groundRcs, Index.addClusters]
    rw [addCluster_ground path c, bind_map, map_bind]
    exact bind_congr fun s => addClusters_ground path cs s
end

theorem children_ground (p : Peripheral) : (groundPeripheral p).info.children = groundRcs p.info.children := by
  unfold groundPeripheral PeripheralInfo.children
  rw [info]
  cases p.info.registers <;> rfl

theorem addPeripheral_ground (ix : Index) (p : Peripheral) :
    (index ix).addPeripheral (groundPeripheral p) = (ix.addPeripheral p).map index := by
  unfold Index.addPeripheral
  have h1 : (groundPeripheral p).info.name = p.info.name := by unfold groundPeripheral; rw [info]
  have h2 : (groundPeripheral p).dim? = p.dim?.map groundDim := dim? ..
  rw [h1, h2, indexNames_ground, map_bind]
  refine bind_congr fun ns => foldlM_map (fun n _ s => ?_) ix
  unfold Index.addPeripheralAs
  simp only []
  rw [children_ground, rcs_map, addRegisters_ground, bind_map, map_bind]
  refine bind_congr fun s1 => ?_
  rw [← rcs_map, addClusters_ground, bind_map, map_bind]
  exact bind_congr fun _ => rfl

theorem create_ground (d : Device) : Index.create (ground d) = (Index.create d).map index := by
  unfold Index.create ground
  exact foldlM_map' (k := index) (fun p _ s => addPeripheral_ground s p) {}

/-! ## References -/

theorem deriveFrom_ground {α : Type} {nm : α → Str} {df : α → α → α} {f : α → α} (hn : ∀ i, nm (f i) = nm i)
    (hd : ∀ i o, df (f i) (f o) = f (df i o)) (a b : MaybeArray α) :
    MaybeArray.deriveFrom nm df (groundArray f a) (groundArray f b) = groundArray f (MaybeArray.deriveFrom nm df a b) := by
  cases a with
  | single i =>
    cases b with
    | single o => simp only [groundArray, MaybeArray.deriveFrom, hd]
    | array o d =>
      simp only [groundArray, MaybeArray.deriveFrom, hn, hd]
      split <;> rfl
  | array i d => cases b <;> simp only [groundArray, MaybeArray.deriveFrom, hd]

/-- The description of a field. -/
def fieldInfo (i : FieldInfo) : FieldInfo := { i with bitRange := { i.bitRange with offset := 0 } }
/-- The description of a register. -/
def registerInfo (i : RegisterInfo) : RegisterInfo :=
  { i with addressOffset := 0, fields := i.fields.map fun l => l.map groundField }
/-- The description of a peripheral. -/
def peripheralInfo (i : PeripheralInfo) : PeripheralInfo :=
  { i with baseAddress := 0, registers := i.registers.map groundRcs }

theorem field_derive (a b : Field) : Field.deriveFrom (groundField a) (groundField b) = groundField (Field.deriveFrom a b) :=
  deriveFrom_ground (nm := FieldInfo.name) (df := FieldInfo.deriveFrom) (f := fieldInfo) (fun _ => rfl) (fun _ _ => rfl) a b

theorem register_derive (a b : Register) :
    Register.deriveFrom (groundRegister a) (groundRegister b) = groundRegister (Register.deriveFrom a b) :=
  deriveFrom_ground (nm := RegisterInfo.name) (df := RegisterInfo.deriveFrom) (f := registerInfo) (fun _ => rfl) (fun i o => by
    simp only [RegisterInfo.deriveFrom, registerInfo]
    cases i.fields <;> rfl) a b

theorem cluster_derive (a b : Cluster) : Cluster.deriveFrom (cluster a) (cluster b) = cluster (Cluster.deriveFrom a b) :=
  deriveFrom_ground (nm := (fun c : ClusterInfo => c.name)) (df := ClusterInfo.deriveFrom) (f := clusterInfo) (fun _ => rfl) (fun i o => by
    simp only [ClusterInfo.deriveFrom, clusterInfo, List.isEmpty_map]
    split <;> rfl) a b

theorem peripheral_derive (a b : Peripheral) :
    Peripheral.deriveFrom (groundPeripheral a) (groundPeripheral b) = groundPeripheral (Peripheral.deriveFrom a b) :=
  deriveFrom_ground (nm := PeripheralInfo.name) (df := PeripheralInfo.deriveFrom) (f := peripheralInfo) (fun _ => rfl) (fun i o => by
    simp only [PeripheralInfo.deriveFrom, peripheralInfo]
    cases i.registers <;> rfl) a b

theorem derivePeripheral_ground (ix : Index) (n : Nat) (p : Peripheral) (s : Str) :
    derivePeripheral (index ix) n (groundPeripheral p) s =
      (derivePeripheral ix n p s).map fun x => (groundPeripheral x.1, x.2) := by
  induction n generalizing p s with
  | zero => rfl
  | succ n ih =>
    unfold derivePeripheral
    have h1 : (groundPeripheral p).info.name = p.info.name := by unfold groundPeripheral; rw [info]
    have h2 : (groundPeripheral p).info.registers.isNone = p.info.registers.isNone := by
      unfold groundPeripheral; rw [info]; cases p.info.registers <;> rfl
    rw [h1]
    split
    · rfl
    · simp only [h2]
      have h3 : mapGet (index ix).peripherals (BlockPath.new s) = (mapGet ix.peripherals (BlockPath.new s)).map groundPeripheral :=
        mapGet_map ..
      rw [h3, okOr_map, bind_map, map_bind]
      refine bind_congr fun d => ?_
      have h4 : (groundPeripheral d).info.derivedFrom = d.info.derivedFrom := by unfold groundPeripheral; rw [info]
      rw [peripheral_derive, h4]
      cases d.info.derivedFrom with
      | none => rfl
      | some s' => exact ih _ _

theorem deriveCluster_ground (ix : Index) (n : Nat) (c : Cluster) (s : Str) (path : BlockPath) :
    deriveCluster (index ix) n (cluster c) s path = (deriveCluster ix n c s path).map fun x => (cluster x.1, x.2) := by
  induction n generalizing c s path with
  | zero => rfl
  | succ n ih =>
    unfold deriveCluster
    rw [map_bind]
    refine bind_congr fun pd => ?_
    have h1 : (cluster c).info.name = c.info.name := by unfold cluster; rw [info]; rfl
    have h2 : (cluster c).info.children.isEmpty = c.info.children.isEmpty := by
      unfold cluster; rw [info]; exact List.isEmpty_map
    simp only [h1, h2]
    split
    · rfl
    · have h3 : ∀ k, mapGet (index ix).clusters k = (mapGet ix.clusters k).map cluster := fun k => mapGet_map ..
      rw [h3, okOr_map, bind_map, map_bind]
      refine bind_congr fun d => ?_
      have h4 : (cluster d).info.derivedFrom = d.info.derivedFrom := by unfold cluster; rw [info]; rfl
      rw [cluster_derive, h4]
      cases d.info.derivedFrom with
      | none => rfl
      | some s' => exact ih _ _ _

theorem deriveRegister_ground (ix : Index) (n : Nat) (r : Register) (s : Str) (path : BlockPath) :
    deriveRegister (index ix) n (groundRegister r) s path =
      (deriveRegister ix n r s path).map fun x => (groundRegister x.1, x.2) := by
  induction n generalizing r s path with
  | zero => rfl
  | succ n ih =>
    unfold deriveRegister
    rw [map_bind]
    refine bind_congr fun pd => ?_
    have h1 : (groundRegister r).info.name = r.info.name := by unfold groundRegister; rw [info]
    have h2 : (groundRegister r).info.fields.isNone = r.info.fields.isNone := by
      unfold groundRegister; rw [info]; cases r.info.fields <;> rfl
    simp only [h1, h2]
    split
    · rfl
    · have h3 : ∀ k, mapGet (index ix).registers k = (mapGet ix.registers k).map groundRegister := fun k => mapGet_map ..
      rw [h3, okOr_map, bind_map, map_bind]
      refine bind_congr fun d => ?_
      have h4 : (groundRegister d).info.derivedFrom = d.info.derivedFrom := by unfold groundRegister; rw [info]
      rw [register_derive, h4]
      cases d.info.derivedFrom with
      | none => rfl
      | some s' => exact ih _ _ _

theorem deriveField_ground (ix : Index) (n : Nat) (f : Field) (s : Str) (path : RegisterPath) :
    deriveField (index ix) n (groundField f) s path =
      (deriveField ix n f s path).map fun x => (groundField x.1, x.2) := by
  induction n generalizing f s path with
  | zero => rfl
  | succ n ih =>
    unfold deriveField
    rw [map_bind]
    refine bind_congr fun pd => ?_
    have h1 : (groundField f).info.name = f.info.name := by unfold groundField; rw [info]
    have h2 : (groundField f).info.enumeratedValues = f.info.enumeratedValues := by unfold groundField; rw [info]
    simp only [h1, h2]
    split
    · rfl
    · have h3 : ∀ k, mapGet (index ix).fields k = (mapGet ix.fields k).map groundField := fun k => mapGet_map ..
      rw [h3, okOr_map, bind_map, map_bind]
      refine bind_congr fun d => ?_
      have h4 : (groundField d).info.derivedFrom = d.info.derivedFrom := by unfold groundField; rw [info]
      rw [field_derive, h4]
      cases d.info.derivedFrom with
      | none => rfl
      | some s' => exact ih _ _ _

theorem findEnum_ground (ix : Index) (rp : RegisterPath) (n : Str) :
    findEnumInRegister (index ix) rp n = findEnumInRegister ix rp n := by
  unfold findEnumInRegister
  have h3 : mapGet (index ix).registers rp = (mapGet ix.registers rp).map groundRegister := mapGet_map ..
  rw [h3]
  cases mapGet ix.registers rp with
  | none => rfl
  | some r =>
    simp only [Option.map_some]
    rw [fieldList_ground, List.findSome?_map]
    congr 1
    funext f
    have h1 : (groundField f).info.name = f.info.name := by unfold groundField; rw [info]
    simp only [Function.comp_apply, h1]
    rfl

theorem resolveEnum_ground (ix : Index) (ev : EnumeratedValues) (s : Str) (fp : FieldPath) :
    resolveEnum (index ix) ev s fp = resolveEnum ix ev s fp := by
  unfold resolveEnum
  simp only [findEnum_ground]
  rfl

theorem deriveEnums_ground (ix : Index) (n : Nat) (ev : EnumeratedValues) (s : Str) (fp : FieldPath) :
    deriveEnumeratedValues (index ix) n ev s fp = deriveEnumeratedValues ix n ev s fp := by
  induction n generalizing ev s fp with
  | zero => rfl
  | succ n ih =>
    unfold deriveEnumeratedValues
    simp only [resolveEnum_ground, ih]

/-! ## Expansion -/

theorem offsetAt_ground (d : DimElement) (k : Nat) : offsetAt true 0 (groundDim d) k = .ok 0 := by
  simp [offsetAt, groundDim, mulC, addC, arith]

theorem baseAddressAt_ground (d : DimElement) (k : Nat) : baseAddressAt true 0 (groundDim d) k = .ok 0 := by
  simp [baseAddressAt, groundDim, mulC, addC, arith]

/-- Without checks arithmetic has a result. -/
theorem offsetAt_unchecked (o : U32) (d : DimElement) (k : Nat) : ∃ v, offsetAt false o d k = .ok v := by
  simp [offsetAt, mulC, addC, arith]

theorem baseAddressAt_unchecked (o : U64) (d : DimElement) (k : Nat) : ∃ v, baseAddressAt false o d k = .ok v := by
  simp [baseAddressAt, mulC, addC, arith]

theorem field_expandAt (i : FieldInfo) (d : DimElement) (k : Nat) :
    (fieldInfo i).expandAt true (groundDim d) k = (i.expandAt false d k).map fieldInfo := by
  unfold FieldInfo.expandAt
  rw [map_bind]
  refine bind_congr fun n => ?_
  rw [map_bind]
  refine bind_congr fun ds => ?_
  obtain ⟨v, hv⟩ := offsetAt_unchecked i.bitRange.offset d k
  have : (fieldInfo i).bitRange.offset = 0 := rfl
  rw [this, offsetAt_ground, hv]
  rfl

theorem register_expandAt (i : RegisterInfo) (d : DimElement) (k : Nat) :
    (registerInfo i).expandAt true (groundDim d) k = (i.expandAt false d k).map registerInfo := by
  unfold RegisterInfo.expandAt
  rw [map_bind]
  refine bind_congr fun x => ?_
  rw [map_bind]
  refine bind_congr fun n => ?_
  rw [map_bind]
  refine bind_congr fun ds => ?_
  obtain ⟨v, hv⟩ := offsetAt_unchecked i.addressOffset d k
  have : (registerInfo i).addressOffset = 0 := rfl
  rw [this, offsetAt_ground, hv]
  rfl

theorem cluster_expandAt (i : ClusterInfo) (d : DimElement) (k : Nat) :
    (clusterInfo i).expandAt true (groundDim d) k = (i.expandAt false d k).map clusterInfo := by
  unfold ClusterInfo.expandAt
  rw [map_bind]
  refine bind_congr fun n => ?_
  rw [map_bind]
  refine bind_congr fun ds => ?_
  obtain ⟨v, hv⟩ := offsetAt_unchecked i.addressOffset d k
  have : (clusterInfo i).addressOffset = 0 := rfl
  rw [this, offsetAt_ground, hv]
  rfl

theorem peripheral_expandAt (i : PeripheralInfo) (d : DimElement) (k : Nat) :
    (peripheralInfo i).expandAt true (groundDim d) k = (i.expandAt false d k).map peripheralInfo := by
  unfold PeripheralInfo.expandAt
  rw [map_bind]
  refine bind_congr fun x => ?_
  rw [map_bind]
  refine bind_congr fun n => ?_
  rw [map_bind]
  refine bind_congr fun ds => ?_
  obtain ⟨v, hv⟩ := baseAddressAt_unchecked i.baseAddress d k
  have : (peripheralInfo i).baseAddress = 0 := rfl
  rw [this, baseAddressAt_ground, hv]
  rfl

theorem expandField_ground (ix : Index) (n : Nat) (rp : RegisterPath) (f : Field) :
    expandField true (index ix) n rp (groundField f) = (expandField false ix n rp f).map (List.map groundField) := by
  unfold expandField
  have h1 : (groundField f).info.derivedFrom = f.info.derivedFrom := by unfold groundField; rw [info]
  have h2 : (match f.info.derivedFrom with
      | some dpath => deriveField (index ix) n ((groundField f).mapInfo fun i => { i with derivedFrom := none }) dpath rp
      | none => .ok (groundField f, none) : M (Field × Option FieldPath)) =
      (match f.info.derivedFrom with
        | some dpath => deriveField ix n (f.mapInfo fun i => { i with derivedFrom := none }) dpath rp
        | none => .ok (f, none) : M (Field × Option FieldPath)).map fun x => (groundField x.1, x.2) := by
    cases f.info.derivedFrom with
    | none => rfl
    | some s =>
      have : (groundField f).mapInfo (fun i => { i with derivedFrom := none }) =
          groundField (f.mapInfo fun i => { i with derivedFrom := none }) := by cases f <;> rfl
      simp only [this, deriveField_ground]
  rw [h1]
  refine Eq.trans (congrArg (· >>= _) h2) ?_
  rw [bind_map, map_bind]
  refine bind_congr fun ff => ?_
  simp only []
  have h3 : (groundField ff.1).info.enumeratedValues = ff.1.info.enumeratedValues := by unfold groundField; rw [info]
  have h4 : (groundField ff.1).info.name = ff.1.info.name := by unfold groundField; rw [info]
  have h5 : ∀ fp, expandEv (index ix) n fp = expandEv ix n fp := fun fp => by
    funext ev
    unfold expandEv
    cases ev.derivedFrom with
    | none => rfl
    | some s => simp only [deriveEnums_ground]
  rw [h3, h4, h5, map_bind]
  refine bind_congr fun evs => ?_
  cases ff.1 with
  | single i => rfl
  | array i d =>
    simp only [groundField, groundArray, MaybeArray.mapInfo]
    rw [map_bind]
    unfold FieldInfo.expand
    have h6 := mapM_same (l := List.range d.dim.toNat) (f := FieldInfo.expandAt false { i with enumeratedValues := evs } d)
      (f' := FieldInfo.expandAt true (fieldInfo { i with enumeratedValues := evs }) (groundDim d)) (k := fieldInfo)
      fun k _ => field_expandAt _ d k
    refine Eq.trans (congrArg (· >>= _) h6) ?_
    rw [bind_map]
    refine bind_congr fun l => ?_
    simp only [Except.map, List.map_map]
    rfl

theorem expandRegisterArray_ground (ix : Index) (n : Nat) (path : BlockPath) (r : Register) :
    expandRegisterArray true (index ix) n path (groundRegister r) =
      (expandRegisterArray false ix n path r).map (List.map groundRc) := by
  unfold expandRegisterArray
  have h1 : (groundRegister r).info.derivedFrom = r.info.derivedFrom := by unfold groundRegister; rw [info]
  have h2 : (match r.info.derivedFrom with
      | some dpath => deriveRegister (index ix) n ((groundRegister r).mapInfo fun i => { i with derivedFrom := none }) dpath path
      | none => .ok (groundRegister r, none) : M (Register × Option RegisterPath)) =
      (match r.info.derivedFrom with
        | some dpath => deriveRegister ix n (r.mapInfo fun i => { i with derivedFrom := none }) dpath path
        | none => .ok (r, none) : M (Register × Option RegisterPath)).map fun x => (groundRegister x.1, x.2) := by
    cases r.info.derivedFrom with
    | none => rfl
    | some s =>
      have : (groundRegister r).mapInfo (fun i => { i with derivedFrom := none }) =
          groundRegister (r.mapInfo fun i => { i with derivedFrom := none }) := by cases r <;> rfl
      simp only [this, deriveRegister_ground]
  rw [h1]
  refine Eq.trans (congrArg (· >>= _) h2) ?_
  rw [bind_map, map_bind]
  refine bind_congr fun rr => ?_
  simp only []
  have h3 : (groundRegister rr.1).info.fields = rr.1.info.fields.map fun l => l.map groundField := by
    unfold groundRegister; rw [info]
  have h4 : (groundRegister rr.1).info.name = rr.1.info.name := by unfold groundRegister; rw [info]
  rw [h3, h4]
  have h5 : ∀ rp, (match rr.1.info.fields.map fun l => l.map groundField with
      | some fs => do
        let l ← fs.mapM (expandField true (index ix) n rp)
        .ok (some l.flatten)
      | none => .ok none : M (Option (List Field))) =
      (match rr.1.info.fields with
      | some fs => do
        let l ← fs.mapM (expandField false ix n rp)
        .ok (some l.flatten)
      | none => .ok none : M (Option (List Field))).map fun o => o.map fun l => l.map groundField := by
    intro rp
    cases rr.1.info.fields with
    | none => rfl
    | some fs =>
      simp only [Option.map_some]
      rw [mapM_map fun f _ => expandField_ground ix n rp f, bind_map, map_bind]
      refine bind_congr fun l => ?_
      simp only [Except.map, Option.map_some, List.map_flatten]
  refine Eq.trans (congrArg (· >>= _) (h5 _)) ?_
  rw [bind_map, map_bind]
  refine bind_congr fun fs => ?_
  cases rr.1 with
  | single i => rfl
  | array i d =>
    simp only [groundRegister, groundArray, MaybeArray.mapInfo]
    rw [map_bind]
    unfold RegisterInfo.expand
    have h6 := mapM_same (l := List.range d.dim.toNat) (f := RegisterInfo.expandAt false { i with fields := fs } d)
      (f' := RegisterInfo.expandAt true (registerInfo { i with fields := fs }) (groundDim d)) (k := registerInfo)
      fun k _ => register_expandAt _ d k
    refine Eq.trans (congrArg (· >>= _) h6) ?_
    rw [bind_map]
    refine bind_congr fun l => ?_
    simp only [Except.map, List.map_map]
    rfl

theorem expandCluster_ground (c : ClusterInfo) :
    expandCluster true (clusterInfo c) = (expandCluster false c).map (List.map groundRc) := by
  unfold expandCluster
  refine mapM_map fun rc _ => ?_
  cases rc with
  | cluster h d cs => rfl
  | register r =>
    simp only [groundRc, flattenChild]
    have h1 : (groundRegister r).info.addressOffset = 0 := by unfold groundRegister; rw [info]
    have h2 : (clusterInfo c).addressOffset = 0 := rfl
    rw [h1, h2]
    cases r <;> simp [addC, arith, Except.map, groundRc, groundRegister, groundArray, MaybeArray.mapInfo, clusterInfo, MaybeArray.info]

theorem flattenCluster_ground (c : Cluster) :
    flattenCluster true (cluster c) = (flattenCluster false c).map (List.map groundRc) := by
  cases c with
  | single i => exact expandCluster_ground i
  | array i d =>
    simp only [cluster, groundArray, flattenCluster]
    have h6 := mapM_same (l := List.range d.dim.toNat)
      (f := fun k => do let ci ← i.expandAt false d k; expandCluster false ci)
      (f' := fun k => do let ci ← (clusterInfo i).expandAt true (groundDim d) k; expandCluster true ci)
      (k := List.map groundRc) fun k _ => by
        rw [cluster_expandAt, bind_map, map_bind]
        exact bind_congr fun ci => expandCluster_ground ci
    refine Eq.trans (congrArg (· >>= _) h6) ?_
    rw [bind_map, map_bind]
    refine bind_congr fun l => ?_
    simp only [Except.map, List.map_flatten]

theorem expandRC_ground (ix : Index) (n : Nat) (path : BlockPath) (c : RegisterCluster) :
    expandRC true (index ix) n path (groundRc c) = (expandRC false ix n path c).map (List.map groundRc) := by
  induction n generalizing path c with
  | zero => cases c <;> rfl
  | succ n ih =>
    cases c with
    | register r => exact expandRegisterArray_ground ix (n + 1) path r
    | cluster h d cs =>
      simp only [groundRc, expandRC]
      have h0 : MaybeArray.mk' ({ ({ h with addressOffset := 0 } : ClusterHead) with
            derivedFrom := none, children := groundRcs cs } : ClusterInfo) (d.map groundDim) =
          cluster (MaybeArray.mk' { h with derivedFrom := none, children := cs } d) := by
        rw [rcs_map]; cases d <;> rfl
      have h2 : ∀ c : Cluster, (match h.derivedFrom with
          | some dpath => deriveCluster (index ix) (n + 1) (cluster c) dpath path
          | none => .ok (cluster c, none) : M (Cluster × Option BlockPath)) =
          (match h.derivedFrom with
          | some dpath => deriveCluster ix (n + 1) c dpath path
          | none => .ok (c, none) : M (Cluster × Option BlockPath)).map fun x => (cluster x.1, x.2) := by
        intro c
        cases h.derivedFrom with
        | none => rfl
        | some s => simp only [deriveCluster_ground]
      rw [h0]
      refine Eq.trans (congrArg (· >>= _) (h2 _)) ?_
      rw [bind_map, map_bind]
      refine bind_congr fun cc => ?_
      have h3 : (cluster cc.1).info.children = cc.1.info.children.map groundRc := by unfold cluster; rw [info]; rfl
      have h4 : (cluster cc.1).info.name = cc.1.info.name := by unfold cluster; rw [info]; rfl
      simp only [h3, h4]
      rw [mapM_map fun c _ => ih _ c, bind_map, map_bind]
      refine bind_congr fun l => ?_
      rw [← flattenCluster_ground]
      congr 1
      cases cc.1 <;> simp [cluster, groundArray, MaybeArray.mapInfo, clusterInfo, List.map_flatten]

theorem expandPeripheral_ground (ix : Index) (n : Nat) (p : Peripheral) :
    expandPeripheral true (index ix) n (groundPeripheral p) =
      (expandPeripheral false ix n p).map (List.map groundPeripheral) := by
  unfold expandPeripheral
  have h1 : (groundPeripheral p).info.derivedFrom = p.info.derivedFrom := by unfold groundPeripheral; rw [info]
  have h2 : (match p.info.derivedFrom with
      | some dpath => derivePeripheral (index ix) n ((groundPeripheral p).mapInfo fun i => { i with derivedFrom := none }) dpath
      | none => .ok (groundPeripheral p, none) : M (Peripheral × Option BlockPath)) =
      (match p.info.derivedFrom with
        | some dpath => derivePeripheral ix n (p.mapInfo fun i => { i with derivedFrom := none }) dpath
        | none => .ok (p, none) : M (Peripheral × Option BlockPath)).map fun x => (groundPeripheral x.1, x.2) := by
    cases p.info.derivedFrom with
    | none => rfl
    | some s =>
      have : (groundPeripheral p).mapInfo (fun i => { i with derivedFrom := none }) =
          groundPeripheral (p.mapInfo fun i => { i with derivedFrom := none }) := by cases p <;> rfl
      simp only [this, derivePeripheral_ground]
  rw [h1]
  refine Eq.trans (congrArg (· >>= _) h2) ?_
  rw [bind_map, map_bind]
  refine bind_congr fun pp => ?_
  simp only []
  have h3 : (groundPeripheral pp.1).info.registers = pp.1.info.registers.map fun l => l.map groundRc := by
    unfold groundPeripheral; rw [info]
    cases pp.1.info.registers with
    | none => rfl
    | some l => exact congrArg some (rcs_map l)
  have h4 : (groundPeripheral pp.1).info.name = pp.1.info.name := by unfold groundPeripheral; rw [info]
  rw [h3, h4]
  have h5 : ∀ path, (match pp.1.info.registers.map fun l => l.map groundRc with
      | some rs => do
        let l ← rs.mapM (expandRC true (index ix) n path)
        .ok (some l.flatten)
      | none => .ok none : M (Option (List RegisterCluster))) =
      (match pp.1.info.registers with
      | some rs => do
        let l ← rs.mapM (expandRC false ix n path)
        .ok (some l.flatten)
      | none => .ok none : M (Option (List RegisterCluster))).map fun o => o.map groundRcs := by
    intro path
    cases pp.1.info.registers with
    | none => rfl
    | some rs =>
      simp only [Option.map_some]
      rw [mapM_map fun c _ => expandRC_ground ix n path c, bind_map, map_bind]
      refine bind_congr fun l => ?_
      simp only [Except.map, Option.map_some, rcs_map, List.map_flatten]
  refine Eq.trans (congrArg (· >>= _) (h5 _)) ?_
  rw [bind_map, map_bind]
  refine bind_congr fun rs => ?_
  cases pp.1 with
  | single i => rfl
  | array i d =>
    simp only [groundPeripheral, groundArray, MaybeArray.mapInfo]
    rw [map_bind]
    unfold PeripheralInfo.expand
    have h6 := mapM_same (l := List.range d.dim.toNat) (f := PeripheralInfo.expandAt false { i with registers := rs } d)
      (f' := PeripheralInfo.expandAt true (peripheralInfo { i with registers := rs }) (groundDim d)) (k := peripheralInfo)
      fun k _ => peripheral_expandAt _ d k
    refine Eq.trans (congrArg (· >>= _) h6) ?_
    rw [bind_map]
    refine bind_congr fun l => ?_
    simp only [Except.map, List.map_map]
    rfl

end Ground

open Ground

/-- **C79.** Without overflow checks a device is expanded as the device with all positions zero is, except for
the positions: same names, same order, everything else the same, or the same fault. -/
theorem C79_unchecked (n : Nat) (d : Device) : (expand false n d).map ground = expand true n (ground d) := by
  unfold expand
  rw [create_ground, bind_map, map_bind]
  refine Ground.bind_congr fun ix => ?_
  have : (ground d).peripherals = d.peripherals.map groundPeripheral := rfl
  rw [this, mapM_map fun p _ => expandPeripheral_ground ix n p, bind_map, map_bind]
  refine Ground.bind_congr fun l => ?_
  simp only [Except.map, ground, List.map_flatten]

/-- **C79.** With overflow checks likewise, unless there is an overflow. -/
theorem C79_checked (n : Nat) (d : Device) (h : expand true n d ≠ .error (.panic .overflow)) :
    (expand true n d).map ground = expand true n (ground d) := by
  rw [← C79_unchecked]
  rcases C74_expand n d with h' | h'
  · exact absurd h' h
  · rw [h']

/-- **C79.** So two devices that differ in positions only have the same fault, or expansions that differ in
positions only, whichever builds are compared, unless one of them overflows. -/
theorem C79_positions (oc oc' : Bool) (n : Nat) (d e : Device) (he : ground d = ground e)
    (h : expand oc n d ≠ .error (.panic .overflow)) (h' : expand oc' n e ≠ .error (.panic .overflow)) :
    (∃ f, expand oc n d = .error f ∧ expand oc' n e = .error f) ∨
    ∃ d' e', expand oc n d = .ok d' ∧ expand oc' n e = .ok e' ∧ ground d' = ground e' := by
  have h1 : (expand oc n d).map ground = expand true n (ground d) := by
    cases oc
    · exact C79_unchecked n d
    · exact C79_checked n d h
  have h2 : (expand oc' n e).map ground = expand true n (ground d) := by
    rw [he]
    cases oc'
    · exact C79_unchecked n e
    · exact C79_checked n e h'
  rw [← h2] at h1
  cases hd : expand oc n d with
  | error f =>
    rw [hd] at h1
    cases hf : expand oc' n e with
    | error f' => rw [hf] at h1; injection h1 with h1; exact .inl ⟨f, rfl, by rw [h1]⟩
    | ok e' => rw [hf] at h1; cases h1
  | ok d' =>
    rw [hd] at h1
    cases hf : expand oc' n e with
    | error f' => rw [hf] at h1; cases h1
    | ok e' => rw [hf] at h1; injection h1 with h1; exact .inr ⟨d', e', rfl, rfl, h1⟩

namespace Ground

theorem error_iff {n : Nat} {d : Device} {e : Fault} :
    expand false n d = .error e ↔ expand true n (ground d) = .error e := by
  rw [← C79_unchecked]
  cases expand false n d with
  | error f => simp [Except.map]
  | ok d' => simp [Except.map]

end Ground

/-- **C79 (C63 without overflow checks).** A run without checks ends with a fault, however many steps it may
take, exactly if the device with all positions zero has this fault. -/
theorem C79_fails (d : Device) (e : Fault) :
    (∃ N, ∀ n, N ≤ n → expand false n d = .error e) ↔ DeviceFails namesOf (ground d) e := by
  rw [← C63_fails]
  exact exists_congr fun N => forall_congr' fun n => forall_congr' fun _ => error_iff

/-- **C39, exactly, without overflow checks.** Expansion never returns, exactly if the first fault of the
device with all positions zero is an endless one. -/
theorem C39_exact_unchecked (d : Device) :
    (∀ fuel, expand false fuel d = .error .diverge) ↔ DeviceFails namesOf (ground d) .diverge := by
  rw [← C39_exact]
  exact forall_congr' fun n => error_iff

/-- **C79 (C56 without overflow checks).** A device has an expansion without checks exactly if the device with
all positions zero has one, and they differ in positions only. -/
theorem C79_expansion (d g : Device) :
    (∃ fuel d', expand false fuel d = .ok d' ∧ ground d' = g) ↔ DeviceFull namesOf (ground d) g := by
  rw [← C56_expansion]
  refine exists_congr fun n => ?_
  rw [← C79_unchecked]
  cases expand false n d with
  | error e => simp [Except.map]
  | ok d' => simp [Except.map]

-- `C79_unchecked`: a peripheral array at the end of the address space, of which two elements wrap around.
example : let d := Sample.device [.array (Sample.peripheralInfo "P%s" 0xFFFFFFFFFFFFFFFF) (Sample.dim 3 1)]
    (expand false 9 d).map (fun d => d.peripherals.map fun p => (p.info.name, p.info.baseAddress.toNat)) =
      .ok [("P0".toList, 2 ^ 64 - 1), ("P1".toList, 0), ("P2".toList, 1)] ∧
    (expand true 9 (ground d)).map (fun d => d.peripherals.map fun p => (p.info.name, p.info.baseAddress.toNat)) =
      .ok [("P0".toList, 0), ("P1".toList, 0), ("P2".toList, 0)] := by
  decide +kernel

-- `C79_checked` and `C79_positions`
example : ∃ d' e', expand true 9 (Sample.device [.array (Sample.peripheralInfo "P%s" 0x100) (Sample.dim 3 16)]) = .ok d' ∧
    expand false 9 (Sample.device [.array (Sample.peripheralInfo "P%s" 0xFFFFFFFFFFFFFFFF) (Sample.dim 3 1)]) = .ok e' ∧
    ground d' = ground e' := by
  refine (C79_positions true false 9 _ _ (by decide +kernel) (by decide +kernel) (by decide +kernel)).resolve_left ?_
  rintro ⟨f, h, -⟩
  have : (expand true 9 (Sample.device [.array (Sample.peripheralInfo "P%s" 0x100) (Sample.dim 3 16)])).isOk = true := by
    decide +kernel
  rw [h] at this
  cases this

-- `C79_fails`, `C39_exact_unchecked`: a cluster that refers to the cluster it is in.
example : DeviceFails namesOf (ground ancestorDevice) .diverge ∧
    ∃ N, ∀ n, N ≤ n → expand false n ancestorDevice = .error .diverge :=
  have h := (C39_exact_unchecked ancestorDevice).mp (C39_violated_ancestor false)
  ⟨h, (C79_fails _ _).mpr h⟩

-- `C79_expansion`
example : ∃ g, DeviceFull namesOf
    (ground (Sample.device [.array (Sample.peripheralInfo "P%s" 0xFFFFFFFFFFFFFFFF) (Sample.dim 3 1)])) g := by
  obtain ⟨d', h⟩ := ok_of_isOk (x := expand false 9
    (Sample.device [.array (Sample.peripheralInfo "P%s" 0xFFFFFFFFFFFFFFFF) (Sample.dim 3 1)])) (by decide +kernel)
  exact ⟨_, (C79_expansion _ _).mp ⟨9, d', h, rfl⟩⟩

end Svd
