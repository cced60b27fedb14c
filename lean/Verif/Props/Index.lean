import Verif.Spec.Index
import Verif.Spec.Parts
import Verif.Lemmas.Except
import Verif.Model.Expand
import Verif.Props.Arrays
import Verif.Props.EncodeTotal
import Verif.Spec.Sample

/-!
# C43: the index finds every element
-/

namespace Svd

open Spec

/-! ## Names -/

/-- The names of an element: its instances, then its own name. -/
def namesOf (name : Str) : Option DimElement → List Str
  | none => [name]
  | some d => ((indexList d).take d.dim.toNat).map (nameFor name d) ++ [name]

theorem mem_namesOf {name : Str} {dim : Option DimElement} {n : Str} :
    n ∈ namesOf name dim ↔ Named name dim n := by
  unfold namesOf Named
  cases dim with
  | none => simp
  | some d =>
    simp only [List.mem_append, List.mem_map, List.mem_singleton, Option.some.injEq, List.mem_take_iff_getElem]
    constructor
    · rintro (⟨idx, ⟨k, hk, rfl⟩, rfl⟩ | rfl)
      · refine .inr ⟨d, k, _, rfl, by omega, List.getElem?_eq_getElem _, (nameFor_iff ..).mp rfl⟩
      · exact .inl rfl
    · rintro (rfl | ⟨d', k, idx, rfl, hk, hi, hn⟩)
      · exact .inr rfl
      · obtain ⟨hl, hi⟩ := List.getElem?_eq_some_iff.mp hi
        exact .inl ⟨idx, ⟨k, by omega, hi⟩, (nameFor_iff ..).mpr hn⟩

theorem names_eq (name : Str) (d : DimElement) (l : List Str) (h : names name d = .ok l) :
    l = ((indexList d).take d.dim.toNat).map (nameFor name d) ∧ EnoughIndexes d := by
  have hl := (range_mapM_ok.mp h).1
  have hk := (range_mapM_ok.mp h).2
  have key : ∀ k (h : k < l.length), (indexList d)[k]?.map (nameFor name d) = some l[k] := by
    intro k hkl
    have := hk k l[k] (List.getElem?_eq_getElem hkl)
    rw [nameAt_eq, indexAt_eq d (by omega)] at this
    cases hi : (indexList d)[k]? with
    | none => rw [hi] at this; cases this
    | some idx =>
      rw [hi] at this
      simp only [ok_bind, Except.ok.injEq] at this
      simp [this]
  constructor
  · apply List.ext_getElem?
    intro k
    by_cases hkl : k < l.length
    · rw [List.getElem?_map, List.getElem?_take, if_pos (by omega), key k hkl,
        List.getElem?_eq_getElem hkl]
    · rw [List.getElem?_eq_none (by omega), List.getElem?_eq_none (by simp; omega)]
  · intro il hil
    by_cases h0 : d.dim.toNat = 0
    · omega
    · have := key (d.dim.toNat - 1) (by omega)
      unfold indexList at this
      rw [hil] at this
      simp only at this
      cases hi : il[d.dim.toNat - 1]? with
      | none => rw [hi] at this; cases this
      | some x => have := (List.getElem?_eq_some_iff.mp hi).1; omega

theorem names_ok (name : Str) {d : DimElement} (h : EnoughIndexes d) : ∃ l, names name d = .ok l := by
  refine mapM_ok_of_forall fun k hk => ?_
  rw [List.mem_range] at hk
  obtain ⟨idx, hi⟩ := indexList_some h hk
  rw [nameAt_eq, indexAt_eq d hk, hi]
  exact ⟨_, rfl⟩

theorem indexNames_eq {name : Str} {dim : Option DimElement} {l : List Str}
    (h : Index.indexNames name dim = .ok l) : l = namesOf name dim := by
  cases dim with
  | none => injection h with h; exact h.symm
  | some d =>
    obtain ⟨l', hl', h⟩ := bind_ok.mp h
    injection h with h
    rw [← h, (names_eq name d l' hl').1]; rfl

/-! ## What is added, newest first -/

namespace Index

/-- Adding the entries of `b` to `a`. -/
def comb (a b : Index) : Index where
  peripherals := b.peripherals ++ a.peripherals
  clusters := b.clusters ++ a.clusters
  registers := b.registers ++ a.registers
  fields := b.fields ++ a.fields
  evs := b.evs ++ a.evs

theorem comb_assoc (a b c : Index) : comb (comb a b) c = comb a (comb b c) := by
  simp [comb]

theorem comb_empty (a : Index) : comb a {} = a := by simp [comb]
theorem empty_comb (a : Index) : comb {} a = a := by simp [comb]

/-- The entries added by a list of steps. -/
def sum : List Index → Index
  | [] => {}
  | a :: l => comb a (sum l)

theorem sum_append (l m : List Index) : sum (l ++ m) = comb (sum l) (sum m) := by
  induction l with
  | nil => simp [sum, empty_comb]
  | cons a l ih => simp [sum, ih, comb_assoc]

theorem foldlM_comb {α : Type} {f : Index → α → M Index} {δ : α → Index} {l : List α}
    (h : ∀ ix ix', ∀ a ∈ l, f ix a = .ok ix' → ix' = comb ix (δ a)) {ix ix' : Index}
    (hf : l.foldlM f ix = .ok ix') : ix' = comb ix (sum (l.map δ)) := by
  induction l generalizing ix with
  | nil => injection hf with hf; simp [sum, comb_empty, ← hf]
  | cons a l ih =>
    rw [List.foldlM_cons] at hf
    obtain ⟨jx, hj, hf⟩ := bind_ok.mp hf
    rw [ih (fun ix ix' a ha => h ix ix' a (by simp [ha])) hf, h _ _ a (by simp) hj]
    simp [sum, comb_assoc]

theorem foldl_comb {α : Type} {f : Index → α → Index} {δ : α → Index} {l : List α}
    (h : ∀ ix, ∀ a ∈ l, f ix a = comb ix (δ a)) (ix : Index) :
    l.foldl f ix = comb ix (sum (l.map δ)) := by
  induction l generalizing ix with
  | nil => simp [sum, comb_empty]
  | cons a l ih =>
    rw [List.foldl_cons, ih (fun ix a ha => h ix a (by simp [ha])), h _ a (by simp)]
    simp [sum, comb_assoc]

/-- The entries added for one name of a field. -/
def fieldAsDelta (path : RegisterPath) (f : Field) (n : Str) : Index :=
  { fields := [(⟨path, n⟩, f)], evs := (enumsOf ⟨path, n⟩ f).reverse }

theorem addEvs_eq (ix : Index) (q : FieldPath) (l : List EnumeratedValues) :
    ix.addEvs q l =
      comb ix { evs := (l.filterMap fun e => e.name.map fun n => ((⟨q, n⟩ : EnumPath), e)).reverse } := by
  induction l generalizing ix with
  | nil => simp [addEvs, comb]
  | cons e l ih =>
    unfold addEvs
    cases hn : e.name with
    | none => simp [ih, hn]
    | some n => simp [ih, hn, comb, FieldPath.newEnum]

theorem addFieldAs_eq (ix : Index) (path : RegisterPath) (f : Field) (n : Str) :
    ix.addFieldAs path f n = comb ix (fieldAsDelta path f n) := by
  unfold addFieldAs fieldAsDelta enumsOf
  simp only [RegisterPath.newField, addEvs_eq]
  simp [comb]

/-- The entries added for a field. -/
def fieldDelta (path : RegisterPath) (f : Field) : Index :=
  sum ((namesOf f.info.name f.dim?).map (fieldAsDelta path f))

theorem addField_eq {ix ix' : Index} {path : RegisterPath} {f : Field}
    (h : ix.addField path f = .ok ix') : ix' = comb ix (fieldDelta path f) := by
  obtain ⟨ns, hns, h⟩ := bind_ok.mp h
  injection h with h
  rw [← h, indexNames_eq hns, foldl_comb (δ := fieldAsDelta path f)
    (fun ix n _ => addFieldAs_eq ix path f n)]
  rfl

/-- The entries added for one name of a register. -/
def registerAsDelta (b : BlockPath) (r : Register) (n : Str) : Index :=
  comb (sum (r.info.fieldList.map (fieldDelta ⟨b, n⟩))) { registers := [(⟨b, n⟩, r)] }

theorem addRegisterAs_eq {ix ix' : Index} {b : BlockPath} {r : Register} {n : Str}
    (h : ix.addRegisterAs b r n = .ok ix') : ix' = comb ix (registerAsDelta b r n) := by
  obtain ⟨jx, hj, h⟩ := bind_ok.mp h
  injection h with h
  have := foldlM_comb (δ := fieldDelta ⟨b, n⟩) (fun ix ix' f _ h => addField_eq h) hj
  subst this
  rw [← h]
  unfold registerAsDelta
  simp [comb, BlockPath.newRegister]

/-- The entries added for a register. -/
def registerDelta (b : BlockPath) (r : Register) : Index :=
  sum ((namesOf r.info.name r.dim?).map (registerAsDelta b r))

theorem addRegister_eq {ix ix' : Index} {b : BlockPath} {r : Register}
    (h : ix.addRegister b r = .ok ix') : ix' = comb ix (registerDelta b r) := by
  obtain ⟨ns, hns, h⟩ := bind_ok.mp h
  rw [foldlM_comb (δ := registerAsDelta b r) (fun ix ix' n _ h => addRegisterAs_eq h) h,
    indexNames_eq hns]
  rfl

/-- The entries added for the registers directly in a block. -/
def registersDelta (b : BlockPath) : List RegisterCluster → Index
  | [] => {}
  | .register r :: cs => comb (registerDelta b r) (registersDelta b cs)
  | .cluster .. :: cs => registersDelta b cs

theorem addRegisters_eq {ix ix' : Index} {b : BlockPath} {cs : List RegisterCluster}
    (h : addRegisters b ix cs = .ok ix') : ix' = comb ix (registersDelta b cs) := by
  induction cs generalizing ix with
  | nil => injection h with h; simp [registersDelta, comb_empty, h]
  | cons c cs ih =>
    cases c with
    | register r =>
      obtain ⟨jx, hj, h⟩ := bind_ok.mp h
      rw [ih h, addRegister_eq hj, comb_assoc]; rfl
    | cluster _ _ _ => exact ih h

mutual
/-- The entries added for a cluster. -/
def clusterDelta (b : BlockPath) : RegisterCluster → Index
  | .register _ => {}
  | .cluster h d cs => sum ((namesOf h.name d).map fun n =>
      comb (comb (registersDelta ⟨b.peripheral, b.path ++ [n]⟩ cs)
        (clustersDelta ⟨b.peripheral, b.path ++ [n]⟩ cs))
        { clusters := [(⟨b.peripheral, b.path ++ [n]⟩, MaybeArray.mk' { h with children := cs } d)] })
/-- The entries added for the clusters of a block. -/
def clustersDelta (b : BlockPath) : List RegisterCluster → Index
  | [] => {}
  | c :: cs => comb (clusterDelta b c) (clustersDelta b cs)
end

mutual
theorem addCluster_eq : ∀ {ix ix' : Index} {b : BlockPath} {c : RegisterCluster},
    addCluster b c ix = .ok ix' → ix' = comb ix (clusterDelta b c)
  | ix, ix', b, .register r, h => by
    unfold addCluster at h; injection h with h
    simp [clusterDelta, comb_empty, h]
  | ix, ix', b, .cluster hd d cs, h => by
    unfold addCluster at h
    obtain ⟨ns, hns, h⟩ := bind_ok.mp h
    rw [clusterDelta, ← indexNames_eq hns]
    refine foldlM_comb (fun ix ix' n _ h => ?_) h
    obtain ⟨jx, hj, h⟩ := bind_ok.mp h
    obtain ⟨kx, hk, h⟩ := bind_ok.mp h
    injection h with h
    rw [addClusters_eq hk, addRegisters_eq hj] at h
    rw [← h]
    simp [comb, BlockPath.newCluster]
theorem addClusters_eq : ∀ {ix ix' : Index} {b : BlockPath} {cs : List RegisterCluster},
    addClusters b cs ix = .ok ix' → ix' = comb ix (clustersDelta b cs)
  | ix, ix', b, [], h => by
    unfold addClusters at h; injection h with h
    simp [clustersDelta, comb_empty, h]
  | ix, ix', b, c :: cs, h => by
    unfold addClusters at h
    obtain ⟨jx, hj, h⟩ := bind_ok.mp h
    rw [addClusters_eq h, addCluster_eq hj, clustersDelta, comb_assoc]
end

/-- The entries added for a peripheral. -/
def peripheralDelta (p : Peripheral) : Index :=
  sum ((namesOf p.info.name p.dim?).map fun n =>
    comb (comb (registersDelta ⟨n, []⟩ p.info.children) (clustersDelta ⟨n, []⟩ p.info.children))
      { peripherals := [(⟨n, []⟩, p)] })

theorem create_eq {d : Device} {ix : Index} (h : create d = .ok ix) :
    ix = sum (d.peripherals.map peripheralDelta) := by
  rw [foldlM_comb (δ := peripheralDelta) ?_ h, empty_comb]
  intro ix ix' p _ h
  obtain ⟨ns, hns, h⟩ := bind_ok.mp h
  rw [peripheralDelta, ← indexNames_eq hns]
  refine foldlM_comb (fun ix ix' n _ h => ?_) h
  obtain ⟨jx, hj, h⟩ := bind_ok.mp h
  obtain ⟨kx, hk, h⟩ := bind_ok.mp h
  injection h with h
  rw [addClusters_eq hk, addRegisters_eq hj] at h
  rw [← h]
  simp [comb, BlockPath.new]

/-! ## The five maps -/

/-- What an index contains, in document order; the enumerated values follow from the fields. -/
structure Adds (x : Index) (P : List (BlockPath × Peripheral)) (C : List (BlockPath × Cluster))
    (R : List (RegisterPath × Register)) (F : List (FieldPath × Field)) : Prop where
  peripherals : x.peripherals = P.reverse
  clusters : x.clusters = C.reverse
  registers : x.registers = R.reverse
  fields : x.fields = F.reverse
  evs : x.evs = (F.flatMap fun q => enumsOf q.1 q.2).reverse

theorem Adds.empty : Adds {} [] [] [] [] := ⟨rfl, rfl, rfl, rfl, rfl⟩

theorem Adds.comb {x y : Index} {P P' C C' R R' F F'} (h : Adds x P C R F) (h' : Adds y P' C' R' F') :
    Adds (comb x y) (P ++ P') (C ++ C') (R ++ R') (F ++ F') := by
  constructor <;>
    simp [Index.comb, h.1, h.2, h.3, h.4, h.5, h'.1, h'.2, h'.3, h'.4, h'.5]

theorem Adds.sum {α : Type} {δ : α → Index} {P C R F} {l : List α}
    (h : ∀ a, Adds (δ a) (P a) (C a) (R a) (F a)) :
    Adds (Index.sum (l.map δ)) (l.flatMap P) (l.flatMap C) (l.flatMap R) (l.flatMap F) := by
  induction l with
  | nil => exact .empty
  | cons a l ih =>
    simp only [List.map_cons, Index.sum, List.flatMap_cons]
    exact (h a).comb ih

theorem flatMap_nil' {α β : Type} (l : List α) : (l.flatMap fun _ => ([] : List β)) = [] := by
  induction l <;> simp_all

theorem flatMap_single {α β : Type} (f : α → β) (l : List α) : (l.flatMap fun a => [f a]) = l.map f := by
  induction l <;> simp_all

theorem fieldDelta_adds (q : RegisterPath) (f : Field) :
    Adds (fieldDelta q f) [] [] [] ((namesOf f.info.name f.dim?).map fun n => (⟨q, n⟩, f)) := by
  have := Adds.sum (l := namesOf f.info.name f.dim?) (δ := fieldAsDelta q f) (P := fun _ => [])
    (C := fun _ => []) (R := fun _ => []) (F := fun n => [(⟨q, n⟩, f)])
    (fun n => ⟨rfl, rfl, rfl, rfl, by simp [fieldAsDelta]⟩)
  unfold fieldDelta
  simpa only [flatMap_nil', flatMap_single] using this

theorem registerAsDelta_adds (b : BlockPath) (r : Register) (n : Str) :
    Adds (registerAsDelta b r n) [] [] [(⟨b, n⟩, r)] (fieldsOf namesOf ⟨b, n⟩ r) := by
  have := Adds.sum (l := r.info.fieldList) (fieldDelta_adds ⟨b, n⟩)
  have h2 : Adds { registers := [((⟨b, n⟩ : RegisterPath), r)] } [] [] [(⟨b, n⟩, r)] [] :=
    ⟨rfl, rfl, rfl, rfl, rfl⟩
  have := this.comb h2
  unfold registerAsDelta fieldsOf
  simpa only [flatMap_nil', List.append_nil, List.nil_append, RegisterInfo.fieldList] using this

theorem registerDelta_adds (b : BlockPath) (r : Register) :
    Adds (registerDelta b r) [] [] ((namesOf r.info.name r.dim?).map fun n => (⟨b, n⟩, r))
      (((namesOf r.info.name r.dim?).map fun n => (⟨b, n⟩, r)).flatMap
        fun q : RegisterPath × Register => fieldsOf namesOf q.1 q.2) := by
  have := Adds.sum (l := namesOf r.info.name r.dim?) (registerAsDelta_adds b r)
  unfold registerDelta
  simpa only [flatMap_nil', flatMap_single, List.flatMap_map] using this

/-- The fields of a list of registers. -/
def fieldsOfAll (R : List (RegisterPath × Register)) : List (FieldPath × Field) :=
  R.flatMap fun q => fieldsOf namesOf q.1 q.2

theorem registersDelta_adds (b : BlockPath) (cs : List RegisterCluster) :
    Adds (registersDelta b cs) [] [] (ownRegisters namesOf b cs)
      (fieldsOfAll (ownRegisters namesOf b cs)) := by
  induction cs with
  | nil => exact .empty
  | cons c cs ih =>
    cases c with
    | register r =>
      have := (registerDelta_adds b r).comb ih
      simpa [registersDelta, ownRegisters, fieldsOfAll, List.flatMap_map] using this
    | cluster h d cs' => simpa [registersDelta, ownRegisters] using ih

mutual
theorem clusterDelta_adds : ∀ (b : BlockPath) (c : RegisterCluster),
    Adds (clusterDelta b c) [] (clustersIn namesOf b c) (registersWithin namesOf b c)
      (fieldsOfAll (registersWithin namesOf b c))
  | b, .register r => by simpa [clusterDelta, clustersIn, registersWithin, fieldsOfAll] using Adds.empty
  | b, .cluster h d cs => by
    have := Adds.sum (l := namesOf h.name d) (fun n =>
      ((registersDelta_adds ⟨b.peripheral, b.path ++ [n]⟩ cs).comb
        (clustersDelta_adds ⟨b.peripheral, b.path ++ [n]⟩ cs)).comb
      (show Adds { clusters := [((⟨b.peripheral, b.path ++ [n]⟩ : BlockPath),
            MaybeArray.mk' { h with children := cs } d)] } []
          [(⟨b.peripheral, b.path ++ [n]⟩, MaybeArray.mk' { h with children := cs } d)] [] [] from
        ⟨rfl, rfl, rfl, rfl, rfl⟩))
    simp only [List.append_nil, List.nil_append, flatMap_nil'] at this
    unfold clusterDelta clustersIn registersWithin
    simpa only [fieldsOfAll, List.flatMap_append, List.flatMap_assoc] using this
theorem clustersDelta_adds : ∀ (b : BlockPath) (cs : List RegisterCluster),
    Adds (clustersDelta b cs) [] (clustersInAll namesOf b cs) (registersWithinAll namesOf b cs)
      (fieldsOfAll (registersWithinAll namesOf b cs))
  | b, [] => by simpa [clustersDelta, clustersInAll, registersWithinAll, fieldsOfAll] using Adds.empty
  | b, c :: cs => by
    have := (clusterDelta_adds b c).comb (clustersDelta_adds b cs)
    unfold clustersDelta clustersInAll registersWithinAll
    simpa only [fieldsOfAll, List.flatMap_append, List.append_nil] using this
end

theorem peripheralDelta_adds (p : Peripheral) :
    Adds (peripheralDelta p)
      ((namesOf p.info.name p.dim?).map fun n => (⟨n, []⟩, p))
      ((namesOf p.info.name p.dim?).flatMap fun n =>
        clustersInAll namesOf ⟨n, []⟩ (p.info.registers.getD []))
      ((namesOf p.info.name p.dim?).flatMap fun n =>
        ownRegisters namesOf ⟨n, []⟩ (p.info.registers.getD []) ++
          registersWithinAll namesOf ⟨n, []⟩ (p.info.registers.getD []))
      (fieldsOfAll ((namesOf p.info.name p.dim?).flatMap fun n =>
        ownRegisters namesOf ⟨n, []⟩ (p.info.registers.getD []) ++
          registersWithinAll namesOf ⟨n, []⟩ (p.info.registers.getD []))) := by
  have := Adds.sum (l := namesOf p.info.name p.dim?) (fun n =>
    ((registersDelta_adds ⟨n, []⟩ p.info.children).comb
      (clustersDelta_adds ⟨n, []⟩ p.info.children)).comb
    (show Adds { peripherals := [((⟨n, []⟩ : BlockPath), p)] } [(⟨n, []⟩, p)] [] [] [] from
      ⟨rfl, rfl, rfl, rfl, rfl⟩))
  simp only [List.append_nil, List.nil_append, flatMap_single] at this
  unfold peripheralDelta
  simp only [PeripheralInfo.children] at this ⊢
  simpa only [fieldsOfAll, List.flatMap_append, List.flatMap_assoc] using this

theorem create_adds {d : Device} {ix : Index} (h : create d = .ok ix) :
    Adds ix (allPeripherals namesOf d) (allClusters namesOf d) (allRegisterPaths namesOf d)
      (allFields namesOf d) := by
  have := Adds.sum (l := d.peripherals) peripheralDelta_adds
  rw [← create_eq h] at this
  unfold allPeripherals allClusters allRegisterPaths
  simpa only [fieldsOfAll, allFields, allRegisterPaths, List.flatMap_assoc] using this

end Index

/-! ## Entries and paths -/

theorem mapGet_reverse {κ α : Type} [DecidableEq κ] {l : List (κ × α)} {k : κ} {a : α} :
    mapGet l.reverse k = some a ↔ LastAt l k a := by
  unfold mapGet LastAt
  constructor
  · intro h
    obtain ⟨⟨k', a'⟩, hf, e⟩ := Option.map_eq_some_iff.mp h
    simp only at e; subst e
    obtain ⟨h1, pre, post, h2, h3⟩ := List.find?_eq_some_iff_append.mp hf
    simp only [beq_iff_eq] at h1; subst h1
    have := congrArg List.reverse h2
    simp only [List.reverse_reverse, List.reverse_append, List.reverse_cons, List.append_assoc,
      List.singleton_append] at this
    refine ⟨_, _, this, fun x hx => ?_⟩
    simpa using h3 x (by simpa using hx)
  · rintro ⟨pre, post, rfl, h⟩
    refine Option.map_eq_some_iff.mpr ⟨(k, a), List.find?_eq_some_iff_append.mpr
      ⟨by simp, post.reverse, pre.reverse, by simp, fun x hx => ?_⟩, rfl⟩
    simpa using h x (by simpa using hx)

theorem lastAt_mem {κ α : Type} {l : List (κ × α)} {k : κ} {a : α} (h : LastAt l k a) : (k, a) ∈ l := by
  obtain ⟨pre, post, rfl, _⟩ := h
  simp

theorem lastAt_exists {κ α : Type} [DecidableEq κ] {l : List (κ × α)} {k : κ} {a : α} (h : (k, a) ∈ l) :
    ∃ b, LastAt l k b := by
  cases hm : mapGet l.reverse k with
  | some b => exact ⟨b, mapGet_reverse.mp hm⟩
  | none =>
    unfold mapGet at hm
    have := List.find?_eq_none.mp (Option.map_eq_none_iff.mp hm) (k, a) (by simpa using h)
    simp at this

/-- `sub` is the content of a block at or below the block with content `cs`. -/
inductive Below : BlockPath → List RegisterCluster → BlockPath → List RegisterCluster → Prop where
  | refl (b cs) : Below b cs b cs
  | step {b cs h dim kids n b' sub} : .cluster h dim kids ∈ cs → Named h.name dim n →
      Below ⟨b.peripheral, b.path ++ [n]⟩ kids b' sub → Below b cs b' sub

theorem Below.snoc {b cs b' sub h dim kids n} (hb : Below b cs b' sub) (hm : .cluster h dim kids ∈ sub)
    (hn : Named h.name dim n) : Below b cs ⟨b'.peripheral, b'.path ++ [n]⟩ kids := by
  induction hb with
  | refl b cs => exact .step hm hn (.refl _ _)
  | step h1 h2 _ ih => exact .step h1 h2 (ih hm)

theorem blockAt_iff {d : Device} {b : BlockPath} {cs : List RegisterCluster} :
    BlockAt d b cs ↔ ∃ p n kids, p ∈ d.peripherals ∧ Named p.info.name p.dim? n ∧
      p.info.registers = some kids ∧ Below ⟨n, []⟩ kids b cs := by
  constructor
  · intro h
    induction h with
    | @peripheral b p cs hp hr =>
      obtain ⟨h1, h2, h3⟩ := hp
      obtain ⟨bp, bpath⟩ := b
      simp only at h2; subst h2
      exact ⟨p, _, cs, h1, h3, hr, .refl _ _⟩
    | cluster _ hm hn ih =>
      obtain ⟨p, n', kids, h1, h2, h3, h4⟩ := ih
      exact ⟨p, n', kids, h1, h2, h3, h4.snoc hm hn⟩
  · rintro ⟨p, n, kids, h1, h2, h3, h4⟩
    have h0 : BlockAt d ⟨n, []⟩ kids := .peripheral ⟨h1, rfl, h2⟩ h3
    clear h1 h2 h3
    generalize (⟨n, []⟩ : BlockPath) = b0 at h0 h4
    induction h4 with
    | refl => exact h0
    | step hm hn _ ih => exact ih (.cluster h0 hm hn)

theorem mem_ownRegisters {b : BlockPath} {cs : List RegisterCluster} {q : RegisterPath} {r : Register} :
    (q, r) ∈ ownRegisters namesOf b cs ↔
      q.block = b ∧ .register r ∈ cs ∧ Named r.info.name r.dim? q.name := by
  unfold ownRegisters
  rw [List.mem_flatMap]
  constructor
  · rintro ⟨c, hc, h⟩
    cases c with
    | register r' =>
      simp only [List.mem_map, Prod.mk.injEq] at h
      obtain ⟨n, hn, rfl, rfl⟩ := h
      exact ⟨rfl, hc, mem_namesOf.mp hn⟩
    | cluster _ _ _ => simp at h
  · rintro ⟨rfl, hc, hn⟩
    exact ⟨_, hc, by simpa using ⟨q.name, mem_namesOf.mpr hn, rfl⟩⟩

mutual
theorem mem_registersIn : ∀ {b : BlockPath} {c : RegisterCluster} {q : RegisterPath} {r : Register},
    (q, r) ∈ registersWithin namesOf b c ↔ ∃ h dim kids n sub, c = .cluster h dim kids ∧ Named h.name dim n ∧
      Below ⟨b.peripheral, b.path ++ [n]⟩ kids q.block sub ∧ .register r ∈ sub ∧
      Named r.info.name r.dim? q.name
  | b, .register _, q, r => by simp [registersWithin]
  | b, .cluster h dim kids, q, r => by
    unfold registersWithin
    simp only [List.mem_flatMap, List.mem_append, mem_ownRegisters, mem_registersInAll, mem_namesOf]
    constructor
    · rintro ⟨n, hn, ⟨e, h1, h2⟩ | ⟨h', dim', kids', n', sub, hm, hn', hb, h1, h2⟩⟩
      · exact ⟨h, dim, kids, n, kids, rfl, hn, by rw [e]; exact .refl _ _, h1, h2⟩
      · exact ⟨h, dim, kids, n, sub, rfl, hn, .step hm hn' hb, h1, h2⟩
    · rintro ⟨_, _, _, n, sub, e, hn, hb, h1, h2⟩
      cases e
      refine ⟨n, hn, ?_⟩
      generalize he : q.block = qb at hb
      cases hb with
      | refl => exact .inl ⟨rfl, h1, h2⟩
      | step hm hn' hb => exact .inr ⟨_, _, _, _, _, hm, hn', he ▸ hb, h1, h2⟩
theorem mem_registersInAll : ∀ {b : BlockPath} {cs : List RegisterCluster} {q : RegisterPath}
    {r : Register}, (q, r) ∈ registersWithinAll namesOf b cs ↔
      ∃ h dim kids n sub, .cluster h dim kids ∈ cs ∧ Named h.name dim n ∧
      Below ⟨b.peripheral, b.path ++ [n]⟩ kids q.block sub ∧ .register r ∈ sub ∧
      Named r.info.name r.dim? q.name
  | b, [], q, r => by simp [registersWithinAll]
  | b, c :: cs, q, r => by
    unfold registersWithinAll
    simp only [List.mem_append, mem_registersIn, mem_registersInAll, List.mem_cons]
    constructor
    · rintro (⟨h, dim, kids, n, sub, rfl, h1⟩ | ⟨h, dim, kids, n, sub, hm, h1⟩)
      · exact ⟨h, dim, kids, n, sub, .inl rfl, h1⟩
      · exact ⟨h, dim, kids, n, sub, .inr hm, h1⟩
    · rintro ⟨h, dim, kids, n, sub, hm | hm, h1⟩
      · exact .inl ⟨h, dim, kids, n, sub, hm.symm, h1⟩
      · exact .inr ⟨h, dim, kids, n, sub, hm, h1⟩
end

theorem mem_allRegisterPaths {d : Device} {q : RegisterPath} {r : Register} :
    (q, r) ∈ allRegisterPaths namesOf d ↔ RegisterAt d q r := by
  unfold allRegisterPaths RegisterAt
  simp only [List.mem_flatMap, List.mem_append, mem_ownRegisters, mem_registersInAll, mem_namesOf,
    blockAt_iff]
  constructor
  · rintro ⟨p, hp, n, hn, h⟩
    cases hr : p.info.registers with
    | none => simp [hr] at h
    | some kids =>
      simp only [hr, Option.getD_some] at h
      rcases h with ⟨e, h1, h2⟩ | ⟨h', dim', kids', n', sub, hm, hn', hb, h1, h2⟩
      · exact ⟨kids, ⟨p, n, kids, hp, hn, hr, by rw [e]; exact .refl _ _⟩, h1, h2⟩
      · exact ⟨sub, ⟨p, n, kids, hp, hn, hr, .step hm hn' hb⟩, h1, h2⟩
  · rintro ⟨sub, ⟨p, n, kids, hp, hn, hr, hb⟩, h1, h2⟩
    refine ⟨p, hp, n, hn, ?_⟩
    simp only [hr, Option.getD_some]
    generalize he : q.block = qb at hb
    cases hb with
    | refl => exact .inl ⟨rfl, h1, h2⟩
    | step hm hn' hb => exact .inr ⟨_, _, _, _, _, hm, hn', he ▸ hb, h1, h2⟩

theorem mem_allPeripherals {d : Device} {b : BlockPath} {p : Peripheral} :
    (b, p) ∈ allPeripherals namesOf d ↔ PeripheralAt d b p := by
  unfold allPeripherals PeripheralAt
  simp only [List.mem_flatMap, List.mem_map, mem_namesOf, Prod.mk.injEq]
  constructor
  · rintro ⟨p, hp, n, hn, rfl, rfl⟩; exact ⟨hp, rfl, hn⟩
  · rintro ⟨hp, hb, hn⟩
    obtain ⟨_, _⟩ := b
    simp only at hb; subst hb
    exact ⟨p, hp, _, hn, rfl, rfl⟩

theorem mem_allFields {d : Device} {q : FieldPath} {f : Field} :
    (q, f) ∈ allFields namesOf d ↔ FieldAt d q f := by
  unfold allFields FieldAt fieldsOf
  simp only [List.mem_flatMap, List.mem_map, mem_namesOf, Prod.mk.injEq, Prod.exists,
    mem_allRegisterPaths]
  constructor
  · rintro ⟨q', r, hr, f', hf, n, hn, rfl, rfl⟩
    cases hl : r.info.fields with
    | none => simp [hl] at hf
    | some l => exact ⟨r, l, hr, hl, by simpa [hl] using hf, hn⟩
  · rintro ⟨r, l, hr, hl, hf, hn⟩
    exact ⟨q.register, r, hr, f, by simpa [hl] using hf, q.name, hn, rfl, rfl⟩

theorem mem_allEnums {d : Device} {q : EnumPath} {e : EnumeratedValues} :
    (q, e) ∈ allEnums namesOf d ↔ EnumAt d q e := by
  unfold allEnums EnumAt enumsOf
  simp only [List.mem_flatMap, List.mem_filterMap, Option.map_eq_some_iff, Prod.mk.injEq, Prod.exists,
    mem_allFields]
  constructor
  · rintro ⟨q', f, hf, e', he, n, hn, rfl, rfl⟩
    exact ⟨f, hf, he, hn⟩
  · rintro ⟨f, hf, he, hn⟩
    exact ⟨q.field, f, hf, e, he, q.name, hn, rfl, rfl⟩

theorem mk'_parts (c : Cluster) :
    MaybeArray.mk' { c.info.toClusterHead with children := c.info.children } c.dim? = c := by
  cases c <;> rfl

mutual
theorem mem_clustersIn : ∀ {b : BlockPath} {c : RegisterCluster} {q : BlockPath} {x : Cluster},
    (q, x) ∈ clustersIn namesOf b c ↔
      ∃ h dim kids n, c = .cluster h dim kids ∧ Named h.name dim n ∧
        ((q, x) = (⟨b.peripheral, b.path ++ [n]⟩, MaybeArray.mk' { h with children := kids } dim) ∨
          (q, x) ∈ clustersInAll namesOf ⟨b.peripheral, b.path ++ [n]⟩ kids)
  | b, .register _, q, r => by simp [clustersIn]
  | b, .cluster h dim kids, q, r => by
    unfold clustersIn
    simp only [List.mem_flatMap, List.mem_append, List.mem_singleton, mem_namesOf]
    constructor
    · rintro ⟨n, hn, hx⟩
      exact ⟨h, dim, kids, n, rfl, hn, hx.symm⟩
    · rintro ⟨_, _, _, n, e, hn, hx⟩
      cases e
      exact ⟨n, hn, hx.symm⟩
end

theorem mem_clustersInAll {b : BlockPath} {cs : List RegisterCluster} {q : BlockPath} {x : Cluster} :
    (q, x) ∈ clustersInAll namesOf b cs ↔ ∃ c ∈ cs, (q, x) ∈ clustersIn namesOf b c := by
  induction cs with
  | nil => simp [clustersInAll]
  | cons c cs ih => simp [clustersInAll, ih]

theorem nodes_kids {h dim kids} {cs : List RegisterCluster} (hc : .cluster h dim kids ∈ cs) :
    nodesList kids < nodesList cs := by
  induction cs with
  | nil => cases hc
  | cons a as iha =>
    rcases List.mem_cons.mp hc with rfl | hc
    · simp only [nodesList, RegisterCluster.nodes]; omega
    · have := iha hc; simp only [nodesList]; omega

theorem clustersInAll_sound {b : BlockPath} {cs : List RegisterCluster} {q : BlockPath} {x : Cluster}
    (k : Nat) (hk : nodesList cs < k) (h : (q, x) ∈ clustersInAll namesOf b cs) :
    ∃ b' sub n, Below b cs b' sub ∧ .cluster x.info.toClusterHead x.dim? x.info.children ∈ sub ∧
      Named x.info.name x.dim? n ∧ q = ⟨b'.peripheral, b'.path ++ [n]⟩ := by
  induction k generalizing b cs with
  | zero => omega
  | succ k ih =>
    obtain ⟨c, hc, h⟩ := mem_clustersInAll.mp h
    obtain ⟨hd, dim, kids, n, rfl, hn, h⟩ := mem_clustersIn.mp h
    rcases h with h | h
    · cases h
      refine ⟨b, cs, n, .refl _ _, ?_⟩
      cases dim <;> exact ⟨hc, hn, rfl⟩
    · obtain ⟨b', sub, n', hb, h⟩ := ih (cs := kids) (by
        have := nodes_kids hc
        omega) h
      exact ⟨b', sub, n', .step hc hn hb, h⟩

theorem clustersInAll_complete {b b' : BlockPath} {cs sub : List RegisterCluster} {x : Cluster} {n : Str}
    (hb : Below b cs b' sub) (hm : .cluster x.info.toClusterHead x.dim? x.info.children ∈ sub)
    (hn : Named x.info.name x.dim? n) :
    (⟨b'.peripheral, b'.path ++ [n]⟩, x) ∈ clustersInAll namesOf b cs := by
  induction hb with
  | refl b cs =>
    refine mem_clustersInAll.mpr ⟨_, hm, mem_clustersIn.mpr ⟨_, _, _, n, rfl, hn, .inl ?_⟩⟩
    rw [mk'_parts]
  | step h1 h2 _ ih =>
    exact mem_clustersInAll.mpr ⟨_, h1, mem_clustersIn.mpr ⟨_, _, _, _, rfl, h2, .inr (ih hm)⟩⟩

theorem mem_allClusters {d : Device} {q : BlockPath} {c : Cluster} :
    (q, c) ∈ allClusters namesOf d ↔ ClusterAt d q c := by
  unfold allClusters ClusterAt
  simp only [List.mem_flatMap, mem_namesOf, blockAt_iff]
  constructor
  · rintro ⟨p, hp, n, hn, h⟩
    cases hr : p.info.registers with
    | none => simp [hr, clustersInAll] at h
    | some kids =>
      simp only [hr, Option.getD_some] at h
      obtain ⟨b', sub, n', hb, h1, h2, h3⟩ := clustersInAll_sound _ (Nat.lt_succ_self _) h
      exact ⟨b', n', sub, ⟨p, n, kids, hp, hn, hr, hb⟩, h1, h2, h3⟩
  · rintro ⟨b', n', sub, ⟨p, n, kids, hp, hn, hr, hb⟩, h1, h2, rfl⟩
    refine ⟨p, hp, n, hn, ?_⟩
    rw [hr]
    exact clustersInAll_complete hb h1 h2

/-! ## C43 -/

/-- **C43.** What the index finds under a path is the last element of the device registered under
that path, in document order. -/
theorem C43_last (d : Device) (ix : Index) (h : Index.create d = .ok ix) :
    (∀ b p, mapGet ix.peripherals b = some p ↔ LastAt (allPeripherals namesOf d) b p) ∧
    (∀ b c, mapGet ix.clusters b = some c ↔ LastAt (allClusters namesOf d) b c) ∧
    (∀ q r, mapGet ix.registers q = some r ↔ LastAt (allRegisterPaths namesOf d) q r) ∧
    (∀ q f, mapGet ix.fields q = some f ↔ LastAt (allFields namesOf d) q f) ∧
    (∀ q e, mapGet ix.evs q = some e ↔ LastAt (allEnums namesOf d) q e) := by
  have := Index.create_adds h
  exact ⟨fun b p => by rw [this.peripherals, mapGet_reverse],
    fun b p => by rw [this.clusters, mapGet_reverse],
    fun b p => by rw [this.registers, mapGet_reverse],
    fun b p => by rw [this.fields, mapGet_reverse],
    fun b p => by rw [this.evs, mapGet_reverse]; rfl⟩

example : ∃ ix, Index.create Sample.nested = .ok ix ∧ ∀ r,
    mapGet ix.registers ⟨⟨"P1".toList, ["C".toList, "S0".toList]⟩, "RB".toList⟩ = some r ↔
      LastAt (allRegisterPaths namesOf Sample.nested) ⟨⟨"P1".toList, ["C".toList, "S0".toList]⟩, "RB".toList⟩ r := by
  obtain ⟨ix, h⟩ := ok_of_isOk (x := Index.create Sample.nested) (by decide +kernel)
  exact ⟨ix, h, (C43_last _ ix h).2.2.1 _⟩

/-- **C43.** Every entry found is an element of the device at that path. -/
theorem C43_sound (d : Device) (ix : Index) (h : Index.create d = .ok ix) :
    (∀ b p, mapGet ix.peripherals b = some p → PeripheralAt d b p) ∧
    (∀ b c, mapGet ix.clusters b = some c → ClusterAt d b c) ∧
    (∀ q r, mapGet ix.registers q = some r → RegisterAt d q r) ∧
    (∀ q f, mapGet ix.fields q = some f → FieldAt d q f) ∧
    (∀ q e, mapGet ix.evs q = some e → EnumAt d q e) := by
  obtain ⟨h1, h2, h3, h4, h5⟩ := C43_last d ix h
  exact ⟨fun b p hp => mem_allPeripherals.mp (lastAt_mem ((h1 b p).mp hp)),
    fun b p hp => mem_allClusters.mp (lastAt_mem ((h2 b p).mp hp)),
    fun b p hp => mem_allRegisterPaths.mp (lastAt_mem ((h3 b p).mp hp)),
    fun b p hp => mem_allFields.mp (lastAt_mem ((h4 b p).mp hp)),
    fun b p hp => mem_allEnums.mp (lastAt_mem ((h5 b p).mp hp))⟩

example : ∃ f, FieldAt Sample.nested ⟨⟨⟨"P1".toList, ["C".toList, "S0".toList]⟩, "RB".toList⟩, "F".toList⟩ f := by
  obtain ⟨ix, h⟩ := ok_of_isOk (x := Index.create Sample.nested) (by decide +kernel)
  have hf : ((Index.create Sample.nested).map fun ix => (mapGet ix.fields
      ⟨⟨⟨"P1".toList, ["C".toList, "S0".toList]⟩, "RB".toList⟩, "F".toList⟩).isSome) = .ok true := by decide +kernel
  rw [h] at hf
  simp only [Except.map, Except.ok.injEq] at hf
  obtain ⟨f, hf⟩ := Option.isSome_iff_exists.mp hf
  exact ⟨f, (C43_sound _ ix h).2.2.2.1 _ f hf⟩

/-- **C43.** Looking up the path of any element, under any of its names, finds an element. -/
theorem C43_complete (d : Device) (ix : Index) (h : Index.create d = .ok ix) :
    (∀ b p, PeripheralAt d b p → ∃ p', mapGet ix.peripherals b = some p') ∧
    (∀ b c, ClusterAt d b c → ∃ c', mapGet ix.clusters b = some c') ∧
    (∀ q r, RegisterAt d q r → ∃ r', mapGet ix.registers q = some r') ∧
    (∀ q f, FieldAt d q f → ∃ f', mapGet ix.fields q = some f') ∧
    (∀ q e, EnumAt d q e → ∃ e', mapGet ix.evs q = some e') := by
  obtain ⟨h1, h2, h3, h4, h5⟩ := C43_last d ix h
  exact ⟨fun b p hp => (lastAt_exists (mem_allPeripherals.mpr hp)).imp fun x hx => (h1 b x).mpr hx,
    fun b p hp => (lastAt_exists (mem_allClusters.mpr hp)).imp fun x hx => (h2 b x).mpr hx,
    fun b p hp => (lastAt_exists (mem_allRegisterPaths.mpr hp)).imp fun x hx => (h3 b x).mpr hx,
    fun b p hp => (lastAt_exists (mem_allFields.mpr hp)).imp fun x hx => (h4 b x).mpr hx,
    fun b p hp => (lastAt_exists (mem_allEnums.mpr hp)).imp fun x hx => (h5 b x).mpr hx⟩

example : ∃ ix p, Index.create Sample.nested = .ok ix ∧ mapGet ix.peripherals ⟨"P1".toList, []⟩ = some p := by
  obtain ⟨ix, h⟩ := ok_of_isOk (x := Index.create Sample.nested) (by decide +kernel)
  have hp : ((Index.create Sample.nested).map fun ix => (mapGet ix.peripherals ⟨"P1".toList, []⟩).isSome) =
      .ok true := by decide +kernel
  rw [h] at hp
  simp only [Except.map, Except.ok.injEq] at hp
  obtain ⟨p, hp⟩ := Option.isSome_iff_exists.mp hp
  obtain ⟨p', h'⟩ := (C43_complete _ ix h).1 _ p ((C43_sound _ ix h).1 _ p hp)
  exact ⟨ix, p', h, h'⟩

/-! ## When the index can be built -/

/-- Nothing is asked of fields, every array has enough indexes. -/
abbrev Indexable (d : Device) : Prop := DeviceParts (fun _ => True) Spec.EnoughIndexes d

theorem indexNames_iff {name : Str} {dim : Option DimElement} :
    (∃ l, Index.indexNames name dim = .ok l) ↔ ∀ d, dim = some d → Spec.EnoughIndexes d := by
  cases dim with
  | none => exact ⟨fun _ d h => (by cases h), fun _ => ⟨_, rfl⟩⟩
  | some x =>
    constructor
    · rintro ⟨l, h⟩ d hd
      cases hd
      obtain ⟨l', h', _⟩ := bind_ok.mp h
      exact (names_eq name x l' h').2
    · intro h
      obtain ⟨l, hl⟩ := names_ok name (h x rfl)
      exact ⟨_, bind_ok.mpr ⟨l, hl, rfl⟩⟩

theorem foldlM_ok_iff {α β : Type} {f : β → α → M β} {P : α → Prop} {l : List α}
    (h : ∀ a ∈ l, ∀ b, (∃ b', f b a = .ok b') ↔ P a) (b : β) :
    (∃ b', l.foldlM f b = .ok b') ↔ ∀ a ∈ l, P a := by
  induction l generalizing b with
  | nil => simp [pure, Except.pure]
  | cons a l ih =>
    rw [List.foldlM_cons]
    simp only [List.mem_cons, forall_eq_or_imp]
    constructor
    · rintro ⟨b', hb⟩
      obtain ⟨c, hc, hb⟩ := bind_ok.mp hb
      exact ⟨(h a (by simp) b).mp ⟨c, hc⟩, (ih (fun a ha => h a (by simp [ha])) c).mp ⟨b', hb⟩⟩
    · rintro ⟨h1, h2⟩
      obtain ⟨c, hc⟩ := (h a (by simp) b).mpr h1
      obtain ⟨b', hb⟩ := (ih (fun a ha => h a (by simp [ha])) c).mpr h2
      exact ⟨b', bind_ok.mpr ⟨c, hc, hb⟩⟩

theorem indexNames_ne_nil {name : Str} {dim : Option DimElement} {l : List Str}
    (h : Index.indexNames name dim = .ok l) : l ≠ [] := by
  rw [indexNames_eq h]; cases dim <;> simp [namesOf]

theorem dimPart_iff {α : Type} {D : DimElement → Prop} {x : MaybeArray α} :
    DimPart D x ↔ ∀ d, x.dim? = some d → D d := by
  cases x <;> simp [DimPart, MaybeArray.dim?]

/-- Doing something for each name succeeds if the names can be computed and each step succeeds. -/
theorem forNames_iff {name : Str} {dim : Option DimElement} {f : Index → Str → M Index} {P : Prop}
    (h : ∀ n ix, (∃ ix', f ix n = .ok ix') ↔ P) (ix : Index) :
    (∃ ix', (do let ns ← Index.indexNames name dim; ns.foldlM f ix) = .ok ix') ↔
      P ∧ ∀ d, dim = some d → Spec.EnoughIndexes d := by
  constructor
  · rintro ⟨ix', hx⟩
    obtain ⟨ns, hns, hx⟩ := bind_ok.mp hx
    refine ⟨?_, indexNames_iff.mp ⟨ns, hns⟩⟩
    obtain ⟨n, hn⟩ := List.exists_mem_of_ne_nil _ (indexNames_ne_nil hns)
    exact (foldlM_ok_iff (P := fun _ => P) (fun a _ b => h a b) ix).mp ⟨ix', hx⟩ n hn
  · rintro ⟨hp, hd⟩
    obtain ⟨ns, hns⟩ := (indexNames_iff (name := name)).mpr hd
    obtain ⟨ix', hx⟩ := (foldlM_ok_iff (P := fun _ => P) (l := ns) (fun a _ b => h a b) ix).mpr
      (fun _ _ => hp)
    exact ⟨ix', bind_ok.mpr ⟨ns, hns, hx⟩⟩

theorem addField_ok {ix : Index} {q : RegisterPath} {f : Field} :
    (∃ ix', ix.addField q f = .ok ix') ↔ FieldParts (fun _ => True) Spec.EnoughIndexes f := by
  unfold FieldParts
  rw [true_and, dimPart_iff, ← indexNames_iff (name := f.info.name)]
  constructor
  · rintro ⟨ix', h⟩
    obtain ⟨ns, hns, _⟩ := bind_ok.mp h
    exact ⟨ns, hns⟩
  · rintro ⟨ns, hns⟩
    exact ⟨_, bind_ok.mpr ⟨ns, hns, rfl⟩⟩

theorem addRegister_ok {ix : Index} {b : BlockPath} {r : Register} :
    (∃ ix', ix.addRegister b r = .ok ix') ↔ RegisterParts (fun _ => True) Spec.EnoughIndexes r := by
  unfold RegisterParts
  rw [dimPart_iff]
  refine forNames_iff (fun n ix => ?_) ix
  have := foldlM_ok_iff (f := fun ix f => Index.addField ix (b.newRegister n) f)
    (P := FieldParts (fun _ => True) Spec.EnoughIndexes) (l := r.info.fieldList)
    (fun f _ ix => addField_ok) ix
  unfold Index.addRegisterAs
  constructor
  · rintro ⟨ix', h⟩ l hl
    obtain ⟨jx, hj, _⟩ := bind_ok.mp h
    have := this.mp ⟨jx, hj⟩
    rw [RegisterInfo.fieldList, hl] at this
    exact this
  · intro h
    obtain ⟨jx, hj⟩ := this.mpr fun f hf => by
      unfold RegisterInfo.fieldList at hf
      cases hl : r.info.fields with
      | none => simp [hl] at hf
      | some l => exact h l hl f (by simpa [hl] using hf)
    exact ⟨_, bind_ok.mpr ⟨jx, hj, rfl⟩⟩

theorem bind_exists {α β : Type} {m : M α} {f : α → M β} {P Q : Prop} (hm : (∃ a, m = .ok a) ↔ P)
    (hf : ∀ a, m = .ok a → ((∃ b, f a = .ok b) ↔ Q)) : (∃ b, (m >>= f) = .ok b) ↔ P ∧ Q := by
  constructor
  · rintro ⟨b, h⟩
    obtain ⟨a, ha, h⟩ := bind_ok.mp h
    exact ⟨hm.mp ⟨a, ha⟩, (hf a ha).mp ⟨b, h⟩⟩
  · rintro ⟨hp, hq⟩
    obtain ⟨a, ha⟩ := hm.mpr hp
    obtain ⟨b, hb⟩ := (hf a ha).mpr hq
    exact ⟨b, bind_ok.mpr ⟨a, ha, hb⟩⟩

mutual
theorem addRc_ok : ∀ (b : BlockPath) (c : RegisterCluster) (ix : Index),
    (∃ ix', Index.addCluster b c ix = .ok ix') ↔
      ((∃ r, c = .register r) ∨ RcParts (fun _ => True) Spec.EnoughIndexes c)
  | b, .register r, ix => by unfold Index.addCluster; simp
  | b, .cluster h dim kids, ix => by
    unfold Index.addCluster RcParts
    simp only [reduceCtorEq, exists_false, false_or]
    rw [and_comm]
    refine forNames_iff (fun n ix => ?_) ix
    have h1 := addRegisters_ok (b.newCluster n) kids ix
    have : RcsParts (fun _ => True) Spec.EnoughIndexes kids ↔
        (∀ r, .register r ∈ kids → RegisterParts (fun _ => True) Spec.EnoughIndexes r) ∧
        RcsParts (fun _ => True) Spec.EnoughIndexes kids := by
      refine ⟨fun h => ⟨fun r hr => ?_, h⟩, And.right⟩
      have := rcsParts_iff.mp h _ hr
      unfold RcParts at this
      exact this
    constructor
    · rintro ⟨ix', hx⟩
      obtain ⟨jx, hj, hx⟩ := bind_ok.mp hx
      obtain ⟨kx, hk, _⟩ := bind_ok.mp hx
      have hr := h1.mp ⟨jx, hj⟩
      have hc := (addRcs_ok (b.newCluster n) kids jx).mp ⟨kx, hk⟩
      refine rcsParts_iff.mpr fun c hc' => ?_
      rcases hc c hc' with ⟨r, rfl⟩ | hp
      · unfold RcParts; exact hr r hc'
      · exact hp
    · intro hp
      obtain ⟨jx, hj⟩ := h1.mpr (this.mp hp).1
      obtain ⟨kx, hk⟩ := (addRcs_ok (b.newCluster n) kids jx).mpr
        fun c hc => .inr (rcsParts_iff.mp hp c hc)
      exact ⟨_, bind_ok.mpr ⟨jx, hj, bind_ok.mpr ⟨kx, hk, rfl⟩⟩⟩
theorem addRcs_ok : ∀ (b : BlockPath) (cs : List RegisterCluster) (ix : Index),
    (∃ ix', Index.addClusters b cs ix = .ok ix') ↔
      ∀ c ∈ cs, (∃ r, c = .register r) ∨ RcParts (fun _ => True) Spec.EnoughIndexes c
  | b, [], ix => by unfold Index.addClusters; simp
  | b, c :: cs, ix => by
    unfold Index.addClusters
    rw [List.forall_mem_cons]
    exact bind_exists (addRc_ok b c ix) fun jx _ => addRcs_ok b cs jx
theorem addRegisters_ok : ∀ (b : BlockPath) (cs : List RegisterCluster) (ix : Index),
    (∃ ix', Index.addRegisters b ix cs = .ok ix') ↔
      ∀ r, .register r ∈ cs → RegisterParts (fun _ => True) Spec.EnoughIndexes r
  | b, [], ix => by unfold Index.addRegisters; simp
  | b, .register r :: cs, ix => by
    unfold Index.addRegisters
    simp only [List.mem_cons, RegisterCluster.register.injEq, forall_eq_or_imp]
    exact bind_exists addRegister_ok fun jx _ => addRegisters_ok b cs jx
  | b, .cluster .. :: cs, ix => by
    unfold Index.addRegisters
    simpa using addRegisters_ok b cs ix
end

/-- **C43.** The index of a device can be built exactly if every index list has an entry for every
element of its array. -/
theorem C43_builds (d : Device) : (∃ ix, Index.create d = .ok ix) ↔ Indexable d := by
  refine foldlM_ok_iff (fun p _ ix => ?_) ({} : Index)
  unfold PeripheralParts
  rw [dimPart_iff]
  refine forNames_iff (fun n ix => ?_) ix
  unfold Index.addPeripheralAs
  constructor
  · rintro ⟨ix', hx⟩ l hl
    obtain ⟨jx, hj, hx⟩ := bind_ok.mp hx
    obtain ⟨kx, hk, _⟩ := bind_ok.mp hx
    have hr := (addRegisters_ok _ _ _).mp ⟨jx, hj⟩
    have hc := (addRcs_ok _ _ _).mp ⟨kx, hk⟩
    unfold PeripheralInfo.children at hr hc
    rw [hl] at hr hc
    refine rcsParts_iff.mpr fun c hc' => ?_
    rcases hc c hc' with ⟨r, rfl⟩ | hp
    · unfold RcParts; exact hr r hc'
    · exact hp
  · intro h
    have h' : RcsParts (fun _ => True) Spec.EnoughIndexes p.info.children := by
      unfold PeripheralInfo.children
      cases hl : p.info.registers with
      | none => simp [RcsParts]
      | some l => exact h l hl
    obtain ⟨jx, hj⟩ := (addRegisters_ok (BlockPath.new n) p.info.children ix).mpr fun r hr => by
      have := rcsParts_iff.mp h' _ hr
      unfold RcParts at this
      exact this
    obtain ⟨kx, hk⟩ := (addRcs_ok (BlockPath.new n) p.info.children jx).mpr
      fun c hc => .inr (rcsParts_iff.mp h' c hc)
    exact ⟨_, bind_ok.mpr ⟨jx, hj, bind_ok.mpr ⟨kx, hk, rfl⟩⟩⟩

-- Enumerated values two clusters down are found under instance names.
example : (do
    let ix ← Index.create Sample.nested
    .ok ((mapGet ix.evs ⟨⟨⟨⟨"P1".toList, ["C".toList, "S0".toList]⟩, "RB".toList⟩, "F".toList⟩,
        "E".toList⟩).isSome,
      (mapGet ix.registers ⟨⟨"P0".toList, ["C".toList]⟩, "T".toList⟩).isSome)) =
    (.ok (true, false) : M (Bool × Bool)) := by decide +kernel
example : Indexable Sample.nested :=
  (C43_builds _).mp (by
    cases h : Index.create Sample.nested with
    | ok ix => exact ⟨ix, rfl⟩
    | error e =>
      have : (match Index.create Sample.nested with | .ok _ => true | .error _ => false) = true := by
        decide +kernel
      rw [h] at this; cases this)

end Svd
