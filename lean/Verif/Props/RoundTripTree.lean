import Verif.Props.RoundTrip
import Verif.Props.Sort
import Verif.Props.Layout

/-!
# Reading back what was written: registers, clusters and peripherals
-/

namespace Svd

open Spec Xml

variable {pcfg : ParseConfig} {cc : IdentifierFormat → Str → Str} {cfg : EncConfig} {oc : Bool}

theorem props_ok {p : RegisterProperties} {lvl : ValidateLevel} (h : PropsValid p lvl) :
    p.validate lvl = .ok () := (C16_parts (.props p) lvl).mp h

/-! ## Registers -/

theorem arranged_fields {s : DerivableSorting} {l l' : List Field}
    (h : sortDerivedFields oc s l = .ok l') :
    Arranged (sortingOf s) (fun f : Field => f.info.bitRange.offset.toNat)
      (OrderedDerivable (fun f => f.info.bitRange.offset.toNat) (fun f => f.info.name)
        (fun f => f.info.derivedFrom.isSome ||
          f.info.enumeratedValues.any fun ev => ev.derivedFrom.isSome) s) l l' := by
  refine ⟨(C28_permutation oc).2.1 s l l' h, fun hs => ?_⟩
  by_cases hr : sortingOf s = some .offsetReversed
  · obtain ⟨_, h', ho⟩ := (C29_below_2_31_partial oc).2.1 s l (hs hr)
    rw [h] at h'; injection h' with h'; subst h'; exact ho
  · obtain ⟨_, h', ho⟩ := C28_fields oc s hr l
    rw [h] at h'; injection h' with h'; subst h'; exact ho

/-- Mapping an encoder and reading back, item by item. -/
theorem mapM_read {α β : Type} {l : List α} {f : α → M Xml} {p : Xml → M β} {g : α → β} {Q : Xml → Prop}
    {xs : List Xml} (hx : l.mapM f = .ok xs)
    (h : ∀ a ∈ l, ∀ x, f a = .ok x → Q x ∧ p x = .ok (g a)) :
    (∀ x ∈ xs, Q x) ∧ xs.mapM p = .ok (l.map g) := by
  induction l generalizing xs with
  | nil => injection hx with hx; subst hx; exact ⟨by simp, rfl⟩
  | cons a l ih =>
    rw [mapM_cons] at hx
    obtain ⟨b, hb, hx⟩ := bind_ok.mp hx
    obtain ⟨bs, hbs, hx⟩ := bind_ok.mp hx
    injection hx with hx; subst hx
    obtain ⟨h1, h2⟩ := ih hbs fun a ha => h a (by simp [ha])
    obtain ⟨h3, h4⟩ := h a (by simp) b hb
    refine ⟨by simpa using ⟨h3, h1⟩, ?_⟩
    rw [mapM_cons, h4, ok_bind, h2, ok_bind]; rfl

theorem isElement_of_hasTag {k : String} {x : Xml} (h : hasTag k x = true) : x.isElement = true := by
  cases x with
  | elem t as cs => rfl
  | text s => cases h
  | other => cases h

theorem read_fields (hi : pcfg.ignoreEnums = false) (hn : KeepsNames cfg) {o : Option (List Field)}
    (hne : o ≠ some []) (h : ∀ l, o = some l → ∀ f ∈ l, FieldFits pcfg.validateLevel f)
    (hv : ∀ l, o = some l → ∀ f ∈ l, ∀ q, FieldHas f.info q → q.Valid pcfg.validateLevel)
    {xs : List Xml} (hx : encodeFields oc cc cfg o = .ok xs) :
    ∃ o', FieldsPresented cfg o o' ∧ o' ≠ some [] ∧ (∀ k, "fields" ≠ k → look k xs = none) ∧
      (match look "fields" xs with
        | some fs => do
          let l ← (fs.children.filter isElement).mapM (parseField oc pcfg)
          .ok (some l)
        | none => .ok none : M (Option (List Field))) = .ok o' := by
  unfold encodeFields at hx
  cases o with
  | none =>
    injection hx with hx; subst hx
    exact ⟨none, .none, nofun, fun _ _ => rfl, rfl⟩
  | some l =>
    simp only at hx
    obtain ⟨l', hs, hx⟩ := bind_ok.mp hx
    obtain ⟨ys, hm, hx⟩ := bind_ok.mp hx
    have hs : sortDerivedFields oc cfg.fieldSorting l = .ok l' := by
      by_cases hc : cfg.fieldSorting = .unchanged none
      · rw [if_pos hc] at hs; rw [hc]; exact hs
      · rwa [if_neg hc] at hs
    have harr := arranged_fields hs
    obtain ⟨hQ, hp⟩ := mapM_read (p := parseField oc pcfg)
      (g := fun f => f.mapInfo (inNotation cfg.fieldBitRange)) (Q := fun x => hasTag "field" x = true) hm
      fun f hf x hfx => read_field hi hn (h l rfl f (harr.1.mem_iff.mp hf))
        (hv l rfl f (harr.1.mem_iff.mp hf)) hfx
    have hl' : l' ≠ [] := by
      rintro rfl
      exact hne (congrArg some (List.nil_perm.mp harr.1))
    have hys : ys.isEmpty = false := by
      cases ys with
      | nil =>
        have := mapM_ok_length hm
        exact absurd (List.length_eq_zero_iff.mp this.symm) hl'
      | cons y ys => rfl
    rw [hys] at hx
    injection hx with hx; subst hx
    refine ⟨_, .some harr, ?_, ?_, ?_⟩
    · intro e; injection e with e; exact hl' (List.map_eq_nil_iff.mp e)
    · intro k hk
      simp only [Bool.false_eq_true, if_false, look_elem, look_nil, if_neg hk]
    · simp only [Bool.false_eq_true, if_false, look_elem, if_true]
      rw [children, List.filter_eq_self.mpr fun x hx => isElement_of_hasTag (hQ x hx), hp, ok_bind]

theorem dim_cases {k : String} (hk : dimTags.contains k = true) :
    k = "dim" ∨ k = "dimIncrement" ∨ k = "dimIndex" ∨ k = "dimName" ∨ k = "dimArrayIndex" := by
  have : k ∈ dimTags := by simpa using hk
  simpa only [dimTags, List.mem_cons, List.not_mem_nil, or_false] using this

theorem read_register (hi : pcfg.ignoreEnums = false) (hn : KeepsNames cfg) {r : Register}
    (h : RegisterFits pcfg.validateLevel r)
    (hv : ∀ q, RegisterHas r.info q → q.Valid pcfg.validateLevel) {x : Xml}
    (hx : encodeRegister oc cc cfg r = .ok x) :
    ∃ fs, FieldsPresented cfg r.info.fields fs ∧ hasTag "register" x = true ∧
      parseRegister oc pcfg x = .ok (r.mapInfo fun i => { i with fields := fs }) := by
  unfold encodeRegister encodeRegisterInfo at hx
  obtain ⟨xs, hxs⟩ : ∃ xs, encodeFields oc cc cfg r.info.fields = .ok xs := by
    cases hf : encodeFields oc cc cfg r.info.fields with
    | ok xs => exact ⟨xs, rfl⟩
    | error e =>
      rw [hf] at hx
      cases hd : r.dim? with
      | none => rw [hd] at hx; cases hx
      | some d =>
        rw [hd] at hx
        obtain ⟨_, _, hx⟩ := bind_ok.mp hx
        cases hx
  rw [hxs, ok_bind, hn.register] at hx
  obtain ⟨fs, hfs, hfne, hlook, hread⟩ := read_fields (oc := oc) (cc := cc) hi hn h.nonempty h.fields
    (fun l hl f hf q hq => hv q (.field hl hf hq)) hxs
  refine ⟨fs, hfs, ?_⟩
  have hmk : r.mapInfo (fun i => { i with fields := fs }) =
      MaybeArray.mk' { r.info with fields := fs } r.dim? := by cases r <;> rfl
  rw [hmk]
  refine read_array hn hx (fun dk hdk => ?_) (fun k hk => ?_) h.array
  · unfold parseRegisterInfo
    have l (k : String) (hk : "fields" ≠ k) := hlook k hk
    rw [text_of (skip hdk (by decide) (by looks)) h.name, ok_bind,
      textOpt_of (o := r.info.displayName) (skip hdk (by decide) (by looks [l "displayName" (by decide)]))
        h.displayName, ok_bind,
      textOpt_of (o := r.info.description) (skip hdk (by decide) (by looks [l "description" (by decide)]))
        h.description, ok_bind,
      textOpt_of (o := r.info.alternateGroup)
        (skip hdk (by decide) (by looks [l "alternateGroup" (by decide)])) h.alternateGroup, ok_bind,
      textOpt_of (o := r.info.alternateRegister)
        (skip hdk (by decide) (by looks [l "alternateRegister" (by decide)])) h.alternateRegister, ok_bind,
      int_of (f := cfg.registerAddressOffset) (v := r.info.addressOffset)
        (skip hdk (by decide) (by looks)), ok_bind,
      read_properties (cfg := cfg) (p := r.info.properties)
        { size := skip hdk (by decide) (by looks [l "size" (by decide)])
          access := skip hdk (by decide) (by looks [l "access" (by decide)])
          protection := skip hdk (by decide) (by looks [l "protection" (by decide)])
          resetValue := skip hdk (by decide) (by looks [l "resetValue" (by decide)])
          resetMask := skip hdk (by decide) (by looks [l "resetMask" (by decide)]) }
        (props_ok (hv _ .props)), ok_bind,
      keyword_of C04_dataType (o := r.info.datatype)
        (skip hdk (by decide) (by looks [l "dataType" (by decide)])), ok_bind,
      keyword_of C04_modifiedWriteValues (o := r.info.modifiedWriteValues)
        (skip hdk (by decide) (by looks [l "modifiedWriteValues" (by decide)])), ok_bind,
      optional_of (o := r.info.writeConstraint) (f := encodeWriteConstraint)
        (skip hdk (by decide) (by looks [l "writeConstraint" (by decide)]))
        (fun v _ => read_writeConstraint v), ok_bind,
      keyword_of C04_readAction (o := r.info.readAction)
        (skip hdk (by decide) (by looks [l "readAction" (by decide)])), ok_bind]
    rw [show getChild _ "fields" = look "fields" xs from skip hdk (by decide) (by looks)]
    refine bind_ok.mpr ⟨fs, hread, ?_⟩
    rw [attr_derived]
    unfold RegisterInfoBuilder.build RegisterProperties.build
    simp only [need, okOr, ok_bind]
    rw [props_ok (p := r.info.properties) (hv _ .props), ok_bind, ok_bind]
    have hval : RegisterValid { r.info with fields := fs } pcfg.validateLevel := by
      have := hv _ .self
      exact ⟨this.1, fun hs =>
        ⟨(this.2 hs).1, (this.2 hs).2.1, (this.2 hs).2.2.1, (this.2 hs).2.2.2.1, fun _ => hfne⟩⟩
    have hval := (C16_parts (.register { r.info with fields := fs }) _).mp hval
    exact bind_ok.mpr ⟨(), hval, rfl⟩
  · rcases dim_cases hk with rfl | rfl | rfl | rfl | rfl
    · looks [hlook "dim" (by decide)]
    · looks [hlook "dimIncrement" (by decide)]
    · looks [hlook "dimIndex" (by decide)]
    · looks [hlook "dimName" (by decide)]
    · looks [hlook "dimArrayIndex" (by decide)]

/-! ## Clusters -/

/-- A register or a cluster element. -/
def RcElem (x : Xml) : Prop := hasTag "register" x = true ∨ hasTag "cluster" x = true

theorem look_rcs {xs : List Xml} (h : ∀ x ∈ xs, RcElem x) {k : String} (h1 : "register" ≠ k)
    (h2 : "cluster" ≠ k) : look k xs = none := by
  unfold look
  rw [List.find?_eq_none]
  intro x hx ht
  rcases h x hx with h | h
  · exact h1 ((hasTag_tag h).symm.trans (hasTag_tag ht))
  · exact h2 ((hasTag_tag h).symm.trans (hasTag_tag ht))

theorem clusterKids_skip {pre xs : List Xml} (h1 : look "register" pre = none)
    (h2 : look "cluster" pre = none) :
    parseClusterKids oc pcfg (pre ++ xs) = parseClusterKids oc pcfg xs := by
  induction pre with
  | nil => rfl
  | cons x pre ih =>
    have e1 := List.find?_eq_none.mp h1
    have e2 := List.find?_eq_none.mp h2
    rw [List.cons_append, parseClusterKids, if_neg (by
      rw [Bool.or_eq_true]; exact fun h => h.elim (e1 x (by simp)) (e2 x (by simp)))]
    exact ih (List.find?_eq_none.mpr fun y hy => e1 y (by simp [hy]))
      (List.find?_eq_none.mpr fun y hy => e2 y (by simp [hy]))

theorem encodeArray_info {tag : String} {dim : Option DimElement} {m : M Xml} {x : Xml}
    (h : encodeArray oc cc cfg tag dim m = .ok x) : ∃ y, m = .ok y := by
  cases dim with
  | none => exact ⟨x, h⟩
  | some d =>
    obtain ⟨_, _, h⟩ := bind_ok.mp h
    obtain ⟨y, hy, _⟩ := bind_ok.mp h
    exact ⟨y, hy⟩

theorem rcsPresented_nil {cs cs' : List RegisterCluster} (h : RcsPresented cfg cs cs') :
    cs' = [] → cs = [] := by
  intro e; subst e; cases h; rfl

theorem read_cluster (hn : KeepsNames cfg) {hd : ClusterHead} {d : Option DimElement}
    {cs cs' : List RegisterCluster} (h : ClusterHeadFits hd) (ha : ArrayFits pcfg.validateLevel hd.name d)
    (hv : ClusterValid { hd with children := cs } pcfg.validateLevel)
    (hp : PropsValid hd.defaultRegisterProperties pcfg.validateLevel)
    (hcs : RcsPresented cfg cs cs') {xs : List Xml} (hxs : ∀ x ∈ xs, RcElem x)
    (hk : parseClusterKids oc pcfg xs = .ok cs') {x : Xml}
    (hx : encodeArray oc cc cfg "cluster" d (encodeClusterWith cc cfg hd (.ok xs)) = .ok x) :
    hasTag "cluster" x = true ∧ parseRegisterCluster oc pcfg x = .ok (.cluster hd d cs') := by
  unfold encodeClusterWith at hx
  rw [ok_bind, hn.cluster] at hx
  have l (k : String) (h1 : "register" ≠ k) (h2 : "cluster" ≠ k) := look_rcs hxs h1 h2
  have key := read_array (pcfg := pcfg) (α := ClusterInfo) (nm := fun c => c.name)
    (P := fun x => parseClusterInfoWith pcfg x (parseClusterKids oc pcfg x.children))
    (i := { hd with children := cs' }) hn hx (fun dk hdk => ?_) (fun k hk => ?_) ha
  · obtain ⟨h1, h2⟩ := key
    refine ⟨h1, ?_⟩
    obtain ⟨as, kids, rfl⟩ := elem_of_hasTag h1
    rw [parseRegisterCluster, if_neg (by decide), if_pos rfl]
    simp only [children] at h2
    rw [h2, ok_bind]
    cases d <;> rfl
  · unfold parseClusterInfoWith
    rw [text_of (skip hdk (by decide) (by looks)) h.name, ok_bind,
      textOpt_of (o := hd.description)
        (skip hdk (by decide) (by looks [l "description" (by decide) (by decide)])) h.description, ok_bind,
      textOpt_of (o := hd.alternateCluster)
        (skip hdk (by decide) (by looks [l "alternateCluster" (by decide) (by decide)])) h.alternateCluster,
      ok_bind,
      textOpt_of (o := hd.headerStructName)
        (skip hdk (by decide) (by looks [l "headerStructName" (by decide) (by decide)])) h.headerStructName,
      ok_bind,
      int_of (f := cfg.clusterAddressOffset) (v := hd.addressOffset)
        (skip hdk (by decide) (by looks)), ok_bind,
      read_properties (cfg := cfg) (p := hd.defaultRegisterProperties)
        { size := skip hdk (by decide) (by looks [l "size" (by decide) (by decide)])
          access := skip hdk (by decide) (by looks [l "access" (by decide) (by decide)])
          protection := skip hdk (by decide) (by looks [l "protection" (by decide) (by decide)])
          resetValue := skip hdk (by decide) (by looks [l "resetValue" (by decide) (by decide)])
          resetMask := skip hdk (by decide) (by looks [l "resetMask" (by decide) (by decide)]) }
        (props_ok hp), ok_bind]
    rw [children, clusterKids_skip (look_dim hdk (by decide)) (look_dim hdk (by decide)),
      clusterKids_skip (by looks) (by looks), hk, ok_bind, attr_derived]
    unfold ClusterInfoBuilder.build RegisterProperties.build
    simp only [need, okOr, ok_bind, emptyToNone_of h.description, emptyToNone_of h.alternateCluster,
      emptyToNone_of h.headerStructName]
    rw [props_ok hp, ok_bind, ok_bind]
    have hval : ClusterValid { hd with children := cs' } pcfg.validateLevel :=
      ⟨hv.1, fun hs => ⟨(hv.2 hs).1, (hv.2 hs).2.1, fun hd0 e => (hv.2 hs).2.2 hd0 (rcsPresented_nil hcs e)⟩⟩
    have hval := (C16_parts (.cluster { hd with children := cs' }) _).mp hval
    exact bind_ok.mpr ⟨(), hval, rfl⟩
  · rcases dim_cases hk with rfl | rfl | rfl | rfl | rfl
    · looks [l "dim" (by decide) (by decide)]
    · looks [l "dimIncrement" (by decide) (by decide)]
    · looks [l "dimIndex" (by decide) (by decide)]
    · looks [l "dimName" (by decide) (by decide)]
    · looks [l "dimArrayIndex" (by decide) (by decide)]

mutual
theorem read_rc (hi : pcfg.ignoreEnums = false) (hn : KeepsNames cfg) : ∀ (c : RegisterCluster) (x : Xml),
    RcFits pcfg.validateLevel c →
    (∀ n, InTree [c] n → ∀ q, NodeHas n q → q.Valid pcfg.validateLevel) →
    encodeRegisterCluster oc cc cfg c = .ok x →
    ∃ c', RcPresented cfg c c' ∧ RcElem x ∧ parseRegisterCluster oc pcfg x = .ok c'
  | .register r, x, h, hv, hx => by
    rw [encodeRegisterCluster] at hx
    rw [RcFits] at h
    obtain ⟨fs, h1, h2, h3⟩ := read_register (pcfg := pcfg) hi hn h
      (fun q hq => hv (.register r) (.here (List.mem_singleton_self _)) q (.register hq)) hx
    refine ⟨_, .register h1, .inl h2, ?_⟩
    obtain ⟨as, kids, rfl⟩ := elem_of_hasTag h2
    rw [parseRegisterCluster, if_pos rfl, h3, ok_bind]
  | .cluster hd d cs, x, h, hv, hx => by
    rw [encodeRegisterCluster] at hx
    rw [RcFits] at h
    obtain ⟨y, hy⟩ := encodeArray_info hx
    obtain ⟨xs, hxs, _⟩ := bind_ok.mp hy
    obtain ⟨cs', h1, h2, h3, _⟩ := read_rcs hi hn cs xs h.2.2
      (fun n hn q hq => hv n (.inside (List.mem_singleton_self _) hn) q hq) hxs
    rw [hxs] at hx
    obtain ⟨h4, h5⟩ := read_cluster hn h.1 h.2.1 (hv _ (.here (List.mem_singleton_self _)) _ .cluster)
      (hv _ (.here (List.mem_singleton_self _)) _ .props) h1 h2 h3 hx
    exact ⟨_, .cluster h1, .inr h4, h5⟩
theorem read_rcs (hi : pcfg.ignoreEnums = false) (hn : KeepsNames cfg) :
    ∀ (cs : List RegisterCluster) (xs : List Xml), RcsFits pcfg.validateLevel cs →
    (∀ n, InTree cs n → ∀ q, NodeHas n q → q.Valid pcfg.validateLevel) →
    encodeRegisterClusters oc cc cfg cs = .ok xs →
    ∃ cs', RcsPresented cfg cs cs' ∧ (∀ x ∈ xs, RcElem x) ∧ parseClusterKids oc pcfg xs = .ok cs' ∧
      xs.mapM (parseRegisterCluster oc pcfg) = .ok cs'
  | [], xs, _, _, hx => by
    rw [encodeRegisterClusters] at hx
    injection hx with hx; subst hx
    exact ⟨[], .nil, by simp, by rw [parseClusterKids], rfl⟩
  | c :: cs, xs, h, hv, hx => by
    rw [encodeRegisterClusters] at hx
    obtain ⟨y, hy, hx⟩ := bind_ok.mp hx
    obtain ⟨ys, hys, hx⟩ := bind_ok.mp hx
    injection hx with hx; subst hx
    rw [RcsFits] at h
    obtain ⟨c', h1, h2, h3⟩ := read_rc hi hn c y h.1 (fun n hn q hq => hv n (by
      cases hn with
      | here hm => exact .here (List.mem_singleton.mp hm ▸ .head _)
      | inside hm ht => exact .inside (List.mem_cons.mpr (.inl (List.mem_singleton.mp hm))) ht) q hq) hy
    obtain ⟨cs', h4, h5, h6, h7⟩ := read_rcs hi hn cs ys h.2 (fun n hn q hq => hv n (by
      cases hn with
      | here hm => exact .here (.tail _ hm)
      | inside hm ht => exact .inside (List.mem_cons_of_mem _ hm) ht) q hq) hys
    refine ⟨c' :: cs', .cons h1 h4, by simpa using ⟨h2, h5⟩, ?_, ?_⟩
    · rw [parseClusterKids, if_pos (by rw [Bool.or_eq_true]; exact h2), h3, ok_bind, h6, ok_bind]
    · rw [mapM_cons, h3, ok_bind, h7, ok_bind]
end

end Svd
