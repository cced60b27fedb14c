import Verif.Spec.Recase
import Verif.Props.RoundTripAll
import Verif.Props.Written

/-!
# What comes back when identifiers are written in another case

C75.
-/

namespace Svd

open Spec

namespace Recase

/-- The configuration with the number formats alone. -/
def numbers (cfg : EncConfig) : EncConfig :=
  { cfg with
    peripheralName := none, interruptName := none, clusterName := none, registerName := none, fieldName := none
    enumeratedValuesName := none, enumeratedValueName := none, dimArrayIndexHeaderEnumName := none
    peripheralSorting := .unchanged none, registerClusterSorting := .unchanged (.unchanged none)
    fieldSorting := .unchanged none, fieldBitRange := none }

/-- The renaming as the encoder does it. -/
structure Names (cc : IdentifierFormat → Str → Str) (cfg : EncConfig) (r : Renaming) : Prop where
  peripheral : ∀ s, changeCase cc s cfg.peripheralName = r.peripheral s
  interrupt : ∀ s, changeCase cc s cfg.interruptName = r.interrupt s
  cluster : ∀ s, changeCase cc s cfg.clusterName = r.cluster s
  register : ∀ s, changeCase cc s cfg.registerName = r.register s
  field : ∀ s, changeCase cc s cfg.fieldName = r.field s
  enums : ∀ s, changeCase cc s cfg.enumeratedValuesName = r.enums s
  value : ∀ s, changeCase cc s cfg.enumeratedValueName = r.value s
  headerEnum : ∀ s, changeCase cc s cfg.dimArrayIndexHeaderEnumName = r.headerEnum s

theorem names_of {cc : IdentifierFormat → Str → Str} {cfg : EncConfig} {r : Renaming} (h : Converts cc cfg r) :
    Names cc cfg r :=
  ⟨fun s => ((Written.renamed_iff ..).mp (h.peripheral s)).symm,
   fun s => ((Written.renamed_iff ..).mp (h.interrupt s)).symm,
   fun s => ((Written.renamed_iff ..).mp (h.cluster s)).symm,
   fun s => ((Written.renamed_iff ..).mp (h.register s)).symm,
   fun s => ((Written.renamed_iff ..).mp (h.field s)).symm,
   fun s => ((Written.renamed_iff ..).mp (h.enums s)).symm,
   fun s => ((Written.renamed_iff ..).mp (h.value s)).symm,
   fun s => ((Written.renamed_iff ..).mp (h.headerEnum s)).symm⟩

theorem keepsNames (cfg : EncConfig) : KeepsNames (numbers cfg) := ⟨rfl, rfl, rfl, rfl, rfl, rfl, rfl, rfl⟩

theorem changeCase_none (cc : IdentifierFormat → Str → Str) (s : Str) : changeCase cc s none = s := rfl

theorem optNode_map {α β : Type} (o : Option α) (g : α → β) (f : β → Xml) :
    optNode (o.map g) f = optNode o fun a => f (g a) := by cases o <;> rfl

section
variable {cc : IdentifierFormat → Str → Str} {cfg : EncConfig} {r : Renaming} (h : Names cc cfg r) (oc : Bool)
include h

theorem enc_value (e : EnumeratedValue) :
    encodeEnumeratedValue cc (numbers cfg) (r.onValue e) = encodeEnumeratedValue cc cfg e := by
  simp only [encodeEnumeratedValue, Renaming.onValue, numbers, changeCase_none, h.value]

theorem enc_values (l : List EnumeratedValue) :
    (l.map r.onValue).map (encodeEnumeratedValue cc (numbers cfg)) = l.map (encodeEnumeratedValue cc cfg) := by
  rw [List.map_map]
  exact List.map_congr_left fun e _ => enc_value h e

omit h in
theorem enc_derived {f : Option IdentifierFormat} {g : Str → Str} (hg : ∀ s, changeCase cc s f = g s)
    (o : Option Str) : derivedAttr cc (o.map g) none = derivedAttr cc o f := by
  cases o with
  | none => rfl
  | some s => simp only [derivedAttr, Option.map, changeCase_none, hg]

theorem enc_enums (e : EnumeratedValues) :
    encodeEnumeratedValues cc (numbers cfg) (r.onEnums e) = encodeEnumeratedValues cc cfg e := by
  unfold encodeEnumeratedValues
  rw [show (r.onEnums e).values = e.values.map r.onValue from rfl, enc_values h,
    show (numbers cfg).enumeratedValuesName = none from rfl,
    show (r.onEnums e).derivedFrom = e.derivedFrom.map r.enums from rfl, enc_derived h.enums]
  simp only [Renaming.onEnums, optNode_map, changeCase_none, h.enums]

omit h in
theorem collectInts_onDim (d : DimElement) (l : List Nat) : (r.onDim d).collectInts l = d.collectInts l := by
  induction l with
  | nil => rfl
  | cons i l ih =>
    simp only [DimElement.collectInts, ih]
    rfl

omit h in
theorem enc_dimIndex (d : DimElement) : encodeDimIndex oc (r.onDim d) = encodeDimIndex oc d := by
  have : (r.onDim d).indexesAsRange oc = d.indexesAsRange oc := by
    unfold DimElement.indexesAsRange
    rw [collectInts_onDim]
    rfl
  unfold encodeDimIndex dimIndexText
  rw [this]
  rfl

theorem enc_dim (d : DimElement) :
    encodeDimElement oc cc (numbers cfg) (r.onDim d) = encodeDimElement oc cc cfg d := by
  unfold encodeDimElement
  rw [enc_dimIndex]
  congr 1
  funext di
  have ha : ∀ a : DimArrayIndex, encodeDimArrayIndex cc (numbers cfg)
      { headerEnumName := a.headerEnumName.map r.headerEnum, values := a.values.map r.onValue } =
      encodeDimArrayIndex cc cfg a := by
    intro a
    unfold encodeDimArrayIndex
    simp only [optNode_map, enc_values h, h.headerEnum]
    rfl
  simp only [Renaming.onDim, optNode_map, ha]
  rfl

theorem enc_array (tag : String) (d : Option DimElement) (i : M Xml) :
    encodeArray oc cc (numbers cfg) tag (d.map r.onDim) i = encodeArray oc cc cfg tag d i := by
  cases d with
  | none => rfl
  | some d => simp only [encodeArray, Option.map, enc_dim h]

omit h in
theorem onArray_dim {α : Type} (f : α → α) (a : MaybeArray α) : (r.onArray f a).dim? = a.dim?.map r.onDim := by
  cases a <;> rfl

omit h in
theorem onArray_info {α : Type} (f : α → α) (a : MaybeArray α) : (r.onArray f a).info = f a.info := by
  cases a <;> rfl

omit h in
theorem mapInfo_dim {α : Type} (f : α → α) (a : MaybeArray α) : (a.mapInfo f).dim? = a.dim? := by
  cases a <;> rfl

omit h in
theorem mapInfo_info {α : Type} (f : α → α) (a : MaybeArray α) : (a.mapInfo f).info = f a.info := by
  cases a <;> rfl

theorem enc_field (f : Field) :
    encodeField oc cc (numbers cfg) (r.onField (f.mapInfo (inNotation cfg.fieldBitRange))) =
      encodeField oc cc cfg f := by
  unfold encodeField
  rw [Renaming.onField, onArray_dim, enc_array h, onArray_info, mapInfo_dim, mapInfo_info]
  congr 1
  unfold encodeFieldInfo
  rw [show encodeBitRange oc (numbers cfg) (r.onFieldInfo (inNotation cfg.fieldBitRange f.info)).bitRange =
    encodeBitRange oc cfg f.info.bitRange from rfl]
  congr 1
  funext br
  rw [show (numbers cfg).fieldName = none from rfl,
    show (r.onFieldInfo (inNotation cfg.fieldBitRange f.info)).derivedFrom = f.info.derivedFrom.map r.field from rfl,
    enc_derived h.field]
  simp only [Renaming.onFieldInfo, inNotation, changeCase_none, h.field, List.map_map]
  rw [show encodeEnumeratedValues cc (numbers cfg) ∘ r.onEnums = encodeEnumeratedValues cc cfg from
    funext fun e => enc_enums h e]

/-- The fields of a register. -/
theorem enc_fields {o : Option (List Field)} {xs : List Xml} (hx : encodeFields oc cc cfg o = .ok xs) :
    ∃ o', FieldsPresented cfg o o' ∧ encodeFields oc cc (numbers cfg) (o'.map fun l => l.map r.onField) = .ok xs := by
  cases o with
  | none => exact ⟨none, .none, hx⟩
  | some l =>
    simp only [encodeFields] at hx
    obtain ⟨l', hs, hx⟩ := bind_ok.mp hx
    have hs : sortDerivedFields oc cfg.fieldSorting l = .ok l' := by
      by_cases hc : cfg.fieldSorting = .unchanged none
      · rw [if_pos hc] at hs; rw [hc]; exact hs
      · rwa [if_neg hc] at hs
    refine ⟨_, .some (arranged_fields hs), ?_⟩
    simp only [encodeFields, Option.map]
    rw [show (numbers cfg).fieldSorting = .unchanged none from rfl, if_pos rfl, ok_bind, ← hx, List.map_map]
    have key : ∀ l : List Field, (l.map (r.onField ∘ fun f => f.mapInfo (inNotation cfg.fieldBitRange))).mapM
        (encodeField oc cc (numbers cfg)) = l.mapM (encodeField oc cc cfg) := by
      intro l
      induction l with
      | nil => rfl
      | cons f l ih => rw [List.map_cons, mapM_cons, mapM_cons, ih, Function.comp, enc_field h]
    rw [key]

theorem enc_register {x : Register} {y : Xml} (hy : encodeRegister oc cc cfg x = .ok y) :
    ∃ fs, FieldsPresented cfg x.info.fields fs ∧
      encodeRegister oc cc (numbers cfg) (r.onRegister (x.mapInfo fun i => { i with fields := fs })) = .ok y := by
  unfold encodeRegister at hy
  obtain ⟨z, hz⟩ := encodeArray_info hy
  obtain ⟨xs, hxs, hz⟩ := bind_ok.mp hz
  obtain ⟨fs, hfs, he⟩ := enc_fields h oc hxs
  refine ⟨fs, hfs, ?_⟩
  rw [← hy]
  unfold encodeRegister
  rw [Renaming.onRegister, onArray_dim, enc_array h, onArray_info, mapInfo_dim, mapInfo_info]
  congr 1
  unfold encodeRegisterInfo
  rw [hxs, ok_bind]
  rw [show (r.onRegisterInfo { x.info with fields := fs }).fields = fs.map fun l => l.map r.onField from rfl, he, ok_bind,
    show (numbers cfg).registerName = none from rfl,
    show (r.onRegisterInfo { x.info with fields := fs }).derivedFrom = x.info.derivedFrom.map r.register from rfl,
    enc_derived h.register]
  simp only [Renaming.onRegisterInfo, changeCase_none, h.register, optNode_map]
  rfl

end

mutual
theorem enc_rc {cc : IdentifierFormat → Str → Str} {cfg : EncConfig} {r : Renaming} (h : Names cc cfg r) (oc : Bool) :
    ∀ (c : RegisterCluster) (y : Xml), encodeRegisterCluster oc cc cfg c = .ok y →
    ∃ c', RcPresented cfg c c' ∧ encodeRegisterCluster oc cc (numbers cfg) (r.onRc c') = .ok y
  | .register x, y, hy => by
    rw [encodeRegisterCluster] at hy
    obtain ⟨fs, h1, h2⟩ := enc_register h oc hy
    refine ⟨_, .register h1, ?_⟩
    rw [Renaming.onRc, encodeRegisterCluster, h2]
  | .cluster hd d cs, y, hy => by
    rw [encodeRegisterCluster] at hy
    obtain ⟨z, hz⟩ := encodeArray_info hy
    obtain ⟨xs, hxs, hz⟩ := bind_ok.mp hz
    obtain ⟨cs', h1, h2⟩ := enc_rcs h oc cs xs hxs
    refine ⟨_, .cluster h1, ?_⟩
    rw [Renaming.onRc, encodeRegisterCluster, enc_array h, ← hy]
    congr 1
    unfold encodeClusterWith
    rw [hxs, h2, ok_bind, ok_bind, show (numbers cfg).clusterName = none from rfl,
      show (r.onHead hd).derivedFrom = hd.derivedFrom.map r.cluster from rfl, enc_derived h.cluster]
    simp only [Renaming.onHead, changeCase_none, h.cluster, optNode_map]
    rfl
theorem enc_rcs {cc : IdentifierFormat → Str → Str} {cfg : EncConfig} {r : Renaming} (h : Names cc cfg r) (oc : Bool) :
    ∀ (cs : List RegisterCluster) (ys : List Xml), encodeRegisterClusters oc cc cfg cs = .ok ys →
    ∃ cs', RcsPresented cfg cs cs' ∧ encodeRegisterClusters oc cc (numbers cfg) (r.onRcs cs') = .ok ys
  | [], ys, hy => ⟨[], .nil, by rw [Renaming.onRcs]; rw [encodeRegisterClusters] at hy ⊢; exact hy⟩
  | c :: cs, ys, hy => by
    rw [encodeRegisterClusters] at hy
    obtain ⟨a, ha, hy⟩ := bind_ok.mp hy
    obtain ⟨as, has, hy⟩ := bind_ok.mp hy
    obtain ⟨c', h1, h2⟩ := enc_rc h oc c a ha
    obtain ⟨cs', h3, h4⟩ := enc_rcs h oc cs as has
    exact ⟨c' :: cs', .cons h1 h3, by rw [Renaming.onRcs, encodeRegisterClusters, h2, ok_bind, h4, ok_bind, ← hy]⟩
end

section
variable {cc : IdentifierFormat → Str → Str} {cfg : EncConfig} {r : Renaming} (h : Names cc cfg r) (oc : Bool)
include h

theorem enc_registers {o : Option (List RegisterCluster)} {xs : List Xml}
    (hx : encodeRegisters oc cc cfg o = .ok xs) :
    ∃ o', RegistersPresented cfg o o' ∧ encodeRegisters oc cc (numbers cfg) (o'.map r.onRcs) = .ok xs := by
  cases o with
  | none => exact ⟨none, .none, hx⟩
  | some l =>
    simp only [encodeRegisters] at hx
    obtain ⟨l', hs, hx⟩ := bind_ok.mp hx
    obtain ⟨ys, hm, hx⟩ := bind_ok.mp hx
    rw [← encodeRcs_eq] at hm
    obtain ⟨l'', h1, h2⟩ := enc_rcs h oc l' ys hm
    refine ⟨_, .some (arranged_registers hs) h1, ?_⟩
    simp only [encodeRegisters, Option.map]
    rw [show sortRc oc (numbers cfg).registerClusterSorting (r.onRcs l'') = .ok (r.onRcs l'') from rfl, ok_bind,
      ← encodeRcs_eq, h2, ok_bind, hx]

theorem enc_peripheral {p : Peripheral} {y : Xml} (hy : encodePeripheral oc cc cfg p = .ok y) :
    ∃ p', PeripheralPresented cfg p p' ∧ encodePeripheral oc cc (numbers cfg) (r.onPeripheral p') = .ok y := by
  unfold encodePeripheral at hy
  obtain ⟨z, hz⟩ := encodeArray_info hy
  obtain ⟨xs, hxs, hz⟩ := bind_ok.mp hz
  obtain ⟨rs, hrs, he⟩ := enc_registers h oc hxs
  refine ⟨_, .mk hrs, ?_⟩
  rw [← hy]
  unfold encodePeripheral
  rw [Renaming.onPeripheral, onArray_dim, enc_array h, onArray_info, mapInfo_dim, mapInfo_info]
  congr 1
  unfold encodePeripheralInfo
  rw [hxs, ok_bind]
  rw [show (r.onPeripheralInfo { p.info with registers := rs }).registers = rs.map r.onRcs from rfl, he, ok_bind,
    show (numbers cfg).peripheralName = none from rfl,
    show (r.onPeripheralInfo { p.info with registers := rs }).derivedFrom = p.info.derivedFrom.map r.peripheral from rfl,
    enc_derived h.peripheral]
  have hi : (p.info.interrupt.map r.onInterrupt).map (encodeInterrupt cc (numbers cfg)) =
      p.info.interrupt.map (encodeInterrupt cc cfg) := by
    rw [List.map_map]
    refine List.map_congr_left fun i _ => ?_
    simp only [Function.comp, encodeInterrupt, Renaming.onInterrupt, numbers, changeCase_none, h.interrupt]
  simp only [Renaming.onPeripheralInfo, changeCase_none, h.peripheral, optNode_map, hi]
  rfl

theorem enc_peripherals : ∀ (l : List Peripheral) (ys : List Xml), l.mapM (encodePeripheral oc cc cfg) = .ok ys →
    ∃ ps, Pairs (PeripheralPresented cfg) l ps ∧
      (ps.map r.onPeripheral).mapM (encodePeripheral oc cc (numbers cfg)) = .ok ys
  | [], ys, hy => ⟨[], .nil, hy⟩
  | p :: l, ys, hy => by
    rw [mapM_cons] at hy
    obtain ⟨a, ha, hy⟩ := bind_ok.mp hy
    obtain ⟨as, has, hy⟩ := bind_ok.mp hy
    obtain ⟨p', h1, h2⟩ := enc_peripheral h oc ha
    obtain ⟨ps, h3, h4⟩ := enc_peripherals l as has
    exact ⟨p' :: ps, .cons h1 h3, by rw [List.map_cons, mapM_cons, h2, ok_bind, h4, ok_bind, ← hy]⟩

/-- Writing with the configuration is writing the arranged and renamed device with the number formats alone. -/
theorem enc_device {d : Device} {x : Xml} (hx : encodeDevice oc cc cfg d = .ok x) :
    ∃ d', Presented cfg d d' ∧ encodeDevice oc cc (numbers cfg) (r.onDevice d') = .ok x := by
  unfold encodeDevice at hx
  obtain ⟨l, hs, hx⟩ := bind_ok.mp hx
  obtain ⟨xs, hm, hx⟩ := bind_ok.mp hx
  have hs : sortDerivedPeripherals oc cfg.peripheralSorting d.peripherals = .ok l := by
    by_cases hc : cfg.peripheralSorting = .unchanged none
    · rw [if_pos hc] at hs; rw [hc]; exact hs
    · rwa [if_neg hc] at hs
  obtain ⟨ps, h1, h2⟩ := enc_peripherals h oc l xs hm
  refine ⟨_, ⟨l, ps, arranged_peripherals hs, h1, rfl⟩, ?_⟩
  unfold encodeDevice
  rw [show (numbers cfg).peripheralSorting = .unchanged none from rfl, if_pos rfl, ok_bind,
    show (r.onDevice { d with peripherals := ps }).peripherals = ps.map r.onPeripheral from rfl, h2, ok_bind, ← hx]
  rfl

end

/-! ## Arranging the elements does not change what can be written -/

section
variable {cfg : EncConfig} {r : Renaming} {lvl : ValidateLevel}

theorem fits_field {f : Field} (h : FieldFits lvl (r.onField f)) :
    FieldFits lvl (r.onField (f.mapInfo (inNotation cfg.fieldBitRange))) := by
  cases f <;> exact ⟨h.name, h.description, h.range, h.enums, h.array⟩

theorem valid_field {f : Field} (h : ∀ q, FieldHas (r.onField f).info q → q.Valid lvl) :
    ∀ q, FieldHas (r.onField (f.mapInfo (inNotation cfg.fieldBitRange))).info q → q.Valid lvl := by
  intro q hq
  cases f with
  | single i =>
    cases hq with
    | self => have := h _ .self; exact this
    | enums hg => exact h _ (.enums hg)
    | enumValue hg he => exact h _ (.enumValue hg he)
  | array i d =>
    cases hq with
    | self => have := h _ .self; exact this
    | enums hg => exact h _ (.enums hg)
    | enumValue hg he => exact h _ (.enumValue hg he)

/-- The fields are the same up to order and notation. -/
theorem fields_mem {o o' : Option (List Field)} (h : FieldsPresented cfg o o') :
    (o' = none ↔ o = none) ∧ (o' = some [] ↔ o = some []) ∧
    ∀ l', o' = some l' → ∃ l, o = some l ∧ ∀ f' ∈ l', ∃ f ∈ l, f' = f.mapInfo (inNotation cfg.fieldBitRange) := by
  cases h with
  | none => exact ⟨Iff.rfl, Iff.rfl, nofun⟩
  | @some l l' ha =>
    refine ⟨by simp, ?_, ?_⟩
    · rw [Option.some.injEq, Option.some.injEq, List.map_eq_nil_iff]
      exact ⟨fun e => by subst e; exact List.nil_perm.mp ha.1, fun e => by subst e; exact List.perm_nil.mp ha.1⟩
    · rintro _ ⟨⟩
      refine ⟨l, rfl, fun f' hf' => ?_⟩
      obtain ⟨f, hf, rfl⟩ := List.mem_map.mp hf'
      exact ⟨f, ha.1.mem_iff.mp hf, rfl⟩

theorem map_some_nil {α β : Type} {o : Option (List α)} (f : α → β) :
    (o.map fun l => l.map f) = some [] ↔ o = some [] := by
  cases o with
  | none => simp
  | some l => simp

theorem fits_register {x : Register} {fs : Option (List Field)} (hp : FieldsPresented cfg x.info.fields fs)
    (h : RegisterFits lvl (r.onRegister x)) :
    RegisterFits lvl (r.onRegister (x.mapInfo fun i => { i with fields := fs })) := by
  obtain ⟨_, hn, hm⟩ := fields_mem hp
  have hne : (fs.map fun l => l.map r.onField) ≠ some [] := fun e => h.nonempty (by
    rw [Renaming.onRegister, onArray_info]
    exact (map_some_nil _).mpr (hn.mp ((map_some_nil _).mp e)))
  have hfs : ∀ l, (fs.map fun l => l.map r.onField) = some l → ∀ f ∈ l, FieldFits lvl f := by
    intro l hl f hf
    cases hfs : fs with
    | none => rw [hfs] at hl; cases hl
    | some l' =>
      rw [hfs] at hl
      injection hl with hl; subst hl
      obtain ⟨f', hf', rfl⟩ := List.mem_map.mp hf
      obtain ⟨l0, h0, hm⟩ := hm l' hfs
      obtain ⟨f0, hf0, rfl⟩ := hm f' hf'
      exact fits_field (h.fields (l0.map r.onField) (by rw [Renaming.onRegister, onArray_info]; simp only [Renaming.onRegisterInfo, h0]; rfl) _
        (List.mem_map_of_mem hf0))
  cases x with
  | single i =>
    exact ⟨h.name, h.displayName, h.description, h.alternateGroup, h.alternateRegister, hne, hfs, h.array⟩
  | array i d =>
    exact ⟨h.name, h.displayName, h.description, h.alternateGroup, h.alternateRegister, hne, hfs, h.array⟩

theorem valid_register {x : Register} {fs : Option (List Field)} (hp : FieldsPresented cfg x.info.fields fs)
    (h : ∀ q, RegisterHas (r.onRegister x).info q → q.Valid lvl) :
    ∀ q, RegisterHas (r.onRegister (x.mapInfo fun i => { i with fields := fs })).info q → q.Valid lvl := by
  intro q hq
  obtain ⟨_, hn, hm⟩ := fields_mem hp
  rw [Renaming.onRegister, onArray_info] at h hq
  rw [mapInfo_info] at hq
  cases hq with
  | self =>
    have := h _ .self
    refine ⟨fun _ => trivial, fun hs => ?_⟩
    obtain ⟨h1, h2, h3, h4, h5⟩ := this.2 hs
    exact ⟨h1, h2, h3, h4, fun hd e => h5 hd ((map_some_nil _).mpr (hn.mp ((map_some_nil _).mp e)))⟩
  | props => exact h _ .props
  | @field l f _ hl hf hq =>
    cases hfs : fs with
    | none => rw [hfs] at hl; cases hl
    | some l' =>
      rw [hfs] at hl
      injection hl with hl; subst hl
      obtain ⟨f', hf', rfl⟩ := List.mem_map.mp hf
      obtain ⟨l0, h0, hm⟩ := hm l' hfs
      obtain ⟨f0, hf0, rfl⟩ := hm f' hf'
      refine valid_field (fun q hq => h q (.field (fs := l0.map r.onField) ?_ (List.mem_map_of_mem hf0) hq)) q hq
      simp only [Renaming.onRegisterInfo, h0]; rfl

/-- All nodes of the tree are valid. -/
def TreeValid (lvl : ValidateLevel) (l : List RegisterCluster) : Prop :=
  ∀ n, InTree l n → ∀ q, NodeHas n q → q.Valid lvl

theorem treeValid_cons {c : RegisterCluster} {cs : List RegisterCluster} :
    TreeValid lvl (c :: cs) ↔ TreeValid lvl [c] ∧ TreeValid lvl cs := by
  refine ⟨fun h => ⟨fun n hn => h n ?_, fun n hn => h n ?_⟩, fun h n hn => ?_⟩
  · cases hn with
    | here hm => rw [List.mem_singleton] at hm; exact .here (by simp [hm])
    | inside hm ht => rw [List.mem_singleton] at hm; exact .inside (by rw [hm]; exact List.mem_cons_self ..) ht
  · cases hn with
    | here hm => exact .here (List.mem_cons_of_mem _ hm)
    | inside hm ht => exact .inside (List.mem_cons_of_mem _ hm) ht
  · cases hn with
    | here hm =>
      rcases List.mem_cons.mp hm with rfl | hm
      · exact h.1 _ (.here (by simp))
      · exact h.2 _ (.here hm)
    | inside hm ht =>
      rcases List.mem_cons.mp hm with rfl | hm
      · exact h.1 _ (.inside (List.mem_singleton.mpr rfl) ht)
      · exact h.2 _ (.inside hm ht)

theorem treeValid_perm {l l' : List RegisterCluster} (hp : l'.Perm l) (h : TreeValid lvl l) : TreeValid lvl l' :=
  fun n hn => h n (inTree_perm hp hn)

theorem onRcs_map (l : List RegisterCluster) : r.onRcs l = l.map r.onRc := by
  induction l with
  | nil => rw [Renaming.onRcs]; rfl
  | cons c l ih => rw [Renaming.onRcs, ih]; rfl

theorem onRcs_nil {l : List RegisterCluster} : r.onRcs l = [] ↔ l = [] := by
  rw [onRcs_map, List.map_eq_nil_iff]

theorem rcsPresented_nil_iff {l l' : List RegisterCluster} (h : RcsPresented cfg l l') : l' = [] ↔ l = [] := by
  cases h <;> simp

mutual
theorem fits_rc : ∀ {c c' : RegisterCluster}, RcPresented cfg c c' → RcFits lvl (r.onRc c) → RcFits lvl (r.onRc c')
  | _, _, .register hp, h => by
    rw [Renaming.onRc, RcFits] at h ⊢
    exact fits_register hp h
  | _, _, .cluster hp, h => by
    rw [Renaming.onRc, RcFits] at h ⊢
    exact ⟨h.1, h.2.1, fits_rcs hp h.2.2⟩
theorem fits_rcs : ∀ {l l' : List RegisterCluster}, RcsPresented cfg l l' → RcsFits lvl (r.onRcs l) →
    RcsFits lvl (r.onRcs l')
  | _, _, .nil, h => h
  | _, _, .cons h1 h2, h => by
    rw [Renaming.onRcs, RcsFits] at h ⊢
    exact ⟨fits_rc h1 h.1, fits_rcs h2 h.2⟩
end

mutual
theorem valid_rc : ∀ {c c' : RegisterCluster}, RcPresented cfg c c' → TreeValid lvl [r.onRc c] →
    TreeValid lvl [r.onRc c']
  | _, _, .register hp, h => by
    rw [Renaming.onRc] at h ⊢
    intro n hn q hq
    cases hn with
    | here hm =>
      rw [List.mem_singleton] at hm; subst hm
      cases hq with
      | register hq =>
        exact valid_register hp (fun q hq => h _ (.here (List.mem_singleton.mpr rfl)) q (.register hq)) q hq
    | inside hm _ => rw [List.mem_singleton] at hm; cases hm
  | _, _, .cluster (h := hd) (d := d) (cs := cs) (cs' := cs') hp, h => by
    rw [Renaming.onRc] at h ⊢
    have hc : TreeValid lvl (r.onRcs cs) := fun n hn => h n (.inside (List.mem_singleton.mpr rfl) hn)
    intro n hn q hq
    cases hn with
    | here hm =>
      rw [List.mem_singleton] at hm; subst hm
      cases hq with
      | cluster =>
        have := h _ (.here (List.mem_singleton.mpr rfl)) _ .cluster
        refine ⟨fun _ => trivial, fun hs => ?_⟩
        obtain ⟨h1, h2, h3⟩ := this.2 hs
        exact ⟨h1, h2, fun hd e => h3 hd (onRcs_nil.mpr ((rcsPresented_nil_iff hp).mp (onRcs_nil.mp e)))⟩
      | props => exact h _ (.here (List.mem_singleton.mpr rfl)) _ .props
    | inside hm ht =>
      rw [List.mem_singleton] at hm
      injection hm with _ _ hm
      subst hm
      exact valid_rcs hp hc n ht q hq
theorem valid_rcs : ∀ {l l' : List RegisterCluster}, RcsPresented cfg l l' → TreeValid lvl (r.onRcs l) →
    TreeValid lvl (r.onRcs l')
  | _, _, .nil, h => h
  | _, _, .cons h1 h2, h => by
    rw [Renaming.onRcs, treeValid_cons] at h ⊢
    exact ⟨valid_rc h1 h.1, valid_rcs h2 h.2⟩
end

theorem registers_mem {o o' : Option (List RegisterCluster)} (h : RegistersPresented cfg o o') :
    (o'.map r.onRcs = some [] ↔ o.map r.onRcs = some []) ∧
    ((∀ l, o.map r.onRcs = some l → RcsFits lvl l) → ∀ l, o'.map r.onRcs = some l → RcsFits lvl l) ∧
    ((∀ l, o.map r.onRcs = some l → TreeValid lvl l) → ∀ l, o'.map r.onRcs = some l → TreeValid lvl l) := by
  cases h with
  | none => exact ⟨Iff.rfl, id, id⟩
  | @some l l' l'' ha hp =>
    have hperm : (r.onRcs l').Perm (r.onRcs l) := by rw [onRcs_map, onRcs_map]; exact ha.1.map _
    refine ⟨?_, ?_, ?_⟩
    · simp only [Option.map, Option.some.injEq, onRcs_nil, rcsPresented_nil_iff hp]
      exact ⟨fun e => by subst e; exact List.nil_perm.mp ha.1, fun e => by subst e; exact List.perm_nil.mp ha.1⟩
    · rintro h _ ⟨⟩
      exact fits_rcs hp ((rcsFits_mem _).mpr fun c hc => (rcsFits_mem _).mp (h _ rfl) c (hperm.mem_iff.mp hc))
    · rintro h _ ⟨⟩
      exact valid_rcs hp (treeValid_perm hperm (h _ rfl))

theorem fits_peripheral {p p' : Peripheral} (hp : PeripheralPresented cfg p p')
    (h : PeripheralFits lvl (r.onPeripheral p)) : PeripheralFits lvl (r.onPeripheral p') := by
  cases hp with
  | @mk rs hp =>
    obtain ⟨_, hf, _⟩ := registers_mem (r := r) (lvl := lvl) hp
    cases p with
    | single i =>
      exact ⟨h.name, h.displayName, h.version, h.description, h.alternatePeripheral, h.groupName, h.prependToName,
        h.appendToName, h.headerStructName, h.nonempty, h.interrupts, hf h.registers, h.array⟩
    | array i d =>
      exact ⟨h.name, h.displayName, h.version, h.description, h.alternatePeripheral, h.groupName, h.prependToName,
        h.appendToName, h.headerStructName, h.nonempty, h.interrupts, hf h.registers, h.array⟩

theorem valid_peripheral {p p' : Peripheral} (hp : PeripheralPresented cfg p p')
    (h : ∀ q, PeripheralHas (r.onPeripheral p).info q → q.Valid lvl) :
    ∀ q, PeripheralHas (r.onPeripheral p').info q → q.Valid lvl := by
  cases hp with
  | @mk rs hp =>
    obtain ⟨hn, _, hv⟩ := registers_mem (r := r) (lvl := lvl) hp
    rw [Renaming.onPeripheral, onArray_info] at h
    intro q hq
    rw [Renaming.onPeripheral, onArray_info, mapInfo_info] at hq
    cases hq with
    | self =>
      have := h _ .self
      refine ⟨fun _ => trivial, fun hs => ?_⟩
      obtain ⟨h1, h2, h3⟩ := this.2 hs
      exact ⟨h1, h2, fun hd e => h3 hd (hn.mp e)⟩
    | props => exact h _ .props
    | @node l n _ hl hn hq =>
      exact hv (fun l hl n hn q hq => h q (.node hl hn hq)) l hl n hn q hq

theorem pairs_mem_right {α β : Type} {R : α → β → Prop} {l : List α} {m : List β} (h : Pairs R l m) {b : β}
    (hb : b ∈ m) : ∃ a ∈ l, R a b := by
  induction h with
  | nil => cases hb
  | @cons a c l m hab _ ih =>
    rcases List.mem_cons.mp hb with rfl | hb
    · exact ⟨a, List.mem_cons_self .., hab⟩
    · obtain ⟨a', ha', hr⟩ := ih hb
      exact ⟨a', List.mem_cons_of_mem _ ha', hr⟩

/-- A device that can be written can be written in any order and notation. -/
theorem expressible {d d' : Device} (hp : Presented cfg d d') (h : Expressible lvl (r.onDevice d)) :
    Expressible lvl (r.onDevice d') := by
  obtain ⟨l, ps, ha, hp, rfl⟩ := hp
  have hmem : ∀ p' ∈ ps, ∃ p ∈ d.peripherals, PeripheralPresented cfg p p' := by
    intro p' hp'
    obtain ⟨p, hpl, hpp⟩ := pairs_mem_right hp hp'
    exact ⟨p, ha.1.mem_iff.mp hpl, hpp⟩
  refine ⟨h.vendor, h.vendorId, h.name, h.series, h.version, h.description, h.licenseText, h.cpu,
    h.headerSystemFilename, h.headerDefinitionsPrefix, fun p hp => ?_, ⟨fun hw e => ?_, h.valid.1.2⟩, fun q hq => ?_⟩
  · obtain ⟨p', hp', rfl⟩ := List.mem_map.mp hp
    obtain ⟨p, hpd, hpp⟩ := hmem p' hp'
    exact fits_peripheral hpp (h.peripherals _ (List.mem_map_of_mem hpd))
  · refine h.valid.1.1 hw (List.map_eq_nil_iff.mpr ?_)
    have := List.map_eq_nil_iff.mp e
    subst this
    have := pairs_nil hp
    subst this
    exact List.nil_perm.mp ha.1
  · cases hq with
    | props => exact h.valid.2 _ .props
    | peripheral hp hq =>
      obtain ⟨p', hp', rfl⟩ := List.mem_map.mp hp
      obtain ⟨p, hpd, hpp⟩ := hmem p' hp'
      exact valid_peripheral hpp (fun q hq => h.valid.2 q (.peripheral (List.mem_map_of_mem hpd) hq)) q hq

end

/-! ## The number formats alone change nothing -/

theorem numbers_fields {cfg : EncConfig} {o o' : Option (List Field)} (h : FieldsPresented (numbers cfg) o o') : o' = o := by
  cases h with
  | none => rfl
  | @some l l' h =>
    have hl : l' = l := h.2 nofun
    subst hl
    congr 1
    refine (List.map_congr_left (g := id) fun f _ => ?_).trans (List.map_id _)
    cases f <;> rfl

mutual
theorem numbers_rc {cfg : EncConfig} : ∀ {c c' : RegisterCluster}, RcPresented (numbers cfg) c c' → c' = c
  | _, _, .register (r := r) h => by
    rw [numbers_fields h]
    cases r <;> rfl
  | _, _, .cluster h => by rw [numbers_rcs h]
theorem numbers_rcs {cfg : EncConfig} : ∀ {c c' : List RegisterCluster}, RcsPresented (numbers cfg) c c' → c' = c
  | _, _, .nil => rfl
  | _, _, .cons h1 h2 => by rw [numbers_rc h1, numbers_rcs h2]
end

theorem numbers_peripheral {cfg : EncConfig} {p p' : Peripheral} (h : PeripheralPresented (numbers cfg) p p') : p' = p := by
  cases h with
  | @mk rs h =>
    have : rs = p.info.registers := by
      generalize p.info.registers = o at h
      cases h with
      | none => rfl
      | @some l l' l'' h1 h2 =>
        have hl : l' = l := h1.2 nofun
        rw [numbers_rcs h2, hl]
    rw [this]
    cases p <;> rfl

theorem numbers_device {cfg : EncConfig} {d d' : Device} (h : Presented (numbers cfg) d d') : d' = d := by
  obtain ⟨l, ps, h1, h2, rfl⟩ := h
  have hl : l = d.peripherals := h1.2 nofun
  have : ps = l := by
    clear h1 hl
    induction h2 with
    | nil => rfl
    | cons h _ ih => rw [numbers_peripheral h, ih]
  rw [this, hl]

end Recase

open Recase

/-- **C75.**  For every configuration, with any case conversion: if the device with its identifiers renamed as
the configuration asks can be expressed, then what is read back from the written file is exactly that device, in
the order and notation asked for.  The names are ordered before they are renamed. -/
theorem C75_renamed (oc : Bool) (cc : IdentifierFormat → Str → Str) (cfg : EncConfig) (pcfg : ParseConfig)
    (hi : pcfg.ignoreEnums = false) (r : Renaming) (hr : Converts cc cfg r) (d : Device)
    (h : Expressible pcfg.validateLevel (r.onDevice d)) (x : Xml) (hx : encodeDevice oc cc cfg d = .ok x) :
    ∃ d', Presented cfg d d' ∧ ∀ y, Reread x y → parseDevice oc pcfg y = .ok (r.onDevice d') := by
  obtain ⟨d', hp, he⟩ := enc_device (names_of hr) oc hx
  obtain ⟨d'', h1, h2⟩ := C27_presentation_only oc cc (numbers cfg) pcfg hi (keepsNames cfg) (r.onDevice d')
    (expressible hp h) x he
  rw [numbers_device h1] at h2
  exact ⟨d', hp, h2⟩

end Svd
