import Verif.Props.RoundTripRead
import Verif.Props.EncodeTotal
import Verif.Props.Layout

/-!
# Writing a device and reading it back

C26 and C27.
-/

namespace Svd

open Spec Xml

variable {cc : IdentifierFormat → Str → Str} {cfg : EncConfig} {pcfg : ParseConfig} {oc : Bool}

theorem asReads_append (a b : List Xml) : asReads (a ++ b) = asReads a ++ asReads b := by
  induction a with
  | nil => simp [asReads]
  | cons c a ih =>
    by_cases h : c = .text []
    · subst h; rw [List.cons_append, asReads, asReads, ih]
    · rw [List.cons_append, asReads_cons h, asReads_cons h, ih, List.cons_append]

/-- The written device around the given description. -/
def deviceTree (cfg : EncConfig) (d : Device) (description : Xml) (peripherals : List Xml) : Xml :=
  .elem "device"
    [("schemaVersion", d.schemaVersion), ("xmlns:xs", d.xmlnsXs),
     ("xs:noNamespaceSchemaLocation", d.noNamespaceSchemaLocation)]
    (optNode d.vendor (newNode "vendor") ++
     optNode d.vendorId (newNode "vendorID") ++
     [newNode "name" d.name] ++
     optNode d.series (newNode "series") ++
     [newNode "version" d.version, description] ++
     optNode d.licenseText (newNode "licenseText") ++
     optNode d.cpu encodeCpu ++
     optNode d.headerSystemFilename (newNode "headerSystemFilename") ++
     optNode d.headerDefinitionsPrefix (newNode "headerDefinitionsPrefix") ++
     [newNode "addressUnitBits" (decString d.addressUnitBits),
      newNode "width" (decString d.width)] ++
     encodeProperties cfg d.defaultRegisterProperties ++
     [.elem "peripherals" [] peripherals])

/-- The description as it is read. -/
def readDescription (s : Str) : Xml := .elem "description" [] (asReads [.text s])

theorem asRead_device {d : Device} (h : Expressible pcfg.validateLevel d) {ps : List Xml} (hps : Fulls ps) :
    asRead (deviceTree cfg d (newNode "description" d.description) ps) =
      deviceTree cfg d (readDescription d.description) ps := by
  unfold deviceTree
  rw [asRead]
  congr 1
  have hv : Fulls (optNode d.vendor (newNode "vendor")) := by fulls; exact optText_ne h.vendor
  have hvi : Fulls (optNode d.vendorId (newNode "vendorID")) := by fulls; exact optText_ne h.vendorId
  have hs : Fulls (optNode d.series (newNode "series")) := by fulls; exact optText_ne h.series
  have hl : Fulls (optNode d.licenseText (newNode "licenseText")) := by fulls; exact optText_ne h.licenseText
  have hc : Fulls (optNode d.cpu encodeCpu) := by
    fulls; exact fun c hc => full_cpu (h.cpu c hc).1 (h.cpu c hc).2
  have hf : Fulls (optNode d.headerSystemFilename (newNode "headerSystemFilename")) := by
    fulls; exact optText_ne h.headerSystemFilename
  have hd : Fulls (optNode d.headerDefinitionsPrefix (newNode "headerDefinitionsPrefix")) := by
    fulls; exact optText_ne h.headerDefinitionsPrefix
  simp only [asReads_append, asReads_full _ hv, asReads_full _ hvi, asReads_full _ hs, asReads_full _ hl,
    asReads_full _ hc, asReads_full _ hf, asReads_full _ hd, asReads_full _ (fulls_properties _)]
  rw [asReads_full [newNode "name" d.name] (by fulls; exact h.name.1),
    asReads_full [newNode "addressUnitBits" _, newNode "width" _] (by fulls),
    asReads_full [.elem "peripherals" [] ps] (by fulls [hps]),
    asReads_cons (c := newNode "version" d.version) nofun,
    asRead_full (newNode "version" d.version) (by fulls; exact h.version.1),
    asReads_cons (c := newNode "description" d.description) nofun]
  rfl

theorem arranged_peripherals {s : DerivableSorting} {l l' : List Peripheral}
    (h : sortDerivedPeripherals oc s l = .ok l') :
    Arranged (sortingOf s) (fun p : Peripheral => p.info.baseAddress.toNat)
      (OrderedDerivable (fun p => p.info.baseAddress.toNat) (fun p => p.info.name)
        (fun p => p.info.derivedFrom.isSome) s) l l' := by
  refine ⟨(C28_permutation oc).1 s l l' h, fun hs => ?_⟩
  by_cases hr : sortingOf s = some .offsetReversed
  · obtain ⟨_, h', ho⟩ := (C29_below_2_31_partial oc).1 s l (hs hr)
    rw [h] at h'; injection h' with h'; subst h'; exact ho
  · obtain ⟨_, h', ho⟩ := C28_peripherals oc s hr l
    rw [h] at h'; injection h' with h'; subst h'; exact ho

theorem read_peripherals (hi : pcfg.ignoreEnums = false) (hn : KeepsNames cfg) :
    ∀ (l : List Peripheral) (xs : List Xml), (∀ p ∈ l, PeripheralFits pcfg.validateLevel p) →
    (∀ p ∈ l, ∀ q, PeripheralHas p.info q → q.Valid pcfg.validateLevel) →
    l.mapM (encodePeripheral oc cc cfg) = .ok xs →
    ∃ ps, Pairs (PeripheralPresented cfg) l ps ∧ (∀ x ∈ xs, x.isElement = true) ∧
      xs.mapM (parsePeripheral oc pcfg) = .ok ps
  | [], xs, _, _, hx => by
    injection hx with hx; subst hx
    exact ⟨[], .nil, nofun, rfl⟩
  | p :: l, xs, h, hv, hx => by
    rw [mapM_cons] at hx
    obtain ⟨b, hb, hx⟩ := bind_ok.mp hx
    obtain ⟨bs, hbs, hx⟩ := bind_ok.mp hx
    injection hx with hx; subst hx
    obtain ⟨p', h1, h2, h3⟩ := read_peripheral (pcfg := pcfg) hi hn (h p (by simp)) (hv p (by simp)) hb
    obtain ⟨ps, h4, h5, h6⟩ := read_peripherals hi hn l bs (fun p hp => h p (by simp [hp]))
      (fun p hp => hv p (by simp [hp])) hbs
    refine ⟨p' :: ps, .cons h1 h4, by simpa using ⟨isElement_of_hasTag h2, h5⟩, ?_⟩
    rw [mapM_cons, h3, ok_bind, h6, ok_bind]

theorem readDescription_text {lvl : ValidateLevel} {s : Str} (h : Text s ∨ (s = [] ∧ lvl ≠ .strict)) {x : Xml}
    (hx : getChild x "description" = some (readDescription s)) :
    ∃ o, getChildTextOpt x "description" = .ok o ∧ orDefault o lvl [] = some s := by
  rcases h with h | ⟨rfl, h⟩
  · refine ⟨some s, textOpt_of (o := some s) ?_ (by rintro _ ⟨⟩; exact h), rfl⟩
    rw [hx]
    have : asReads [.text s] = [.text s] := asReads_full _ (by fulls; rw [Full]; exact h.1)
    rw [readDescription, this]; rfl
  · refine ⟨none, ?_, ?_⟩
    · unfold getChildTextOpt
      rw [hx]
      rfl
    · cases lvl with
      | strict => exact absurd rfl h
      | disabled => rfl
      | weak => rfl

theorem read_device {d : Device} (h : Expressible pcfg.validateLevel d)
    {xs : List Xml} {ps : List Peripheral} (hxs : ∀ x ∈ xs, x.isElement = true)
    (hps : xs.mapM (parsePeripheral oc pcfg) = .ok ps) (hne : ps = [] → d.peripherals = []) :
    parseDevice oc pcfg (deviceTree cfg d (readDescription d.description) xs) =
      .ok { d with peripherals := ps } := by
  have hrd : ∀ (k : String) (cs : List Xml), look k (readDescription d.description :: cs) =
      if "description" = k then some (readDescription d.description) else look k cs := by
    intro k cs; unfold readDescription; rw [look_elem]
  unfold deviceTree parseDevice
  simp only [hasTag, beq_self_eq_true, Bool.not_true, Bool.false_eq_true, if_false]
  rw [textOpt_of (o := d.vendor) (by looks [hrd]) h.vendor, ok_bind,
    textOpt_of (o := d.vendorId) (by looks [hrd]) h.vendorId, ok_bind,
    text_of (by looks [hrd]) h.name, ok_bind,
    textOpt_of (o := d.series) (by looks [hrd]) h.series, ok_bind,
    textOpt_of (o := d.licenseText) (by looks [hrd]) h.licenseText, ok_bind,
    optional_of (o := d.cpu) (f := encodeCpu) (by looks [hrd])
      (fun c hc => read_cpu (h.cpu c hc).1 (h.cpu c hc).2), ok_bind,
    textOpt_of (o := d.headerSystemFilename) (by looks [hrd]) h.headerSystemFilename, ok_bind,
    textOpt_of (o := d.headerDefinitionsPrefix) (by looks [hrd]) h.headerDefinitionsPrefix, ok_bind,
    read_properties (cfg := cfg) (p := d.defaultRegisterProperties)
      { size := by looks [hrd]
        access := by looks [hrd]
        protection := by looks [hrd]
        resetValue := by looks [hrd]
        resetMask := by looks [hrd] } (props_ok (h.valid.2 _ .props)), ok_bind]
  unfold getChildElem
  rw [show getChild _ "peripherals" = some (.elem "peripherals" [] xs) by looks [hrd]]
  simp only [okOr, ok_bind]
  rw [children, List.filter_eq_self.mpr hxs, hps, ok_bind]
  obtain ⟨o, ho, hod⟩ := readDescription_text h.description (x := deviceTree cfg d (readDescription d.description) xs)
    (by unfold deviceTree; looks [hrd])
  unfold deviceTree at ho
  rw [textOpt_of (o := some d.version) (by looks [hrd]) (by rintro _ ⟨⟩; exact h.version), ok_bind,
    ho, ok_bind, optDec_of (o := some d.addressUnitBits) (by looks [hrd]), ok_bind,
    optDec_of (o := some d.width) (by looks [hrd]), ok_bind]
  unfold DeviceBuilder.build RegisterProperties.build
  simp only [hod]
  simp only [orDefault, need, okOr, ok_bind]
  rw [props_ok (h.valid.2 _ .props), ok_bind, ok_bind]
  have hval : DeviceValid { d with peripherals := ps } pcfg.validateLevel :=
    ⟨fun hw e => h.valid.1.1 hw (hne e), h.valid.1.2⟩
  have hval := (device_validate _ _).mpr hval
  exact bind_ok.mpr ⟨(), hval, rfl⟩

theorem pairs_nil {α β : Type} {R : α → β → Prop} {l : List α} (h : Pairs R l []) : l = [] := by
  cases h; rfl

/-- **C27.**  Whatever the number formats, the bit range notation and the sorting, reading the written
device back gives the same device in the order and notation asked for, however the file is laid out. -/
theorem C27_presentation_only (oc : Bool) (cc : IdentifierFormat → Str → Str) (cfg : EncConfig)
    (pcfg : ParseConfig) (hi : pcfg.ignoreEnums = false) (hn : KeepsNames cfg) (d : Device)
    (h : Expressible pcfg.validateLevel d) (x : Xml) (hx : encodeDevice oc cc cfg d = .ok x) :
    ∃ d', Presented cfg d d' ∧ ∀ y, Reread x y → parseDevice oc pcfg y = .ok d' := by
  unfold encodeDevice at hx
  obtain ⟨l, hs, hx⟩ := bind_ok.mp hx
  obtain ⟨xs, hm, hx⟩ := bind_ok.mp hx
  have hs : sortDerivedPeripherals oc cfg.peripheralSorting d.peripherals = .ok l := by
    by_cases hc : cfg.peripheralSorting = .unchanged none
    · rw [if_pos hc] at hs; rw [hc]; exact hs
    · rwa [if_neg hc] at hs
  have harr := arranged_peripherals hs
  have hmem := fun p (hp : p ∈ l) => harr.1.mem_iff.mp hp
  obtain ⟨ps, h1, h2, h3⟩ := read_peripherals (oc := oc) (cc := cc) (pcfg := pcfg) hi hn l xs
    (fun p hp => h.peripherals p (hmem p hp)) (fun p hp q hq => h.valid.2 q (.peripheral (hmem p hp) hq)) hm
  have hfull : Fulls xs := by
    rw [fulls_iff]
    intro y hy
    obtain ⟨f, hf, hfy⟩ := mapM_ok_mem' hm hy
    exact full_peripheral hn (h.peripherals f (hmem f hf)) hfy
  have hne : ps = [] → d.peripherals = [] := by
    rintro rfl
    have := pairs_nil h1
    subst this
    exact List.nil_perm.mp harr.1
  refine ⟨{ d with peripherals := ps }, ⟨l, ps, harr, h1, rfl⟩, fun y hy => ?_⟩
  rw [← C30_element_partial oc pcfg hy]
  injection hx with hx
  have hx : deviceTree cfg d (newNode "description" d.description) xs = x := hx
  rw [← hx, asRead_device h hfull]
  exact read_device h h2 h3 hne

/-! ## Existence -/

theorem dimParts {lvl : ValidateLevel} {name : Str} {d : Option DimElement} (h : ArrayFits lvl name d) :
    ∀ x, d = some x → EnoughIndexes x ∧ NotBothEnds x := fun x hx =>
  ⟨fun l hl => by have := ((h x hx).2.index l hl).2.2.1; omega, (h x hx).2.ends⟩

theorem dimPart {lvl : ValidateLevel} {α : Type} {name : Str} {a : MaybeArray α} (h : ArrayFits lvl name a.dim?) :
    DimPart (fun x => EnoughIndexes x ∧ NotBothEnds x) a := by
  cases a with
  | single i => trivial
  | array i d => exact dimParts h d rfl

mutual
theorem rcParts {lvl : ValidateLevel} : ∀ c : RegisterCluster, RcFits lvl c →
    RcParts (fun f => WritableRange f.bitRange) (fun x => EnoughIndexes x ∧ NotBothEnds x) c
  | .register r, h => by
    rw [RcFits] at h
    rw [RcParts]
    exact ⟨fun l hl f hf => ⟨(h.fields l hl f hf).range, dimPart (h.fields l hl f hf).array⟩, dimPart h.array⟩
  | .cluster hd d cs, h => by
    rw [RcFits] at h
    rw [RcParts]
    exact ⟨dimParts h.2.1, rcsParts cs h.2.2⟩
theorem rcsParts {lvl : ValidateLevel} : ∀ cs : List RegisterCluster, RcsFits lvl cs →
    RcsParts (fun f => WritableRange f.bitRange) (fun x => EnoughIndexes x ∧ NotBothEnds x) cs
  | [], _ => by rw [RcsParts]; trivial
  | c :: cs, h => by
    rw [RcsFits] at h
    rw [RcsParts]
    exact ⟨rcParts c h.1, rcsParts cs h.2⟩
end

theorem deviceParts {lvl : ValidateLevel} {d : Device} (h : Expressible lvl d) :
    DeviceParts (fun f => WritableRange f.bitRange) (fun x => EnoughIndexes x ∧ NotBothEnds x) d :=
  fun p hp => ⟨fun l hl => rcsParts l ((h.peripherals p hp).registers l hl), dimPart (h.peripherals p hp).array⟩

/-- **C27**, existence: such a device is written unless descending offsets are asked for (which may
panic, see C29). -/
theorem C27_written (oc : Bool) (cc : IdentifierFormat → Str → Str) (cfg : EncConfig)
    (lvl : ValidateLevel) (d : Device) (h : Expressible lvl d)
    (hp : sortingOf cfg.peripheralSorting ≠ some .offsetReversed)
    (hr : rcSortingOf cfg.registerClusterSorting ≠ some .offsetReversed)
    (hf : sortingOf cfg.fieldSorting ≠ some .offsetReversed) :
    ∃ x, encodeDevice oc cc cfg d = .ok x :=
  C50_encode_total oc cc cfg d hp hr hf (deviceParts h)

/-! ## The default configuration -/

theorem default_fields {o o' : Option (List Field)} (h : FieldsPresented {} o o') : o' = o := by
  cases h with
  | none => rfl
  | @some l l' h =>
    have hl : l' = l := h.2 nofun
    subst hl
    congr 1
    refine (List.map_congr_left (g := id) fun f _ => ?_).trans (List.map_id _)
    cases f <;> rfl

mutual
theorem default_rc : ∀ {c c' : RegisterCluster}, RcPresented {} c c' → c' = c
  | _, _, .register (r := r) h => by
    rw [default_fields h]
    cases r <;> rfl
  | _, _, .cluster h => by rw [default_rcs h]
theorem default_rcs : ∀ {c c' : List RegisterCluster}, RcsPresented {} c c' → c' = c
  | _, _, .nil => rfl
  | _, _, .cons h1 h2 => by rw [default_rc h1, default_rcs h2]
end

theorem default_peripheral {p p' : Peripheral} (h : PeripheralPresented {} p p') : p' = p := by
  cases h with
  | @mk rs h =>
    have : rs = p.info.registers := by
      generalize p.info.registers = o at h
      cases h with
      | none => rfl
      | @some l l' l'' h1 h2 =>
        have hl : l' = l := h1.2 nofun
        rw [default_rcs h2, hl]
    rw [this]
    cases p <;> rfl

theorem default_device {d d' : Device} (h : Presented {} d d') : d' = d := by
  obtain ⟨l, ps, h1, h2, rfl⟩ := h
  have hl : l = d.peripherals := h1.2 nofun
  have : ps = l := by
    clear h1 hl
    induction h2 with
    | nil => rfl
    | cons h _ ih => rw [default_peripheral h, ih]
  rw [this, hl]

/-- **C26.**  A device is written with the default configuration, and reading the file back at the level
gives exactly the same device, however the file is laid out. -/
theorem C26_lossless (oc : Bool) (cc : IdentifierFormat → Str → Str) (pcfg : ParseConfig)
    (hi : pcfg.ignoreEnums = false) (d : Device) (h : Expressible pcfg.validateLevel d) :
    ∃ x, encodeDevice oc cc {} d = .ok x ∧ ∀ y, Reread x y → parseDevice oc pcfg y = .ok d := by
  obtain ⟨x, hx⟩ := C27_written oc cc {} _ d h nofun nofun nofun
  obtain ⟨d', h1, h2⟩ := C27_presentation_only oc cc {} pcfg hi ⟨rfl, rfl, rfl, rfl, rfl, rfl, rfl, rfl⟩ d h x hx
  rw [default_device h1] at h2
  exact ⟨x, hx, h2⟩

end Svd
