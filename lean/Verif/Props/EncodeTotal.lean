import Verif.Props.Sort
import Verif.Props.Dim
import Verif.Props.BitRange
import Verif.Props.ParseLevel
import Verif.Spec.Parts

/-!
# C50: when encoding panics
-/

namespace Svd

open Spec Xml

/-! ## The traversal -/

theorem rcsParts_iff {F : FieldInfo → Prop} {D : DimElement → Prop} {l : List RegisterCluster} :
    RcsParts F D l ↔ ∀ c ∈ l, RcParts F D c := by
  induction l with
  | nil => simp [RcsParts]
  | cons c l ih => simp [RcsParts, ih]

theorem dimPart_and {α : Type} {D D' : DimElement → Prop} {x : MaybeArray α} (h : DimPart D x)
    (h' : DimPart D' x) : DimPart (fun d => D d ∧ D' d) x := by
  cases x
  · trivial
  · exact ⟨h, h'⟩

theorem registerParts_and {F F' : FieldInfo → Prop} {D D' : DimElement → Prop} {r : Register}
    (h : RegisterParts F D r) (h' : RegisterParts F' D' r) :
    RegisterParts (fun f => F f ∧ F' f) (fun d => D d ∧ D' d) r :=
  ⟨fun l hl f hf => ⟨⟨(h.1 l hl f hf).1, (h'.1 l hl f hf).1⟩,
    dimPart_and (h.1 l hl f hf).2 (h'.1 l hl f hf).2⟩, dimPart_and h.2 h'.2⟩

mutual
theorem rcParts_and {F F' : FieldInfo → Prop} {D D' : DimElement → Prop} :
    ∀ c : RegisterCluster, RcParts F D c → RcParts F' D' c →
      RcParts (fun f => F f ∧ F' f) (fun d => D d ∧ D' d) c
  | .register r, h, h' => by
    simp only [RcParts] at *
    exact registerParts_and h h'
  | .cluster _ d cs, h, h' => by
    simp only [RcParts] at *
    exact ⟨fun x hx => ⟨h.1 x hx, h'.1 x hx⟩, rcsParts_and cs h.2 h'.2⟩
theorem rcsParts_and {F F' : FieldInfo → Prop} {D D' : DimElement → Prop} :
    ∀ cs : List RegisterCluster, RcsParts F D cs → RcsParts F' D' cs →
      RcsParts (fun f => F f ∧ F' f) (fun d => D d ∧ D' d) cs
  | [], _, _ => by simp [RcsParts]
  | c :: cs, h, h' => by
    simp only [RcsParts] at *
    exact ⟨rcParts_and c h.1 h'.1, rcsParts_and cs h.2 h'.2⟩
end

theorem deviceParts_and {F F' : FieldInfo → Prop} {D D' : DimElement → Prop} {d : Device}
    (h : DeviceParts F D d) (h' : DeviceParts F' D' d) :
    DeviceParts (fun f => F f ∧ F' f) (fun d => D d ∧ D' d) d := fun p hp =>
  ⟨fun l hl => rcsParts_and l ((h p hp).1 l hl) ((h' p hp).1 l hl),
    dimPart_and (h p hp).2 (h' p hp).2⟩

theorem dimPart_mono {α : Type} {D D' : DimElement → Prop} (hd : ∀ d, D d → D' d) {x : MaybeArray α}
    (h : DimPart D x) : DimPart D' x := by
  cases x
  · trivial
  · exact hd _ h

mutual
theorem rcParts_mono {F F' : FieldInfo → Prop} {D D' : DimElement → Prop} (hf : ∀ f, F f → F' f)
    (hd : ∀ d, D d → D' d) : ∀ c : RegisterCluster, RcParts F D c → RcParts F' D' c
  | .register r, h => by
    simp only [RcParts] at *
    exact ⟨fun l hl f hfl => ⟨hf _ (h.1 l hl f hfl).1, dimPart_mono hd (h.1 l hl f hfl).2⟩,
      dimPart_mono hd h.2⟩
  | .cluster _ d cs, h => by
    simp only [RcParts] at *
    exact ⟨fun x hx => hd _ (h.1 x hx), rcsParts_mono hf hd cs h.2⟩
theorem rcsParts_mono {F F' : FieldInfo → Prop} {D D' : DimElement → Prop} (hf : ∀ f, F f → F' f)
    (hd : ∀ d, D d → D' d) : ∀ cs : List RegisterCluster, RcsParts F D cs → RcsParts F' D' cs
  | [], _ => by simp [RcsParts]
  | c :: cs, h => by
    simp only [RcsParts] at *
    exact ⟨rcParts_mono hf hd c h.1, rcsParts_mono hf hd cs h.2⟩
end

theorem deviceParts_mono {F F' : FieldInfo → Prop} {D D' : DimElement → Prop} (hf : ∀ f, F f → F' f)
    (hd : ∀ d, D d → D' d) {d : Device} (h : DeviceParts F D d) : DeviceParts F' D' d := fun p hp =>
  ⟨fun l hl => rcsParts_mono hf hd l ((h p hp).1 l hl), dimPart_mono hd (h p hp).2⟩

/-! ## Encoding -/

section
variable (oc : Bool) (cc : IdentifierFormat → Str → Str) (cfg : EncConfig)

/-- The field's bit range can be written. -/
abbrev FieldOk (f : FieldInfo) : Prop := WritableRange f.bitRange

/-- The array description can be written. -/
abbrev DimOk (d : DimElement) : Prop := EnoughIndexes d ∧ NotBothEnds d

theorem encodeDimElement_total {d : DimElement} (h : DimOk d) :
    ∃ x, encodeDimElement oc cc cfg d = .ok x := by
  unfold encodeDimElement encodeDimIndex
  cases hd : d.dimIndex with
  | none => exact ⟨_, rfl⟩
  | some l =>
    obtain ⟨r, hr⟩ : ∃ r, d.indexesAsRange oc = .ok r := by
      rcases C07_outcomes oc d h.1 with h1 | ⟨_, _, h2, h3⟩
      · exact h1
      · refine absurd ⟨?_, ?_⟩ (h.2 l hd)
        · revert h2; unfold indexList; rw [hd]; exact id
        · revert h3; unfold indexList; rw [hd]; exact id
    unfold dimIndexText
    rw [hr]
    rcases r with _ | ⟨a, b⟩ <;> exact ⟨_, rfl⟩

theorem encodeArray_total {tag : String} {d : Option DimElement} {m : M Xml}
    (h : ∀ x, d = some x → DimOk x) (hm : ∃ x, m = .ok x) :
    ∃ x, encodeArray oc cc cfg tag d m = .ok x := by
  obtain ⟨x, hx⟩ := hm
  cases d with
  | none => exact ⟨x, hx⟩
  | some d =>
    obtain ⟨y, hy⟩ := encodeDimElement_total oc cc cfg (h d rfl)
    unfold encodeArray
    simp only [hx, hy]
    exact ⟨_, rfl⟩

theorem dimPart_dim? {α : Type} {D : DimElement → Prop} {x : MaybeArray α} (h : DimPart D x) :
    ∀ d, x.dim? = some d → D d := by
  intro d hd
  cases x
  · cases hd
  · cases hd; exact h

theorem encodeField_total {f : Field} (h : FieldParts FieldOk DimOk f) :
    ∃ x, encodeField oc cc cfg f = .ok x := by
  refine encodeArray_total oc cc cfg (dimPart_dim? h.2) ?_
  obtain ⟨xs, hx, _⟩ := C09_bit_range_round_trip oc cfg f.info.bitRange h.1.1 h.1.2 "" [] [] []
    (by simp) (by simp)
  unfold encodeFieldInfo
  rw [hx]
  exact ⟨_, rfl⟩

variable (hf : sortingOf cfg.fieldSorting ≠ some .offsetReversed)
include hf

theorem encodeRegister_total {r : Register} (h : RegisterParts FieldOk DimOk r) :
    ∃ x, encodeRegister oc cc cfg r = .ok x := by
  refine encodeArray_total oc cc cfg (dimPart_dim? h.2) ?_
  obtain ⟨xs, hx⟩ : ∃ xs, encodeFields oc cc cfg r.info.fields = .ok xs := by
    unfold encodeFields
    cases hl : r.info.fields with
    | none => exact ⟨_, rfl⟩
    | some l =>
      obtain ⟨l', hs, hp⟩ : ∃ l', (if cfg.fieldSorting = .unchanged none then .ok l
          else sortDerivedFields oc cfg.fieldSorting l : M (List Field)) = .ok l' ∧ l'.Perm l := by
        split
        · exact ⟨l, rfl, .refl _⟩
        · obtain ⟨l', h1, _⟩ := C28_fields oc cfg.fieldSorting hf l
          exact ⟨l', h1, (C28_permutation oc).2.1 _ _ _ h1⟩
      obtain ⟨ys, hy⟩ := mapM_ok_of_forall (f := encodeField oc cc cfg) (l := l')
        fun f hf => encodeField_total oc cc cfg (h.1 l hl f (hp.subset hf))
      simp only [hs, ok_bind, hy]
      exact ⟨_, rfl⟩
  unfold encodeRegisterInfo
  rw [hx]
  exact ⟨_, rfl⟩

set_option linter.unusedSectionVars false in
mutual
theorem encodeRc_total : ∀ c : RegisterCluster, RcParts FieldOk DimOk c →
    ∃ x, encodeRegisterCluster oc cc cfg c = .ok x
  | .register r, h => by
    unfold encodeRegisterCluster
    simp only [RcParts] at h
    exact encodeRegister_total oc cc cfg hf h
  | .cluster hd d cs, h => by
    unfold encodeRegisterCluster
    simp only [RcParts] at h
    refine encodeArray_total oc cc cfg h.1 ?_
    obtain ⟨xs, hx⟩ := encodeRcs_total cs h.2
    unfold encodeClusterWith
    rw [hx]
    exact ⟨_, rfl⟩
theorem encodeRcs_total : ∀ cs : List RegisterCluster, RcsParts FieldOk DimOk cs →
    ∃ xs, encodeRegisterClusters oc cc cfg cs = .ok xs
  | [], _ => by unfold encodeRegisterClusters; exact ⟨_, rfl⟩
  | c :: cs, h => by
    simp only [RcsParts] at h
    obtain ⟨x, hx⟩ := encodeRc_total c h.1
    obtain ⟨xs, hxs⟩ := encodeRcs_total cs h.2
    refine ⟨x :: xs, ?_⟩
    unfold encodeRegisterClusters
    rw [hx, hxs]; rfl
end

theorem encodePeripheral_total (hr : rcSortingOf cfg.registerClusterSorting ≠ some .offsetReversed)
    {p : Peripheral} (h : PeripheralParts FieldOk DimOk p) :
    ∃ x, encodePeripheral oc cc cfg p = .ok x := by
  refine encodeArray_total oc cc cfg (dimPart_dim? h.2) ?_
  obtain ⟨xs, hx⟩ : ∃ xs, encodeRegisters oc cc cfg p.info.registers = .ok xs := by
    unfold encodeRegisters
    cases hl : p.info.registers with
    | none => exact ⟨_, rfl⟩
    | some l =>
      obtain ⟨l', hs, _⟩ := C28_registers oc cfg.registerClusterSorting hr l
      have hp := (C28_permutation oc).2.2 _ _ _ hs
      obtain ⟨ys, hy⟩ := mapM_ok_of_forall (f := encodeRegisterCluster oc cc cfg) (l := l')
        fun c hc => encodeRc_total oc cc cfg hf c (rcsParts_iff.mp (h.1 l hl) c (hp.subset hc))
      simp only [hs, ok_bind, hy]
      exact ⟨_, rfl⟩
  unfold encodePeripheralInfo
  rw [hx]
  exact ⟨_, rfl⟩

end

/-- **C50.** Encoding succeeds under every configuration without reversed-offset sorting if every
bit range has at least one bit and ends before bit `2 ^ 32 - 1`, and every index list has an entry
for every element of its array and does not contain both 0 and `2 ^ 32 - 1`. -/
theorem C50_encode_total (oc : Bool) (cc : IdentifierFormat → Str → Str) (cfg : EncConfig) (d : Device)
    (hp : sortingOf cfg.peripheralSorting ≠ some .offsetReversed)
    (hr : rcSortingOf cfg.registerClusterSorting ≠ some .offsetReversed)
    (hf : sortingOf cfg.fieldSorting ≠ some .offsetReversed)
    (h : DeviceParts (fun f => WritableRange f.bitRange) (fun x => EnoughIndexes x ∧ NotBothEnds x) d) :
    ∃ x, encodeDevice oc cc cfg d = .ok x := by
  unfold encodeDevice
  obtain ⟨l', hs, hpm⟩ : ∃ l', (if cfg.peripheralSorting = .unchanged none then .ok d.peripherals
      else sortDerivedPeripherals oc cfg.peripheralSorting d.peripherals : M (List Peripheral)) =
        .ok l' ∧ l'.Perm d.peripherals := by
    split
    · exact ⟨_, rfl, .refl _⟩
    · obtain ⟨l', h1, _⟩ := C28_peripherals oc cfg.peripheralSorting hp d.peripherals
      exact ⟨l', h1, (C28_permutation oc).1 _ _ _ h1⟩
  obtain ⟨ys, hy⟩ := mapM_ok_of_forall (f := encodePeripheral oc cc cfg) (l := l')
    fun p hp' => encodePeripheral_total oc cc cfg hf hr (h p (hpm.subset hp'))
  simp only [hs, ok_bind, hy]
  exact ⟨_, rfl⟩

/-! ## Devices obtained by parsing -/

section
variable {oc : Bool} {cfg : ParseConfig}

variable {D : DimElement → Prop}
  (hD : ∀ t d, parseDimElement cfg t = .ok d → (∀ l, d.dimIndex = some l → l.length = d.dim.toNat) → D d)
include hD
set_option linter.unusedSectionVars false

theorem parseArray_parts {α : Type} {tag : String} {nm : α → Str} {t : Xml} {m : M α}
    {x : MaybeArray α} (h : parseArray cfg tag nm t m = .ok x) :
    m = .ok x.info ∧ DimPart D x := by
  unfold parseArray at h
  obtain ⟨_, h⟩ := guard_ok h
  obtain ⟨i, hi, h⟩ := bind_ok.mp h
  split at h
  · obtain ⟨d, hd, h⟩ := bind_ok.mp h
    obtain ⟨_, _, h⟩ := bind_ok.mp h
    split at h
    · rename_i l hl
      obtain ⟨hne, h⟩ := guard_ok h
      cases h
      refine ⟨hi, hD t d hd fun l' hl' => ?_⟩
      rw [hl] at hl'; cases hl'
      omega
    · rename_i hl
      cases h
      refine ⟨hi, hD t d hd fun l' hl' => ?_⟩
      rw [hl] at hl'; cases hl'
  · cases h
    exact ⟨hi, trivial⟩

/-- At the levels other than `Disabled` a field has at least one bit. -/
abbrev PosWidth (lvl : ValidateLevel) (f : FieldInfo) : Prop :=
  lvl = .disabled ∨ 1 ≤ f.bitRange.width.toNat

omit hD in
theorem validate_posWidth {f : FieldInfo} {lvl : ValidateLevel} (h : f.validate lvl = .ok ()) :
    PosWidth lvl f := by
  by_cases hl : lvl = .disabled
  · exact .inl hl
  · right
    unfold FieldInfo.validate whenM at h
    rw [if_pos (by cases lvl <;> simp_all [ValidateLevel.isDisabled])] at h
    obtain ⟨_, _, h⟩ := bind_ok.mp h
    obtain ⟨hw, _⟩ := iteBind_ok.mp h
    have : f.bitRange.width.toNat ≠ 0 := fun e => hw (BitVec.eq_of_toNat_eq (by simpa using e))
    omega

theorem parseField_parts {t : Xml} {f : Field} (h : parseField oc cfg t = .ok f) :
    FieldParts (PosWidth cfg.validateLevel) D f := by
  obtain ⟨h1, h2⟩ := parseArray_parts hD h
  refine ⟨validate_posWidth ?_, h2⟩
  unfold parseFieldInfo at h1
  obtain ⟨_, h1⟩ := guard_ok h1
  iterate 8 obtain ⟨_, _, h1⟩ := bind_ok.mp h1
  exact (buildField_ok h1).1

theorem parseRegister_parts {t : Xml} {r : Register} (h : parseRegister oc cfg t = .ok r) :
    RegisterParts (PosWidth cfg.validateLevel) D r := by
  obtain ⟨h1, h2⟩ := parseArray_parts hD h
  refine ⟨fun l hl f hf => ?_, h2⟩
  unfold parseRegisterInfo at h1
  iterate 11 obtain ⟨_, _, h1⟩ := bind_ok.mp h1
  obtain ⟨fs, hfs, h1⟩ := bind_ok.mp h1
  have e := (buildRegister_ok h1).2.2
  simp only at e
  rw [hl] at e; subst e
  split at hfs
  · obtain ⟨l', hl', h3⟩ := bind_ok.mp hfs
    cases h3
    obtain ⟨x, _, hx⟩ := mapM_ok_mem' hl' hf
    exact parseField_parts hD hx
  · cases hfs

mutual
theorem parseRc_parts : ∀ (t : Xml) (c : RegisterCluster), parseRegisterCluster oc cfg t = .ok c →
    RcParts (PosWidth cfg.validateLevel) D c
  | .elem tag attrs kids, c, h => by
    unfold parseRegisterCluster at h
    split at h
    · obtain ⟨r, hr, h⟩ := bind_ok.mp h
      cases h
      simp only [RcParts]
      exact parseRegister_parts hD hr
    · split at h
      · obtain ⟨x, hx, h⟩ := bind_ok.mp h
        cases h
        obtain ⟨h1, h2⟩ := parseArray_parts hD hx
        have hk : RcsParts (PosWidth cfg.validateLevel) D x.info.children := by
          unfold parseClusterInfoWith at h1
          iterate 6 obtain ⟨_, _, h1⟩ := bind_ok.mp h1
          obtain ⟨cs, hcs, h1⟩ := bind_ok.mp h1
          have e := (buildCluster_ok h1).2.2
          simp only at e
          cases e
          exact parseKids_parts kids _ hcs
        cases x with
        | single i =>
          simp only [RegisterCluster.ofCluster, RcParts]
          exact ⟨by simp, hk⟩
        | array i d =>
          simp only [RegisterCluster.ofCluster, RcParts]
          refine ⟨?_, hk⟩
          intro y hy; cases hy; exact h2
      · cases h
  | .text _, c, h => by unfold parseRegisterCluster at h; cases h
  | .other, c, h => by unfold parseRegisterCluster at h; cases h
theorem parseKids_parts : ∀ (ts : List Xml) (cs : List RegisterCluster),
    parseClusterKids oc cfg ts = .ok cs → RcsParts (PosWidth cfg.validateLevel) D cs
  | [], cs, h => by unfold parseClusterKids at h; cases h; simp [RcsParts]
  | x :: xs, cs, h => by
    unfold parseClusterKids at h
    split at h
    · obtain ⟨a, ha, h⟩ := bind_ok.mp h
      obtain ⟨r, hr, h⟩ := bind_ok.mp h
      cases h
      simp only [RcsParts]
      exact ⟨parseRc_parts x a ha, parseKids_parts xs r hr⟩
    · exact parseKids_parts xs cs h
end

theorem parsePeripheral_parts {t : Xml} {p : Peripheral} (h : parsePeripheral oc cfg t = .ok p) :
    PeripheralParts (PosWidth cfg.validateLevel) D p := by
  obtain ⟨h1, h2⟩ := parseArray_parts hD h
  refine ⟨fun l hl => ?_, h2⟩
  unfold parsePeripheralInfo at h1
  obtain ⟨_, h1⟩ := guard_ok h1
  iterate 13 obtain ⟨_, _, h1⟩ := bind_ok.mp h1
  obtain ⟨fs, hfs, h1⟩ := bind_ok.mp h1
  have e := (buildPeripheral_ok h1).2.2
  simp only at e
  rw [hl] at e; subst e
  split at hfs
  · obtain ⟨l', hl', h3⟩ := bind_ok.mp hfs
    cases h3
    refine rcsParts_iff.mpr fun c hc => ?_
    obtain ⟨x, _, hx⟩ := mapM_ok_mem' hl' hc
    exact parseRc_parts hD x c hx
  · cases hfs

theorem parseDevice_dims {t : Xml} {d : Device} (h : parseDevice oc cfg t = .ok d) :
    DeviceParts (PosWidth cfg.validateLevel) D d := by
  unfold parseDevice at h
  obtain ⟨_, h⟩ := guard_ok h
  iterate 10 obtain ⟨_, _, h⟩ := bind_ok.mp h
  obtain ⟨ps, hps, h⟩ := bind_ok.mp h
  iterate 4 obtain ⟨_, _, h⟩ := bind_ok.mp h
  have e := (buildDevice_ok h).2.2
  simp only at e
  cases e
  intro p hp
  obtain ⟨x, _, hx⟩ := mapM_ok_mem' hps hp
  exact parsePeripheral_parts hD hx

end

section
variable {oc : Bool} {cfg : ParseConfig}

theorem parseDevice_parts {t : Xml} {d : Device} (h : parseDevice oc cfg t = .ok d) :
    DeviceParts (PosWidth cfg.validateLevel) EnoughIndexes d :=
  parseDevice_dims (fun _ _ _ h l hl => Nat.le_of_eq (h l hl).symm) h

theorem parseDocument_parts {doc : List Xml} {d : Device} (h : parseDocument oc cfg doc = .ok d) :
    DeviceParts (PosWidth cfg.validateLevel) EnoughIndexes d := by
  unfold parseDocument at h
  obtain ⟨t, _, h⟩ := bind_ok.mp h
  exact parseDevice_parts h

end

/-- **C50.** A device read from a document (at a level that checks anything) can be written under
every configuration without reversed-offset sorting if every bit range ends before bit `2 ^ 32 - 1`
and no index list contains both 0 and `2 ^ 32 - 1`. -/
theorem C50_parsed_can_be_written (oc : Bool) (cc : IdentifierFormat → Str → Str) (cfg : EncConfig)
    (pcfg : ParseConfig) (doc : List Xml) (d : Device) (hd : parseDocument oc pcfg doc = .ok d)
    (hl : pcfg.validateLevel ≠ .disabled)
    (hp : sortingOf cfg.peripheralSorting ≠ some .offsetReversed)
    (hr : rcSortingOf cfg.registerClusterSorting ≠ some .offsetReversed)
    (hf : sortingOf cfg.fieldSorting ≠ some .offsetReversed)
    (h : DeviceParts (fun f => f.bitRange.offset.toNat + f.bitRange.width.toNat < 2 ^ 32)
      NotBothEnds d) :
    ∃ x, encodeDevice oc cc cfg d = .ok x := by
  refine C50_encode_total oc cc cfg d hp hr hf ?_
  have e : (fun f : FieldInfo => PosWidth pcfg.validateLevel f ∧
      f.bitRange.offset.toNat + f.bitRange.width.toNat < 2 ^ 32) =
      fun f => WritableRange f.bitRange := by
    funext f
    simp [WritableRange, PosWidth, hl]
  exact e ▸ deviceParts_and (parseDocument_parts hd) h

/-- A device with one register array containing one field, used by the examples. -/
def writableDevice (br : BitRange) (dim : U32) (idx : List Str) : Device :=
  { vendor := none, vendorId := none, name := "D".toList, series := none, version := "1".toList,
    description := "".toList, licenseText := none, cpu := none, headerSystemFilename := none,
    headerDefinitionsPrefix := none, addressUnitBits := 8, width := 32,
    defaultRegisterProperties := {},
    peripherals := [.single
      { name := "P".toList, displayName := none, version := none, description := none,
        alternatePeripheral := none, groupName := none, prependToName := none, appendToName := none,
        headerStructName := none, baseAddress := 0, defaultRegisterProperties := {},
        addressBlock := none, interrupt := [], derivedFrom := none,
        registers := some [.register (.array
          { name := "R%s".toList, displayName := none, description := none, alternateGroup := none,
            alternateRegister := none, addressOffset := 0, properties := {}, datatype := none,
            modifiedWriteValues := none, writeConstraint := none, readAction := none,
            derivedFrom := none,
            fields := some [.single
              { name := "F".toList, description := none, bitRange := br, access := none,
                modifiedWriteValues := none, writeConstraint := none, readAction := none,
                enumeratedValues := [], derivedFrom := none }] }
          { dim := dim, dimIncrement := 4, dimIndex := some idx, dimName := none,
            dimArrayIndex := none })] }],
    xmlnsXs := "".toList, noNamespaceSchemaLocation := "".toList, schemaVersion := "".toList }

-- The hypotheses of `C50_encode_total` hold for a device.
example : DeviceParts (fun f => WritableRange f.bitRange) (fun x => EnoughIndexes x ∧ NotBothEnds x)
    (writableDevice ⟨4, 2, .msbLsb⟩ 2 ["A".toList, "4294967295".toList]) := by
  simp [writableDevice, DeviceParts, PeripheralParts, RcsParts, RcParts, RegisterParts, FieldParts,
    DimPart, MaybeArray.info, WritableRange, EnoughIndexes, NotBothEnds]

/-- **C50.** None of the conditions can be dropped: a range of width zero, a range up to bit
`2 ^ 32 - 1`, an index list with both extreme numbers (overflow-checked builds), and an index list
that is too short (any build) each make the encoder panic. -/
theorem C50_conditions_needed (cc : IdentifierFormat → Str → Str) :
    encodeDevice true cc {} (writableDevice ⟨0, 0, .bitRange⟩ 1 ["0".toList]) =
      .error (.panic .overflow) ∧
    encodeDevice true cc {} (writableDevice ⟨4294967295, 1, .msbLsb⟩ 1 ["0".toList]) =
      .error (.panic .overflow) ∧
    encodeDevice true cc {} (writableDevice ⟨0, 1, .msbLsb⟩ 2 ["0".toList, "4294967295".toList]) =
      .error (.panic .overflow) ∧
    encodeDevice false cc {} (writableDevice ⟨0, 1, .msbLsb⟩ 2 ["0".toList]) =
      .error (.panic .indexOutOfBounds) := by
  refine ⟨?_, ?_, ?_, ?_⟩ <;> rfl

example : ∃ x, encodeDevice true (fun _ s => s) { fieldSorting := .deriveLast (some .offset) }
    (writableDevice ⟨4, 2, .msbLsb⟩ 2 ["A".toList, "4294967295".toList]) = .ok x :=
  C50_encode_total true _ _ _ (by decide) (by decide) (by decide) (by
    simp [writableDevice, DeviceParts, PeripheralParts, RcsParts, RcParts, RegisterParts, FieldParts,
      DimPart, MaybeArray.info, WritableRange, Spec.EnoughIndexes, NotBothEnds])

end Svd
