import Verif.Props.SerdeDevice
import Verif.Props.Reread
import Verif.Props.Recase
import Verif.Props.RoundTripExamples

/-!
# C82: converting between XML and JSON or YAML

What a conversion to JSON or YAML keeps of a device that can be written as XML can be written as XML again, is
read back from there unchanged, and is no longer changed by further conversions.
-/

namespace Svd

open Spec

namespace Convert

theorem info_same {α : Type} (x : MaybeArray α) : (keepIndexed x).info = x.info := by
  cases x with
  | single i => rfl
  | array i d => rw [keepIndexed]; split <;> rfl

theorem dim_indexed {α : Type} (x : MaybeArray α) : (keepIndexed x).dim? = x.dim?.bind indexed := by
  cases x with
  | single i => rfl
  | array i d =>
    rw [keepIndexed]
    change _ = indexed d
    unfold indexed
    split <;> rfl

theorem indexed_some {o : Option DimElement} {x : DimElement} (h : o.bind indexed = some x) :
    o = some x ∧ x.dimIndex ≠ none := by
  cases o with
  | none => cases h
  | some d =>
    have h : indexed d = some x := h
    unfold indexed at h
    split at h
    · cases h
    · rename_i hd; cases h; exact ⟨rfl, hd⟩

/-! ## It can still be expressed -/

section
variable {lvl : ValidateLevel}

theorem arrayFits {n : Str} {o : Option DimElement} (h : ArrayFits lvl n o) : ArrayFits lvl n (o.bind indexed) :=
  fun x hx => h x (indexed_some hx).1

theorem fieldFits {f : Field} (h : FieldFits lvl f) : FieldFits lvl (keepIndexed f) := by
  refine ⟨?_, ?_, ?_, ?_, ?_⟩
  · rw [info_same]; exact h.name
  · rw [info_same]; exact h.description
  · rw [info_same]; exact h.range
  · rw [info_same]; exact h.enums
  · rw [info_same, dim_indexed]; exact arrayFits h.array

theorem register_info (r : Register) : (keptRegister r).info =
    { r.info with fields := r.info.fields.map fun l => l.map keepIndexed } := by
  rw [keptRegister, info_same, Recase.mapInfo_info]

theorem register_dim (r : Register) : (keptRegister r).dim? = r.dim?.bind indexed := by
  rw [keptRegister, dim_indexed]
  cases r <;> rfl

theorem peripheral_info (p : Peripheral) : (keptPeripheral p).info =
    { p.info with registers := p.info.registers.map keptRcs } := by
  rw [keptPeripheral, info_same, Recase.mapInfo_info]

theorem peripheral_dim (p : Peripheral) : (keptPeripheral p).dim? = p.dim?.bind indexed := by
  rw [keptPeripheral, dim_indexed]
  cases p <;> rfl

theorem map_nil {α β : Type} {f : α → β} {o : Option (List α)} (h : o.map (fun l => l.map f) = some []) : o = some [] := by
  cases o with
  | none => cases h
  | some l =>
    cases l with
    | nil => rfl
    | cons a l => cases h

theorem registerFits {r : Register} (h : RegisterFits lvl r) : RegisterFits lvl (keptRegister r) := by
  have e := register_info r
  refine ⟨?_, ?_, ?_, ?_, ?_, ?_, ?_, ?_⟩
  · rw [e]; exact h.name
  · rw [e]; exact h.displayName
  · rw [e]; exact h.description
  · rw [e]; exact h.alternateGroup
  · rw [e]; exact h.alternateRegister
  · rw [e]; exact fun hn => h.nonempty (map_nil hn)
  · rw [e]
    intro l hl f hf
    cases hfs : r.info.fields with
    | none => rw [hfs] at hl; cases hl
    | some fs =>
      rw [hfs] at hl
      cases hl
      obtain ⟨g, hg, rfl⟩ := List.mem_map.mp hf
      exact fieldFits (h.fields fs hfs g hg)
  · rw [e, register_dim]; exact arrayFits h.array

theorem keptRcs_nil {l : List RegisterCluster} (h : keptRcs l = []) : l = [] := by
  cases l with
  | nil => rfl
  | cons c l => rw [keptRcs] at h; cases h

mutual
theorem rcFits : ∀ c : RegisterCluster, RcFits lvl c → RcFits lvl (keptRc c)
  | .register r, h => by
    rw [RcFits] at h
    rw [keptRc, RcFits]
    exact registerFits h
  | .cluster hd d cs, h => by
    rw [RcFits] at h
    rw [keptRc, RcFits]
    exact ⟨h.1, arrayFits h.2.1, rcsFits cs h.2.2⟩
theorem rcsFits : ∀ cs : List RegisterCluster, RcsFits lvl cs → RcsFits lvl (keptRcs cs)
  | [], _ => by rw [keptRcs, RcsFits]; trivial
  | c :: cs, h => by
    rw [RcsFits] at h
    rw [keptRcs, RcsFits]
    exact ⟨rcFits c h.1, rcsFits cs h.2⟩
end

theorem peripheralFits {p : Peripheral} (h : PeripheralFits lvl p) : PeripheralFits lvl (keptPeripheral p) := by
  have e := peripheral_info p
  refine ⟨?_, ?_, ?_, ?_, ?_, ?_, ?_, ?_, ?_, ?_, ?_, ?_, ?_⟩
  · rw [e]; exact h.name
  · rw [e]; exact h.displayName
  · rw [e]; exact h.version
  · rw [e]; exact h.description
  · rw [e]; exact h.alternatePeripheral
  · rw [e]; exact h.groupName
  · rw [e]; exact h.prependToName
  · rw [e]; exact h.appendToName
  · rw [e]; exact h.headerStructName
  · rw [e]; exact h.nonempty
  · rw [e]; exact h.interrupts
  · rw [e]
    intro l hl
    cases hr : p.info.registers with
    | none => rw [hr] at hl; cases hl
    | some rs =>
      rw [hr] at hl
      cases hl
      exact rcsFits rs (h.registers rs hr)
  · rw [e, peripheral_dim]; exact arrayFits h.array

/-! ## It is still valid -/

theorem validRegister {r : Register} (h : ∀ q, RegisterHas r.info q → q.Valid lvl) :
    ∀ q, RegisterHas (keptRegister r).info q → q.Valid lvl := by
  intro q hq
  rw [register_info] at hq
  cases hq with
  | self =>
    have := h _ .self
    refine ⟨fun _ => trivial, fun hs => ?_⟩
    obtain ⟨h1, h2, h3, h4, h5⟩ := this.2 hs
    exact ⟨h1, h2, h3, h4, fun hd e => h5 hd (map_nil e)⟩
  | props => exact h _ .props
  | @field l f _ hl hf hq =>
    cases hfs : r.info.fields with
    | none => simp only [hfs] at hl; cases hl
    | some fs =>
      simp only [hfs] at hl
      cases hl
      obtain ⟨g, hg, rfl⟩ := List.mem_map.mp hf
      rw [info_same] at hq
      exact h _ (.field hfs hg hq)

mutual
theorem validRc : ∀ c : RegisterCluster, Recase.TreeValid lvl [c] → Recase.TreeValid lvl [keptRc c]
  | .register r, h => by
    rw [keptRc]
    intro n hn q hq
    cases hn with
    | here hm =>
      rw [List.mem_singleton] at hm; subst hm
      cases hq with
      | register hq =>
        exact validRegister (fun q hq => h _ (.here (List.mem_singleton.mpr rfl)) q (.register hq)) q hq
    | inside hm _ => rw [List.mem_singleton] at hm; cases hm
  | .cluster hd d cs, h => by
    rw [keptRc]
    have hc : Recase.TreeValid lvl cs := fun n hn => h n (.inside (List.mem_singleton.mpr rfl) hn)
    intro n hn q hq
    cases hn with
    | here hm =>
      rw [List.mem_singleton] at hm; subst hm
      cases hq with
      | cluster =>
        have := h _ (.here (List.mem_singleton.mpr rfl)) _ .cluster
        refine ⟨fun _ => trivial, fun hs => ?_⟩
        obtain ⟨h1, h2, h3⟩ := this.2 hs
        exact ⟨h1, h2, fun hd e => h3 hd (keptRcs_nil e)⟩
      | props => exact h _ (.here (List.mem_singleton.mpr rfl)) _ .props
    | inside hm ht =>
      rw [List.mem_singleton] at hm
      injection hm with _ _ hm
      subst hm
      exact validRcs cs hc n ht q hq
theorem validRcs : ∀ cs : List RegisterCluster, Recase.TreeValid lvl cs → Recase.TreeValid lvl (keptRcs cs)
  | [], h => by rw [keptRcs]; exact h
  | c :: cs, h => by
    rw [Recase.treeValid_cons] at h
    rw [keptRcs, Recase.treeValid_cons]
    exact ⟨validRc c h.1, validRcs cs h.2⟩
end

theorem validPeripheral {p : Peripheral} (h : ∀ q, PeripheralHas p.info q → q.Valid lvl) :
    ∀ q, PeripheralHas (keptPeripheral p).info q → q.Valid lvl := by
  intro q hq
  rw [peripheral_info] at hq
  cases hq with
  | self =>
    have := h _ .self
    refine ⟨fun _ => trivial, fun hs => ?_⟩
    obtain ⟨h1, h2, h3⟩ := this.2 hs
    refine ⟨h1, h2, fun hd e => h3 hd ?_⟩
    cases hr : p.info.registers with
    | none => simp only [hr] at e; cases e
    | some rs =>
      simp only [hr, Option.map, Option.some.injEq] at e
      rw [keptRcs_nil e]
  | props => exact h _ .props
  | @node l n _ hl hn hq =>
    cases hr : p.info.registers with
    | none => simp only [hr] at hl; cases hl
    | some rs =>
      simp only [hr] at hl
      cases hl
      exact validRcs rs (fun n hn q hq => h q (.node hr hn hq)) n hn q hq

theorem expressible {d : Device} (h : Expressible lvl d) : Expressible lvl (kept d) := by
  refine ⟨h.vendor, h.vendorId, h.name, h.series, h.version, h.description, h.licenseText, h.cpu,
    h.headerSystemFilename, h.headerDefinitionsPrefix, fun p hp => ?_, ⟨fun hw e => ?_, h.valid.1.2⟩, fun q hq => ?_⟩
  · obtain ⟨p', hp', rfl⟩ := List.mem_map.mp hp
    exact peripheralFits (h.peripherals _ hp')
  · exact h.valid.1.1 hw (List.map_eq_nil_iff.mp e)
  · cases hq with
    | props => exact h.valid.2 _ .props
    | peripheral hp hq =>
      obtain ⟨p', hp', rfl⟩ := List.mem_map.mp hp
      exact validPeripheral (fun q hq => h.valid.2 q (.peripheral hp' hq)) q hq

/-! ## It can be serialised -/

theorem dimJoinable {n : Str} {o : Option DimElement} (h : ArrayFits lvl n o) : ∀ x, o = some x → JoinableIndexes x :=
  fun x hx l hl => ⟨((h x hx).2.index l hl).1, ((h x hx).2.index l hl).2.2.2.1⟩

theorem dimPartJoinable {α : Type} {n : Str} {x : MaybeArray α} (h : ArrayFits lvl n x.dim?) :
    DimPart JoinableIndexes x := by
  cases x with
  | single i => trivial
  | array i d => exact dimJoinable h d rfl

theorem registerJoinable {r : Register} (h : RegisterFits lvl r) :
    RegisterParts (fun f => WritableRange f.bitRange) JoinableIndexes r :=
  ⟨fun l hl f hf => ⟨(h.fields l hl f hf).range, dimPartJoinable (h.fields l hl f hf).array⟩, dimPartJoinable h.array⟩

mutual
theorem rcJoinable : ∀ c : RegisterCluster, RcFits lvl c →
    RcParts (fun f => WritableRange f.bitRange) JoinableIndexes c
  | .register r, h => by
    rw [RcFits] at h
    rw [RcParts]
    exact registerJoinable h
  | .cluster hd d cs, h => by
    rw [RcFits] at h
    rw [RcParts]
    exact ⟨dimJoinable h.2.1, rcsJoinable cs h.2.2⟩
theorem rcsJoinable : ∀ cs : List RegisterCluster, RcsFits lvl cs →
    RcsParts (fun f => WritableRange f.bitRange) JoinableIndexes cs
  | [], _ => by rw [RcsParts]; trivial
  | c :: cs, h => by
    rw [RcsFits] at h
    rw [RcsParts]
    exact ⟨rcJoinable c h.1, rcsJoinable cs h.2⟩
end

theorem deviceJoinable {d : Device} (h : Expressible lvl d) :
    DeviceParts (fun f => WritableRange f.bitRange) JoinableIndexes d :=
  fun p hp => ⟨fun l hl => rcsJoinable l ((h.peripherals p hp).registers l hl), dimPartJoinable (h.peripherals p hp).array⟩

end

/-! ## What was kept once is kept -/

theorem keepIndexed_twice {α : Type} (x : MaybeArray α) : keepIndexed (keepIndexed x) = keepIndexed x := by
  cases x with
  | single i => rfl
  | array i d =>
    by_cases h : d.dimIndex = none
    · rw [keepIndexed, if_pos h]; rfl
    · rw [keepIndexed, if_neg h, keepIndexed, if_neg h]

theorem keepIndexed_map {α : Type} (f : α → α) (x : MaybeArray α) :
    (keepIndexed x).mapInfo f = keepIndexed (x.mapInfo f) := by
  cases x with
  | single i => rfl
  | array i d =>
    by_cases h : d.dimIndex = none
    · rw [keepIndexed, if_pos h]
      change _ = keepIndexed (MaybeArray.array (f i) d)
      rw [keepIndexed, if_pos h]; rfl
    · rw [keepIndexed, if_neg h]
      change _ = keepIndexed (MaybeArray.array (f i) d)
      rw [keepIndexed, if_neg h]; rfl

theorem mapInfo_twice {α : Type} {f : α → α} (hf : ∀ i, f (f i) = f i) (x : MaybeArray α) :
    (x.mapInfo f).mapInfo f = x.mapInfo f := by
  cases x with
  | single i => exact congrArg MaybeArray.single (hf i)
  | array i d => exact congrArg (MaybeArray.array · d) (hf i)

theorem keptRegister_twice (r : Register) : keptRegister (keptRegister r) = keptRegister r := by
  unfold keptRegister
  rw [keepIndexed_map, keepIndexed_twice, mapInfo_twice]
  intro i
  cases hf : i.fields with
  | none => simp
  | some l =>
    simp only [Option.map, List.map_map]
    congr 2
    exact List.map_congr_left fun f _ => keepIndexed_twice f

mutual
theorem keptRc_twice : ∀ c : RegisterCluster, keptRc (keptRc c) = keptRc c
  | .register r => by rw [keptRc, keptRc, keptRegister_twice]
  | .cluster hd d cs => by
    rw [keptRc, keptRc, keptRcs_twice cs]
    congr 1
    cases d with
    | none => rfl
    | some d =>
      change (indexed d).bind indexed = indexed d
      unfold indexed
      by_cases h : d.dimIndex = none
      · rw [if_pos h]; rfl
      · rw [if_neg h]; simp [h]
theorem keptRcs_twice : ∀ cs : List RegisterCluster, keptRcs (keptRcs cs) = keptRcs cs
  | [] => by rw [keptRcs, keptRcs]
  | c :: cs => by rw [keptRcs, keptRcs, keptRc_twice c, keptRcs_twice cs]
end

theorem keptPeripheral_twice (p : Peripheral) : keptPeripheral (keptPeripheral p) = keptPeripheral p := by
  unfold keptPeripheral
  rw [keepIndexed_map, keepIndexed_twice, mapInfo_twice]
  intro i
  cases hf : i.registers with
  | none => simp
  | some l => simp [keptRcs_twice]

theorem kept_twice (d : Device) : kept (kept d) = kept d := by
  unfold kept
  simp only [List.map_map]
  congr 1
  exact List.map_congr_left fun p _ => keptPeripheral_twice p

end Convert

open Convert

/-- **C82.** A device that can be expressed as XML at a level is converted to JSON or YAML and back, whatever the
order of the entries. What comes back can again be expressed as XML, is read from there as it is, and is not
changed by a second conversion to JSON or YAML. -/
theorem C82_converted (oc : Bool) (cc : IdentifierFormat → Str → Str) (cfg : ParseConfig)
    (hi : cfg.ignoreEnums = false) (d : Device) (h : Expressible cfg.validateLevel d) :
    ∃ v g x v', serDevice oc d = .ok v ∧ (∀ w, v = w ∨ Reordered v w → deDevice oc w = .ok g) ∧
      encodeDevice oc cc {} g = .ok x ∧ (∀ y, Reread x y → parseDevice oc cfg y = .ok g) ∧
      serDevice oc g = .ok v' ∧ (∀ w, v' = w ∨ Reordered v' w → deDevice oc w = .ok g) ∧ g = kept d := by
  obtain ⟨v, h1, h2, h3⟩ := C54_serde oc d (deviceJoinable h)
  have hk := expressible h
  obtain ⟨x, h4, h5⟩ := C26_lossless oc cc cfg hi (kept d) hk
  obtain ⟨v', h6, h7, h8⟩ := C54_serde oc (kept d) (deviceJoinable hk)
  rw [kept_twice] at h7 h8
  refine ⟨v, kept d, x, v', h1, fun w hw => ?_, h4, h5, h6, fun w hw => ?_, rfl⟩
  · rcases hw with rfl | hw
    · exact h2
    · exact h3 w hw
  · rcases hw with rfl | hw
    · exact h7
    · exact h8 w hw

/-- **C82.** The same for a device read from a document. The conditions are those of C53. -/
theorem C82_document (oc : Bool) (cc : IdentifierFormat → Str → Str) (cfg : ParseConfig)
    (hi : cfg.ignoreEnums = false) (hl : cfg.validateLevel ≠ .disabled) (t : Xml) (d : Device) (hr : Regular t)
    (h : parseDevice oc cfg t = .ok d)
    (hn : DeviceParts (fun f => f.bitRange.offset.toNat + f.bitRange.width.toNat < 2 ^ 32) NotBothEnds d) :
    ∃ v x, serDevice oc d = .ok v ∧ (∀ w, v = w ∨ Reordered v w → deDevice oc w = .ok (kept d)) ∧
      encodeDevice oc cc {} (kept d) = .ok x ∧ ∀ y, Reread x y → parseDevice oc cfg y = .ok (kept d) := by
  have he : Expressible cfg.validateLevel d := by
    refine C53_parsed_expressible oc cfg t d hr h ?_
    refine deviceParts_mono (fun f hf => ?_) (fun _ h => h.2) (deviceParts_and (parseDevice_parts h) hn)
    exact ⟨hf.1.resolve_left hl, hf.2⟩
  obtain ⟨v, g, x, _, h1, h2, h3, h4, _, _, rfl⟩ := C82_converted oc cc cfg hi d he
  exact ⟨v, x, h1, h2, h3, h4⟩

namespace Convert

/-- A device that is valid at level Strict, with an array without a list of indexes. -/
def twoPorts : Device :=
  Sample.defaulted [.array (Sample.peripheralInfo "P%s" 0x1000 none (some
    [.register (.single (Sample.registerInfo "R" 0 none (some [.single (Sample.fieldInfo "F" 3)])))])) (Sample.dim 2 16)]

/-- The same array in a JSON file that says that there is no list of indexes. -/
def nullIndex : Val :=
  .obj [("name", .str "D".toList), ("version", .str "1".toList), ("description", .str []), ("width", .num 32),
    ("addressUnitBits", .num 8),
    ("peripherals", .arr [.obj [("baseAddress", .num 4096), ("name", .str "P%s".toList), ("dim", .num 2),
      ("dimIncrement", .num 16), ("dimIndex", .null)]])]

/-- The names of the peripherals after expansion. -/
def expandedNames (d : Device) : M (List Str) := do
  let d ← expand true 9 d
  .ok (d.peripherals.map fun p => p.info.name)

/-- The numbers of elements of the peripherals: one that is no array counts as 0. -/
def arrays (d : Device) : List Nat := d.peripherals.map fun p => (p.dim?.map fun x => x.dim.toNat).getD 0

end Convert

/-- **C82 (violated wish).** A conversion can lose peripherals without any error: a strictly valid device that
expands to two peripherals comes back as a strictly valid device that expands to one, with the place for the index
left in its name. A JSON file that says `null` for the list of indexes describes an array, and is written as a file
that does not. -/
theorem C82_lost :
    (Expressible .strict twoPorts ∧ expandedNames twoPorts = .ok ["P0".toList, "P1".toList] ∧
      ∃ g, converted twoPorts = .ok g ∧ Expressible .strict g ∧ expandedNames g = .ok ["P%s".toList]) ∧
    ∃ g g', deDevice true nullIndex = .ok g ∧ arrays g = [2] ∧ converted g = .ok g' ∧ arrays g' = [0] := by
  refine ⟨⟨by decide +kernel, by decide +kernel, kept twoPorts, by decide +kernel,
    Convert.expressible (by decide +kernel), by decide +kernel⟩, ?_⟩
  obtain ⟨g, h1, h2, h3⟩ := gives_ok (m := deDevice true nullIndex)
    (p := fun g => arrays g = [2] ∧ gives (converted g) (fun g' => arrays g' = [0]) = true) (by decide +kernel)
  obtain ⟨g', h4, h5⟩ := gives_ok h3
  exact ⟨g, g', h1, h2, h4, h5⟩

-- The hypotheses of `C82_converted` can be met; with lists of indexes nothing changes.
example : ∃ v g, serDevice true Sample.rich = .ok v ∧ deDevice true v = .ok g ∧ g = kept Sample.rich := by
  obtain ⟨v, g, _, _, h1, h2, _, _, _, _, h3⟩ :=
    C82_converted true (fun _ s => s) { validateLevel := .strict } rfl _ rich_expressible
  exact ⟨v, g, h1, h2 v (.inl rfl), h3⟩
-- Those of `C82_document`, with a document that is laid out in an unusual way.
example : ∃ d v, parseDevice true {} Sample.messy = .ok d ∧ serDevice true d = .ok v ∧ deDevice true v = .ok (kept d) := by
  obtain ⟨d, h, hd⟩ := gives_ok (m := parseDevice true {} Sample.messy)
    (p := DeviceParts (fun f => f.bitRange.offset.toNat + f.bitRange.width.toNat < 2 ^ 32) NotBothEnds)
    (by decide +kernel)
  obtain ⟨v, _, h1, h2, _, _⟩ := C82_document true (fun _ s => s) {} rfl nofun _ d
    (regular_of_check (by decide +kernel)) h hd
  exact ⟨d, v, h, h1, h2 v (.inl rfl)⟩

end Svd
