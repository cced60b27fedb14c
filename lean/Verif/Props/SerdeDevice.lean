import Verif.Spec.Sample
import Verif.Props.SerdeOrder
import Verif.Props.Reread

/-!
# C54: converting devices with serde
-/

namespace Svd

open Spec

/-- **C54.** A device whose bit ranges have at least one bit and end before bit `2 ^ 32 - 1`, and whose index
lists are not empty and contain no `-` and no `,`, can be serialised.  From the value, and from every value
with the same entries in another order, it is read back unchanged except that arrays without index list
have become single elements and the schema attributes have their default values. -/
theorem C54_serde (oc : Bool) (d : Device)
    (h : DeviceParts (fun f => WritableRange f.bitRange) JoinableIndexes d) :
    ∃ v, serDevice oc d = .ok v ∧ deDevice oc v = .ok (kept d) ∧
      ∀ w, Reordered v w → deDevice oc w = .ok (kept d) := by
  obtain ⟨v, h1, h2⟩ := de_device oc d h
  exact ⟨v, h1, h2, fun w hw => by rw [← order_device oc v w hw, h2]⟩

/-- **C54.** The order of the entries never matters. -/
theorem C54_order (oc : Bool) (v w : Val) (d : Device) (hw : Reordered v w) (h : deDevice oc v = .ok d) :
    deDevice oc w = .ok d := by
  rw [← order_device oc v w hw, h]

/-! ## Nothing is lost from a device in which every array has an index list -/

theorem keepIndexed_same {α : Type} {x : MaybeArray α} (h : DimPart (fun d => d.dimIndex ≠ none) x) :
    keepIndexed x = x := by
  cases x with
  | single i => rfl
  | array i d =>
    have h : d.dimIndex ≠ none := h
    rw [keepIndexed, if_neg h]

theorem map_same {α : Type} {f : α → α} {l : List α} (h : ∀ a ∈ l, f a = a) : l.map f = l := by
  rw [List.map_congr_left h, List.map_id']

theorem keptRegister_same {F : FieldInfo → Prop} {r : Register}
    (h : RegisterParts F (fun d => d.dimIndex ≠ none) r) : keptRegister r = r := by
  have hf : ∀ i : RegisterInfo, (∀ l, i.fields = some l → ∀ f ∈ l, FieldParts F (fun d => d.dimIndex ≠ none) f) →
      ({ i with fields := i.fields.map fun l => l.map keepIndexed } : RegisterInfo) = i := by
    intro i hi
    obtain ⟨n1, n2, n3, n4, n5, n6, n7, n8, n9, n10, n11, fields, n12⟩ := i
    cases fields with
    | none => rfl
    | some l =>
      have : l.map keepIndexed = l := map_same fun f hf => keepIndexed_same (hi l rfl f hf).2
      simp [this]
  cases r with
  | single i => simp only [keptRegister, MaybeArray.mapInfo, keepIndexed, hf i h.1]
  | array i d =>
    have h2 : d.dimIndex ≠ none := h.2
    simp only [keptRegister, MaybeArray.mapInfo, keepIndexed, hf i h.1, if_neg h2]

mutual
theorem keptRc_same {F : FieldInfo → Prop} : ∀ c, RcParts F (fun d => d.dimIndex ≠ none) c → keptRc c = c
  | .register r, h => by
    rw [RcParts] at h
    rw [keptRc, keptRegister_same h]
  | .cluster hd d cs, h => by
    rw [RcParts] at h
    rw [keptRc, keptRcs_same cs h.2]
    cases d with
    | none => rfl
    | some d => rw [Option.bind_some, indexed, if_neg (h.1 d rfl)]
theorem keptRcs_same {F : FieldInfo → Prop} : ∀ cs, RcsParts F (fun d => d.dimIndex ≠ none) cs → keptRcs cs = cs
  | [], _ => by rw [keptRcs]
  | c :: cs, h => by
    rw [RcsParts] at h
    rw [keptRcs, keptRc_same c h.1, keptRcs_same cs h.2]
end

theorem keptPeripheral_same {F : FieldInfo → Prop} {p : Peripheral}
    (h : PeripheralParts F (fun d => d.dimIndex ≠ none) p) : keptPeripheral p = p := by
  have hf : ∀ i : PeripheralInfo, (∀ l, i.registers = some l → RcsParts F (fun d => d.dimIndex ≠ none) l) →
      ({ i with registers := i.registers.map keptRcs } : PeripheralInfo) = i := by
    intro i hi
    obtain ⟨n1, n2, n3, n4, n5, n6, n7, n8, n9, n10, n11, n12, n13, registers, n14⟩ := i
    cases registers with
    | none => rfl
    | some l => simp [keptRcs_same l (hi l rfl)]
  cases p with
  | single i => simp only [keptPeripheral, MaybeArray.mapInfo, keepIndexed, hf i h.1]
  | array i d =>
    have h2 : d.dimIndex ≠ none := h.2
    simp only [keptPeripheral, MaybeArray.mapInfo, keepIndexed, hf i h.1, if_neg h2]

/-- **C54.** If moreover every array has an index list and the schema attributes are the default ones, the
device is read back unchanged. -/
theorem C54_unchanged (oc : Bool) (d : Device)
    (h : DeviceParts (fun f => WritableRange f.bitRange) (fun x => JoinableIndexes x ∧ x.dimIndex ≠ none) d)
    (h1 : d.xmlnsXs = "http://www.w3.org/2001/XMLSchema-instance".toList)
    (h2 : d.noNamespaceSchemaLocation = "CMSIS-SVD_Schema_1_1.xsd".toList)
    (h3 : d.schemaVersion = "1.1".toList) :
    ∃ v, serDevice oc d = .ok v ∧ ∀ w, v = w ∨ Reordered v w → deDevice oc w = .ok d := by
  obtain ⟨v, g1, g2, g3⟩ := C54_serde oc d (deviceParts_mono (fun _ h => h) (fun _ h => h.1) h)
  have hk : kept d = d := by
    have hp : d.peripherals.map keptPeripheral = d.peripherals := map_same fun p hp =>
      keptPeripheral_same (deviceParts_mono (fun _ h => h) (fun _ h => h.2) h p hp)
    unfold kept
    rw [hp, ← h1, ← h2, ← h3]
  rw [hk] at g2 g3
  refine ⟨v, g1, fun w hw => ?_⟩
  rcases hw with rfl | hw
  · exact g2
  · exact g3 w hw

/-! ## Devices read from documents -/

theorem index_joinable {lit : Str} {l : List Str} (h : IndexText lit l) :
    l ≠ [] ∧ ∀ p ∈ l, '-' ∉ p ∧ ',' ∉ p := by
  have h' := h
  cases h with
  | list h1 h2 => exact ⟨h1, h2⟩
  | @numbers s t m n hs ht hmn =>
    refine ⟨fun he => ?_, fun p hp => ?_⟩
    · have := congrArg List.length he
      simp [decimalRange] at this
      omega
    · obtain ⟨k, _, rfl⟩ := List.mem_map.mp hp
      exact ⟨fun hc => (decimal_chars k _ hc).1 rfl, fun hc => (decimal_chars k _ hc).2.1 rfl⟩
  | @letters a b hab hle =>
    refine ⟨fun he => ?_, fun p hp => ?_⟩
    · have := congrArg List.length he
      simp at this
      omega
    · obtain ⟨k, hk, rfl⟩ := List.mem_map.mp hp
      rw [List.mem_range'_1] at hk
      have e1 : 'a'.toNat = 97 := rfl
      have e2 : 'z'.toNat = 122 := rfl
      have e3 : 'A'.toNat = 65 := rfl
      have e4 : 'Z'.toNat = 90 := rfl
      have hk : 65 ≤ k ∧ k < 123 := by omega
      have : ∀ k : Fin 123, 65 ≤ k.val → '-' ∉ [Char.ofNat k] ∧ ',' ∉ [Char.ofNat k] := by decide
      exact this ⟨k, hk.2⟩ hk.1

theorem parsed_joinable {cfg : ParseConfig} {t : Xml} {d : DimElement} (h : parseDimElement cfg t = .ok d) :
    JoinableIndexes d := by
  intro l hl
  unfold parseDimElement at h
  iterate 2 obtain ⟨_, _, h⟩ := bind_ok.mp h
  obtain ⟨ix, h1, h⟩ := bind_ok.mp h
  iterate 2 obtain ⟨_, _, h⟩ := bind_ok.mp h
  unfold DimElementBuilder.build at h
  iterate 2 obtain ⟨_, _, h⟩ := bind_ok.mp h
  obtain ⟨_, rfl⟩ := validated h
  have hl' : ix = some l := by
    have hl : emptyToNone ix = some l := hl
    cases ix with
    | none => cases hl
    | some l' =>
      cases l' with
      | nil => cases hl
      | cons c cs => exact hl
  obtain ⟨c, hc, hp⟩ := optional_ok h1 l hl'
  obtain ⟨text, lit, _, _, h3⟩ := (C05_parse_dim_index_iff c l).mp hp
  exact index_joinable h3

/-- **C54.** A device read from an SVD document at a level that checks anything can be serialised, and read
back with the changes named above, if every bit range ends before bit `2 ^ 32 - 1`. -/
theorem C54_parsed (oc : Bool) (cfg : ParseConfig) (hl : cfg.validateLevel ≠ .disabled) (t : Xml) (d : Device)
    (h : parseDevice oc cfg t = .ok d)
    (hn : DeviceParts (fun f => f.bitRange.offset.toNat + f.bitRange.width.toNat < 2 ^ 32) (fun _ => True) d) :
    ∃ v, serDevice oc d = .ok v ∧ deDevice oc v = .ok (kept d) ∧
      ∀ w, Reordered v w → deDevice oc w = .ok (kept d) :=
  C54_serde oc d (deviceParts_mono (fun _ hf => ⟨hf.1.resolve_left hl, hf.2⟩) (fun _ h => h.1)
    (deviceParts_and (parseDevice_dims (fun _ _ h _ => parsed_joinable h) h) hn))

/-! ## Examples -/

/-- Serialises a device and reads the value. -/
def converted (d : Device) : M Device := do
  let v ← serDevice true d
  deDevice true v

instance (d : DimElement) : Decidable (JoinableIndexes d) :=
  inferInstanceAs (Decidable (∀ l, d.dimIndex = some l → l ≠ [] ∧ ∀ p ∈ l, '-' ∉ p ∧ ',' ∉ p))

/-- The theorem applies to a device with a bit of everything. -/
example : DeviceParts (fun f => WritableRange f.bitRange) JoinableIndexes Sample.rich := by decide +kernel

/-- Its arrays without index list become single elements. -/
example : converted Sample.rich = .ok (kept Sample.rich) ∧ kept Sample.rich ≠ Sample.rich := by decide +kernel

/-- The theorem applies to a device read from a document. -/
example : ∃ d, parseDevice true {} Sample.messy = .ok d ∧
    DeviceParts (fun f => f.bitRange.offset.toNat + f.bitRange.width.toNat < 2 ^ 32) (fun _ => True) d ∧
    converted d = .ok (kept d) := by
  obtain ⟨d, h, hd⟩ := gives_ok (m := parseDevice true {} Sample.messy)
    (p := fun d => DeviceParts (fun f => f.bitRange.offset.toNat + f.bitRange.width.toNat < 2 ^ 32)
      (fun _ => True) d ∧ converted d = .ok (kept d)) (by decide +kernel)
  exact ⟨d, h, hd⟩

namespace Sample

/-- A device with the default schema attributes. -/
def defaulted (ps : List Peripheral) : Device :=
  { device ps with
    xmlnsXs := "http://www.w3.org/2001/XMLSchema-instance".toList
    noNamespaceSchemaLocation := "CMSIS-SVD_Schema_1_1.xsd".toList
    schemaVersion := "1.1".toList }

/-- A device as JSON, with an unknown key, a null and the index list as a text. -/
def json : Val :=
  .obj [("name", .str "D".toList), ("version", .str "1".toList), ("comment", .arr [.other]),
    ("description", .str [] ), ("width", .num 32), ("addressUnitBits", .num 8), ("vendor", .null),
    ("access", .str "read-only".toList),
    ("peripherals", .arr [.obj [("baseAddress", .num 0x40000000), ("name", .str "P".toList),
      ("registers", .arr [
        .obj [("register", .obj [("name", .str "R%s".toList), ("addressOffset", .num 4), ("dim", .num 3),
          ("dimIncrement", .num 4), ("dimIndex", .str "A-C".toList),
          ("fields", .arr [.obj [("name", .str "F".toList), ("bitRange", .str "[3:1]".toList)]])])],
        .obj [("cluster", .obj [("name", .str "C".toList), ("addressOffset", .num 32), ("children", .arr []),
          ("size", .num 8)])]])]])]

/-- The device that `json` stands for. -/
def jsonDevice : Device :=
  { defaulted [.single (peripheralInfo "P" 0x40000000 none (some
      [.register (.array (registerInfo "R%s" 4 none (some
          [.single { fieldInfo "F" 1 with bitRange := ⟨1, 3, .bitRange⟩ }])) (dim 3 4 (some ["A", "B", "C"]))),
       .cluster { clusterHead "C" 32 with defaultRegisterProperties := { size := some 8 } } none []]))] with
    description := [], defaultRegisterProperties := { access := some .readOnly } }

end Sample

example : deDevice true Sample.json = .ok Sample.jsonDevice := by decide +kernel

/-- **C54**, what is lost and what is needed: a peripheral array without index list becomes one peripheral;
the index `0-2` becomes three indexes, an empty index list a list with an empty index; a range without bits
written as `[msb:lsb]` cannot be serialised with overflow checks. -/
theorem C54_conditions_needed :
    converted (Sample.defaulted [.array (Sample.peripheralInfo "P%s" 0) (Sample.dim 2 16)]) =
      .ok (Sample.defaulted [.single (Sample.peripheralInfo "P%s" 0)]) ∧
    converted (Sample.defaulted [.array (Sample.peripheralInfo "P%s" 0) (Sample.dim 1 16 (some ["0-2"]))]) =
      .ok (Sample.defaulted [.array (Sample.peripheralInfo "P%s" 0) (Sample.dim 1 16 (some ["0", "1", "2"]))]) ∧
    converted (Sample.defaulted [.array (Sample.peripheralInfo "P%s" 0) (Sample.dim 0 16 (some []))]) =
      .ok (Sample.defaulted [.array (Sample.peripheralInfo "P%s" 0) (Sample.dim 0 16 (some [""]))]) ∧
    ∃ f, converted (Sample.defaulted [.single (Sample.peripheralInfo "P" 0 none (some
      [.register (.single (Sample.registerInfo "R" 0 none (some
        [.single { Sample.fieldInfo "F" 0 with bitRange := ⟨0, 0, .bitRange⟩ }])))]))]) = .error (.panic f) := by
  refine ⟨by decide +kernel, by decide +kernel, by decide +kernel, ?_⟩
  exact ⟨_, rfl⟩

-- The hypotheses of `C54_serde`, `C54_order` and `C54_unchanged` can be met.
example : ∃ v, serDevice true Sample.jsonDevice = .ok v ∧
    ∀ w, v = w ∨ Reordered v w → deDevice true w = .ok Sample.jsonDevice :=
  C54_unchanged true _ (by decide +kernel) rfl rfl rfl
example : ∃ v, serDevice true Sample.rich = .ok v ∧ deDevice true v = .ok (kept Sample.rich) ∧
    ∀ w, Reordered v w → deDevice true w = .ok (kept Sample.rich) := C54_serde true _ (by decide +kernel)
example (w : Val) (h : Reordered Sample.json w) : deDevice true w = .ok Sample.jsonDevice :=
  C54_order true _ _ _ h (by decide +kernel)

end Svd
