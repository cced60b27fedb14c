import Verif.Props.Document
import Verif.Props.Numbers
import Verif.Props.Dim
import Verif.Props.BitRange
import Verif.Props.Names
import Verif.Props.ParseLevel
import Verif.Props.Build
import Verif.Props.Arrays
import Verif.Props.Iter
import Verif.Props.IgnoreEnums
import Verif.Props.Idempotent
import Verif.Props.Expanded
import Verif.Props.Chain
import Verif.Props.BadRefs
import Verif.Props.Misc
import Verif.Props.EncodeTotal
import Verif.Props.Setters
import Verif.Props.SerdeDevice
import Verif.Props.Full
import Verif.Props.ExpandValid
import Verif.Props.Report
import Verif.Props.Value
import Verif.Props.ValueTidy
import Verif.Props.Reorder
import Verif.Props.Reread
import Verif.Props.Complaint
import Verif.Props.Overflow
import Verif.Props.Modify
import Verif.Props.EncodeWhen
import Verif.Props.Rearranged
import Verif.Props.Room
import Verif.Props.Both

/-!
# Theorems applied to concrete elements

Each example takes a theorem that has hypotheses and meets them with something concrete.
-/

namespace Svd.Tests

open Spec DocumentExample

-- C04
example : Access.canRead .readWriteOnce = true ∧ Access.canWrite .readWriteOnce = true := by
  have h := C04_access_rights "read-writeOnce".toList .readWriteOnce (by decide)
  exact ⟨h.1.mpr ⟨"-writeOnce".toList, rfl⟩, h.2.mpr ⟨"read-".toList, "Once".toList, rfl⟩⟩

-- C05
example : ∃ l, DimElement.parseIndexes "3-5".toList = some l ∧ l ≠ [] := by
  have h : DimElement.parseIndexes "3-5".toList = some ["3".toList, "4".toList, "5".toList] := by decide +kernel
  exact ⟨_, h, C05_nonempty h⟩

-- C09: a field element with a range in it
example : ∃ xs, encodeBitRange true { fieldBitRange := some .msbLsb } ⟨3, 4, .bitRange⟩ = .ok xs ∧
    parseBitRange true (.elem "field" [] ([.elem "name" [] [.text "F".toList]] ++ xs ++ [.elem "access" [] []])) =
      .ok ⟨3, 4, .msbLsb⟩ :=
  C09_bit_range_round_trip true { fieldBitRange := some .msbLsb } ⟨3, 4, .bitRange⟩ (by decide) (by decide) "field" []
    [.elem "name" [] [.text "F".toList]] [.elem "access" [] []] (by simp [NotRangeElem, Xml.hasTag]) (by simp [NotRangeElem, Xml.hasTag])

-- C10
example : ("CTRL[%s]".toList : Str).count '%' ≤ 1 := C10_one_placeholder _ "name" (by decide +kernel)

-- C14
example : DeviceValid expected .weak :=
  (C14_parsed_is_valid true cfg (doc "A,B") expected (by decide +kernel)).2.1

-- C17
def smallBuilder : DeviceBuilder :=
  { name := some "D".toList, peripherals := some [.single (Sample.peripheralInfo "P" 0)] }

example : ∃ d, smallBuilder.build .weak = .ok d ∧ d.width = 32 := by
  obtain ⟨d, h⟩ := ok_of_isOk (x := smallBuilder.build .weak) (by decide +kernel)
  exact ⟨d, h, (C17_device_defaults h).2.2.2.1⟩

-- C21
example : ExpandOutcomes (fun oc => (Sample.registerInfo "R%s" 0xfffffff8).expand oc (Sample.dim 4 4)) 0xfffffff8 (2 ^ 32)
    (Sample.dim 4 4) :=
  (C21_outcomes (Sample.dim 4 4) (by simp [EnoughIndexes, Sample.dim])).2.1 (Sample.registerInfo "R%s" 0xfffffff8)

-- C23
example : ({ Sample.fieldInfo "F" 64 with } : FieldInfo).bitmask true = .error (.panic .overflow) :=
  C23_outside _ (by decide)

-- C31
example : parseDocument true { cfg with ignoreEnums := true } (enumDocument []) =
    (parseDocument true { cfg with ignoreEnums := false } (enumDocument [])).map plainDevice := by
  obtain ⟨d, h⟩ := ok_of_isOk (x := parseDocument true { cfg with ignoreEnums := false } (enumDocument [])) (by decide +kernel)
  rw [h, C31_ignore_enums true cfg _ d h]
  rfl

-- C35
example : ∃ d', expand true 9 Sample.nested = .ok d' ∧ expand false 1 d' = .ok d' := by
  obtain ⟨d', h⟩ := ok_of_isOk (x := expand true 9 Sample.nested) (by decide +kernel)
  exact ⟨d', h, C35_idempotent true false 9 0 _ d' h⟩

-- C37: a chain of two references between peripherals
example : ∃ d' qs, expand true 9 (Sample.device [.single (Sample.peripheralInfo "A" 0 none (some [.register (.single
      (Sample.registerInfo "R" 0))])), .single (Sample.peripheralInfo "B" 16 (some "A")),
      .single (Sample.peripheralInfo "C" 32 (some "B"))]) = .ok d' ∧
    DeviceExpanded (Sample.device qs) d' := by
  obtain ⟨d', h⟩ := ok_of_isOk (x := expand true 9 (Sample.device [.single (Sample.peripheralInfo "A" 0 none (some [.register (.single
      (Sample.registerInfo "R" 0))])), .single (Sample.peripheralInfo "B" 16 (some "A")),
      .single (Sample.peripheralInfo "C" 32 (some "B"))])) (by decide +kernel)
  obtain ⟨qs, _, h2⟩ := (C37_device _ d' (by
    simp [Sample.device, MaybeArray.info, Sample.peripheralInfo, RcsNoRef, RcNoRef, RegisterNoRef, Sample.registerInfo])).mp ⟨9, h⟩
  exact ⟨d', qs, h, h2⟩

-- C38: a peripheral derived from itself
example : ∃ f, expand true 9 (Sample.device [.single (Sample.peripheralInfo "A" 0 (some "A"))]) = .error f :=
  C38_peripheral true 9 _ (.single (Sample.peripheralInfo "A" 0 (some "A"))) "A".toList (by simp [Sample.device]) rfl (.inl rfl)

-- C44
example (o w : U32) : ((({ bitRange := some ⟨0, 8, .msbLsb⟩ } : FieldInfoBuilder).setBitWidth w).setBitOffset o).bitRange =
    some ⟨o, w, .msbLsb⟩ := (C44_with_range_partial _ ⟨0, 8, .msbLsb⟩ o w rfl).1

-- C45
example : ((Sample.evs (some "E")).modifyFrom { derivedFrom := some "G".toList } .weak).1.name = none :=
  (C45_cleared_partial _ _ _ rfl .weak).1

-- C50, C81: the document can be read and written
example : ∃ d x, parseDocument true cfg (doc "A,B") = .ok d ∧ encodeDevice true (fun _ s => s) {} d = .ok x :=
  have ⟨x, hx⟩ := C50_parsed_can_be_written true (fun _ s => s) {} cfg (doc "A,B") expected (by decide +kernel) (by decide)
    (by decide) (by decide) (by decide) (by
      simp [expected, DeviceParts, PeripheralParts, RcsParts, RcParts, RegisterParts, FieldParts, DimPart, MaybeArray.info,
        NotBothEnds, field])
  ⟨expected, x, by decide +kernel, hx⟩

example (cc : IdentifierFormat → Str → Str) (ecfg : EncConfig) : ∃ x, encodeDevice false cc ecfg expected = .ok x :=
  C81_parsed cc ecfg true cfg (doc "A,B") expected (by decide +kernel)

-- C51: the settings in another order
example : applyAll [(ParseConfig.withIgnoreEnums · true), (·.withExpand true), (·.withValidateLevel .strict),
    (·.withExpandProperties false)] {} = { validateLevel := .strict, expand := true, expandProperties := false, ignoreEnums := true } :=
  C51_parser_config _ {} _ (.trans (.trans (.swap _ _ _) (.cons _ (.swap _ _ _)))
    (.trans (.swap _ _ _) (.trans (.cons _ (.cons _ (.swap _ _ _))) (.cons _ (.refl _)))))

-- C54
example : ∃ v, serDevice true expected = .ok v ∧ deDevice true v = .ok (kept expected) :=
  have ⟨v, h1, h2, _⟩ := C54_parsed true cfg (by decide) ((doc "A,B")[1]) expected (by decide +kernel) (by
    simp [expected, DeviceParts, PeripheralParts, RcsParts, RcParts, RegisterParts, FieldParts, DimPart, MaybeArray.info, field])
  ⟨v, h1, h2⟩

-- C56
example : ∃ d', DeviceFull namesOf Sample.wordDevice d' := by
  obtain ⟨d', h⟩ := ok_of_isOk (x := expand true 9 Sample.wordDevice) (by decide +kernel)
  exact ⟨d', (C56_no_references _ d' Sample.wordDevice_noRef).mpr ((C36_exact _ d' Sample.wordDevice_noRef).mp ⟨9, h⟩)⟩

-- C57
example : NameFits "P%s".toList (some (Sample.dim 3 4)) :=
  C57_name_fits _ _ (.identPlaceholder (i := "P".toList) (t := []) ⟨'P', [], rfl, by unfold IdentStart; decide, nofun⟩ nofun) (by decide) (by decide) (C57_default_indexes _ rfl) rfl

-- C58: the blamed element is the field
example : ∃ r x, AtPath ((ReportExample.doc [text "name" "EN", text "bitRange" "[0:3]"])[1]) r x ∧ x.isElement = true ∧
    Blame .weak x (.invalidBitRange .size) := by
  have h : (match Node.parseDevice true cfg ⟨[1], (ReportExample.doc [text "name" "EN", text "bitRange" "[0:3]"])[1]⟩ with
    | .error (.err e id) => decide (e = .invalidBitRange .size ∧ id = [1, 1, 0, 2, 1, 2, 2, 0])
    | _ => false) = true := by decide +kernel
  split at h
  · rename_i e id he
    obtain ⟨rfl, rfl⟩ := of_decide_eq_true h
    obtain ⟨r, x, _, h2, h3, h4⟩ := C58_error_true (by decide) he
    exact ⟨r, x, h2, h3, h4⟩
  · cases h

-- C59
example (cs : List Context) (h : OuterMessages [.elem "fields" [] [], .elem "cluster" [] []] cs) : cs = [] :=
  C59_messages_unique h (.skip (by decide) (.skip (by decide) .nil))

-- C60: the document describes no other device
example (d : Device) (h : DeviceSays true false .weak ((doc "A,B")[1]) d) : d = expected :=
  C60_unique h ((C60_device true cfg _ expected).mp (by decide +kernel))

-- C64
example : ∃ v, serDevice true expected = .ok v ∧ MapVal (DeviceVal true) v (kept expected) :=
  C64_written true expected (by
    simp [expected, DeviceParts, PeripheralParts, RcsParts, RcParts, RegisterParts, FieldParts, DimPart, MaybeArray.info, field,
      WritableRange, JoinableIndexes])

-- C66: no other device with separable indexes is written like this one
example (d' : Device) (v : Val) (hd' : DeviceParts (fun _ => True) Put.Separable d') (h : serDevice true expected = .ok v)
    (h' : serDevice true d' = .ok v) : expected.peripherals = d'.peripherals := by
  have := C66_injective true expected d' v (by
    simp [expected, DeviceParts, PeripheralParts, RcsParts, RcParts, RegisterParts, FieldParts, DimPart, MaybeArray.info,
      Put.Separable]) hd' h h'
  rw [← this]

-- C69
example : ∃ d', expand true 5 (Sample.wordCopy (some "P") none) = .ok d' ∧ d'.validateAll .strict = .ok () := by
  obtain ⟨d', h⟩ := ok_of_isOk (x := expand true 5 (Sample.wordCopy (some "P") none)) (by decide +kernel)
  have hv : (Sample.wordCopy (some "P") none).validateAll .strict = .ok () := by decide +kernel
  refine ⟨d', h, C69_expanded_strict 5 _ _ d' hv h Sample.wordCopy_deref
    ((C69_what_can_break .strict _ _ hv Sample.wordCopy_deref).mp (by decide +kernel)) ?_⟩
  have id1 : ∀ c : Char, IdentStart c → Ident [c] := fun c h => ⟨c, [], rfl, h, nofun⟩
  intro p hp
  simp only [Sample.wordCopy, Sample.device, List.mem_cons, List.not_mem_nil, or_false] at hp
  rcases hp with rfl | rfl
  · refine ⟨id1 'P' (by unfold IdentStart; decide), ?_⟩
    rintro l ⟨⟩
    exact ⟨⟨id1 'R' (by unfold IdentStart; decide), nofun⟩, trivial⟩
  · refine ⟨id1 'Q' (by unfold IdentStart; decide), ?_⟩
    rintro l ⟨⟩
    exact ⟨⟨id1 'R' (by unfold IdentStart; decide), nofun⟩, trivial⟩

-- C71
example : ∃ d x, parseDevice true {} Sample.messy = .ok d ∧ encodeDevice true (fun _ s => s) {} d = .ok x ∧
    ∀ y z, Reread x y → Shuffled y z → parseDevice true {} z = .ok d := by
  obtain ⟨d, h, hd⟩ := gives_ok (m := parseDevice true {} Sample.messy)
    (p := DeviceParts (fun f => WritableRange f.bitRange) NotBothEnds) (by decide +kernel)
  obtain ⟨x, hx, H⟩ := C71_written true (fun _ s => s) {} rfl d
    (C53_parsed_expressible true {} _ d (regular_of_check (by decide +kernel)) h hd)
  exact ⟨d, x, h, hx, H⟩

-- C72
example (e : Err) (h : Reports (allFieldRules .weak complaintField) e) : e = .enumAbsentValue := by
  obtain ⟨e', h', hr⟩ := ((C72_field .weak (.single complaintField)).1 (.err .enumAbsentValue)).mp (by decide +kernel)
  cases h'
  exact C72_unique h hr

-- C74
example : ∃ N, ∀ n, N ≤ n → expand false n (Sample.device [.single (Sample.peripheralInfo "A" 0 none
    (some [.register (.single (Sample.registerInfo "R" 0 (some "A.R")))]))]) = .error (.err (.selfDerived "register" "A.R".toList)) :=
  C74_fails _ _ (C63_run 5 _ _ (by decide +kernel) (by decide)) (by decide)

-- C80: the reset value does not fit, so that the data type is not changed
example : halfModified.1.datatype = none := by
  obtain ⟨t, h, h1, h2⟩ := C80_failed_register { Sample.registerInfo "R" 4 with properties := { size := some 8 } }
    { name := some "S".toList, properties := { resetValue := some 256 }, datatype := some .u8 } .weak rfl
  by_cases hv : PropsValid t.properties .weak
  · have h3 : halfModified.2 = t.validate .weak := congrArg Prod.snd (h1 hv)
    have h4 : halfModified.1 = t := congrArg Prod.fst (h1 hv)
    rw [← h4] at h3
    exact absurd h3 (by decide +kernel)
  · obtain ⟨e, _, h3⟩ := h2 hv
    have h4 : halfModified.1 = _ := congrArg Prod.fst h3
    rw [h4]
    rfl

-- C36: the register called `C1_E0_F`
example (l : List RegisterInfo) (h : RcsExpanded Sample.wordKids l) (r : RegisterInfo) :
    r ∈ l ↔ ∃ way s, Leaf Sample.wordKids way s ∧ r.name = "_".toList.intercalate (way.map (·.1)) ∧
      r.addressOffset.toNat = (way.map (·.2)).sum ∧ r = { s with name := r.name, addressOffset := r.addressOffset } :=
  C36_registers _ l (by
    simp [Sample.wordKids, Sample.word, RcsNoRef, RcNoRef, RegisterNoRef, MaybeArray.info, Sample.clusterHead, Sample.registerInfo]) h r

-- C48: not a number format
example (c : EncConfig) : c.update "register_size".toList "bits".toList = .error (.panic .unwrap) := by
  refine C48_invalid c "register_size" "bits" (.number c.registerSize) (by simp [settings]) ?_
  intro new h
  cases h with
  | number h => exact absurd h (by simp [numberSpelling])

-- C86
example : (∀ d, parseDocument true {} [.other, listDoc false false false false] = .ok d →
    ∃ e, parseDocument true {} [.other, listDoc true true true true] = .ok e ∧ DeviceShuffled d e) :=
  (C86_document true {} listDoc_rearranged [.other] []).1

end Svd.Tests
