import Verif.Props.RoundTripTree

/-!
# Reading back what was written: peripherals and devices
-/

namespace Svd

open Spec Xml

variable {pcfg : ParseConfig} {cc : IdentifierFormat → Str → Str} {cfg : EncConfig} {oc : Bool}

/-! ## Peripherals -/

theorem read_addressBlock (a : AddressBlock) :
    parseAddressBlock pcfg (encodeAddressBlock cfg a) = .ok a := by
  unfold parseAddressBlock encodeAddressBlock
  rw [int_of (f := cfg.addressBlockOffset) (v := a.offset) (by looks), ok_bind,
    int_of (f := cfg.addressBlockSize) (v := a.size) (by looks), ok_bind]
  unfold getChildElem
  rw [show getChild _ "usage" = some (newNode "usage" a.usage.asStr) by looks]
  simp only [okOr, ok_bind]
  rw [C04_addressBlockUsage.roundTrip, ok_bind,
    keyword_of C04_protection (o := a.protection) (by looks), ok_bind]
  rfl

theorem read_interrupt (hn : KeepsNames cfg) {i : Interrupt} (h1 : Text i.name)
    (h2 : OptText i.description) : parseInterrupt pcfg (encodeInterrupt cc cfg i) = .ok i := by
  unfold parseInterrupt encodeInterrupt
  rw [hn.interrupt]
  simp only [hasTag, beq_self_eq_true, Bool.not_true, Bool.false_eq_true, if_false]
  rw [text_of (by looks) h1, ok_bind, textOpt_of (o := i.description) (by looks) h2, ok_bind,
    dec_of (v := i.value) (by looks), ok_bind]
  rfl

theorem arranged_registers {s : RcSorting} {l l' : List RegisterCluster} (h : sortRc oc s l = .ok l') :
    Arranged (rcSortingOf s) (fun r : RegisterCluster => r.addressOffset.toNat)
      (OrderedRc (fun r => r.addressOffset.toNat) (fun r => r.name) (fun r => r.derivedFrom.isSome) s)
      l l' := by
  refine ⟨(C28_permutation oc).2.2 s l l' h, fun hs => ?_⟩
  by_cases hr : rcSortingOf s = some .offsetReversed
  · obtain ⟨_, h', ho⟩ := (C29_below_2_31_partial oc).2.2 s l (hs hr)
    rw [h] at h'; injection h' with h'; subst h'; exact ho
  · obtain ⟨_, h', ho⟩ := C28_registers oc s hr l
    rw [h] at h'; injection h' with h'; subst h'; exact ho

theorem rcsFits_mem {lvl : ValidateLevel} : ∀ l : List RegisterCluster,
    RcsFits lvl l ↔ ∀ c ∈ l, RcFits lvl c
  | [] => by simp [RcsFits]
  | c :: l => by rw [RcsFits, rcsFits_mem l]; simp

theorem encodeRcs_eq (l : List RegisterCluster) :
    encodeRegisterClusters oc cc cfg l = l.mapM (encodeRegisterCluster oc cc cfg) := by
  induction l with
  | nil => rw [encodeRegisterClusters]; rfl
  | cons c l ih => rw [encodeRegisterClusters, mapM_cons, ih]

theorem inTree_perm {l l' : List RegisterCluster} (h : l'.Perm l) {n : RegisterCluster}
    (hn : InTree l' n) : InTree l n := by
  cases hn with
  | here hm => exact .here (h.mem_iff.mp hm)
  | inside hm ht => exact .inside (h.mem_iff.mp hm) ht

theorem read_registers (hi : pcfg.ignoreEnums = false) (hn : KeepsNames cfg)
    {o : Option (List RegisterCluster)} (h : ∀ l, o = some l → RcsFits pcfg.validateLevel l)
    (hv : ∀ l, o = some l → ∀ n, InTree l n → ∀ q, NodeHas n q → q.Valid pcfg.validateLevel)
    {xs : List Xml} (hx : encodeRegisters oc cc cfg o = .ok xs) :
    ∃ o', RegistersPresented cfg o o' ∧ (o' = some [] → o = some []) ∧
      (∀ k, "registers" ≠ k → look k xs = none) ∧
      (match look "registers" xs with
        | some rs => do
          let l ← (rs.children.filter isElement).mapM (parseRegisterCluster oc pcfg)
          .ok (some l)
        | none => .ok none : M (Option (List RegisterCluster))) = .ok o' := by
  unfold encodeRegisters at hx
  cases o with
  | none =>
    injection hx with hx; subst hx
    exact ⟨none, .none, nofun, fun _ _ => rfl, rfl⟩
  | some l =>
    simp only at hx
    obtain ⟨l', hs, hx⟩ := bind_ok.mp hx
    obtain ⟨ys, hm, hx⟩ := bind_ok.mp hx
    have harr := arranged_registers hs
    rw [← encodeRcs_eq] at hm
    obtain ⟨l'', h1, h2, _, h4⟩ := read_rcs (pcfg := pcfg) hi hn l' ys
      ((rcsFits_mem l').mpr fun c hc => (rcsFits_mem l).mp (h l rfl) c (harr.1.mem_iff.mp hc))
      (fun n hn q hq => hv l rfl n (inTree_perm harr.1 hn) q hq) hm
    injection hx with hx; subst hx
    refine ⟨some l'', .some harr h1, ?_, ?_, ?_⟩
    · intro e
      injection e with e
      have := rcsPresented_nil h1 e
      subst this
      exact congrArg some (List.nil_perm.mp harr.1)
    · intro k hk
      simp only [look_elem, look_nil, if_neg hk]
    · simp only [look_elem, if_true]
      rw [children, List.filter_eq_self.mpr fun x hx =>
        (h2 x hx).elim isElement_of_hasTag isElement_of_hasTag, h4, ok_bind]

theorem filter_mid {α : Type} {k : String} {dk a c : List Xml} {b : List α} {f : α → Xml}
    (h1 : look k dk = none) (h2 : look k a = none) (h3 : look k c = none)
    (hf : ∀ v, hasTag k (f v) = true) :
    (dk ++ (a ++ b.map f ++ c)).filter (hasTag k) = b.map f := by
  rw [List.filter_append, List.filter_append, List.filter_append, filter_of_look h1, filter_of_look h2,
    filter_of_look h3, filter_map_tag hf, List.nil_append, List.nil_append, List.append_nil]

theorem filter_blocks {α : Type} {k : String} {dk a c e : List Xml} {b : List α} {f : α → Xml}
    (h1 : look k dk = none) (h2 : look k a = none) (h3 : look k c = none) (h4 : look k e = none)
    (hf : ∀ v, hasTag k (f v) = true) :
    (dk ++ (a ++ b.map f ++ c ++ e)).filter (hasTag k) = b.map f := by
  rw [List.append_assoc (a ++ b.map f)]
  exact filter_mid h1 h2 (by rw [look_append, h3, h4]; rfl) hf

theorem read_peripheral (hi : pcfg.ignoreEnums = false) (hn : KeepsNames cfg) {p : Peripheral}
    (h : PeripheralFits pcfg.validateLevel p)
    (hv : ∀ q, PeripheralHas p.info q → q.Valid pcfg.validateLevel) {x : Xml}
    (hx : encodePeripheral oc cc cfg p = .ok x) :
    ∃ p', PeripheralPresented cfg p p' ∧ hasTag "peripheral" x = true ∧
      parsePeripheral oc pcfg x = .ok p' := by
  unfold encodePeripheral at hx
  obtain ⟨y, hy⟩ := encodeArray_info hx
  unfold encodePeripheralInfo at hx hy
  obtain ⟨xs, hxs, _⟩ := bind_ok.mp hy
  rw [hxs, ok_bind, hn.peripheral] at hx
  obtain ⟨rs, hrs, hrne, hlook, hread⟩ := read_registers (oc := oc) (cc := cc) (pcfg := pcfg) hi hn
    h.registers (fun l hl n hn q hq => hv q (.node hl hn hq)) hxs
  refine ⟨_, .mk hrs, ?_⟩
  have hmk : p.mapInfo (fun i => { i with registers := rs }) =
      MaybeArray.mk' { p.info with registers := rs } p.dim? := by cases p <;> rfl
  rw [hmk]
  have l := hlook
  refine read_array hn hx (fun dk hdk => ?_) (fun k hk => ?_) h.array
  · unfold parsePeripheralInfo
    simp only [hasTag, beq_self_eq_true, Bool.not_true, Bool.false_eq_true, if_false]
    rw [text_of (skip hdk (by decide) (by looks)) h.name, ok_bind,
      textOpt_of (o := p.info.displayName) (skip hdk (by decide) (by looks [l "displayName" (by decide)]))
        h.displayName, ok_bind,
      textOpt_of (o := p.info.version) (skip hdk (by decide) (by looks [l "version" (by decide)]))
        h.version, ok_bind,
      textOpt_of (o := p.info.description) (skip hdk (by decide) (by looks [l "description" (by decide)]))
        h.description, ok_bind,
      textOpt_of (o := p.info.alternatePeripheral)
        (skip hdk (by decide) (by looks [l "alternatePeripheral" (by decide)])) h.alternatePeripheral, ok_bind,
      textOpt_of (o := p.info.groupName) (skip hdk (by decide) (by looks [l "groupName" (by decide)]))
        h.groupName, ok_bind,
      textOpt_of (o := p.info.prependToName)
        (skip hdk (by decide) (by looks [l "prependToName" (by decide)])) h.prependToName, ok_bind,
      textOpt_of (o := p.info.appendToName)
        (skip hdk (by decide) (by looks [l "appendToName" (by decide)])) h.appendToName, ok_bind,
      textOpt_of (o := p.info.headerStructName)
        (skip hdk (by decide) (by looks [l "headerStructName" (by decide)])) h.headerStructName, ok_bind,
      int_of (f := cfg.peripheralBaseAddress) (v := p.info.baseAddress)
        (skip hdk (by decide) (by looks)), ok_bind,
      read_properties (cfg := cfg) (p := p.info.defaultRegisterProperties)
        { size := skip hdk (by decide) (by looks [l "size" (by decide)])
          access := skip hdk (by decide) (by looks [l "access" (by decide)])
          protection := skip hdk (by decide) (by looks [l "protection" (by decide)])
          resetValue := skip hdk (by decide) (by looks [l "resetValue" (by decide)])
          resetMask := skip hdk (by decide) (by looks [l "resetMask" (by decide)]) }
        (props_ok (hv _ .props)), ok_bind]
    rw [children, filter_blocks (f := encodeAddressBlock cfg) (look_dim hdk (by decide)) (by looks) (by looks)
        (l "addressBlock" (by decide)) (fun _ => rfl), mapM_map_id fun a _ => read_addressBlock a, ok_bind,
      filter_mid (f := encodeInterrupt cc cfg) (look_dim hdk (by decide)) (by looks)
        (l "interrupt" (by decide)) (fun _ => rfl),
      mapM_map_id fun i hm => read_interrupt hn (h.interrupts i hm).1 (h.interrupts i hm).2, ok_bind]
    rw [show getChild _ "registers" = look "registers" xs from skip hdk (by decide) (by looks)]
    refine bind_ok.mpr ⟨rs, hread, ?_⟩
    rw [attr_derived]
    have hblocks : (if (p.info.addressBlock.getD []).isEmpty then none
        else some (p.info.addressBlock.getD [])) = p.info.addressBlock := by
      have := h.nonempty
      cases hb : p.info.addressBlock with
      | none => rfl
      | some b =>
        cases b with
        | nil => exact absurd hb this
        | cons b bs => rfl
    unfold PeripheralInfoBuilder.build RegisterProperties.build
    simp only [need, okOr, ok_bind, emptyToNone_of h.displayName, emptyToNone_of h.version,
      emptyToNone_of h.description, emptyToNone_of h.alternatePeripheral, emptyToNone_of h.groupName,
      emptyToNone_of h.prependToName, emptyToNone_of h.appendToName, emptyToNone_of h.headerStructName,
      Option.getD_some, hblocks]
    rw [props_ok (hv _ .props), ok_bind, ok_bind]
    have hval : PeripheralValid { p.info with registers := rs } pcfg.validateLevel := by
      have := hv _ .self
      exact ⟨this.1, fun hs =>
        ⟨(this.2 hs).1, (this.2 hs).2.1, fun hd e => (this.2 hs).2.2 hd (hrne e)⟩⟩
    have hval := (C16_parts (.peripheral { p.info with registers := rs }) _).mp hval
    exact bind_ok.mpr ⟨(), hval, rfl⟩
  · rcases dim_cases hk with rfl | rfl | rfl | rfl | rfl
    · looks [hlook "dim" (by decide)]
    · looks [hlook "dimIncrement" (by decide)]
    · looks [hlook "dimIndex" (by decide)]
    · looks [hlook "dimName" (by decide)]
    · looks [hlook "dimArrayIndex" (by decide)]

/-! ## Devices -/

theorem read_cpu {c : Cpu} (h1 : Text c.name) (h2 : Text c.revision) :
    parseCpu pcfg (encodeCpu c) = .ok c := by
  unfold parseCpu encodeCpu
  simp only [hasTag, beq_self_eq_true, Bool.not_true, Bool.false_eq_true, if_false]
  rw [text_of (by looks) h1, ok_bind, text_of (s := c.revision) (by looks) h2, ok_bind]
  unfold getChildElem
  rw [show getChild _ "endian" = some (newNode "endian" c.endian.asStr) by looks]
  simp only [okOr, ok_bind]
  rw [C04_endian.roundTrip, ok_bind, bool_of (v := c.mpuPresent) (by looks), ok_bind,
    bool_of (v := c.fpuPresent) (by looks), ok_bind,
    optBool_of (o := c.fpuDoublePrecision) (by looks), ok_bind,
    optBool_of (o := c.dspPresent) (by looks), ok_bind,
    optBool_of (o := c.icachePresent) (by looks), ok_bind,
    optBool_of (o := c.dcachePresent) (by looks), ok_bind,
    optBool_of (o := c.itcmPresent) (by looks), ok_bind,
    optBool_of (o := c.dtcmPresent) (by looks), ok_bind,
    optBool_of (o := c.vtorPresent) (by looks), ok_bind,
    dec_of (v := c.nvicPriorityBits) (by looks), ok_bind,
    bool_of (v := c.hasVendorSystick) (by looks), ok_bind,
    optDec_of (o := c.deviceNumInterrupts) (by looks), ok_bind,
    optDec_of (o := c.sauNumRegions) (by looks), ok_bind]
  rfl

end Svd
