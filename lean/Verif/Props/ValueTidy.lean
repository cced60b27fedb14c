import Verif.Spec.Sample
import Verif.Props.ValueWritten
import Verif.Lemmas.Split

/-!
# C66: when something is written as JSON or YAML, and what can be recovered from it
-/

namespace Svd.Put

open Spec Svd Value

/-! ## Tidiness -/

theorem tidyList_of {l : List Val} (h : ∀ v ∈ l, Tidy v) : TidyList l := by
  induction l with
  | nil => exact .nil
  | cons v l ih => exact .cons (h v (by simp)) (ih fun w hw => h w (by simp [hw]))

theorem tidy_map {α : Type} {ser : α → Val} (h : ∀ a, Tidy (ser a)) (l : List α) : Tidy (.arr (l.map ser)) :=
  .arr (tidyList_of (by intro v hv; obtain ⟨a, _, rfl⟩ := List.mem_map.mp hv; exact h a))

/-- The members that are given are tidy. -/
def TidyPlan : Plan → Prop
  | [] => True
  | (_, o) :: l => (∀ v, o = some v → Tidy v) ∧ TidyPlan l

theorem tidyPlan_append {a b : Plan} : TidyPlan (a ++ b) ↔ TidyPlan a ∧ TidyPlan b := by
  induction a with
  | nil => simp [TidyPlan]
  | cons p a ih => simp only [List.cons_append, TidyPlan, ih, and_assoc]

theorem tidy_mk {l : Plan} (hn : (l.map Prod.fst).Nodup) (h : TidyPlan l) : Tidy (.obj (mk l)) := by
  refine .obj (List.Sublist.nodup (mk_keys l) hn) ?_
  clear hn
  induction l with
  | nil => exact .nil
  | cons p l ih =>
    obtain ⟨k, o⟩ := p
    have ih := ih h.2
    cases o with
    | none => exact ih
    | some v => exact .cons (h.1 v rfl) ih

theorem some_tidy {v : Val} (h : Tidy v) : ∀ w, some v = some w → Tidy w := by
  rintro _ ⟨⟩; exact h

theorem opt_tidy {α : Type} {ser : α → Val} (h : ∀ a, Tidy (ser a)) (o : Option α) : ∀ v, o.map ser = some v → Tidy v := by
  intro v hv
  cases o with
  | none => cases hv
  | some a => cases hv; exact h a

theorem items_tidy {α : Type} {ser : α → Val} (h : ∀ a, Tidy (ser a)) (l : List α) :
    ∀ v, items (l.map ser) = some v → Tidy v := by
  intro v hv
  cases l with
  | nil => cases hv
  | cons a l => cases hv; exact tidy_map h (a :: l)

theorem optM_tidy {α : Type} {ser : α → M Val} (h : ∀ a v, ser a = .ok v → Tidy v) {o : Option α} {o' : Option Val}
    (ho : optM ser o = .ok o') : ∀ v, o' = some v → Tidy v := by
  rintro v rfl
  cases o with
  | none => cases ho
  | some a =>
    simp only [optM, bind_ok] at ho
    obtain ⟨w, h1, h2⟩ := ho
    cases h2
    exact h a _ h1

theorem listM_tidy {α : Type} {ser : α → M Val} (h : ∀ a v, ser a = .ok v → Tidy v) (l : List α) (v : Val)
    (hv : serListM ser l = .ok v) : Tidy v := by
  simp only [serListM, bind_ok] at hv
  obtain ⟨vs, h1, h2⟩ := hv
  cases h2
  refine .arr (tidyList_of fun v hv => ?_)
  obtain ⟨a, _, ha⟩ := mapM_ok_mem' h1 hv
  exact h a v ha

theorem tidy_str (s : Str) : Tidy (.str s) := .str
theorem tidy_bool (b : Bool) : Tidy (.bool b) := .bool
theorem tidy_int {w : Nat} (x : BitVec w) : Tidy (serInt x) := .num
theorem tidy_unit {α : Type} (name : α → String) (a : α) : Tidy (serUnit name a) := .str

theorem tidy_range (r : WriteConstraintRange) : Tidy (serRange r) :=
  .obj (show ["minimum", "maximum"].Nodup by decide) (.cons .num (.cons .num .nil))

theorem tidy_constraint (w : WriteConstraint) : Tidy (serWriteConstraint w) := by
  cases w with
  | writeAsRead b => exact .obj (by simp [entry]) (.cons .bool .nil)
  | useEnumeratedValues b => exact .obj (by simp [entry]) (.cons .bool .nil)
  | range r => exact .obj (by simp [entry]) (.cons (tidy_range r) .nil)

theorem tidy_enumValue (e : EnumeratedValue) : Tidy (serEnumValue e) := by
  simp only [serEnumValue, entry_mk, optEntry_mk, mk_append]
  refine tidy_mk (show ["name", "description", "value", "is_default"].Nodup by decide) ?_
  exact ⟨some_tidy .str, opt_tidy tidy_str _, opt_tidy tidy_int _, opt_tidy tidy_bool _, trivial⟩

theorem tidy_enums (e : EnumeratedValues) : Tidy (serEnums e) := by
  simp only [serEnums, listEntry_mk, optEntry_mk, mk_append]
  refine tidy_mk (show ["name", "usage", "derived_from", "values"].Nodup by decide) ?_
  exact ⟨opt_tidy tidy_str _, opt_tidy (tidy_unit _) _, opt_tidy tidy_str _, items_tidy tidy_enumValue _, trivial⟩

theorem tidy_arrayIndex (a : DimArrayIndex) : Tidy (serDimArrayIndex a) := by
  simp only [serDimArrayIndex, entry_mk, optEntry_mk, mk_append]
  refine tidy_mk (show ["headerEnumName", "values"].Nodup by decide) ?_
  exact ⟨opt_tidy tidy_str _, some_tidy (tidy_map tidy_enumValue _), trivial⟩

theorem tidy_interrupt (i : Interrupt) : Tidy (serInterrupt i) := by
  simp only [serInterrupt, entry_mk, optEntry_mk, mk_append]
  refine tidy_mk (show ["name", "description", "value"].Nodup by decide) ?_
  exact ⟨some_tidy .str, opt_tidy tidy_str _, some_tidy .num, trivial⟩

theorem tidy_addressBlock (b : AddressBlock) : Tidy (serAddressBlock b) := by
  simp only [serAddressBlock, entry_mk, optEntry_mk, mk_append]
  refine tidy_mk (show ["offset", "size", "usage", "protection"].Nodup by decide) ?_
  exact ⟨some_tidy .num, some_tidy .num, some_tidy .str, opt_tidy (tidy_unit _) _, trivial⟩

theorem tidy_cpu (c : Cpu) : Tidy (serCpu c) := by
  simp only [serCpu, entry_mk, optEntry_mk, mk_append, List.cons_append, List.nil_append]
  refine tidy_mk (show ["name", "revision", "endian", "mpuPresent", "fpuPresent", "fpuDP", "dspPresent", "icachePresent",
    "dcachePresent", "itcmPresent", "dtcmPresent", "vtorPresent", "nvicPrioBits", "vendorSystickConfig",
    "deviceNumInterrupts", "sauNumRegions"].Nodup by decide) ?_
  exact ⟨some_tidy .str, some_tidy .str, some_tidy .str, some_tidy .bool, some_tidy .bool, opt_tidy tidy_bool _,
    opt_tidy tidy_bool _, opt_tidy tidy_bool _, opt_tidy tidy_bool _, opt_tidy tidy_bool _, opt_tidy tidy_bool _,
    opt_tidy tidy_bool _, some_tidy .num, some_tidy .bool, opt_tidy tidy_int _, opt_tidy tidy_int _, trivial⟩

theorem tidy_props (p : RegisterProperties) : TidyPlan (propsPlan p) :=
  ⟨opt_tidy tidy_int _, opt_tidy (tidy_unit _) _, opt_tidy (tidy_unit _) _, opt_tidy tidy_int _, opt_tidy tidy_int _,
    trivial⟩

theorem tidy_shape (o : Option DimElement) : TidyPlan (shapePlan o) := by
  cases o with
  | none => trivial
  | some d =>
    exact ⟨some_tidy .num, some_tidy .num, opt_tidy (fun _ => .str) _, opt_tidy tidy_str _, opt_tidy tidy_arrayIndex _,
      trivial⟩

theorem array_ok {α : Type} {ks : List String} {ser : α → M Entries} {Info : Entries → α → Prop} {plan : α → M Plan}
    (h : Planned ks ser Info plan) {m : MaybeArray α} {v : Val} (hv : serArray ser m = .ok v) :
    ∃ l, plan m.info = .ok l ∧ v = .obj (mk (shapePlan m.dim? ++ l)) := by
  cases m with
  | single i =>
    simp only [serArray, bind_ok, h.made] at hv
    obtain ⟨_, ⟨l, h1, h2⟩, h3⟩ := hv
    cases h2; cases h3
    exact ⟨l, h1, rfl⟩
  | array i d =>
    simp only [serArray, bind_ok, h.made, dim_mk] at hv
    obtain ⟨_, h0, _, ⟨l, h1, h2⟩, h3⟩ := hv
    cases h0; cases h2; cases h3
    exact ⟨l, h1, by rw [mk_append]; rfl⟩

theorem tidy_array {α : Type} {ks : List String} {ser : α → M Entries} {Info : Entries → α → Prop} {plan : α → M Plan}
    (h : Planned ks ser Info plan)
    (hk : (["dim", "dimIncrement", "dimIndex", "dimName", "dimArrayIndex"] ++ ks).Nodup)
    (ht : ∀ a l, plan a = .ok l → TidyPlan l) (m : MaybeArray α) (v : Val) (hv : serArray ser m = .ok v) : Tidy v := by
  obtain ⟨l, hl, rfl⟩ := array_ok h hv
  refine tidy_mk ?_ (tidyPlan_append.mpr ⟨tidy_shape _, ht _ _ hl⟩)
  rw [List.map_append, shape_keys, h.keys _ _ hl]
  cases m.dim? with
  | none => exact (List.nodup_append.mp hk).2.1
  | some d => exact hk

theorem tidy_bits {oc : Bool} {b : BitRange} {l : Plan} (h : bitsPlan oc b = .ok l) : TidyPlan l := by
  have hn : ∀ v, (none : Option Val) = some v → Tidy v := nofun
  unfold bitsPlan at h
  cases hb : b.rangeType with
  | bitRange =>
    simp only [hb, bind_ok] at h
    obtain ⟨_, _, h⟩ := h
    cases h
    exact ⟨some_tidy .str, hn, hn, hn, hn, trivial⟩
  | offsetWidth =>
    simp only [hb] at h
    cases h
    exact ⟨hn, some_tidy .num, some_tidy .num, hn, hn, trivial⟩
  | msbLsb =>
    simp only [hb, bind_ok] at h
    obtain ⟨_, _, h⟩ := h
    cases h
    exact ⟨hn, hn, hn, some_tidy .num, some_tidy .num, trivial⟩

theorem tidy_field (oc : Bool) : ∀ (f : Field) v, serField oc f = .ok v → Tidy v :=
  tidy_array (field_planned oc) (by decide) fun f l h => by
    simp only [fieldPlan, bind_ok] at h
    obtain ⟨b, hb, h⟩ := h
    cases h
    exact tidyPlan_append.mpr ⟨tidyPlan_append.mpr ⟨⟨some_tidy .str, opt_tidy tidy_str _, trivial⟩, tidy_bits hb⟩,
      opt_tidy (tidy_unit _) _, opt_tidy (tidy_unit _) _, opt_tidy tidy_constraint _, opt_tidy (tidy_unit _) _,
      items_tidy tidy_enums _, opt_tidy tidy_str _, trivial⟩

theorem tidy_register (oc : Bool) : ∀ (r : Register) v, serRegister oc r = .ok v → Tidy v :=
  tidy_array (register_planned oc) (by decide) fun r l h => by
    simp only [registerPlan, bind_ok] at h
    obtain ⟨b, hb, h⟩ := h
    cases h
    exact tidyPlan_append.mpr ⟨tidyPlan_append.mpr ⟨⟨some_tidy .str, opt_tidy tidy_str _, opt_tidy tidy_str _,
        opt_tidy tidy_str _, opt_tidy tidy_str _, some_tidy .num, trivial⟩, tidy_props _⟩,
      opt_tidy (tidy_unit _) _, opt_tidy (tidy_unit _) _, opt_tidy tidy_constraint _, opt_tidy (tidy_unit _) _,
      optM_tidy (listM_tidy (tidy_field oc)) hb, opt_tidy tidy_str _, trivial⟩

mutual
theorem tidy_rc (oc : Bool) : ∀ c v, serRc oc c = .ok v → Tidy v
  | .register r, v, h => by
    simp only [serRc, bind_ok] at h
    obtain ⟨w, h1, h⟩ := h
    cases h
    exact .obj (by simp [entry]) (.cons (tidy_register oc r w h1) .nil)
  | .cluster hd d cs, v, h => by
    simp only [serRc, bind_ok] at h
    obtain ⟨vs, h1, w, h2, h⟩ := h
    cases h
    have hs := tidy_rcs oc cs vs h1
    refine .obj (by simp [entry]) (.cons ?_ .nil)
    refine tidy_array (cluster_planned vs) (by decide) (fun i l hl => ?_) _ w h2
    cases hl
    exact tidyPlan_append.mpr ⟨tidyPlan_append.mpr ⟨⟨some_tidy .str, opt_tidy tidy_str _, opt_tidy tidy_str _,
        opt_tidy tidy_str _, some_tidy .num, trivial⟩, tidy_props _⟩,
      some_tidy (.arr hs), opt_tidy tidy_str _, trivial⟩
theorem tidy_rcs (oc : Bool) : ∀ cs vs, serRcs oc cs = .ok vs → TidyList vs
  | [], vs, h => by
    simp only [serRcs] at h
    cases h
    exact .nil
  | c :: cs, vs, h => by
    simp only [serRcs, bind_ok] at h
    obtain ⟨v, h1, ws, h2, h⟩ := h
    cases h
    exact .cons (tidy_rc oc c v h1) (tidy_rcs oc cs ws h2)
end

theorem tidy_peripheral (oc : Bool) : ∀ (p : Peripheral) v, serPeripheral oc p = .ok v → Tidy v :=
  tidy_array (peripheral_planned oc) (by decide) fun p l h => by
    simp only [peripheralPlan, bind_ok] at h
    obtain ⟨b, hb, h⟩ := h
    cases h
    have ht : ∀ l v, serRcList oc l = .ok v → Tidy v := by
      intro l v h
      simp only [serRcList, bind_ok] at h
      obtain ⟨vs, h1, h⟩ := h
      cases h
      exact .arr (tidy_rcs oc l vs h1)
    exact tidyPlan_append.mpr ⟨tidyPlan_append.mpr ⟨⟨some_tidy .str, opt_tidy tidy_str _, opt_tidy tidy_str _,
        opt_tidy tidy_str _, opt_tidy tidy_str _, opt_tidy tidy_str _, opt_tidy tidy_str _, opt_tidy tidy_str _,
        opt_tidy tidy_str _, some_tidy .num, trivial⟩, tidy_props _⟩,
      opt_tidy (tidy_map tidy_addressBlock) _, items_tidy tidy_interrupt _, optM_tidy ht hb, opt_tidy tidy_str _, trivial⟩

theorem tidy_device (oc : Bool) (d : Device) (v : Val) (h : serDevice oc d = .ok v) : Tidy v := by
  simp only [serDevice, bind_ok] at h
  obtain ⟨ps, h1, h⟩ := h
  cases h
  simp only [entry_mk, optEntry_mk, props_mk, mk_append]
  refine tidy_mk (show device.Nodup by decide) ?_
  exact (show TidyPlan (devicePlan ps d) from
    tidyPlan_append.mpr ⟨tidyPlan_append.mpr ⟨⟨opt_tidy tidy_str _, opt_tidy tidy_str _, some_tidy .str,
      opt_tidy tidy_str _, some_tidy .str, some_tidy .str, opt_tidy tidy_str _, opt_tidy tidy_cpu _, opt_tidy tidy_str _,
      opt_tidy tidy_str _, some_tidy .num, some_tidy .num, trivial⟩, tidy_props _⟩,
    some_tidy (listM_tidy (tidy_peripheral oc) _ _ h1), trivial⟩)

/-! ## When something is written -/

theorem msb_ok (oc : Bool) (b : BitRange) :
    (∃ m, b.msb oc = .ok m) ↔
      (oc = true → 1 ≤ b.offset.toNat + b.width.toNat ∧ b.offset.toNat + b.width.toNat < 2 ^ 32) := by
  simp only [Written.lastBit_iff]
  have h1 := b.offset.isLt
  have h2 := b.width.isLt
  have hof : ∀ n, n < 2 ^ 32 → (BitVec.ofNat 32 n).toNat = n := fun n h => by rw [BitVec.toNat_ofNat, Nat.mod_eq_of_lt h]
  cases oc with
  | true =>
    simp only [Written.LastBit, if_true, forall_const]
    constructor
    · rintro ⟨m, h3, h4⟩; omega
    · rintro ⟨h3, h4⟩
      refine ⟨BitVec.ofNat 32 (b.offset.toNat + b.width.toNat - 1), ?_⟩
      rw [hof _ (by omega)]
      omega
  | false =>
    simp only [Written.LastBit, Bool.false_eq_true, if_false, false_implies, iff_true]
    refine ⟨BitVec.ofNat 32 ((b.offset.toNat + b.width.toNat + 2 ^ 32 - 1) % 2 ^ 32), ?_⟩
    rw [hof _ (by omega)]
    omega

theorem exists_ok {α β : Type} {m : M α} {f : α → β} : (∃ b, (m >>= fun a => .ok (f a)) = .ok b) ↔ ∃ a, m = .ok a := by
  simp only [bind_ok]
  exact ⟨fun ⟨_, a, h, _⟩ => ⟨a, h⟩, fun ⟨a, h⟩ => ⟨_, a, h, rfl⟩⟩

theorem bits_when (oc : Bool) (b : BitRange) : (∃ l, bitsPlan oc b = .ok l) ↔ Printable oc b := by
  unfold bitsPlan Printable
  cases b.rangeType with
  | bitRange =>
    simp only [exists_ok, BitRange.bitRange, msb_ok]
    simp
  | offsetWidth => simp
  | msbLsb =>
    simp only [exists_ok, msb_ok]
    simp

theorem array_when {α : Type} {ks : List String} {ser : α → M Entries} {Info : Entries → α → Prop} {plan : α → M Plan}
    (h : Planned ks ser Info plan) (m : MaybeArray α) : (∃ v, serArray ser m = .ok v) ↔ ∃ l, plan m.info = .ok l := by
  constructor
  · rintro ⟨v, hv⟩
    obtain ⟨l, hl, _⟩ := array_ok h hv
    exact ⟨l, hl⟩
  · rintro ⟨l, hl⟩
    cases m with
    | single i =>
      have hl : plan i = .ok l := hl
      exact ⟨.obj (mk l), by simp only [serArray, h.made, hl, ok_bind]⟩
    | array i d =>
      have hl : plan i = .ok l := hl
      exact ⟨.obj (mk (dimPlan d) ++ mk l), by simp only [serArray, h.made, hl, ok_bind, dim_mk]⟩

theorem opt_when {α : Type} {ser : α → M Val} (o : Option α) :
    (∃ o', optM ser o = .ok o') ↔ ∀ a, o = some a → ∃ v, ser a = .ok v := by
  cases o with
  | none => simp [optM]
  | some a => simp only [optM, exists_ok, Option.some.injEq, forall_eq']

theorem list_when {α : Type} {ser : α → M Val} (l : List α) :
    (∃ v, serListM ser l = .ok v) ↔ ∀ a ∈ l, ∃ v, ser a = .ok v := by
  simp only [serListM, exists_ok]
  constructor
  · rintro ⟨vs, h⟩ a ha
    obtain ⟨v, _, hv⟩ := mapM_ok_mem h ha
    exact ⟨v, hv⟩
  · exact mapM_ok_of_forall

theorem dimPart_true {α : Type} (m : MaybeArray α) : DimPart (fun _ => True) m := by
  cases m <;> trivial

theorem field_when (oc : Bool) (f : Field) :
    (∃ v, serField oc f = .ok v) ↔ FieldParts (fun f => Printable oc f.bitRange) (fun _ => True) f := by
  unfold serField FieldParts
  simp only [array_when (field_planned oc), fieldPlan, exists_ok, bits_when, dimPart_true, and_true]

theorem register_when (oc : Bool) (r : Register) :
    (∃ v, serRegister oc r = .ok v) ↔ RegisterParts (fun f => Printable oc f.bitRange) (fun _ => True) r := by
  unfold serRegister RegisterParts
  simp only [array_when (register_planned oc), registerPlan, exists_ok, opt_when, list_when, field_when, dimPart_true,
    and_true]

mutual
theorem rc_when (oc : Bool) : ∀ c : RegisterCluster,
    (∃ v, serRc oc c = .ok v) ↔ RcParts (fun f => Printable oc f.bitRange) (fun _ => True) c
  | .register r => by
    simp only [serRc, RcParts, exists_ok, register_when]
  | .cluster h d cs => by
    simp only [RcParts, ← rcs_when oc cs]
    constructor
    · rintro ⟨v, hv⟩
      simp only [serRc, bind_ok] at hv
      obtain ⟨vs, h1, _⟩ := hv
      exact ⟨fun _ _ => trivial, vs, h1⟩
    · rintro ⟨_, vs, h1⟩
      obtain ⟨v, hv⟩ := (array_when (cluster_planned vs) (MaybeArray.mk' { h with children := cs } d)).mpr ⟨_, rfl⟩
      exact ⟨.obj (entry "cluster" v), by simp only [serRc, h1, ok_bind, hv]⟩
theorem rcs_when (oc : Bool) : ∀ cs : List RegisterCluster,
    (∃ vs, serRcs oc cs = .ok vs) ↔ RcsParts (fun f => Printable oc f.bitRange) (fun _ => True) cs
  | [] => by simp [serRcs, RcsParts]
  | c :: cs => by
    simp only [RcsParts, ← rc_when oc c, ← rcs_when oc cs, serRcs, bind_ok]
    constructor
    · rintro ⟨_, v, h1, vs, h2, _⟩; exact ⟨⟨v, h1⟩, vs, h2⟩
    · rintro ⟨⟨v, h1⟩, vs, h2⟩; exact ⟨_, v, h1, vs, h2, rfl⟩
end

theorem peripheral_when (oc : Bool) (p : Peripheral) :
    (∃ v, serPeripheral oc p = .ok v) ↔ PeripheralParts (fun f => Printable oc f.bitRange) (fun _ => True) p := by
  unfold serPeripheral PeripheralParts
  simp only [array_when (peripheral_planned oc), peripheralPlan, exists_ok, opt_when, serRcList, rcs_when,
    dimPart_true, and_true]

theorem device_when (oc : Bool) (d : Device) :
    (∃ v, serDevice oc d = .ok v) ↔ DeviceParts (fun f => Printable oc f.bitRange) (fun _ => True) d := by
  unfold serDevice DeviceParts
  simp only [exists_ok, list_when, peripheral_when]

/-! ## What can go wrong -/

/-- The only fault: an overflow, with overflow checks. -/
def Overflows (oc : Bool) (e : Fault) : Prop := oc = true ∧ e = .panic .overflow

theorem arith_overflows {w : Nat} {oc : Bool} {c : Prop} [Decidable c] {x : BitVec w} :
    Faults (Overflows oc) (arith oc c x) := by
  unfold arith
  split
  · exact .ok _
  · cases oc
    · exact .ok _
    · exact .error ⟨rfl, rfl⟩

theorem msb_faults (oc : Bool) (b : BitRange) : Faults (Overflows oc) (b.msb oc) := by
  unfold BitRange.msb addC subC
  exact .bind arith_overflows fun _ _ => arith_overflows

theorem bits_faults (oc : Bool) (b : BitRange) : Faults (Overflows oc) (serBitRange oc b) := by
  unfold serBitRange BitRange.toSer
  refine .bind ?_ fun _ _ => .ok _
  cases b.rangeType with
  | bitRange => exact .bind (.bind (msb_faults oc b) fun _ _ => .ok _) fun _ _ => .ok _
  | offsetWidth => exact .ok _
  | msbLsb => exact .bind (msb_faults oc b) fun _ _ => .ok _

theorem array_faults {α : Type} {oc : Bool} {ser : α → M Entries} (h : ∀ a, Faults (Overflows oc) (ser a))
    (m : MaybeArray α) : Faults (Overflows oc) (serArray ser m) := by
  cases m with
  | single i => exact .bind (h i) fun _ _ => .ok _
  | array i d =>
    refine .bind ?_ fun _ _ => .bind (h i) fun _ _ => .ok _
    rw [dim_mk]; exact .ok _

theorem opt_faults {α : Type} {oc : Bool} {k : String} {ser : α → M Val} {o : Option α}
    (h : ∀ a, Faults (Overflows oc) (ser a)) : Faults (Overflows oc) (optEntryM k ser o) := by
  cases o with
  | none => exact .ok _
  | some a => exact .bind (h a) fun _ _ => .ok _

theorem list_faults {α : Type} {oc : Bool} {ser : α → M Val} {l : List α} (h : ∀ a, Faults (Overflows oc) (ser a)) :
    Faults (Overflows oc) (serListM ser l) :=
  .bind (.mapM fun a _ => h a) fun _ _ => .ok _

theorem field_faults (oc : Bool) (f : Field) : Faults (Overflows oc) (serField oc f) :=
  array_faults (fun f => by unfold serFieldInfo; exact .bind (bits_faults oc f.bitRange) fun _ _ => .ok _) f

theorem register_faults (oc : Bool) (r : Register) : Faults (Overflows oc) (serRegister oc r) :=
  array_faults (fun _ => by
    unfold serRegisterInfo
    exact .bind (opt_faults fun _ => list_faults (field_faults oc)) fun _ _ => .ok _) r

mutual
theorem rc_faults (oc : Bool) : ∀ c, Faults (Overflows oc) (serRc oc c)
  | .register r => by
    rw [serRc]; exact .bind (register_faults oc r) fun _ _ => .ok _
  | .cluster h d cs => by
    rw [serRc]
    exact .bind (rcs_faults oc cs) fun _ _ => .bind (array_faults (fun _ => .ok _) _) fun _ _ => .ok _
theorem rcs_faults (oc : Bool) : ∀ cs, Faults (Overflows oc) (serRcs oc cs)
  | [] => by rw [serRcs]; exact .ok _
  | c :: cs => by
    rw [serRcs]
    exact .bind (rc_faults oc c) fun _ _ => .bind (rcs_faults oc cs) fun _ _ => .ok _
end

theorem peripheral_faults (oc : Bool) (p : Peripheral) : Faults (Overflows oc) (serPeripheral oc p) :=
  array_faults (fun _ => by
    unfold serPeripheralInfo
    exact .bind (opt_faults fun l => .bind (rcs_faults oc l) fun _ _ => .ok _) fun _ _ => .ok _) p

theorem device_faults (oc : Bool) (d : Device) : Faults (Overflows oc) (serDevice oc d) := by
  unfold serDevice
  exact .bind (list_faults (peripheral_faults oc)) fun _ _ => .ok _

/-! ## What can be recovered -/

/-- At most one datum with the condition has this value. -/
def Inj {α : Type} (S : α → Prop) (V : Val → α → Prop) : Prop := ∀ v a b, S a → S b → V v a → V v b → a = b

theorem det_inj {α : Type} {V : Val → α → Prop} {ser : α → Val} (h : Det V ser) {de : Val → M α}
    (hd : ∀ a, de (ser a) = .ok a) : Inj (fun _ => True) V := by
  intro v a b _ _ ha hb
  have := (hd a).symm.trans ((congrArg de (((h v a).mp ha).symm.trans ((h v b).mp hb))).trans (hd b))
  injection this

section
variable {α : Type} {S : α → Prop} {V : Val → α → Prop} (h : Inj S V)
include h

theorem has_inj {es : Entries} {k : String} {a b : α} (sa : S a) (sb : S b) (ha : Has V es k a) (hb : Has V es k b) :
    a = b := by
  obtain ⟨v, h1, h2⟩ := ha
  obtain ⟨w, h3, h4⟩ := hb
  rw [only_unique h3 h1] at h4
  exact h v a b sa sb h2 h4

theorem opt_inj {es : Entries} {k : String} {a b : Option α} (sa : ∀ x, a = some x → S x) (sb : ∀ x, b = some x → S x)
    (ha : Opt V es k a) (hb : Opt V es k b) : a = b := by
  have no : ∀ x, Missing k es → Has V es k x → False := by
    rintro x hm ⟨v, ho, _⟩
    have := (missing_iff.mpr hm).symm.trans (only_iff.mpr ho)
    cases this
  cases a with
  | none =>
    cases b with
    | none => rfl
    | some b => exact (no b ha hb).elim
  | some a =>
    cases b with
    | none => exact (no a hb ha).elim
    | some b => rw [has_inj h (sa a rfl) (sb b rfl) ha hb]

theorem list_inj : Inj (fun l => ∀ a ∈ l, S a) (ListVal V) := by
  rintro v l l' sa sb ⟨vs, rfl, h1⟩ ⟨ws, h0, h2⟩
  injection h0 with h0
  subst h0
  induction h1 generalizing l' with
  | nil => cases h2; rfl
  | cons hv _ ih =>
    cases h2 with
    | cons hw h2 =>
      rw [h _ _ _ (sa _ (by simp)) (sb _ (by simp)) hv hw,
        ih _ (fun a ha => sa a (by simp [ha])) (fun a ha => sb a (by simp [ha])) h2]

theorem some_inj {es : Entries} {k : String} {a b : List α} (sa : ∀ x ∈ a, S x) (sb : ∀ x ∈ b, S x)
    (ha : Some V es k a) (hb : Some V es k b) : a = b := by
  have no : ∀ x, Missing k es → Has (ListVal V) es k x → False := by
    rintro x hm ⟨v, ho, _⟩
    have := (missing_iff.mpr hm).symm.trans (only_iff.mpr ho)
    cases this
  cases a with
  | nil =>
    cases b with
    | nil => rfl
    | cons b l => exact (no _ ha hb).elim
  | cons a l =>
    cases b with
    | nil => exact (no _ hb ha).elim
    | cons b l' => exact has_inj (list_inj h) sa sb ha hb
end

theorem text_inj : Inj (fun _ => True) TextVal := det_inj text_det (de := deStr) fun _ => rfl
theorem num_inj {w : Nat} : Inj (fun _ => True) (NumVal (w := w)) := det_inj num_det (de := deInt w) de_int
theorem access_inj : Inj (fun _ => True) (WordVal accessSpelling) := det_inj access_det de_access
theorem protection_inj : Inj (fun _ => True) (WordVal protectionSpelling) := det_inj protection_det de_protection
theorem readAction_inj : Inj (fun _ => True) (WordVal readActionSpelling) := det_inj readAction_det de_readAction
theorem modified_inj : Inj (fun _ => True) (WordVal modifiedWriteValuesSpelling) := det_inj modified_det de_modified
theorem dataType_inj : Inj (fun _ => True) (WordVal dataTypeName) := det_inj dataType_det de_dataType
theorem constraint_inj : Inj (fun _ => True) ConstraintOut := det_inj constraint_det de_writeConstraint
theorem enums_inj : Inj (fun _ => True) (MapVal EnumsOut) := det_inj enums_det de_enums
theorem arrayIndex_inj : Inj (fun _ => True) (MapVal ArrayIndexOut) := det_inj arrayIndex_det de_dimArrayIndex
theorem interrupt_inj : Inj (fun _ => True) (MapVal InterruptOut) := det_inj interrupt_det de_interrupt
theorem addressBlock_inj : Inj (fun _ => True) (MapVal AddressBlockOut) := det_inj addressBlock_det de_addressBlock
theorem cpu_inj : Inj (fun _ => True) (MapVal CpuOut) := det_inj cpu_det de_cpu

theorem indexes_inj : Inj (fun l : List Str => l ≠ [] ∧ ∀ p ∈ l, ',' ∉ p) IndexesOut := by
  rintro v a b ⟨h1, h2⟩ ⟨h3, h4⟩ ha hb
  have e : joinWith [','] a = joinWith [','] b := by
    have := ha.symm.trans hb
    injection this
  rw [← splitOn_join h1 h2, e, splitOn_join h3 h4]

/-- The text of an optional member. -/
theorem tx {es : Entries} {k : String} {a b : Option Str} (ha : Opt TextVal es k a) (hb : Opt TextVal es k b) : a = b :=
  opt_inj text_inj (fun _ _ => trivial) (fun _ _ => trivial) ha hb

/-- Any optional member. -/
theorem op {α : Type} {V : Val → α → Prop} (h : Inj (fun _ => True) V) {es : Entries} {k : String} {a b : Option α}
    (ha : Opt V es k a) (hb : Opt V es k b) : a = b :=
  opt_inj h (fun _ _ => trivial) (fun _ _ => trivial) ha hb

/-- Any mandatory member. -/
theorem ha {α : Type} {V : Val → α → Prop} (h : Inj (fun _ => True) V) {es : Entries} {k : String} {a b : α}
    (h1 : Has V es k a) (h2 : Has V es k b) : a = b :=
  has_inj h trivial trivial h1 h2

theorem props_inj {es : Entries} {p q : RegisterProperties} (hp : PropsOut es p) (hq : PropsOut es q) : p = q := by
  obtain ⟨p1, p2, p3, p4, p5⟩ := p
  obtain ⟨q1, q2, q3, q4, q5⟩ := q
  obtain ⟨a1, a2, a3, a4, a5⟩ := hp
  obtain ⟨b1, b2, b3, b4, b5⟩ := hq
  obtain rfl := op num_inj a1 b1
  obtain rfl := op access_inj a2 b2
  obtain rfl := op protection_inj a3 b3
  obtain rfl := op num_inj a4 b4
  obtain rfl := op num_inj a5 b5
  rfl

theorem shape_inj {es : Entries} {o o' : Option DimElement} {ks : List String} (hk : "dim" ∉ ks)
    (so : ∀ d, o = some d → Separable d) (so' : ∀ d, o' = some d → Separable d)
    (k1 : Keys (shape o ++ ks) es) (k2 : Keys (shape o' ++ ks) es) (h1 : ShapeOut es o) (h2 : ShapeOut es o') : o = o' := by
  have no : ∀ (x : U32), Keys (shape none ++ ks) es → Has NumVal es "dim" x → False := by
    rintro x hm ⟨v, ho, _⟩
    have := (hits_not hm (by simpa [shape] using hk)).symm.trans (only_iff.mpr ho)
    cases this
  cases o with
  | none =>
    cases o' with
    | none => rfl
    | some d => exact (no d.dim k1 h2.1).elim
  | some d =>
    cases o' with
    | none => exact (no d.dim k2 h1.1).elim
    | some d' =>
      obtain ⟨p1, p2, p3, p4, p5⟩ := d
      obtain ⟨q1, q2, q3, q4, q5⟩ := d'
      obtain ⟨a1, a2, a3, a4, a5⟩ := h1
      obtain ⟨b1, b2, b3, b4, b5⟩ := h2
      obtain rfl := ha num_inj a1 b1
      obtain rfl := ha num_inj a2 b2
      obtain rfl := opt_inj indexes_inj (fun l hl => so _ rfl l hl) (fun l hl => so' _ rfl l hl) a3 b3
      obtain rfl := tx a4 b4
      obtain rfl := op arrayIndex_inj a5 b5
      rfl

theorem array_inj {α : Type} {ks : List String} {Info : Entries → α → Prop} {S : α → Prop} (hk : "dim" ∉ ks)
    (h : ∀ es a b, S a → S b → Info es a → Info es b → a = b) :
    Inj (fun m => S m.info ∧ DimPart Separable m) (ArrayOut ks Info) := by
  rintro v m m' ⟨s1, t1⟩ ⟨s2, t2⟩ ⟨es, rfl, k1, h1, i1⟩ ⟨es', he, k2, h2, i2⟩
  injection he with he
  subst he
  have e1 := h _ _ _ s1 s2 i1 i2
  have sep : ∀ m : MaybeArray α, DimPart Separable m → ∀ d, m.dim? = some d → Separable d := by
    rintro (_ | ⟨i, d⟩) hd d' h
    · cases h
    · cases h; exact hd
  have e2 := shape_inj hk (sep m t1) (sep m' t2) k1 k2 h1 h2
  cases m <;> cases m' <;> simp only [MaybeArray.info, MaybeArray.dim?] at e1 e2
  · rw [e1]
  · cases e2
  · cases e2
  · injection e2 with e2; rw [e1, e2]

theorem lastBit_inj {oc : Bool} {o : U32} {w w' : U32} {t t' : BitRangeType} {n : Nat}
    (h1 : Written.LastBit oc ⟨o, w, t⟩ n) (h2 : Written.LastBit oc ⟨o, w', t'⟩ n) : w = w' := by
  have := o.isLt
  have := w.isLt
  have := w'.isLt
  apply BitVec.eq_of_toNat_eq
  unfold Written.LastBit at h1 h2
  cases oc
  · simp only [Bool.false_eq_true, if_false] at h1 h2
    omega
  · simp only [if_true] at h1 h2
    omega

theorem colon_inj {a a' b b' : Str} (h1 : ':' ∉ a) (h2 : ':' ∉ a') (h : a ++ ':' :: b = a' ++ ':' :: b') :
    a = a' ∧ b = b' := by
  induction a generalizing a' with
  | nil =>
    cases a' with
    | nil => injection h with _ h; exact ⟨rfl, h⟩
    | cons c a' => injection h with h; exact absurd (by rw [h]; simp) h2
  | cons c a ih =>
    cases a' with
    | nil => injection h with h; exact absurd (by rw [h]; simp) h1
    | cons c' a' =>
      injection h with e h
      obtain ⟨e1, e2⟩ := ih (fun h => h1 (by simp [h])) (fun h => h2 (by simp [h])) h
      exact ⟨by rw [e, e1], e2⟩

theorem decimal_inj {n n' : Nat} (h1 : n < 2 ^ 32) (h2 : n' < 2 ^ 32) (h : decimal n = decimal n') : n = n' := by
  have t : ∀ n, n < 2 ^ 32 → decString (BitVec.ofNat 32 n) = decimal n := fun n h => by
    show Nat.toDigits 10 (BitVec.ofNat 32 n).toNat = _
    rw [BitVec.toNat_ofNat, Nat.mod_eq_of_lt h]; rfl
  have := congrArg BitVec.toNat (decString_inj (((t n h1).trans h).trans (t n' h2).symm))
  rwa [BitVec.toNat_ofNat, BitVec.toNat_ofNat, Nat.mod_eq_of_lt h1, Nat.mod_eq_of_lt h2] at this

theorem decimal_colon (n : Nat) : ':' ∉ decimal n := fun h => by
  have := decimal_digit h
  revert this
  decide

theorem rangeText_inj {n n' o o' : Nat} (h1 : n < 2 ^ 32) (h2 : n' < 2 ^ 32) (h3 : o < 2 ^ 32) (h4 : o' < 2 ^ 32)
    (h : '[' :: decimal n ++ ':' :: decimal o ++ [']'] = '[' :: decimal n' ++ ':' :: decimal o' ++ [']']) :
    n = n' ∧ o = o' := by
  have h := List.append_cancel_right h
  injection h with _ h
  obtain ⟨e1, e2⟩ := colon_inj (decimal_colon n) (decimal_colon n') h
  exact ⟨decimal_inj h1 h2 e1, decimal_inj h3 h4 e2⟩

theorem only_missing {k : String} {es : Entries} {v : Val} (h : Missing k es) (h' : Only k es v) : False := by
  have := (missing_iff.mpr h).symm.trans (only_iff.mpr h')
  cases this

theorem has_missing {α : Type} {V : Val → α → Prop} {k : String} {es : Entries} {a : α} (h : Missing k es)
    (h' : Has V es k a) : False := by
  obtain ⟨v, h', _⟩ := h'
  exact only_missing h h'

theorem bits_inj {oc : Bool} {es : Entries} {b b' : BitRange} (h1 : BitsOut oc es b) (h2 : BitsOut oc es b') : b = b' := by
  obtain ⟨o, w, t⟩ := b
  obtain ⟨o', w', t'⟩ := b'
  unfold BitsOut at h1 h2
  cases t <;> cases t' <;> simp only at h1 h2
  · obtain ⟨⟨n, l1, a1⟩, _⟩ := h1
    obtain ⟨⟨n', l2, a2⟩, _⟩ := h2
    obtain ⟨rfl, e⟩ := rangeText_inj (Written.lastBit_lt oc l1) (Written.lastBit_lt oc l2) o.isLt o'.isLt
      (ha text_inj a1 a2)
    have : o = o' := BitVec.eq_of_toNat_eq e
    subst this
    rw [lastBit_inj l1 l2]
  all_goals first
    | exact (has_missing h2.1 h1.1.choose_spec.2).elim
    | exact (has_missing h1.1 h2.1.choose_spec.2).elim
    | exact (has_missing h2.2.1 h1.2.1).elim
    | exact (has_missing h1.2.1 h2.2.1).elim
    | skip
  · obtain ⟨_, a1, a2, _⟩ := h1
    obtain ⟨_, b1, b2, _⟩ := h2
    rw [ha num_inj a1 b1, ha num_inj a2 b2]
  · obtain ⟨_, _, _, a1, n, l1, a2⟩ := h1
    obtain ⟨_, _, _, b1, n', l2, b2⟩ := h2
    have := ha num_inj a1 b1
    subst this
    have := only_unique a2 b2
    injection this with this
    subst this
    rw [lastBit_inj l1 l2]

theorem field_inj (oc : Bool) (es : Entries) (f g : FieldInfo) (hf : FieldOut oc es f) (hg : FieldOut oc es g) : f = g := by
  obtain ⟨a1, a2, a3, a4, a5, a6, a7, a8, a9⟩ := hf
  obtain ⟨b1, b2, b3, b4, b5, b6, b7, b8, b9⟩ := hg
  obtain ⟨f1, f2, f3, f4, f5, f6, f7, f8, f9⟩ := f
  obtain ⟨g1, g2, g3, g4, g5, g6, g7, g8, g9⟩ := g
  obtain rfl := ha text_inj a1 b1
  obtain rfl := tx a2 b2
  obtain rfl := bits_inj a3 b3
  obtain rfl := op access_inj a4 b4
  obtain rfl := op modified_inj a5 b5
  obtain rfl := op constraint_inj a6 b6
  obtain rfl := op readAction_inj a7 b7
  obtain rfl := some_inj enums_inj (fun _ _ => trivial) (fun _ _ => trivial) a8 b8
  obtain rfl := tx a9 b9
  rfl

/-- The fields of a register can be recovered. -/
def FieldsSeparable (r : RegisterInfo) : Prop :=
  ∀ l, r.fields = some l → ∀ f ∈ l, True ∧ DimPart Separable f

theorem register_inj (oc : Bool) (es : Entries) (f g : RegisterInfo) (sf : FieldsSeparable f) (sg : FieldsSeparable g)
    (hf : RegisterOut oc es f) (hg : RegisterOut oc es g) : f = g := by
  obtain ⟨a1, a2, a3, a4, a5, a6, a7, a8, a9, a10, a11, a12, a13⟩ := hf
  obtain ⟨b1, b2, b3, b4, b5, b6, b7, b8, b9, b10, b11, b12, b13⟩ := hg
  obtain ⟨f1, f2, f3, f4, f5, f6, f7, f8, f9, f10, f11, f12, f13⟩ := f
  obtain ⟨g1, g2, g3, g4, g5, g6, g7, g8, g9, g10, g11, g12, g13⟩ := g
  have e := opt_inj (list_inj (array_inj (S := fun _ => True) (by decide) fun es a b _ _ => field_inj oc es a b)) sf sg a12 b12
  simp only at e
  obtain rfl := ha text_inj a1 b1
  obtain rfl := tx a2 b2
  obtain rfl := tx a3 b3
  obtain rfl := tx a4 b4
  obtain rfl := tx a5 b5
  obtain rfl := ha num_inj a6 b6
  obtain rfl := props_inj a7 b7
  obtain rfl := op dataType_inj a8 b8
  obtain rfl := op modified_inj a9 b9
  obtain rfl := op constraint_inj a10 b10
  obtain rfl := op readAction_inj a11 b11
  obtain rfl := e
  obtain rfl := tx a13 b13
  rfl

theorem cluster_inj (es : Entries) (f g : ClusterHead) (hf : ClusterOut es f) (hg : ClusterOut es g) : f = g := by
  obtain ⟨a1, a2, a3, a4, a5, a6, a7⟩ := hf
  obtain ⟨b1, b2, b3, b4, b5, b6, b7⟩ := hg
  obtain ⟨f1, f2, f3, f4, f5, f6, f7⟩ := f
  obtain ⟨g1, g2, g3, g4, g5, g6, g7⟩ := g
  obtain rfl := ha text_inj a1 b1
  obtain rfl := tx a2 b2
  obtain rfl := tx a3 b3
  obtain rfl := tx a4 b4
  obtain rfl := ha num_inj a5 b5
  obtain rfl := props_inj a6 b6
  obtain rfl := tx a7 b7
  rfl

/-- The parts of a device all of whose index lists can be recovered. -/
abbrev Sep (c : RegisterCluster) : Prop := RcParts (fun _ => True) Separable c

theorem tree_register {oc : Bool} {v : Val} {c : RegisterCluster} (h : TreeOut oc (.obj [("register", v)]) c) :
    ∃ r, c = .register r ∧ ArrayOut register (RegisterOut oc) v r := by
  generalize hx : Val.obj [("register", v)] = x at h
  cases h with
  | register h => cases hx; exact ⟨_, rfl, h⟩
  | cluster => simp at hx

theorem tree_cluster {oc : Bool} {v : Val} {c : RegisterCluster} (h : TreeOut oc (.obj [("cluster", v)]) c) :
    ∃ es h d vs cs, v = .obj es ∧ c = .cluster h d cs ∧ Keys (shape d ++ cluster) es ∧ ShapeOut es d ∧ ClusterOut es h ∧
      Only "children" es (.arr vs) ∧ TreesOut oc vs cs := by
  generalize hx : Val.obj [("cluster", v)] = x at h
  cases h with
  | register h => simp at hx
  | cluster h1 h2 h3 h4 h5 => cases hx; exact ⟨_, _, _, _, _, rfl, rfl, h1, h2, h3, h4, h5⟩

mutual
theorem tree_inj (oc : Bool) : ∀ (c c' : RegisterCluster) (v : Val), Sep c → Sep c' → TreeOut oc v c → TreeOut oc v c' → c = c'
  | .register r, c', v, s, s', h, h' => by
    cases h with
    | register h =>
      obtain ⟨r', rfl, h2⟩ := tree_register h'
      unfold Sep RcParts RegisterParts FieldParts at s s'
      rw [array_inj (S := FieldsSeparable) (by decide) (register_inj oc) _ _ _ s s' h h2]
  | .cluster hd d cs, c', v, s, s', h, h' => by
    cases h with
    | cluster k1 h1 h2 h3 h4 =>
      obtain ⟨_, _, _, _, _, he, rfl, k1', h1', h2', h3', h4'⟩ := tree_cluster h'
      cases he
      unfold Sep RcParts at s s'
      have ev := only_unique h3 h3'
      injection ev with ev
      subst ev
      rw [cluster_inj _ _ _ h2 h2', shape_inj (by decide) s.1 s'.1 k1 k1' h1 h1', trees_inj oc _ _ _ s.2 s'.2 h4 h4']
theorem trees_inj (oc : Bool) : ∀ (cs cs' : List RegisterCluster) (vs : List Val), RcsParts (fun _ => True) Separable cs →
    RcsParts (fun _ => True) Separable cs' → TreesOut oc vs cs → TreesOut oc vs cs' → cs = cs'
  | [], cs', vs, s, s', h, h' => by
    cases h; cases h'; rfl
  | c :: cs, cs', vs, s, s', h, h' => by
    cases h with
    | cons h1 h2 =>
      cases h' with
      | cons h1' h2' =>
        unfold RcsParts at s s'
        rw [tree_inj oc _ _ _ s.1 s'.1 h1 h1', trees_inj oc _ _ _ s.2 s'.2 h2 h2']
end

/-- The registers of a peripheral can be recovered. -/
def RegistersSeparable (p : PeripheralInfo) : Prop := ∀ l, p.registers = some l → RcsParts (fun _ => True) Separable l

theorem rcs_inj (oc : Bool) :
    Inj (fun l => RcsParts (fun _ => True) Separable l) (fun v l => ∃ vs, v = .arr vs ∧ TreesOut oc vs l) := by
  rintro v a b sa sb ⟨vs, rfl, h⟩ ⟨ws, hw, h'⟩
  injection hw with hw
  subst hw
  exact trees_inj oc a b vs sa sb h h'

theorem peripheral_inj (oc : Bool) (es : Entries) (f g : PeripheralInfo) (sf : RegistersSeparable f)
    (sg : RegistersSeparable g) (hf : PeripheralOut oc es f) (hg : PeripheralOut oc es g) : f = g := by
  obtain ⟨a1, a2, a3, a4, a5, a6, a7, a8, a9, a10, a11, a12, a13, a14, a15⟩ := hf
  obtain ⟨b1, b2, b3, b4, b5, b6, b7, b8, b9, b10, b11, b12, b13, b14, b15⟩ := hg
  obtain ⟨f1, f2, f3, f4, f5, f6, f7, f8, f9, f10, f11, f12, f13, f14, f15⟩ := f
  obtain ⟨g1, g2, g3, g4, g5, g6, g7, g8, g9, g10, g11, g12, g13, g14, g15⟩ := g
  have e := opt_inj (rcs_inj oc) sf sg a14 b14
  simp only at e
  obtain rfl := ha text_inj a1 b1
  obtain rfl := tx a2 b2
  obtain rfl := tx a3 b3
  obtain rfl := tx a4 b4
  obtain rfl := tx a5 b5
  obtain rfl := tx a6 b6
  obtain rfl := tx a7 b7
  obtain rfl := tx a8 b8
  obtain rfl := tx a9 b9
  obtain rfl := ha num_inj a10 b10
  obtain rfl := props_inj a11 b11
  obtain rfl := opt_inj (list_inj addressBlock_inj) (fun _ _ _ _ => trivial) (fun _ _ _ _ => trivial) a12 b12
  obtain rfl := some_inj interrupt_inj (fun _ _ => trivial) (fun _ _ => trivial) a13 b13
  obtain rfl := e
  obtain rfl := tx a15 b15
  rfl

theorem device_inj (oc : Bool) (es : Entries) (f g : Device) (sf : DeviceParts (fun _ => True) Separable f)
    (sg : DeviceParts (fun _ => True) Separable g) (hf : DeviceOut oc es f) (hg : DeviceOut oc es g) :
    { f with xmlnsXs := g.xmlnsXs, noNamespaceSchemaLocation := g.noNamespaceSchemaLocation,
             schemaVersion := g.schemaVersion } = g := by
  obtain ⟨_, a1, a2, a3, a4, a5, a6, a7, a8, a9, a10, a11, a12, a13, a14⟩ := hf
  obtain ⟨_, b1, b2, b3, b4, b5, b6, b7, b8, b9, b10, b11, b12, b13, b14⟩ := hg
  have e := has_inj (list_inj (array_inj (by decide) (peripheral_inj oc))) sf sg a14 b14
  cases f
  cases g
  simp only at *
  obtain rfl := tx a1 b1
  obtain rfl := tx a2 b2
  obtain rfl := ha text_inj a3 b3
  obtain rfl := tx a4 b4
  obtain rfl := ha text_inj a5 b5
  obtain rfl := ha text_inj a6 b6
  obtain rfl := tx a7 b7
  obtain rfl := op cpu_inj a8 b8
  obtain rfl := tx a9 b9
  obtain rfl := tx a10 b10
  obtain rfl := ha num_inj a11 b11
  obtain rfl := ha num_inj a12 b12
  obtain rfl := props_inj a13 b13
  obtain rfl := e
  rfl

end Svd.Put

namespace Svd

open Spec Put

/-! ## C66 -/

/-- **C66**: what is written for a device is exactly what the specification gives. -/
theorem C66_value (oc : Bool) (d : Device) (v : Val) : serDevice oc d = .ok v ↔ MapVal (DeviceOut oc) v d :=
  (device_detM oc v d).symm

/-- **C66** for the parts that can be written on their own. -/
theorem C66_parts (oc : Bool) (v : Val) :
    (∀ p, serPeripheral oc p = .ok v ↔ ArrayOut peripheral (PeripheralOut oc) v p) ∧
    (∀ r, serRegister oc r = .ok v ↔ ArrayOut register (RegisterOut oc) v r) ∧
    (∀ f, serField oc f = .ok v ↔ ArrayOut field (FieldOut oc) v f) ∧
    (∀ c, serRc oc c = .ok v ↔ TreeOut oc v c) ∧
    (∀ c, serCpu c = v ↔ MapVal CpuOut v c) ∧
    (∀ w, serWriteConstraint w = v ↔ ConstraintOut v w) :=
  ⟨fun p => (peripheral_detM oc v p).symm, fun r => (register_detM oc v r).symm, fun f => (field_detM oc v f).symm,
    fun c => (tree_detM oc c v).symm, fun c => ⟨fun h => (cpu_det v c).mpr h.symm, fun h => ((cpu_det v c).mp h).symm⟩,
    fun c => ⟨fun h => (constraint_det v c).mpr h.symm, fun h => ((constraint_det v c).mp h).symm⟩⟩

/-- **C66**: writing fails exactly if, with overflow checks, the last bit of some field is asked for and
there is none, or its position plus one does not fit; then it panics. -/
theorem C66_when (oc : Bool) (d : Device) :
    ((∃ v, serDevice oc d = .ok v) ↔ DeviceParts (fun f => Printable oc f.bitRange) (fun _ => True) d) ∧
    ∀ e, serDevice oc d = .error e → oc = true ∧ e = .panic .overflow :=
  ⟨device_when oc d, fun e h => (device_faults oc d).out e h⟩

/-- **C66**: nothing is written as null and no key twice in a map. -/
theorem C66_tidy (oc : Bool) (d : Device) (v : Val) (h : serDevice oc d = .ok v) : Tidy v := tidy_device oc d v h

/-- **C66**: devices whose index lists can be recovered from one text are written differently, unless they
differ only in the attributes of the document. -/
theorem C66_injective (oc : Bool) (d d' : Device) (v : Val) (hd : DeviceParts (fun _ => True) Separable d)
    (hd' : DeviceParts (fun _ => True) Separable d') (h : serDevice oc d = .ok v) (h' : serDevice oc d' = .ok v) :
    { d with xmlnsXs := d'.xmlnsXs, noNamespaceSchemaLocation := d'.noNamespaceSchemaLocation,
             schemaVersion := d'.schemaVersion } = d' := by
  obtain ⟨es, rfl, hs⟩ := (C66_value oc d v).mp h
  obtain ⟨es', he, hs'⟩ := (C66_value oc d' _).mp h'
  injection he with he
  subst he
  exact device_inj oc es d d' hd hd' hs hs'

/-! ## Examples -/

instance (oc : Bool) (b : BitRange) : Decidable (Printable oc b) :=
  inferInstanceAs (Decidable (oc = true → b.rangeType ≠ .offsetWidth →
    1 ≤ b.offset.toNat + b.width.toNat ∧ b.offset.toNat + b.width.toNat < 2 ^ 32))

instance (d : DimElement) : Decidable (Separable d) :=
  inferInstanceAs (Decidable (∀ l, d.dimIndex = some l → l ≠ [] ∧ ∀ p ∈ l, ',' ∉ p))

/-- A device with a bit of everything can be written. -/
example : ∃ v, serDevice true Sample.rich = .ok v ∧ MapVal (DeviceOut true) v Sample.rich ∧ Tidy v := by
  obtain ⟨v, h⟩ := (C66_when true Sample.rich).1.mpr (by decide +kernel)
  exact ⟨v, h, (C66_value true _ v).mp h, C66_tidy true _ v h⟩

/-- It can be recovered. -/
example : DeviceParts (fun _ => True) Separable Sample.rich := by decide +kernel

namespace Sample

/-- An array of fields. -/
def putField (idx : Option (List Str)) (b : BitRange) : Field :=
  .array { name := "F%s".toList, description := none, bitRange := b, access := some .readOnly,
           modifiedWriteValues := none, writeConstraint := some (.range ⟨1, 6⟩), readAction := none,
           enumeratedValues := [], derivedFrom := none }
    { dim := 2, dimIncrement := 4, dimIndex := idx, dimName := none, dimArrayIndex := none }

end Sample

/-- Every entry of an array of fields. -/
example : serField true (Sample.putField (some ["A".toList, "B".toList]) ⟨4, 3, .bitRange⟩) = .ok (.obj
    [("dim", .num 2), ("dimIncrement", .num 4), ("dimIndex", .str "A,B".toList), ("name", .str "F%s".toList),
     ("bitRange", .str "[6:4]".toList), ("access", .str "read-only".toList),
     ("writeConstraint", .obj [("range", .obj [("minimum", .num 1), ("maximum", .num 6)])])]) := rfl

/-- No bits at position 0: there is no last bit. -/
example : serField true (Sample.putField none ⟨0, 0, .msbLsb⟩) = .error (.panic .overflow) ∧
    serField false (Sample.putField none ⟨0, 0, .msbLsb⟩) = .ok (.obj
    [("dim", .num 2), ("dimIncrement", .num 4), ("name", .str "F%s".toList),
     ("lsb", .num 0), ("msb", .num (2 ^ 32 - 1)), ("access", .str "read-only".toList),
     ("writeConstraint", .obj [("range", .obj [("minimum", .num 1), ("maximum", .num 6)])])]) := ⟨rfl, rfl⟩

/-- **C66** The condition on the indexes is needed: these two arrays differ and are written alike. -/
theorem C66_condition_needed :
    Sample.putField (some ["A".toList, "B".toList]) ⟨4, 3, .bitRange⟩ ≠
      Sample.putField (some ["A,B".toList]) ⟨4, 3, .bitRange⟩ ∧
    serField true (Sample.putField (some ["A".toList, "B".toList]) ⟨4, 3, .bitRange⟩) =
      serField true (Sample.putField (some ["A,B".toList]) ⟨4, 3, .bitRange⟩) := ⟨by decide, rfl⟩

-- `C66_parts`: a field and its object.
example : ∃ v, serField true (Sample.putField (some ["A".toList, "B".toList]) ⟨4, 3, .bitRange⟩) = .ok v ∧
    ArrayOut field (FieldOut true) v (Sample.putField (some ["A".toList, "B".toList]) ⟨4, 3, .bitRange⟩) := by
  obtain ⟨v, h⟩ := ok_of_isOk (x := serField true (Sample.putField (some ["A".toList, "B".toList]) ⟨4, 3, .bitRange⟩))
    (by decide +kernel)
  exact ⟨v, h, ((C66_parts true v).2.2.1 _).mp h⟩

end Svd
