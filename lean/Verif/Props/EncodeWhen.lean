import Verif.Spec.Encodable
import Verif.Props.Written
import Verif.Props.EncodeTotal
import Verif.Props.ValueTidy

/-!
# C81: when writing XML fails, and how
-/

namespace Svd

open Spec

namespace Encode

theorem mapM_when {α β : Type} {f : α → M β} (l : List α) :
    (∃ r, l.mapM f = .ok r) ↔ ∀ a ∈ l, ∃ b, f a = .ok b :=
  ⟨fun ⟨_, h⟩ a ha => by obtain ⟨b, _, hb⟩ := mapM_ok_mem h ha; exact ⟨b, hb⟩, mapM_ok_of_forall⟩

/-! ## Sorting -/

theorem negI32_when (oc : Bool) (x : U32) : (∃ k, negI32 oc x = .ok k) ↔ (oc = true → x.toNat ≠ 2 ^ 31) := by
  have hx := x.isLt
  have e : x.toInt = -2147483648 ↔ x.toNat = 2 ^ 31 := by
    rw [BitVec.toInt_eq_toNat_cond]
    split <;> omega
  unfold negI32
  by_cases h : x.toNat = 2 ^ 31
  · rw [if_pos (e.mpr h)]
    cases oc <;> simp [h, panics]
  · rw [if_neg (fun c => h (e.mp c))]
    exact ⟨fun _ _ => h, fun _ => ⟨_, rfl⟩⟩

theorem sortByKey_when {α κ : Type} {le : κ → κ → Bool} {key : α → M κ} (l : List α) :
    (∃ l', sortByKey le key l = .ok l') ↔ (2 ≤ l.length → ∀ a ∈ l, ∃ k, key a = .ok k) := by
  unfold sortByKey
  split
  · exact ⟨fun _ h => by omega, fun _ => ⟨_, rfl⟩⟩
  · rw [Put.exists_ok, mapM_when]
    simp only [Put.exists_ok]
    exact ⟨fun h _ => h, fun h => h (by omega)⟩

theorem sortRefs_when {α : Type} (oc : Bool) (off : α → Nat) (off32 : α → U32) (nm : α → Str)
    (h32 : ∀ a, (off32 a).toNat = off a % 2 ^ 32) (s : Option Sorting) (l : List α) :
    (∃ l', sortRefs oc off off32 nm s l = .ok l') ↔ Sortable oc off s l := by
  unfold sortRefs Sortable
  rcases s with _ | _ | _ | _
  · simp
  · simp [sortByKey_when]
  · simp only [sortByKey_when, negI32_when, h32]
    exact ⟨fun h ho _ hl a ha => h hl a ha ho, fun h hl a ha ho => h ho trivial hl a ha⟩
  · simp [sortByKey_when]

theorem sortDerived_when {α : Type} {oc : Bool} {off : α → Nat} {srt : Option Sorting → List α → M (List α)}
    {der : α → Bool} {Der : α → Prop} [DecidablePred Der] (hd : ∀ a, der a = true ↔ Der a)
    (h : ∀ s l, (∃ l', srt s l = .ok l') ↔ Sortable oc off s l) (s : DerivableSorting) (l : List α) :
    (∃ l', sortDerived srt der s l = .ok l') ↔ SortableDerivable oc off Der s l := by
  have e1 : der = fun a => decide (Der a) := by
    funext a
    by_cases hc : Der a
    · rw [(hd a).mpr hc]; simp [hc]
    · cases hx : der a
      · simp [hc]
      · exact absurd ((hd a).mp hx) hc
  cases s with
  | unchanged s => exact h s l
  | deriveLast s =>
    unfold sortDerived SortableDerivable
    subst e1
    simp only [← h, decide_not]
    constructor
    · rintro ⟨l', hl⟩
      obtain ⟨a, ha, hl⟩ := bind_ok.mp hl
      obtain ⟨b, hb, _⟩ := bind_ok.mp hl
      exact ⟨⟨a, ha⟩, b, hb⟩
    · rintro ⟨⟨a, ha⟩, b, hb⟩
      exact ⟨a ++ b, by simp only [ha, hb, ok_bind]⟩

theorem isSome_ne {α : Type} {o : Option α} : o.isSome = true ↔ o ≠ none := by cases o <;> simp

theorem peripherals_when (oc : Bool) (s : DerivableSorting) (l : List Peripheral) :
    (∃ l', sortDerivedPeripherals oc s l = .ok l') ↔
      SortableDerivable oc (fun p : Peripheral => p.info.baseAddress.toNat) (fun p => p.info.derivedFrom ≠ none) s l :=
  sortDerived_when (fun _ => isSome_ne)
    (sortRefs_when oc _ _ _ fun p => by simp [BitVec.toNat_setWidth]) s l

theorem fields_when (oc : Bool) (s : DerivableSorting) (l : List Field) :
    (∃ l', sortDerivedFields oc s l = .ok l') ↔
      SortableDerivable oc (fun f : Field => f.info.bitRange.offset.toNat)
        (fun f => f.info.derivedFrom ≠ none ∨ ∃ e ∈ f.info.enumeratedValues, e.derivedFrom ≠ none) s l :=
  sortDerived_when (fun f => by simp [fieldDerived, isSome_ne])
    (sortRefs_when oc _ _ _ fun f => by
      have := f.info.bitRange.offset.isLt
      omega) s l

theorem sortDerivedRc_when (oc : Bool) (s : DerivableSorting) (l : List RegisterCluster) :
    (∃ l', sortDerivedRegisterCluster oc s l = .ok l') ↔ SortableRc.sortable oc s l :=
  sortDerived_when (fun _ => isSome_ne)
    (sortRefs_when oc _ _ _ fun c => by
      have := c.addressOffset.isLt
      omega) s l

theorem rcSort_when (oc : Bool) (s : DerivableSorting) (l : List RegisterCluster) (b : Bool) :
    (∃ l', rcSort oc l s b = .ok l') ↔
      SortableRc.sortable oc s (l.filter isReg) ∧ SortableRc.sortable oc s (l.filter fun c => ¬ isReg c) := by
  unfold rcSort
  simp only [isRegister_eq, ← sortDerivedRc_when]
  simp only [Bool.not_eq_true, Bool.decide_eq_false]
  constructor
  · rintro ⟨l', hl⟩
    obtain ⟨x, hx, hl⟩ := bind_ok.mp hl
    obtain ⟨y, hy, _⟩ := bind_ok.mp hl
    exact ⟨⟨x, hx⟩, y, hy⟩
  · rintro ⟨⟨x, hx⟩, y, hy⟩
    exact ⟨_, by simp only [hx, hy, ok_bind]; rfl⟩

theorem sortRc_when (oc : Bool) (s : RcSorting) (l : List RegisterCluster) :
    (∃ l', sortRc oc s l = .ok l') ↔ SortableRc oc s l := by
  cases s with
  | unchanged s =>
    refine Iff.trans ?_ (sortDerivedRc_when oc s l)
    unfold sortRc
    split
    · rename_i h; cases h
      exact ⟨fun _ => ⟨l, rfl⟩, fun _ => ⟨l, rfl⟩⟩
    · rename_i h; cases h; exact Iff.rfl
    · rename_i h; cases h
    · rename_i h; cases h
  | registersFirst s => exact rcSort_when oc s l true
  | clustersFirst s => exact rcSort_when oc s l false

/-! ## The elements -/

section
variable (oc : Bool) (cc : IdentifierFormat → Str → Str) (cfg : EncConfig)

theorem dim_when (d : DimElement) : (∃ x, encodeDimElement oc cc cfg d = .ok x) ↔ IndexesWritable oc d := by
  unfold encodeDimElement encodeDimIndex IndexesWritable
  rw [Put.exists_ok, ← C07_exact]
  cases hd : d.dimIndex with
  | none => simp
  | some l =>
    simp only [Put.exists_ok, ne_eq, reduceCtorEq, not_false_eq_true, forall_const]
    unfold dimIndexText
    constructor
    · rintro ⟨s, hs⟩
      obtain ⟨r, hr, _⟩ := bind_ok.mp hs
      exact ⟨r, hr⟩
    · rintro ⟨r, hr⟩
      rw [hr, ok_bind]
      rcases r with _ | ⟨a, b⟩ <;> exact ⟨_, rfl⟩

theorem array_when (tag : String) (d : Option DimElement) (m : M Xml) :
    (∃ x, encodeArray oc cc cfg tag d m = .ok x) ↔
      (∀ x, d = some x → IndexesWritable oc x) ∧ ∃ x, m = .ok x := by
  cases d with
  | none => simp [encodeArray]
  | some d =>
    simp only [encodeArray, Option.some.injEq, forall_eq', ← dim_when oc cc cfg]
    constructor
    · rintro ⟨x, hx⟩
      obtain ⟨a, ha, hx⟩ := bind_ok.mp hx
      obtain ⟨b, hb, _⟩ := bind_ok.mp hx
      exact ⟨⟨a, ha⟩, b, hb⟩
    · rintro ⟨⟨a, ha⟩, b, hb⟩
      exact ⟨_, by simp only [ha, hb, ok_bind]; rfl⟩

theorem bits_when (b : BitRange) : (∃ x, encodeBitRange oc cfg b = .ok x) ↔ RangeWritable oc cfg b := by
  unfold encodeBitRange RangeWritable
  cases cfg.fieldBitRange.getD b.rangeType with
  | bitRange =>
    simp only [Put.exists_ok, BitRange.bitRange, Put.msb_ok]
    simp
  | offsetWidth => simp
  | msbLsb =>
    simp only [Put.exists_ok, Put.msb_ok]
    simp

theorem field_when (f : Field) : (∃ x, encodeField oc cc cfg f = .ok x) ↔ FieldWritable oc cfg f := by
  unfold encodeField FieldWritable
  rw [array_when]
  unfold encodeFieldInfo
  rw [Put.exists_ok, bits_when]

/-- Sorting first and writing each element. -/
theorem listed_when {α β : Type} {m : M (List α)} {f : α → M β} {l : List α} (hp : ∀ l', m = .ok l' → l'.Perm l) :
    (∃ r, (m >>= fun l' => l'.mapM f) = .ok r) ↔ (∃ l', m = .ok l') ∧ ∀ a ∈ l, ∃ b, f a = .ok b := by
  constructor
  · rintro ⟨r, hr⟩
    obtain ⟨l', hl, hr⟩ := bind_ok.mp hr
    exact ⟨⟨l', hl⟩, fun a ha => (mapM_when l').mp ⟨r, hr⟩ a ((hp l' hl).mem_iff.mpr ha)⟩
  · rintro ⟨⟨l', hl⟩, h⟩
    obtain ⟨r, hr⟩ := (mapM_when l').mpr fun a ha => h a ((hp l' hl).mem_iff.mp ha)
    exact ⟨r, by rw [hl, ok_bind, hr]⟩

theorem exists_bind {α β γ : Type} {m : M α} {f : α → M β} {g : β → γ} :
    (∃ c, (m >>= fun a => f a >>= fun b => .ok (g b)) = .ok c) ↔ ∃ b, (m >>= f) = .ok b := by
  constructor
  · rintro ⟨c, h⟩
    obtain ⟨a, ha, h⟩ := bind_ok.mp h
    obtain ⟨b, hb, _⟩ := bind_ok.mp h
    exact ⟨b, bind_ok.mpr ⟨a, ha, hb⟩⟩
  · rintro ⟨b, h⟩
    obtain ⟨a, ha, hb⟩ := bind_ok.mp h
    exact ⟨g b, by simp only [ha, hb, ok_bind]⟩

theorem unsorted_fields (l : List Field) : (if cfg.fieldSorting = .unchanged none then .ok l
    else sortDerivedFields oc cfg.fieldSorting l : M (List Field)) = sortDerivedFields oc cfg.fieldSorting l := by
  split
  · rename_i h; rw [h]; rfl
  · rfl

theorem register_when (r : Register) : (∃ x, encodeRegister oc cc cfg r = .ok x) ↔ RegisterWritable oc cfg r := by
  unfold encodeRegister RegisterWritable
  rw [array_when]
  unfold encodeRegisterInfo encodeFields
  rw [Put.exists_ok]
  refine and_congr Iff.rfl ?_
  cases r.info.fields with
  | none => simp
  | some l =>
    simp only [Option.some.injEq, forall_eq', unsorted_fields]
    rw [exists_bind, listed_when (l := l) fun l' h => (C28_permutation oc).2.1 _ _ _ h, fields_when]
    simp only [field_when]

mutual
theorem rc_when : ∀ c : RegisterCluster, (∃ x, encodeRegisterCluster oc cc cfg c = .ok x) ↔ RcWritable oc cfg c
  | .register r => by
    simp only [encodeRegisterCluster, RcWritable]
    exact register_when oc cc cfg r
  | .cluster h d cs => by
    simp only [encodeRegisterCluster, RcWritable, array_when, encodeClusterWith, Put.exists_ok]
    rw [rcs_when cs]
theorem rcs_when : ∀ cs : List RegisterCluster,
    (∃ x, encodeRegisterClusters oc cc cfg cs = .ok x) ↔ RcsWritable oc cfg cs
  | [] => by simp [encodeRegisterClusters, RcsWritable]
  | c :: cs => by
    simp only [RcsWritable, ← rc_when c, ← rcs_when cs, encodeRegisterClusters, bind_ok]
    constructor
    · rintro ⟨_, v, h1, vs, h2, _⟩; exact ⟨⟨v, h1⟩, vs, h2⟩
    · rintro ⟨⟨v, h1⟩, vs, h2⟩; exact ⟨_, v, h1, vs, h2, rfl⟩
end

theorem rcsWritable_iff (l : List RegisterCluster) : RcsWritable oc cfg l ↔ ∀ c ∈ l, RcWritable oc cfg c := by
  induction l with
  | nil => simp [RcsWritable]
  | cons c l ih => simp [RcsWritable, ih]

theorem peripheral_when (p : Peripheral) : (∃ x, encodePeripheral oc cc cfg p = .ok x) ↔ PeripheralWritable oc cfg p := by
  unfold encodePeripheral PeripheralWritable
  rw [array_when]
  unfold encodePeripheralInfo encodeRegisters
  rw [Put.exists_ok]
  refine and_congr Iff.rfl ?_
  cases p.info.registers with
  | none => simp
  | some l =>
    simp only [Option.some.injEq, forall_eq']
    rw [exists_bind, listed_when (l := l) fun l' h => (C28_permutation oc).2.2 _ _ _ h, sortRc_when, rcsWritable_iff]
    simp only [rc_when]

theorem device_when (d : Device) : (∃ x, encodeDevice oc cc cfg d = .ok x) ↔ DeviceWritable oc cfg d := by
  have e : (if cfg.peripheralSorting = .unchanged none then .ok d.peripherals
      else sortDerivedPeripherals oc cfg.peripheralSorting d.peripherals : M (List Peripheral)) =
      sortDerivedPeripherals oc cfg.peripheralSorting d.peripherals := by
    split
    · rename_i h; rw [h]; rfl
    · rfl
  unfold encodeDevice DeviceWritable
  rw [e, exists_bind, listed_when (l := d.peripherals) fun l' h => (C28_permutation oc).1 _ _ _ h, peripherals_when]
  simp only [peripheral_when]

end

/-! ## What can go wrong -/

section
variable {oc : Bool} {Q : Fault → Prop} (ho : oc = true → Q (.panic .overflow))
include ho

theorem arith_q {w : Nat} {c : Prop} [Decidable c] {x : BitVec w} : Faults Q (arith oc c x) :=
  Put.arith_overflows.mono fun _ h => h.2 ▸ ho h.1

theorem negI32_q (x : U32) : Faults Q (negI32 oc x) := by
  unfold negI32
  split
  · cases oc
    · exact .ok _
    · exact .error (ho rfl)
  · exact .ok _

omit ho in
theorem sortByKey_q {α κ : Type} {le : κ → κ → Bool} {key : α → M κ} (h : ∀ a, Faults Q (key a)) (l : List α) :
    Faults Q (sortByKey le key l) := by
  unfold sortByKey
  exact .ite (fun _ => .ok _) fun _ => .bind (.mapM fun a _ => .bind (h a) fun _ _ => .ok _) fun _ _ => .ok _

theorem sortRefs_q {α : Type} (off : α → Nat) (off32 : α → U32) (nm : α → Str) (s : Option Sorting) (l : List α) :
    Faults Q (sortRefs oc off off32 nm s l) := by
  unfold sortRefs
  rcases s with _ | _ | _ | _
  · exact .ok _
  · exact sortByKey_q (fun _ => .ok _) l
  · exact sortByKey_q (fun _ => negI32_q ho _) l
  · exact sortByKey_q (fun _ => .ok _) l

omit ho in
theorem sortDerived_q {α : Type} {srt : Option Sorting → List α → M (List α)} {der : α → Bool}
    (h : ∀ s l, Faults Q (srt s l)) (s : DerivableSorting) (l : List α) : Faults Q (sortDerived srt der s l) := by
  cases s with
  | unchanged s => exact h s l
  | deriveLast s => exact .bind (h _ _) fun _ _ => .bind (h _ _) fun _ _ => .ok _

theorem sortRc_q (s : RcSorting) (l : List RegisterCluster) : Faults Q (sortRc oc s l) := by
  have h : ∀ s l, Faults Q (sortDerivedRegisterCluster oc s l) := sortDerived_q (sortRefs_q ho _ _ _)
  have two : ∀ s b, Faults Q (rcSort oc l s b) := fun s b =>
    .bind (h _ _) fun _ _ => .bind (h _ _) fun _ _ => .ok _
  unfold sortRc
  split
  · exact .ok _
  · exact h _ _
  · exact two _ _
  · exact two _ _

variable {D : DimElement → Prop} (hD : ∀ d, D d → Faults Q (d.indexesAsRange oc))
  (cc : IdentifierFormat → Str → Str) (cfg : EncConfig)

include hD

omit ho in
theorem array_q {tag : String} {d : Option DimElement} {m : M Xml} (hd : ∀ x, d = some x → D x) (hm : Faults Q m) :
    Faults Q (encodeArray oc cc cfg tag d m) := by
  cases d with
  | none => exact hm
  | some d =>
    refine .bind (.bind ?_ fun _ _ => .ok _) fun _ _ => .bind hm fun _ _ => .ok _
    unfold encodeDimIndex dimIndexText
    cases d.dimIndex with
    | none => exact .ok _
    | some l =>
      refine .bind (.bind (hD d (hd d rfl)) fun r _ => ?_) fun _ _ => .ok _
      rcases r with _ | ⟨a, b⟩ <;> exact .ok _

theorem field_q {f : Field} (h : FieldParts (fun _ => True) D f) : Faults Q (encodeField oc cc cfg f) := by
  refine array_q hD cc cfg (dimPart_dim? h.2) (.bind ?_ fun _ _ => .ok _)
  have hm : Faults Q (f.info.bitRange.msb oc) := .bind (arith_q ho) fun _ _ => arith_q ho
  unfold encodeBitRange
  cases cfg.fieldBitRange.getD f.info.bitRange.rangeType with
  | bitRange => exact .bind (.bind hm fun _ _ => .ok _) fun _ _ => .ok _
  | offsetWidth => exact .ok _
  | msbLsb => exact .bind hm fun _ _ => .ok _

theorem register_q {r : Register} (h : RegisterParts (fun _ => True) D r) : Faults Q (encodeRegister oc cc cfg r) := by
  refine array_q hD cc cfg (dimPart_dim? h.2) (.bind ?_ fun _ _ => .ok _)
  unfold encodeFields
  cases hl : r.info.fields with
  | none => exact .ok _
  | some l =>
    simp only [unsorted_fields]
    refine .bind (sortDerived_q (sortRefs_q ho _ _ _) _ _) fun l' h' => .bind (.mapM fun f hf => ?_) fun _ _ => .ok _
    exact field_q ho hD cc cfg (h.1 l hl f (((C28_permutation oc).2.1 _ _ _ h').mem_iff.mp hf))

set_option linter.unusedSectionVars false in
mutual
theorem rc_q : ∀ c : RegisterCluster, RcParts (fun _ => True) D c → Faults Q (encodeRegisterCluster oc cc cfg c)
  | .register r, h => by
    simp only [RcParts] at h
    rw [encodeRegisterCluster]
    exact register_q ho hD cc cfg h
  | .cluster hd d cs, h => by
    simp only [RcParts] at h
    rw [encodeRegisterCluster]
    exact array_q hD cc cfg h.1 (.bind (rcs_q cs h.2) fun _ _ => .ok _)
theorem rcs_q : ∀ cs : List RegisterCluster, RcsParts (fun _ => True) D cs →
    Faults Q (encodeRegisterClusters oc cc cfg cs)
  | [], _ => by rw [encodeRegisterClusters]; exact .ok _
  | c :: cs, h => by
    simp only [RcsParts] at h
    rw [encodeRegisterClusters]
    exact .bind (rc_q c h.1) fun _ _ => .bind (rcs_q cs h.2) fun _ _ => .ok _
end

theorem peripheral_q {p : Peripheral} (h : PeripheralParts (fun _ => True) D p) :
    Faults Q (encodePeripheral oc cc cfg p) := by
  refine array_q hD cc cfg (dimPart_dim? h.2) (.bind ?_ fun _ _ => .ok _)
  unfold encodeRegisters
  cases hl : p.info.registers with
  | none => exact .ok _
  | some l =>
    refine .bind (sortRc_q ho _ _) fun l' h' => .bind (.mapM fun c hc => ?_) fun _ _ => .ok _
    exact rc_q ho hD cc cfg c (rcsParts_iff.mp (h.1 l hl) c (((C28_permutation oc).2.2 _ _ _ h').mem_iff.mp hc))

theorem device_q {d : Device} (h : DeviceParts (fun _ => True) D d) : Faults Q (encodeDevice oc cc cfg d) := by
  unfold encodeDevice
  refine .bind (Q := Q) ?_ fun l' h' => .bind (.mapM fun p hp => ?_) fun _ _ => .ok _
  · exact .ite (fun _ => .ok _) fun _ => sortDerived_q (sortRefs_q ho _ _ _) _ _
  · refine peripheral_q ho hD cc cfg (h p ?_)
    split at h'
    · cases h'; exact hp
    · exact ((C28_permutation oc).1 _ _ _ h').mem_iff.mp hp

end

theorem collectInts_q (d : DimElement) : ∀ l, Faults (· = .panic .indexOutOfBounds) (d.collectInts l)
  | [] => .ok _
  | i :: is => by
    rw [DimElement.collectInts]
    refine .bind ?_ fun idx _ => ?_
    · unfold DimElement.indexAt
      split
      · split
        · exact .ok _
        · exact .error rfl
      · exact .ok _
    · split
      · exact .ok _
      · refine .ite (fun _ => .ok _) fun _ => .bind (collectInts_q d is) fun o _ => ?_
        cases o <;> exact .ok _

theorem indexes_q (oc : Bool) (d : DimElement) :
    Faults (fun e => Put.Overflows oc e ∨ e = .panic .indexOutOfBounds) (d.indexesAsRange oc) := by
  unfold DimElement.indexesAsRange
  refine .bind ((collectInts_q d _).mono fun _ h => .inr h) fun o _ => ?_
  cases o with
  | none => exact .ok _
  | some l =>
    simp only
    split
    · refine .bind (Put.arith_overflows.mono fun _ h => .inl h) fun s _ =>
        .bind (Put.arith_overflows.mono fun _ h => .inl h) fun s _ => ?_
      exact .ite (fun _ => .ok _) fun _ => .ite (fun _ => .ok _) fun _ => .ok _
    · exact .ok _

mutual
theorem rcParts_true : ∀ c : RegisterCluster, RcParts (fun _ => True) (fun _ => True) c
  | .register r => by
    simp only [RcParts]
    exact ⟨fun _ _ _ _ => ⟨trivial, Put.dimPart_true _⟩, Put.dimPart_true _⟩
  | .cluster _ _ cs => by
    simp only [RcParts]
    exact ⟨fun _ _ => trivial, rcsParts_true cs⟩
theorem rcsParts_true : ∀ cs : List RegisterCluster, RcsParts (fun _ => True) (fun _ => True) cs
  | [] => by simp only [RcsParts]
  | c :: cs => by
    simp only [RcsParts]
    exact ⟨rcParts_true c, rcsParts_true cs⟩
end

theorem deviceParts_true (d : Device) : DeviceParts (fun _ => True) (fun _ => True) d := fun _ _ =>
  ⟨fun l _ => rcsParts_true l, Put.dimPart_true _⟩

end Encode

/-! ## C81 -/

/-- **C81.** A device can be written exactly if nothing in it prevents this, whatever the configuration: the range of
every list of indexes can be computed, the last bit of every field exists if the notation names it, and the offsets to be
sorted in descending order have a negation. -/
theorem C81_when (oc : Bool) (cc : IdentifierFormat → Str → Str) (cfg : EncConfig) (d : Device) :
    (∃ x, encodeDevice oc cc cfg d = .ok x) ↔ DeviceWritable oc cfg d :=
  Encode.device_when oc cc cfg d

/-- **C81** for the parts that can be written on their own. -/
theorem C81_when_parts (oc : Bool) (cc : IdentifierFormat → Str → Str) (cfg : EncConfig) :
    (∀ p, (∃ x, encodePeripheral oc cc cfg p = .ok x) ↔ PeripheralWritable oc cfg p) ∧
    (∀ c, (∃ x, encodeRegisterCluster oc cc cfg c = .ok x) ↔ RcWritable oc cfg c) ∧
    (∀ f, (∃ x, encodeField oc cc cfg f = .ok x) ↔ FieldWritable oc cfg f) ∧
    (∀ d, (∃ x, encodeDimElement oc cc cfg d = .ok x) ↔ IndexesWritable oc d) ∧
    (∀ b, (∃ x, encodeBitRange oc cfg b = .ok x) ↔ RangeWritable oc cfg b) :=
  ⟨Encode.peripheral_when oc cc cfg, Encode.rc_when oc cc cfg, Encode.field_when oc cc cfg, Encode.dim_when oc cc cfg,
    Encode.bits_when oc cfg⟩

/-- **C81.** Otherwise it panics, with an overflow (only with overflow checks) or because a list of indexes is too
short.  An error is never returned. -/
theorem C81_fault (oc : Bool) (cc : IdentifierFormat → Str → Str) (cfg : EncConfig) (d : Device) (e : Fault)
    (h : encodeDevice oc cc cfg d = .error e) :
    (oc = true ∧ e = .panic .overflow) ∨ e = .panic .indexOutOfBounds :=
  (Encode.device_q (Q := fun e => Put.Overflows oc e ∨ e = .panic .indexOutOfBounds) (fun h => .inl ⟨h, rfl⟩)
    (fun d _ => Encode.indexes_q oc d) cc cfg (Encode.deviceParts_true d)).out e h

/-- **C81.** If all lists of indexes are long enough, as in every device that was read from a document, the only fault is
an overflow, and without overflow checks there is none. -/
theorem C81_long_lists (oc : Bool) (cc : IdentifierFormat → Str → Str) (cfg : EncConfig) (d : Device)
    (hd : DeviceParts (fun _ => True) Spec.EnoughIndexes d) (e : Fault) (h : encodeDevice oc cc cfg d = .error e) :
    oc = true ∧ e = .panic .overflow :=
  (Encode.device_q (Q := Put.Overflows oc) (fun h => ⟨h, rfl⟩) (fun d hd => ⟨fun e he => by
    rcases C07_outcomes oc d hd with ⟨r, hr⟩ | ⟨ho, hr, _⟩
    · rw [hr] at he; cases he
    · rw [hr] at he; cases he; exact ⟨ho, rfl⟩⟩) cc cfg hd).out e h

/-- **C81.** Without overflow checks every device that was read from a document can be written, with every
configuration. -/
theorem C81_parsed (cc : IdentifierFormat → Str → Str) (cfg : EncConfig) (oc : Bool) (pcfg : ParseConfig)
    (doc : List Xml) (d : Device) (hd : parseDocument oc pcfg doc = .ok d) :
    ∃ x, encodeDevice false cc cfg d = .ok x := by
  cases h : encodeDevice false cc cfg d with
  | ok x => exact ⟨x, rfl⟩
  | error e =>
    obtain ⟨h, _⟩ := C81_long_lists false cc cfg d
      (deviceParts_mono (fun _ _ => trivial) (fun _ h => h) (parseDocument_parts hd)) e h
    cases h

/-! ### Examples -/

/-- A device with a bit of everything can be written with checks, in every case conversion. -/
example (cc : IdentifierFormat → Str → Str) : DeviceWritable true {} Sample.rich :=
  (C81_when true cc {} _).mp (ok_of_isOk rfl)

/-- The last bit does not exist: this depends on the notation asked for. -/
example : ¬ RangeWritable true {} ⟨0, 0, .bitRange⟩ ∧
    RangeWritable true { fieldBitRange := some .offsetWidth } ⟨0, 0, .bitRange⟩ ∧
    ¬ RangeWritable true { fieldBitRange := some .msbLsb } ⟨4294967295, 1, .offsetWidth⟩ ∧
    RangeWritable false {} ⟨0, 0, .bitRange⟩ := by
  unfold RangeWritable
  decide

/-- One element is not compared with anything. -/
example : Sortable true id (some .offsetReversed) [2 ^ 31] ∧
    ¬ Sortable true id (some .offsetReversed) [4, 2 ^ 31] ∧
    ¬ Sortable true id (some .offsetReversed) [4, 2 ^ 32 + 2 ^ 31] ∧
    Sortable true id (some .offset) [4, 2 ^ 31] := by
  unfold Sortable
  simp

/-- Both faults occur. -/
example : encodeDevice true (fun _ s => s) {} (writableDevice ⟨0, 0, .bitRange⟩ 1 ["0".toList]) =
      .error (.panic .overflow) ∧
    encodeDevice true (fun _ s => s) {} (writableDevice ⟨0, 1, .bitRange⟩ 2 ["0".toList]) =
      .error (.panic .indexOutOfBounds) :=
  ⟨(C50_conditions_needed _).1, rfl⟩

/-- A list that is too short does no harm if something before its end is not a number. -/
example : IndexesWritable true ⟨3, 4, some ["A".toList, "1".toList], none, none⟩ ∧
    ¬ IndexesWritable true ⟨3, 4, some ["0".toList, "1".toList], none, none⟩ := by
  constructor
  · exact (Encode.dim_when true (fun _ s => s) {} _).mp (ok_of_isOk rfl)
  · exact fun h => by
      obtain ⟨x, hx⟩ := (Encode.dim_when true (fun _ s => s) {} _).mpr h
      cases hx

example : DeviceParts (fun _ => True) Spec.EnoughIndexes (writableDevice ⟨0, 0, .bitRange⟩ 1 ["0".toList]) := by
  simp [writableDevice, DeviceParts, PeripheralParts, RcsParts, RcParts, RegisterParts, FieldParts,
    DimPart, MaybeArray.info, Spec.EnoughIndexes]

-- `C81_fault` and `C81_long_lists`: the faults are those of the list.
example (cc : IdentifierFormat → Str → Str) (cfg : EncConfig) (e : Fault)
    (h : encodeDevice true cc cfg (writableDevice ⟨0, 1, .bitRange⟩ 2 ["0".toList]) = .error e) :
    e = .panic .overflow ∨ e = .panic .indexOutOfBounds :=
  (C81_fault true cc cfg _ e h).imp_left And.right
example : ∃ e, encodeDevice true (fun _ s => s) {} (writableDevice ⟨0, 1, .bitRange⟩ 2 ["0".toList]) = .error e := ⟨_, rfl⟩

end Svd
