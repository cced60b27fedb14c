import Verif.Spec.Sample
import Verif.Spec.Sort
import Verif.Model.Encode
import Verif.Lemmas.Except

/-!
# C28, C29: the order in which the encoder writes
-/

namespace Svd

open Spec

theorem strLe_iff (s t : Str) : strLe s t = true ↔ TextLe s t := by
  induction s generalizing t with
  | nil => simp [strLe, TextLe]
  | cons a s ih =>
    cases t with
    | nil => simp [strLe, TextLe]
    | cons b t =>
      simp only [strLe, Bool.or_eq_true, decide_eq_true_eq, Bool.and_eq_true, beq_iff_eq, ih]
      unfold TextLe
      constructor
      · rintro (h | ⟨h, h'⟩)
        · exact .inr ⟨[], a, b, s, t, rfl, rfl, h⟩
        · obtain rfl : a = b := Char.toNat_inj.mp h
          rcases h' with ⟨r, rfl⟩ | ⟨p, x, y, s', t', rfl, rfl, hlt⟩
          · exact .inl ⟨r, rfl⟩
          · exact .inr ⟨a :: p, x, y, s', t', rfl, rfl, hlt⟩
      · rintro (⟨r, hr⟩ | ⟨p, x, y, s', t', h1, h2, hlt⟩)
        · simp only [List.cons_append, List.cons.injEq] at hr
          obtain ⟨rfl, rfl⟩ := hr
          exact .inr ⟨rfl, .inl ⟨r, rfl⟩⟩
        · cases p with
          | nil =>
            simp only [List.nil_append, List.cons.injEq] at h1 h2
            obtain ⟨rfl, rfl⟩ := h1
            obtain ⟨rfl, rfl⟩ := h2
            exact .inl hlt
          | cons c p =>
            simp only [List.cons_append, List.cons.injEq] at h1 h2
            obtain ⟨rfl, rfl⟩ := h1
            obtain ⟨rfl, rfl⟩ := h2
            exact .inr ⟨rfl, .inr ⟨p, x, y, s', t', rfl, rfl, hlt⟩⟩

theorem strLe_total (s t : Str) : (strLe s t || strLe t s) = true := by
  induction s generalizing t with
  | nil => simp [strLe]
  | cons a s ih =>
    cases t with
    | nil => simp [strLe]
    | cons b t =>
      have := ih t
      simp only [strLe, Bool.or_eq_true, decide_eq_true_eq, Bool.and_eq_true, beq_iff_eq] at *
      rcases Nat.lt_trichotomy a.toNat b.toNat with h | h | h
      · exact .inl (.inl h)
      · exact this.imp (fun x => .inr ⟨h, x⟩) (fun x => .inr ⟨h.symm, x⟩)
      · exact .inr (.inl h)

theorem strLe_trans (s t u : Str) : strLe s t = true → strLe t u = true → strLe s u = true := by
  induction s generalizing t u with
  | nil => simp [strLe]
  | cons a s ih =>
    cases t with
    | nil => simp [strLe]
    | cons b t =>
      cases u with
      | nil => simp [strLe]
      | cons c u =>
        have := ih t u
        simp only [strLe, Bool.or_eq_true, decide_eq_true_eq, Bool.and_eq_true, beq_iff_eq] at *
        rintro (h1 | ⟨h1, h1'⟩) (h2 | ⟨h2, h2'⟩)
        · exact .inl (by omega)
        · exact .inl (by omega)
        · exact .inl (by omega)
        · exact .inr ⟨by omega, this h1' h2'⟩

theorem mergeSort_stableSorted {α κ : Type} (le : κ → κ → Bool) (key : α → κ)
    (total : ∀ a b, (le a b || le b a) = true)
    (trans : ∀ a b c, le a b = true → le b c = true → le a c = true) (l : List α) :
    StableSorted (fun a b => le a b = true) key l (l.mergeSort fun a b => le (key a) (key b)) where
  perm := List.mergeSort_perm ..
  ordered := List.pairwise_mergeSort (le := fun a b => le (key a) (key b)) (fun _ _ _ => trans _ _ _) (fun _ _ => total _ _) l
  stable := by
    intro inst k
    have refl : ∀ a, le a a = true := fun a => by simpa using total a a
    have hs : (l.filter fun a => key a = k).Sublist (l.mergeSort fun a b => le (key a) (key b)) := by
      refine List.sublist_mergeSort (le := fun a b => le (key a) (key b)) (fun _ _ _ => trans _ _ _) (fun _ _ => total _ _) ?_
        List.filter_sublist
      refine List.Pairwise.imp_of_mem (R := fun _ _ => True) ?_ (by simp [List.pairwise_iff_forall_sublist])
      intro a b ha hb _
      simp only [List.mem_filter, decide_eq_true_eq] at ha hb
      rw [ha.2, hb.2]; exact refl k
    have h2 := hs.filter fun a => decide (key a = k)
    rw [List.filter_filter] at h2
    simp only [Bool.and_self] at h2
    refine (h2.eq_of_length ?_).symm
    rw [← List.countP_eq_length_filter, ← List.countP_eq_length_filter]
    exact ((List.mergeSort_perm l _).countP_eq _).symm

theorem sortByKey_ok {α κ : Type} (le : κ → κ → Bool) (key : α → M κ) (k : α → κ) (l : List α)
    (h : ∀ a ∈ l, key a = .ok (k a)) :
    sortByKey le key l = .ok (l.mergeSort fun a b => le (k a) (k b)) := by
  unfold sortByKey
  split
  · next hl =>
    match l, hl with
    | [], _ => simp
    | [a], _ => simp
  · have : (l.mapM fun a => do let k ← key a; .ok (k, a)) =
        (.ok (l.map fun a => (k a, a)) : M (List (κ × α))) := by
      rw [mapM_ok, List.map_map]
      refine List.map_congr_left fun a ha => ?_
      rw [h a ha]; rfl
    rw [this, ok_bind]
    congr 1
    have := List.map_mergeSort (r := fun a b => le (k a) (k b)) (s := fun x y => le x.1 y.1)
      (f := fun a => (k a, a)) (l := l) (fun _ _ _ _ => rfl)
    rw [← this, List.map_map]
    exact List.map_id _

theorem sortByKey_perm {α κ : Type} {le : κ → κ → Bool} {key : α → M κ} {l l' : List α}
    (h : sortByKey le key l = .ok l') : l'.Perm l := by
  unfold sortByKey at h
  split at h
  · injection h with h; subst h; exact .refl _
  · obtain ⟨keyed, h1, h2⟩ := bind_ok.mp h
    injection h2 with h2; subst h2
    have : keyed.map (·.2) = l := by
      have := mapM_ok.mp h1
      apply List.ext_getElem?
      intro i
      have e := mapM_ok_get h1 i
      rw [List.getElem?_map]
      cases hl : l[i]? with
      | none =>
        cases hk : keyed[i]? with
        | none => rfl
        | some x => rw [hl, hk] at e; simp at e
      | some a =>
        cases hk : keyed[i]? with
        | none => rw [hl, hk] at e; simp at e
        | some x =>
          rw [hl, hk] at e
          simp only [Option.map_some, Option.some.injEq] at e
          obtain ⟨k, _, e⟩ := bind_ok.mp e
          injection e with e; subst e
          rfl
    rw [← this]
    exact (List.mergeSort_perm ..).map _

/-! ## C28 -/

theorem sortRefs_spec {α : Type} (oc : Bool) (off : α → Nat) (off32 : α → U32) (nm : α → Str)
    (s : Option Sorting) (hs : s ≠ some .offsetReversed) (l : List α) :
    ∃ l', sortRefs oc off off32 nm s l = .ok l' ∧ Ordered off nm s l l' := by
  match s with
  | none => exact ⟨l, rfl, rfl⟩
  | some .offset =>
    refine ⟨_, by unfold sortRefs; exact sortByKey_ok _ _ off _ (fun _ _ => rfl), ?_⟩
    have := mergeSort_stableSorted (fun a b : Nat => decide (a ≤ b)) off
      (by intro a b; simp; omega) (by intro a b c; simp; omega) l
    exact ⟨this.perm, this.ordered.imp (by simp), this.stable⟩
  | some .name =>
    refine ⟨_, by unfold sortRefs; exact sortByKey_ok _ _ nm _ (fun _ _ => rfl), ?_⟩
    have := mergeSort_stableSorted strLe nm strLe_total strLe_trans l
    exact ⟨this.perm, this.ordered.imp (strLe_iff ..).mp, this.stable⟩
  | some .offsetReversed => exact absurd rfl hs

theorem sortRefs_perm {α : Type} {oc : Bool} {off : α → Nat} {off32 : α → U32} {nm : α → Str}
    {s : Option Sorting} {l l' : List α} (h : sortRefs oc off off32 nm s l = .ok l') : l'.Perm l := by
  unfold sortRefs at h
  split at h
  · injection h with h; subst h; exact .refl _
  all_goals exact sortByKey_perm h

theorem sortDerived_spec {α : Type} {srt : Option Sorting → List α → M (List α)} {off : α → Nat}
    {nm : α → Str} (der : α → Bool) (ds : DerivableSorting) (l : List α)
    (h : ∀ l₁ : List _, l₁.Sublist l → ∃ l', srt (sortingOf ds) l₁ = .ok l' ∧ Ordered off nm (sortingOf ds) l₁ l') :
    ∃ l', sortDerived srt der ds l = .ok l' ∧ OrderedDerivable off nm der ds l l' := by
  cases ds with
  | unchanged s => exact h l (.refl _)
  | deriveLast s =>
    obtain ⟨c, hc, hc'⟩ := h (l.filter fun a => !der a) List.filter_sublist
    obtain ⟨d, hd, hd'⟩ := h (l.filter der) List.filter_sublist
    simp only [sortingOf] at *
    refine ⟨c ++ d, by simp only [sortDerived, hc, hd, ok_bind], c, d, rfl, hc', ?_⟩
    simpa using hd'

theorem sortDerived_perm {α : Type} {srt : Option Sorting → List α → M (List α)} {der : α → Bool}
    {ds : DerivableSorting} {l l' : List α}
    (hs : ∀ s l l', srt s l = .ok l' → l'.Perm l) (h : sortDerived srt der ds l = .ok l') :
    l'.Perm l := by
  cases ds with
  | unchanged s => exact hs _ _ _ h
  | deriveLast s =>
    obtain ⟨c, hc, h⟩ := bind_ok.mp h
    obtain ⟨d, hd, h⟩ := bind_ok.mp h
    injection h with h; subst h
    have := List.filter_append_perm (fun a => !der a) l
    simp only [Bool.not_not] at this
    exact ((hs _ _ _ hc).append (hs _ _ _ hd)).trans this

/-- **C28.** Peripherals are written in the order asked for. -/
theorem C28_peripherals (oc : Bool) (s : DerivableSorting) (hs : sortingOf s ≠ some .offsetReversed)
    (l : List Peripheral) :
    ∃ l', sortDerivedPeripherals oc s l = .ok l' ∧
      OrderedDerivable (fun p => p.info.baseAddress.toNat) (fun p => p.info.name)
        (fun p => p.info.derivedFrom.isSome) s l l' :=
  sortDerived_spec _ s l fun l₁ _ => sortRefs_spec oc _ _ _ _ hs l₁

example (oc : Bool) (l : List Peripheral) : ∃ l', sortDerivedPeripherals oc (.deriveLast (some .offset)) l = .ok l' ∧
    OrderedDerivable (fun p => p.info.baseAddress.toNat) (fun p => p.info.name)
      (fun p => p.info.derivedFrom.isSome) (.deriveLast (some .offset)) l l' :=
  C28_peripherals oc (.deriveLast (some .offset)) (by decide) l

/-- **C28.** Fields are written in the order asked for. -/
theorem C28_fields (oc : Bool) (s : DerivableSorting) (hs : sortingOf s ≠ some .offsetReversed)
    (l : List Field) :
    ∃ l', sortDerivedFields oc s l = .ok l' ∧
      OrderedDerivable (fun f => f.info.bitRange.offset.toNat) (fun f => f.info.name)
        (fun f => f.info.derivedFrom.isSome ||
          f.info.enumeratedValues.any fun ev => ev.derivedFrom.isSome) s l l' :=
  sortDerived_spec _ s l fun l₁ _ => sortRefs_spec oc _ _ _ _ hs l₁

theorem isRegister_eq (c : RegisterCluster) : c.isRegister = isReg c := by cases c <;> rfl

theorem sortRc_spec (oc : Bool) (s : RcSorting) (l : List RegisterCluster)
    (h : ∀ l₁ : List _, l₁.Sublist l → ∃ l', sortRegisterCluster oc (rcSortingOf s) l₁ = .ok l' ∧
      Ordered (fun r : RegisterCluster => r.addressOffset.toNat) (fun r => r.name) (rcSortingOf s) l₁ l') :
    ∃ l', sortRc oc s l = .ok l' ∧
      OrderedRc (fun r => r.addressOffset.toNat) (fun r => r.name) (fun r => r.derivedFrom.isSome)
        s l l' := by
  have key : ∀ ds (l₁ : List RegisterCluster), l₁.Sublist l → sortingOf ds = rcSortingOf s →
      ∃ l', sortDerivedRegisterCluster oc ds l₁ = .ok l' ∧
        OrderedDerivable (fun r : RegisterCluster => r.addressOffset.toNat) (fun r => r.name)
          (fun r => r.derivedFrom.isSome) ds l₁ l' := by
    intro ds l₁ hl e
    exact sortDerived_spec _ ds l₁ fun l₂ h2 => by rw [e]; exact h l₂ (h2.trans hl)
  have hr : (fun rc : RegisterCluster => rc.isRegister) = isReg := funext isRegister_eq
  cases s with
  | unchanged ds =>
    obtain ⟨l', h1, h2⟩ := key ds l (.refl _) rfl
    refine ⟨l', ?_, h2⟩
    unfold sortRc
    split
    · next e => cases e; exact h1
    · next e => cases e; exact h1
    · next e => cases e
    · next e => cases e
  | registersFirst ds =>
    obtain ⟨a, ha, ha'⟩ := key ds (l.filter isReg) List.filter_sublist rfl
    obtain ⟨b, hb, hb'⟩ := key ds (l.filter fun c => !isReg c) List.filter_sublist rfl
    refine ⟨a ++ b, ?_, a, b, rfl, ha', hb'⟩
    simp only [sortRc, rcSort, hr, ha, hb, ok_bind, ↓reduceIte]
  | clustersFirst ds =>
    obtain ⟨a, ha, ha'⟩ := key ds (l.filter isReg) List.filter_sublist rfl
    obtain ⟨b, hb, hb'⟩ := key ds (l.filter fun c => !isReg c) List.filter_sublist rfl
    refine ⟨b ++ a, ?_, b, a, rfl, hb', by simpa using ha'⟩
    simp only [sortRc, rcSort, hr, ha, hb, ok_bind, Bool.false_eq_true, ↓reduceIte]

/-- **C28.** Registers and clusters are written in the order asked for. -/
theorem C28_registers (oc : Bool) (s : RcSorting) (hs : rcSortingOf s ≠ some .offsetReversed)
    (l : List RegisterCluster) :
    ∃ l', sortRc oc s l = .ok l' ∧
      OrderedRc (fun r => r.addressOffset.toNat) (fun r => r.name) (fun r => r.derivedFrom.isSome)
        s l l' :=
  sortRc_spec oc s l fun l₁ _ => sortRefs_spec oc _ _ _ _ hs l₁

/-- **C28.** Nothing is lost or duplicated, whatever the option. -/
theorem C28_permutation (oc : Bool) :
    (∀ s l l', sortDerivedPeripherals oc s l = .ok l' → l'.Perm l) ∧
    (∀ s l l', sortDerivedFields oc s l = .ok l' → l'.Perm l) ∧
    (∀ s l l', sortRc oc s l = .ok l' → l'.Perm l) := by
  have hrc : ∀ s l l', sortDerivedRegisterCluster oc s l = .ok l' → l'.Perm l := fun s l l' h =>
    sortDerived_perm (fun _ _ _ => sortRefs_perm) h
  refine ⟨fun s l l' h => sortDerived_perm (fun _ _ _ => sortRefs_perm) h,
    fun s l l' h => sortDerived_perm (fun _ _ _ => sortRefs_perm) h, fun s l l' h => ?_⟩
  have two : ∀ ds b, rcSort oc l ds b = .ok l' → l'.Perm l := by
    intro ds b h
    obtain ⟨x, hx, h⟩ := bind_ok.mp h
    obtain ⟨y, hy, h⟩ := bind_ok.mp h
    injection h with h; subst h
    have hp := List.filter_append_perm (fun rc : RegisterCluster => rc.isRegister) l
    have := ((hrc _ _ _ hx).append (hrc _ _ _ hy)).trans hp
    split
    · exact this
    · exact List.perm_append_comm.trans this
  unfold sortRc at h
  split at h
  · injection h with h; subst h; exact .refl _
  · exact hrc _ _ _ h
  · exact two _ _ h
  · exact two _ _ h

/-! ## C29 -/

theorem toInt_small {x : U32} (h : x.toNat < 2 ^ 31) : x.toInt = x.toNat := by
  rw [BitVec.toInt_eq_toNat_cond, if_pos (by omega)]

theorem toInt_large {x : U32} (h : 2 ^ 31 ≤ x.toNat) : x.toInt = x.toNat - 2 ^ 32 := by
  rw [BitVec.toInt_eq_toNat_cond, if_neg (by omega)]; rfl

theorem negI32_small (oc : Bool) {x : U32} (h : x.toNat < 2 ^ 31) : negI32 oc x = .ok (-x.toNat) := by
  unfold negI32
  rw [toInt_small h, if_neg (by omega)]

/-- Reversed sorting works as long as all offsets are below `2 ^ 31`. -/
theorem sortRefs_reversed {α : Type} (oc : Bool) (off : α → Nat) (off32 : α → U32) (nm : α → Str)
    (l : List α) (h : ∀ a ∈ l, off a < 2 ^ 31 ∧ (off32 a).toNat = off a) :
    ∃ l', sortRefs oc off off32 nm (some .offsetReversed) l = .ok l' ∧
      Ordered off nm (some .offsetReversed) l l' := by
  have e : sortRefs oc off off32 nm (some .offsetReversed) l =
      .ok (l.mergeSort fun a b => decide (-(off a : Int) ≤ -(off b : Int))) := by
    unfold sortRefs
    refine sortByKey_ok _ _ (fun a => -(off a : Int)) l fun a ha => ?_
    obtain ⟨h1, h2⟩ := h a ha
    rw [negI32_small oc (by omega), h2]
  refine ⟨_, e, ?_⟩
  · have := mergeSort_stableSorted (fun a b : Int => decide (a ≤ b)) (fun a => -(off a : Int))
      (by intro a b; simp; omega) (by intro a b c; simp; omega) l
    refine ⟨this.perm, this.ordered.imp fun {a b} h => ?_, ?_⟩
    · simp only [decide_eq_true_eq] at h
      omega
    · intro _ k
      have := this.stable (-(k : Int))
      have e : ∀ a, (-(off a : Int) = -(k : Int)) ↔ off a = k := fun a => by omega
      simp only [e] at this
      exact this

theorem setWidth_small {x : U64} (h : x.toNat < 2 ^ 31) : (x.setWidth 32).toNat = x.toNat := by
  simp; omega

theorem ordered_or_reversed {α : Type} (oc : Bool) (off : α → Nat) (off32 : α → U32) (nm : α → Str)
    (s : Option Sorting) (l : List α) (h : ∀ a ∈ l, off a < 2 ^ 31 ∧ (off32 a).toNat = off a) :
    ∃ l', sortRefs oc off off32 nm s l = .ok l' ∧ Ordered off nm s l l' := by
  by_cases hs : s = some .offsetReversed
  · subst hs; exact sortRefs_reversed oc off off32 nm l h
  · exact sortRefs_spec oc off off32 nm s hs l

/-- **C29**, the part that holds: with all addresses and offsets below `2 ^ 31` every sorting option,
reversed offset included, gives the order asked for. -/
theorem C29_below_2_31_partial (oc : Bool) :
    (∀ s l, (∀ p ∈ l, p.info.baseAddress.toNat < 2 ^ 31) →
      ∃ l', sortDerivedPeripherals oc s l = .ok l' ∧
        OrderedDerivable (fun p => p.info.baseAddress.toNat) (fun p => p.info.name)
          (fun p => p.info.derivedFrom.isSome) s l l') ∧
    (∀ s l, (∀ f ∈ l, f.info.bitRange.offset.toNat < 2 ^ 31) →
      ∃ l', sortDerivedFields oc s l = .ok l' ∧
        OrderedDerivable (fun f => f.info.bitRange.offset.toNat) (fun f => f.info.name)
          (fun f => f.info.derivedFrom.isSome ||
            f.info.enumeratedValues.any fun ev => ev.derivedFrom.isSome) s l l') ∧
    (∀ s l, (∀ r ∈ l, r.addressOffset.toNat < 2 ^ 31) →
      ∃ l', sortRc oc s l = .ok l' ∧
        OrderedRc (fun r => r.addressOffset.toNat) (fun r => r.name)
          (fun r => r.derivedFrom.isSome) s l l') := by
  refine ⟨fun s l h => sortDerived_spec _ s l fun l₁ h1 => ?_,
    fun s l h => sortDerived_spec _ s l fun l₁ h1 => ?_,
    fun s l h => sortRc_spec oc s l fun l₁ h1 => ?_⟩
  · exact ordered_or_reversed oc _ _ _ _ l₁ fun a ha =>
      ⟨h a (h1.subset ha), setWidth_small (h a (h1.subset ha))⟩
  · exact ordered_or_reversed oc _ _ _ _ l₁ fun a ha => ⟨h a (h1.subset ha), rfl⟩
  · exact ordered_or_reversed oc _ _ _ _ l₁ fun a ha => ⟨h a (h1.subset ha), rfl⟩

example (oc : Bool) : ∃ l', sortDerivedPeripherals oc (.unchanged (some .offsetReversed))
    [.single (Sample.peripheralInfo "A" 0x1000), .single (Sample.peripheralInfo "B" 0x7fffffff)] = .ok l' :=
  let ⟨l', h, _⟩ := (C29_below_2_31_partial oc).1 (.unchanged (some .offsetReversed))
    [.single (Sample.peripheralInfo "A" 0x1000), .single (Sample.peripheralInfo "B" 0x7fffffff)] (by decide)
  ⟨l', h⟩

theorem sortRefs_reversed_pair {α : Type} (oc : Bool) (off : α → Nat) (off32 : α → U32) (nm : α → Str)
    (a b : α) (ha : (off32 a).toNat < 2 ^ 31) (hb : 2 ^ 31 < (off32 b).toNat) :
    sortRefs oc off off32 nm (some .offsetReversed) [b, a] = .ok [a, b] := by
  have hb' : negI32 oc (off32 b) = .ok (2 ^ 32 - (off32 b).toNat) := by
    unfold negI32
    have := toInt_large (x := off32 b) (by omega)
    rw [this, if_neg (by omega)]
    congr 1; omega
  have ha' := negI32_small oc ha
  have hlt := (off32 b).isLt
  unfold sortRefs sortByKey
  simp only [List.length_cons, List.length_nil, Nat.reduceAdd, Nat.lt_irrefl, ↓reduceIte, mapM_cons,
    mapM_nil, ha', hb', ok_bind]
  congr 1
  rw [List.mergeSort]
  simp [List.MergeSort.Internal.splitInTwo, List.merge]
  rw [if_neg (by omega)]
  rfl

/-- **C29**, violated: an offset above `2 ^ 31` is written after one below it. -/
theorem C29_violated (oc : Bool) :
    (∀ a b : Peripheral, (a.info.baseAddress.setWidth 32).toNat < 2 ^ 31 →
      2 ^ 31 < (b.info.baseAddress.setWidth 32).toNat →
      sortDerivedPeripherals oc (.unchanged (some .offsetReversed)) [b, a] = .ok [a, b]) ∧
    (∀ a b : RegisterCluster, a.addressOffset.toNat < 2 ^ 31 → 2 ^ 31 < b.addressOffset.toNat →
      sortRc oc (.unchanged (.unchanged (some .offsetReversed))) [b, a] = .ok [a, b]) ∧
    (∀ a b : Field, a.info.bitRange.offset.toNat < 2 ^ 31 → 2 ^ 31 < b.info.bitRange.offset.toNat →
      sortDerivedFields oc (.unchanged (some .offsetReversed)) [b, a] = .ok [a, b]) :=
  ⟨fun a b ha hb => by
      unfold sortDerivedPeripherals sortDerived sortPeripherals
      exact sortRefs_reversed_pair oc _ _ _ a b ha hb,
    fun a b ha hb => by
      unfold sortRc sortDerivedRegisterCluster sortDerived sortRegisterCluster
      exact sortRefs_reversed_pair oc _ _ _ a b ha hb,
    fun a b ha hb => by
      unfold sortDerivedFields sortDerived sortFields
      exact sortRefs_reversed_pair oc _ _ _ a b ha hb⟩

theorem sortRefs_reversed_panic {α : Type} (off : α → Nat) (off32 : α → U32) (nm : α → Str)
    (l : List α) (hl : 2 ≤ l.length) (a : α) (ha : a ∈ l) (h : (off32 a).toNat = 2 ^ 31) :
    sortRefs true off off32 nm (some .offsetReversed) l = .error (.panic .overflow) := by
  have hp : negI32 true (off32 a) = .error (.panic .overflow) := by
    unfold negI32
    rw [toInt_large (by omega), h, if_pos (by omega)]
    rfl
  unfold sortRefs sortByKey
  simp only
  rw [if_neg (by omega)]
  cases hm : (l.mapM fun a => do let k ← negI32 true (off32 a); .ok (k, a) : M (List (Int × α))) with
  | ok r =>
    obtain ⟨b, _, hb⟩ := mapM_ok_mem hm ha
    rw [hp] at hb; cases hb
  | error e =>
    obtain ⟨b, _, hb⟩ := mapM_error hm
    rcases bind_error.mp hb with hb | ⟨_, _, hb⟩
    · unfold negI32 at hb
      split at hb
      · injection hb with hb; rw [← hb]; rfl
      · cases hb
    · cases hb

/-- **C29**, violated: with an address or offset of exactly `2 ^ 31` in a list of at least two
elements, reversed sorting panics in overflow-checked builds. -/
theorem C29_panics :
    (∀ (l : List Peripheral) p, p ∈ l → 2 ≤ l.length → p.info.baseAddress.toNat = 2 ^ 31 →
      sortDerivedPeripherals true (.unchanged (some .offsetReversed)) l =
        .error (.panic .overflow)) ∧
    (∀ (l : List RegisterCluster) r, r ∈ l → 2 ≤ l.length → r.addressOffset.toNat = 2 ^ 31 →
      sortRc true (.unchanged (.unchanged (some .offsetReversed))) l = .error (.panic .overflow)) := by
  constructor
  · intro l p hp hl h
    unfold sortDerivedPeripherals sortDerived sortPeripherals
    exact sortRefs_reversed_panic _ _ _ l hl p hp (by simp [h])
  · intro l r hr hl h
    unfold sortRc sortDerivedRegisterCluster sortDerived sortRegisterCluster
    exact sortRefs_reversed_panic _ _ _ l hl r hr h

/-- A field used by the examples. -/
def sortField (n : String) (o : U32) (d : Option Str) : Field :=
  .single ⟨n.toList, none, ⟨o, 1, .bitRange⟩, none, none, none, none, [], d⟩

example : sortDerivedFields true (.deriveLast (some .name))
    [sortField "C" 0 none, sortField "A" 1 (some ['C']), sortField "B" 2 none] =
    .ok [sortField "B" 2 none, sortField "C" 0 none, sortField "A" 1 (some ['C'])] := by
  simp [sortDerivedFields, sortDerived, sortFields, sortRefs, sortByKey, fieldDerived, sortField,
    List.mergeSort,
    List.MergeSort.Internal.splitInTwo, List.merge, MaybeArray.info, strLe]
example : sortDerivedFields true (.unchanged (some .offsetReversed))
    [sortField "A" 1 none, sortField "B" 2 none, sortField "C" 1 none] =
    .ok [sortField "B" 2 none, sortField "A" 1 none, sortField "C" 1 none] := by
  simp [sortDerivedFields, sortDerived, sortFields, sortRefs, sortByKey, sortField, List.mergeSort,
    List.MergeSort.Internal.splitInTwo, List.merge, MaybeArray.info, negI32]
example (oc : Bool) : sortDerivedFields oc (.unchanged (some .offsetReversed))
    [sortField "B" 0x80000001 none, sortField "A" 1 none] =
    .ok [sortField "A" 1 none, sortField "B" 0x80000001 none] :=
  (C29_violated oc).2.2 _ _ (by decide) (by decide)

-- The hypotheses of `C28_fields`, `C28_registers` and `C28_permutation` can be met.
example (oc : Bool) : ∃ l', sortDerivedFields oc (.deriveLast (some .name))
    [sortField "C" 0 none, sortField "A" 1 (some ['C']), sortField "B" 2 none] = .ok l' ∧
    l'.Perm [sortField "C" 0 none, sortField "A" 1 (some ['C']), sortField "B" 2 none] := by
  obtain ⟨l', h, _⟩ := C28_fields oc (.deriveLast (some .name)) (by decide)
    [sortField "C" 0 none, sortField "A" 1 (some ['C']), sortField "B" 2 none]
  exact ⟨l', h, (C28_permutation oc).2.1 _ _ _ h⟩
example (oc : Bool) : ∃ l', sortRc oc (.clustersFirst (.unchanged (some .name)))
    [.register (.single (Sample.registerInfo "B" 0)), .cluster (Sample.clusterHead "A" 4) none []] = .ok l' ∧
    l'.length = 2 := by
  obtain ⟨l', h, _⟩ := C28_registers oc (.clustersFirst (.unchanged (some .name))) (by decide)
    [.register (.single (Sample.registerInfo "B" 0)), .cluster (Sample.clusterHead "A" 4) none []]
  exact ⟨l', h, ((C28_permutation oc).2.2 _ _ _ h).length_eq⟩

end Svd
