import Verif.Spec.Sample
import Verif.Spec.Written
import Verif.Model.Encode
import Verif.Props.Sort
import Verif.Props.Dim
import Verif.Props.Expanded
import Verif.Lemmas.Subst

/-!
# C65: what is written
-/

namespace Svd.Written

open Spec Svd

/-! ## Number formats -/

/-- The digits of the alphabet are those printed. -/
structure Prints (D : Char → Nat → Prop) (r : Nat) (f : Char → Char) : Prop where
  radix : 1 < r
  digit : ∀ c d, D c d ↔ d < r ∧ c = f (Nat.digitChar d)
  zero : ∀ d, d < r → (f (Nat.digitChar d) = '0' ↔ d = 0)

section
variable {D : Char → Nat → Prop} {r : Nat} {f : Char → Char} (hp : Prints D r f)
include hp

theorem digits_of {s : Str} {n : Nat} (h : Positional D r s n) :
    ∃ k, s = List.replicate k '0' ++ (Nat.toDigits r n).map f := by
  have hr := hp.radix
  induction h with
  | one hd =>
    obtain ⟨h1, rfl⟩ := (hp.digit _ _).mp hd
    exact ⟨0, by rw [Nat.toDigits_eq_if hr, if_pos h1]; rfl⟩
  | @snoc s n c d _ hd ih =>
    obtain ⟨k, rfl⟩ := ih
    obtain ⟨h1, rfl⟩ := (hp.digit _ _).mp hd
    rcases Nat.eq_zero_or_pos n with rfl | hn
    · refine ⟨k + 1, ?_⟩
      have h0 : (Nat.toDigits r 0).map f = ['0'] := by
        rw [Nat.toDigits_eq_if hr, if_pos (by omega)]
        simpa using (hp.zero 0 (by omega)).mpr rfl
      rw [Nat.zero_mul, Nat.zero_add, h0, Nat.toDigits_eq_if hr, if_pos h1, List.replicate_succ']
      rfl
    · refine ⟨k, ?_⟩
      have hge : ¬ n * r + d < r := by
        have : 1 * r ≤ n * r := Nat.mul_le_mul_right _ hn
        omega
      rw [Nat.toDigits_eq_if hr (n := n * r + d), if_neg hge]
      have e1 : (n * r + d) / r = n := by
        rw [Nat.add_comm, Nat.add_mul_div_right _ _ (by omega), Nat.div_eq_of_lt h1, Nat.zero_add]
      have e2 : (n * r + d) % r = d := by
        rw [Nat.add_comm, Nat.add_mul_mod_self_right, Nat.mod_eq_of_lt h1]
      rw [e1, e2, List.map_append, List.append_assoc]
      rfl

theorem digits_are (k n : Nat) : Positional D r (List.replicate k '0' ++ (Nat.toDigits r n).map f) n :=
  Positional.zeros ((hp.digit _ _).mpr ⟨by have := hp.radix; omega, ((hp.zero 0 (by have := hp.radix; omega)).mpr rfl).symm⟩) k
    (positional_map_toDigits f hp.radix (fun d h => (hp.digit _ _).mpr ⟨h, rfl⟩) n)

theorem shortest_digits (n : Nat) : Shortest ((Nat.toDigits r n).map f) := by
  have hr := hp.radix
  have key : ∀ n, 0 < n → ∃ c t, (Nat.toDigits r n).map f = c :: t ∧ c ≠ '0' := by
    intro n
    induction n using Nat.strongRecOn with
    | ind n ih =>
      intro hn
      rw [Nat.toDigits_eq_if hr]
      split
      · rename_i h
        exact ⟨_, [], rfl, fun e => by have := (hp.zero n h).mp e; omega⟩
      · rename_i h
        obtain ⟨c, t, e, hc⟩ := ih (n / r) (Nat.div_lt_self hn hr) (Nat.div_pos (by omega) (by omega))
        exact ⟨c, t ++ [f (Nat.digitChar (n % r))], by rw [List.map_append, e]; rfl, hc⟩
  intro t ht
  rcases Nat.eq_zero_or_pos n with rfl | hn
  · rw [Nat.toDigits_eq_if hr, if_pos (by omega)] at ht
    injection ht with _ ht; exact ht.symm
  · obtain ⟨c, t', e, hc⟩ := key n hn
    rw [e] at ht; injection ht with h1 _; exact absurd h1 hc

theorem digits_ne (n : Nat) : (Nat.toDigits r n).map f ≠ [] := by
  exact (positional_iff.mp (digits_are hp 0 n)).1

theorem shortest_iff {s : Str} {n : Nat} :
    (Positional D r s n ∧ Shortest s) ↔ s = (Nat.toDigits r n).map f := by
  constructor
  · rintro ⟨h, hs⟩
    obtain ⟨k, rfl⟩ := digits_of hp h
    cases k with
    | zero => rfl
    | succ k =>
      have := hs _ rfl
      exact absurd (List.append_eq_nil_iff.mp this).2 (digits_ne hp n)
  · rintro rfl
    exact ⟨by simpa using digits_are hp 0 n, shortest_digits hp n⟩

theorem atLeast_iff {s : Str} {n k : Nat} :
    (Positional D r s n ∧ AtLeast k s) ↔
      s = List.replicate (k - ((Nat.toDigits r n).map f).length) '0' ++ (Nat.toDigits r n).map f := by
  constructor
  · rintro ⟨h, hs | ⟨hl, hs⟩⟩
    · obtain ⟨j, rfl⟩ := digits_of hp h
      simp only [List.length_append, List.length_replicate] at hs
      have : j = k - ((Nat.toDigits r n).map f).length := by omega
      rw [← this]
    · have := (shortest_iff hp).mp ⟨h, hs⟩
      subst this
      have : k - ((Nat.toDigits r n).map f).length = 0 := by omega
      rw [this]; rfl
  · rintro rfl
    refine ⟨digits_are hp _ n, ?_⟩
    by_cases h : k < ((Nat.toDigits r n).map f).length
    · have : k - ((Nat.toDigits r n).map f).length = 0 := by omega
      rw [this]
      exact .inr ⟨h, shortest_digits hp n⟩
    · refine .inl ?_
      rw [List.length_append, List.length_replicate]
      omega
end

theorem prints {alphabet : String} {f : Char → Char} {r : Nat} (hl : alphabet.toList.length = r) (hr : 1 < r)
    (h : ∀ d < r, alphabet.toList[d]? = some (f (Nat.digitChar d)))
    (h0 : ∀ d < r, (f (Nat.digitChar d) = '0' ↔ d = 0)) : Prints (digitOf alphabet) r f where
  radix := hr
  digit c d := by
    constructor
    · intro hc
      have hd : d < r := by
        have := (List.getElem?_eq_some_iff.mp hc).1
        omega
      have := h d hd
      rw [digitOf, this] at hc
      injection hc with hc
      exact ⟨hd, hc.symm⟩
    · rintro ⟨hd, rfl⟩
      exact h d hd
  zero := h0

theorem prints_dec : Prints (digitOf "0123456789") 10 id := prints (by decide) (by decide) (by decide) (by decide)
theorem prints_bin : Prints (digitOf "01") 2 id := prints (by decide) (by decide) (by decide) (by decide)
theorem prints_lower : Prints (digitOf lower) 16 id := prints (by decide) (by decide) (by decide) (by decide)
theorem prints_upper : Prints (digitOf upper) 16 upperHexDigit :=
  prints (by decide) (by decide) (by decide) (by decide)

theorem withPrefix_eq (k : Nat) (a b : Char) (t : Str) :
    withPrefix k [a, b] t = a :: b :: (List.replicate (k - 2 - t.length) '0' ++ t) := by
  simp [withPrefix]

theorem inFormat_iff {w : Nat} (f : NumberFormat) (v : BitVec w) (s : Str) :
    InFormat f v.toNat s ↔ s = formatNumber v f := by
  have hb : "0b".toList = ['0', 'b'] := rfl
  have hx : "0x".toList = ['0', 'x'] := rfl
  have D : ∀ {s n}, (Digits "0123456789" s n ∧ Shortest s) ↔ s = Nat.toDigits 10 n := fun {s n} => by
    have := shortest_iff prints_dec (s := s) (n := n)
    rwa [List.map_id] at this
  have B : ∀ {s n}, (Digits "01" s n ∧ Shortest s) ↔ s = Nat.toDigits 2 n := fun {s n} => by
    have := shortest_iff prints_bin (s := s) (n := n)
    rwa [List.map_id] at this
  have U : ∀ {s n}, (Digits upper s n ∧ Shortest s) ↔ s = upperHexDigits n := shortest_iff prints_upper
  have L : ∀ {s n}, (Digits lower s n ∧ Shortest s) ↔ s = lowerHexDigits n := fun {s n} => by
    have := shortest_iff prints_lower (s := s) (n := n)
    rwa [List.map_id] at this
  have Uk : ∀ {s n k}, (Digits upper s n ∧ AtLeast k s) ↔
      s = List.replicate (k - (upperHexDigits n).length) '0' ++ upperHexDigits n := atLeast_iff prints_upper
  have Lk : ∀ {s n k}, (Digits lower s n ∧ AtLeast k s) ↔
      s = List.replicate (k - (lowerHexDigits n).length) '0' ++ lowerHexDigits n := fun {s n k} => by
    have := atLeast_iff prints_lower (s := s) (n := n) (k := k)
    rwa [List.map_id] at this
  constructor
  · intro h
    cases h with
    | dec h1 h2 => exact D.mp ⟨h1, h2⟩
    | bin h1 h2 => rw [B.mp ⟨h1, h2⟩]; simp only [formatNumber, hb, withPrefix_eq]; simp
    | upperHex h1 h2 => rw [U.mp ⟨h1, h2⟩]; simp only [formatNumber, hx, withPrefix_eq]; simp
    | lowerHex h1 h2 => rw [L.mp ⟨h1, h2⟩]; simp only [formatNumber, hx, withPrefix_eq]; simp
    | upperHex8 h1 h2 => rw [Uk.mp ⟨h1, h2⟩]; simp only [formatNumber, hx, withPrefix_eq, Nat.reduceSub]
    | lowerHex8 h1 h2 => rw [Lk.mp ⟨h1, h2⟩]; simp only [formatNumber, hx, withPrefix_eq, Nat.reduceSub]
    | upperHex16 h1 h2 =>
      rw [Uk.mp ⟨h1, h2⟩]; simp only [formatNumber, hx, withPrefix_eq, Nat.reduceSub]
      by_cases hn : v.toNat < 2 ^ 32
      · rw [if_pos hn, if_neg (by omega)]
      · rw [if_neg hn, if_pos (by omega)]
    | lowerHex16 h1 h2 =>
      rw [Lk.mp ⟨h1, h2⟩]; simp only [formatNumber, hx, withPrefix_eq, Nat.reduceSub]
      by_cases hn : v.toNat < 2 ^ 32
      · rw [if_pos hn, if_neg (by omega)]
      · rw [if_neg hn, if_pos (by omega)]
  · rintro rfl
    cases f with
    | dec => have := D.mpr (rfl : Nat.toDigits 10 v.toNat = _); exact .dec this.1 this.2
    | bin =>
      simp only [formatNumber, hb, withPrefix_eq]
      have := B.mpr (rfl : Nat.toDigits 2 v.toNat = _)
      simpa using InFormat.bin this.1 this.2
    | upperHex =>
      simp only [formatNumber, hx, withPrefix_eq]
      have := U.mpr (rfl : upperHexDigits v.toNat = _)
      simpa using InFormat.upperHex this.1 this.2
    | lowerHex =>
      simp only [formatNumber, hx, withPrefix_eq]
      have := L.mpr (rfl : lowerHexDigits v.toNat = _)
      simpa using InFormat.lowerHex this.1 this.2
    | upperHex8 =>
      simp only [formatNumber, hx, withPrefix_eq, Nat.reduceSub]
      have := (@Uk _ v.toNat (8)).mpr rfl
      exact .upperHex8 this.1 this.2
    | lowerHex8 =>
      simp only [formatNumber, hx, withPrefix_eq, Nat.reduceSub]
      have := (@Lk _ v.toNat (8)).mpr rfl
      exact .lowerHex8 this.1 this.2
    | upperHex16 =>
      simp only [formatNumber, hx, withPrefix_eq, Nat.reduceSub]
      have := (@Uk _ v.toNat (if v.toNat < 2 ^ 32 then 8 else 16)).mpr rfl
      have := InFormat.upperHex16 this.1 this.2
      by_cases hn : v.toNat < 2 ^ 32
      · rw [if_pos hn] at this; rwa [if_neg (by omega)]
      · rw [if_neg hn] at this; rwa [if_pos (by omega)]
    | lowerHex16 =>
      simp only [formatNumber, hx, withPrefix_eq, Nat.reduceSub]
      have := (@Lk _ v.toNat (if v.toNat < 2 ^ 32 then 8 else 16)).mpr rfl
      have := InFormat.lowerHex16 this.1 this.2
      by_cases hn : v.toNat < 2 ^ 32
      · rw [if_pos hn] at this; rwa [if_neg (by omega)]
      · rw [if_neg hn] at this; rwa [if_pos (by omega)]

theorem renamed_iff (cc : IdentifierFormat → Str → Str) (f : Option IdentifierFormat) (s s' : Str) :
    Renamed cc f s s' ↔ s' = changeCase cc s f := by
  cases f with
  | none => rfl
  | some f =>
    simp only [Renamed, changeCase]
    rw [← replaceStr_iff (by decide)]
    exact eq_comm

/-! ## The order of elements -/

/-- An ordered list is determined by what it has for each key. -/
theorem sorted_unique {α κ : Type} [DecidableEq κ] {le : κ → κ → Prop} {key : α → κ}
    (anti : ∀ a b, le a b → le b a → a = b) {l m : List α}
    (hl : l.Pairwise fun a b => le (key a) (key b)) (hm : m.Pairwise fun a b => le (key a) (key b))
    (h : ∀ k, l.filter (fun a => key a = k) = m.filter (fun a => key a = k)) : l = m := by
  induction l generalizing m with
  | nil =>
    cases m with
    | nil => rfl
    | cons y m => have := h (key y); simp at this
  | cons x l ih =>
    cases m with
    | nil => have := h (key x); simp at this
    | cons y m =>
      have hxy : key x = key y := by
        have hx : x ∈ y :: m := by
          have : x ∈ (y :: m).filter (fun a => key a = key x) := by rw [← h]; simp
          exact (List.mem_filter.mp this).1
        have hy : y ∈ x :: l := by
          have : y ∈ (x :: l).filter (fun a => key a = key y) := by rw [h]; simp
          exact (List.mem_filter.mp this).1
        rcases List.mem_cons.mp hx with rfl | hx
        · rfl
        rcases List.mem_cons.mp hy with rfl | hy
        · rfl
        exact anti _ _ ((List.pairwise_cons.mp hl).1 y hy) ((List.pairwise_cons.mp hm).1 x hx)
      obtain rfl : x = y := by
        have := h (key x)
        simp only [List.filter_cons, hxy, decide_true, if_true] at this
        injection this
      congr 1
      refine ih (List.pairwise_cons.mp hl).2 (List.pairwise_cons.mp hm).2 fun k => ?_
      have := h k
      simp only [List.filter_cons] at this
      split at this
      · injection this
      · exact this

theorem stableSorted_unique {α κ : Type} [DecidableEq κ] {le : κ → κ → Prop} {key : α → κ}
    (anti : ∀ a b, le a b → le b a → a = b) {l a b : List α}
    (ha : StableSorted le key l a) (hb : StableSorted le key l b) : a = b :=
  sorted_unique anti ha.ordered hb.ordered fun k => (ha.stable k).trans (hb.stable k).symm

theorem textLe_anti (s t : Str) (h1 : TextLe s t) (h2 : TextLe t s) : s = t := by
  rw [← strLe_iff] at h1 h2
  induction s generalizing t with
  | nil => cases t with
    | nil => rfl
    | cons b t => simp [strLe] at h2
  | cons a s ih =>
    cases t with
    | nil => simp [strLe] at h1
    | cons b t =>
      simp only [strLe, Bool.or_eq_true, decide_eq_true_eq, Bool.and_eq_true, beq_iff_eq] at h1 h2
      have e : a.toNat = b.toNat := by omega
      have := Char.toNat_inj.mp e
      subst this
      rw [ih t (by rcases h1 with h | h; omega; exact h.2) (by rcases h2 with h | h; omega; exact h.2)]

theorem rank_neg (oc : Bool) (x : U32) (n : Nat) (h : x.toNat = n % 2 ^ 32)
    (hn : oc = true → n % 2 ^ 32 ≠ 2 ^ 31) : negI32 oc x = .ok (-rank n) := by
  unfold negI32 rank
  by_cases h1 : x.toNat < 2 ^ 31
  · rw [toInt_small h1, if_neg (by omega), if_pos (by omega), h]
  · rw [toInt_large (by omega)]
    by_cases h2 : x.toNat = 2 ^ 31
    · rw [if_pos (by omega), ← h, h2]
      cases oc with
      | true => exact absurd (h ▸ h2) (hn rfl)
      | false => rfl
    · rw [if_neg (by omega), if_neg (by omega), h]

theorem sortRefs_iff {α : Type} (oc : Bool) (off : α → Nat) (off32 : α → U32) (nm : α → Str)
    (ho : ∀ a, (off32 a).toNat = off a % 2 ^ 32) (s : Option Sorting) (l l' : List α) :
    sortRefs oc off off32 nm s l = .ok l' ↔ Placed oc off nm s l l' := by
  have uniq : ∀ {l₀}, sortRefs oc off off32 nm s l = .ok l₀ → Placed oc off nm s l l₀ →
      (sortRefs oc off off32 nm s l = .ok l' ↔ Placed oc off nm s l l') := by
    intro l₀ h1 h2
    rw [h1]
    constructor
    · intro h; injection h with h; exact h ▸ h2
    · intro h
      congr 1
      match s, h, h2 with
      | none, h, h2 => exact h2.trans h.symm
      | some .offset, h, h2 => exact stableSorted_unique (fun a b => Nat.le_antisymm) h2 h
      | some .name, h, h2 => exact stableSorted_unique textLe_anti h2 h
      | some .offsetReversed, h, h2 =>
        exact stableSorted_unique (fun a b h1 h2 => Int.le_antisymm h2 h1) h2.1 h.1
  by_cases hs : s = some .offsetReversed
  · subst hs
    by_cases hc : oc = true → 2 ≤ l.length → ∀ a ∈ l, off a % 2 ^ 32 ≠ 2 ^ 31
    · have e : sortRefs oc off off32 nm (some .offsetReversed) l =
          .ok (l.mergeSort fun a b => decide (-rank (off a) ≤ -rank (off b))) := by
        by_cases hl : 2 ≤ l.length
        · unfold sortRefs
          exact sortByKey_ok _ _ (fun a => -rank (off a)) l fun a ha =>
            rank_neg oc _ _ (ho a) fun h => hc h hl a ha
        · unfold sortRefs sortByKey
          simp only
          rw [if_pos (by omega)]
          match l, hl with
          | [], _ => simp
          | [a], _ => simp
          | a :: b :: t, hl => simp at hl
      refine uniq e ⟨?_, hc⟩
      have := mergeSort_stableSorted (fun a b : Int => decide (a ≤ b)) (fun a => -rank (off a))
        (by intro a b; simp; omega) (by intro a b c; simp; omega) l
      refine ⟨this.perm, this.ordered.imp fun {a b} h => ?_, ?_⟩
      · simp only [decide_eq_true_eq] at h
        simp only [ge_iff_le]
        omega
      · intro _ k
        have := this.stable (-k)
        have e : ∀ a, (-rank (off a) = -k) ↔ rank (off a) = k := fun a => by omega
        simp only [e] at this
        exact this
    · constructor
      · intro h
        exfalso
        apply hc
        intro hoc hl a ha e
        subst hoc
        rw [sortRefs_reversed_panic off off32 nm l hl a ha ((ho a).trans e)] at h
        cases h
      · exact fun h => absurd h.2 hc
  · obtain ⟨l₀, h1, h2⟩ := sortRefs_spec oc off off32 nm s hs l
    refine uniq h1 ?_
    match s, hs, h2 with
    | none, _, h2 => exact h2
    | some .offset, _, h2 => exact h2
    | some .name, _, h2 => exact h2
    | some .offsetReversed, hs, _ => exact absurd rfl hs

theorem sortDerived_iff {α : Type} (oc : Bool) (off : α → Nat) (off32 : α → U32) (nm : α → Str)
    (ho : ∀ a, (off32 a).toNat = off a % 2 ^ 32) (der : α → Bool) (P : α → Prop) [DecidablePred P]
    (hd : ∀ a, der a = true ↔ P a) (s : DerivableSorting) (l l' : List α) :
    sortDerived (sortRefs oc off off32 nm) der s l = .ok l' ↔ PlacedDerivable oc off nm P s l l' := by
  have e1 : (fun a => decide (P a)) = der := funext fun a => by
    rw [Bool.eq_iff_iff, hd, decide_eq_true_iff]
  have e2 : (fun a => decide (¬ P a)) = fun a => !der a := funext fun a => by
    rw [Bool.eq_iff_iff]; simp [← hd]
  cases s with
  | unchanged s => exact sortRefs_iff oc off off32 nm ho s l l'
  | deriveLast s =>
    simp only [sortDerived, bind_ok, sortRefs_iff oc off off32 nm ho, PlacedDerivable, e1, e2]
    constructor
    · rintro ⟨a, ha, b, hb, h⟩; injection h with h; exact ⟨a, b, h.symm, ha, hb⟩
    · rintro ⟨a, b, rfl, ha, hb⟩; exact ⟨a, ha, b, hb, rfl⟩

theorem isSome_ne {α : Type} (o : Option α) : o.isSome = true ↔ o ≠ none := by cases o <;> simp

theorem peripherals_iff (oc : Bool) (s : DerivableSorting) (l l' : List Peripheral) :
    sortDerivedPeripherals oc s l = .ok l' ↔
      PlacedDerivable oc (fun p : Peripheral => p.info.baseAddress.toNat)
        (fun p => p.info.name) (fun p => p.info.derivedFrom ≠ none) s l l' :=
  sortDerived_iff oc _ _ _ (fun _ => by simp) _ _ (fun _ => isSome_ne _) s l l'

theorem fields_iff (oc : Bool) (s : DerivableSorting) (l l' : List Field) :
    sortDerivedFields oc s l = .ok l' ↔
      PlacedDerivable oc (fun f : Field => f.info.bitRange.offset.toNat) (fun f => f.info.name)
        (fun f => f.info.derivedFrom ≠ none ∨ ∃ e ∈ f.info.enumeratedValues, e.derivedFrom ≠ none) s l l' :=
  sortDerived_iff oc _ _ _ (fun _ => (Nat.mod_eq_of_lt (BitVec.isLt _)).symm) _ _
    (fun f => by simp [fieldDerived, isSome_ne]) s l l'

theorem rcs_iff (oc : Bool) (s : DerivableSorting) (l l' : List RegisterCluster) :
    sortDerivedRegisterCluster oc s l = .ok l' ↔ PlacedRc.sorted oc s l l' :=
  sortDerived_iff oc _ _ _ (fun _ => (Nat.mod_eq_of_lt (BitVec.isLt _)).symm) _ _
    (fun _ => isSome_ne _) s l l'

theorem sortRc_iff (oc : Bool) (s : RcSorting) (l l' : List RegisterCluster) :
    sortRc oc s l = .ok l' ↔ PlacedRc oc s l l' := by
  have e1 : (fun rc : RegisterCluster => rc.isRegister) = isReg := funext isRegister_eq
  have e2 : (fun rc : RegisterCluster => !isReg rc) = fun rc => decide (¬ isReg rc = true) :=
    funext fun a => by cases isReg a <;> rfl
  cases s with
  | unchanged s =>
    rw [PlacedRc, ← rcs_iff]
    unfold sortRc
    split <;> rename_i h <;> first | (injection h with h; subst h) | cases h
    · rfl
    · rfl
  | registersFirst s =>
    simp only [sortRc, rcSort, bind_ok, rcs_iff, PlacedRc, e1, e2, ↓reduceIte]
    constructor
    · rintro ⟨a, ha, b, hb, h⟩; injection h with h; exact ⟨a, b, h.symm, ha, hb⟩
    · rintro ⟨a, b, rfl, ha, hb⟩; exact ⟨a, ha, b, hb, rfl⟩
  | clustersFirst s =>
    simp only [sortRc, rcSort, bind_ok, rcs_iff, PlacedRc, e1, e2, ↓reduceIte, Bool.false_eq_true]
    constructor
    · rintro ⟨b, hb, a, ha, h⟩; injection h with h; exact ⟨a, b, h.symm, ha, hb⟩
    · rintro ⟨a, b, rfl, ha, hb⟩; exact ⟨b, hb, a, ha, rfl⟩

/-! ## Indexes of arrays -/

theorem indexAt_list {d : DimElement} {i : Nat} (hi : i < d.dim.toNat) :
    d.indexAt i = match (indexList d)[i]? with
      | some s => .ok s
      | none => panics .indexOutOfBounds := by
  unfold DimElement.indexAt indexList
  cases d.dimIndex with
  | none =>
    have e : (decimalRange 0 d.dim.toNat)[i]? = some (decimal i) := by simp [decimalRange, hi]
    simp only [e]; rfl
  | some l => rfl

theorem drop_take_cons {α : Type} {l : List α} {k : Nat} {s : α} (h : l[k]? = some s) (n : Nat) :
    (l.drop k).take (n + 1) = s :: (l.drop (k + 1)).take n := by
  obtain ⟨hk, rfl⟩ := List.getElem?_eq_some_iff.mp h
  rw [List.drop_eq_getElem_cons hk]; rfl

theorem canonical_iff (s : Str) : (∃ n < 2 ^ 32, s = decimal n) ↔ ∃ v : U32, s = decString v := by
  constructor
  · rintro ⟨n, hn, rfl⟩
    exact ⟨BitVec.ofNat 32 n, by simp [decString, decimal, Nat.mod_eq_of_lt hn]⟩
  · rintro ⟨v, rfl⟩
    exact ⟨v.toNat, v.isLt, rfl⟩

theorem collect_step {d : DimElement} {i : Nat} {is : List Nat} {s : Str} (h : d.indexAt i = .ok s) :
    d.collectInts (i :: is) =
      (if ∃ v : U32, s = decString v then do
        match ← d.collectInts is with
        | none => .ok none
        | some l => .ok (some ((fromStrRadix 32 10 s).toOption.getD 0 :: l))
      else .ok none) := by
  rw [DimElement.collectInts, h, ok_bind]
  by_cases hc : ∃ v : U32, s = decString v
  · rw [if_pos hc]
    obtain ⟨v, rfl⟩ := hc
    simp only [fromStrRadix_decString, ne_eq, not_true_eq_false, if_false]
    rfl
  · rw [if_neg hc]
    split
    · rfl
    · rename_i v _
      rw [if_pos fun e => hc ⟨v, e.symm⟩]

theorem collect_range {d : DimElement} (n k : Nat) (h : k + n ≤ d.dim.toNat) :
    (¬ (∀ s ∈ ((indexList d).drop k).take n, ∃ v : U32, s = decString v) →
      d.collectInts (List.range' k n) = .ok none) ∧
    ((∀ s ∈ ((indexList d).drop k).take n, ∃ v : U32, s = decString v) →
      (k + n ≤ (indexList d).length → ∃ vs, d.collectInts (List.range' k n) = .ok (some vs)) ∧
      (k ≤ (indexList d).length → (indexList d).length < k + n →
        ∃ e, d.collectInts (List.range' k n) = .error e)) := by
  induction n generalizing k with
  | zero => refine ⟨fun hc => absurd (by simp) hc, fun _ => ⟨fun _ => ⟨_, rfl⟩, fun _ _ => by omega⟩⟩
  | succ n ih =>
    have ih := ih (k + 1) (by omega)
    have ha := indexAt_list (d := d) (i := k) (by omega)
    rw [List.range'_succ]
    cases hk : (indexList d)[k]? with
    | none =>
      have hlen : (indexList d).length ≤ k := List.getElem?_eq_none_iff.mp hk
      rw [hk] at ha
      refine ⟨fun hc => absurd ?_ hc, fun _ => ⟨fun _ => by omega, fun _ _ => ?_⟩⟩
      · rw [List.drop_eq_nil_of_le hlen]; simp
      · exact ⟨_, by rw [DimElement.collectInts, ha]; rfl⟩
    | some s =>
      rw [hk] at ha
      have hlen : k < (indexList d).length := (List.getElem?_eq_some_iff.mp hk).1
      rw [drop_take_cons hk, collect_step ha]
      simp only [List.forall_mem_cons]
      by_cases hc : ∃ v : U32, s = decString v
      · rw [if_pos hc]
        refine ⟨fun hn => ?_, fun hn => ⟨fun hl => ?_, fun _ hl => ?_⟩⟩
        · rw [ih.1 fun h => hn ⟨hc, h⟩]; rfl
        · obtain ⟨vs, hv⟩ := (ih.2 hn.2).1 (by omega)
          exact ⟨_, by rw [hv]; rfl⟩
        · obtain ⟨e, he⟩ := (ih.2 hn.2).2 (by omega) (by omega)
          exact ⟨e, by rw [he]; rfl⟩
      · rw [if_neg hc]
        exact ⟨fun _ => rfl, fun hn => absurd hn.1 hc⟩

theorem countable_iff (oc : Bool) (d : DimElement) :
    (∃ r, d.indexesAsRange oc = .ok r) ↔ Countable oc d := by
  have hr := collect_range (d := d) d.dim.toNat 0 (by omega)
  rw [← List.range_eq_range', List.drop_zero] at hr
  unfold Countable
  simp only [canonical_iff]
  by_cases hc : ∀ s ∈ (indexList d).take d.dim.toNat, ∃ v : U32, s = decString v
  · by_cases hl : d.dim.toNat ≤ (indexList d).length
    · obtain ⟨vs, hv⟩ := (hr.2 hc).1 (by omega)
      have h1 := collectInts_some.mp hv
      have hlenv : vs.length = d.dim.toNat := by
        have := congrArg List.length h1; simpa using this.symm
      have htake : (indexList d).take d.dim.toNat = vs.map fun v => decString v := by
        rw [← indexAt_range (by simpa using hlenv), h1, List.map_map]; rfl
      have hmem : ∀ n < 2 ^ 32, decimal n ∈ (indexList d).take d.dim.toNat ↔ n ∈ vs.map BitVec.toNat := by
        intro n hn
        rw [htake, List.mem_map, List.mem_map]
        have e : decimal n = decString (BitVec.ofNat 32 n) := by
          simp [decString, decimal, Nat.mod_eq_of_lt hn]
        constructor
        · rintro ⟨v, hv, h⟩
          rw [e] at h
          refine ⟨v, hv, ?_⟩
          rw [decString_inj h]; simp [Nat.mod_eq_of_lt hn]
        · rintro ⟨v, hv, rfl⟩
          exact ⟨v, hv, rfl⟩
      have key : (∃ r, d.indexesAsRange oc = .ok r) ↔
          (oc = true → ¬ (0 ∈ vs.map BitVec.toNat ∧ 2 ^ 32 - 1 ∈ vs.map BitVec.toNat)) := by
        unfold DimElement.indexesAsRange
        rw [hv, ok_bind]
        simp only []
        split
        · rename_i mn mx hmn hmx
          rw [List.min?_eq_some_iff] at hmn
          rw [List.max?_eq_some_iff] at hmx
          have hle : mn ≤ mx := hmn.2 _ hmx.1
          have hlt : ∀ n ∈ vs.map BitVec.toNat, n < 2 ^ 32 := by
            intro n hn
            obtain ⟨v, _, rfl⟩ := List.mem_map.mp hn
            exact v.isLt
          have hmx2 := hlt _ hmx.1
          have t1 : (BitVec.ofNat 32 mx).toNat = mx := by simp; omega
          have t2 : (BitVec.ofNat 32 mn).toNat = mn := by simp; omega
          rw [subC_le (by rw [t1, t2]; exact hle), ok_bind, t1, t2]
          have t3 : (BitVec.ofNat 32 (mx - mn)).toNat = mx - mn := by simp; omega
          have t4 : (1 : U32).toNat = 1 := rfl
          by_cases hfit : mx - mn + 1 < 2 ^ 32
          · rw [addC_lt (by rw [t3, t4]; exact hfit), ok_bind]
            refine ⟨fun _ _ hb => ?_, fun _ => ?_⟩
            · have := hmn.2 _ hb.1
              have := hmx.2 _ hb.2
              omega
            · split
              · exact ⟨_, rfl⟩
              · split <;> exact ⟨_, rfl⟩
          · have h0 : mn = 0 := by omega
            have hm : mx = 2 ^ 32 - 1 := by omega
            subst h0; subst hm
            unfold addC arith
            rw [if_neg (by rw [t3, t4]; exact hfit)]
            cases oc with
            | true => exact ⟨fun ⟨_, h⟩ => (by cases h), fun h => absurd ⟨hmn.1, hmx.1⟩ (h rfl)⟩
            | false =>
              refine ⟨fun _ h => (by cases h), fun _ => ?_⟩
              simp only [Bool.false_eq_true, if_false, ok_bind]
              split
              · exact ⟨_, rfl⟩
              · split <;> exact ⟨_, rfl⟩
        · rename_i hn
          refine ⟨fun _ _ hb => ?_, fun _ => ⟨_, rfl⟩⟩
          have h1 : (vs.map BitVec.toNat).min? ≠ none := by
            intro e; rw [List.min?_eq_none_iff] at e; rw [e] at hb; simp at hb
          have h2 : (vs.map BitVec.toNat).max? ≠ none := by
            intro e; rw [List.max?_eq_none_iff] at e; rw [e] at hb; simp at hb
          obtain ⟨a, ha⟩ := Option.ne_none_iff_exists'.mp h1
          obtain ⟨b, hb⟩ := Option.ne_none_iff_exists'.mp h2
          exact hn a b ha hb
      rw [key]
      refine ⟨fun h _ => ⟨hl, fun hoc => ?_⟩, fun h hoc => ?_⟩
      · rw [hmem _ (by decide), hmem _ (by decide)]; exact h hoc
      · have := (h hc).2 hoc
        rwa [hmem _ (by decide), hmem _ (by decide)] at this
    · obtain ⟨e, he⟩ := (hr.2 hc).2 (by omega) (by omega)
      refine ⟨fun ⟨r, h⟩ => ?_, fun h => absurd (h hc).1 hl⟩
      unfold DimElement.indexesAsRange at h
      rw [he] at h; cases h
  · refine ⟨fun _ h => absurd h hc, fun _ => ?_⟩
    unfold DimElement.indexesAsRange
    rw [hr.1 hc]
    exact ⟨_, rfl⟩

theorem indexes_iff (oc : Bool) (d : DimElement) (l : List Str) (s : Str) :
    dimIndexText oc d l = .ok s ↔ IndexesWritten oc d l s := by
  have hu : ∀ a b, b < 2 ^ 32 → IsIndexRange d a b →
      d.indexesAsRange oc = .ok (some (BitVec.ofNat 32 a, BitVec.ofNat 32 b)) := by
    intro a b hb h
    have ha : a < 2 ^ 32 := by have := h.1; have := h.2.1; omega
    rw [C07_range_iff, BitVec.toNat_ofNat, BitVec.toNat_ofNat, Nat.mod_eq_of_lt hb, Nat.mod_eq_of_lt ha]
    exact h
  unfold dimIndexText IndexesWritten
  rw [bind_ok, ← countable_iff]
  constructor
  · rintro ⟨r, hr, h⟩
    refine ⟨⟨r, hr⟩, ?_⟩
    match r, hr, h with
    | some (a, b), hr, h =>
      injection h with h
      refine .inl ⟨a.toNat, b.toNat, b.isLt, (C07_range_iff ..).mp hr, ?_⟩
      rw [← h, List.append_assoc]; rfl
    | none, hr, h =>
      injection h with h
      refine .inr ⟨fun a b hb hi => ?_, h.symm⟩
      rw [hu a b hb hi] at hr; cases hr
  · rintro ⟨⟨r, hr⟩, ⟨a, b, hb, hi, rfl⟩ | ⟨hn, rfl⟩⟩
    · refine ⟨_, hu a b hb hi, ?_⟩
      have ha : a < 2 ^ 32 := by have := hi.1; have := hi.2.1; omega
      simp [decString, decimal, Nat.mod_eq_of_lt hb, Nat.mod_eq_of_lt ha]
    · refine ⟨r, hr, ?_⟩
      match r, hr with
      | none, _ => rfl
      | some (a, b), hr => exact absurd ((C07_range_iff ..).mp hr) (hn _ _ b.isLt)

/-! ## Parts that are always written -/

/-- The part is this list of nodes. -/
def Det (p : Part) (a : List Xml) : Prop := ∀ l, p l ↔ l = a

theorem Det.of {p : Part} {a b : List Xml} (h : Det p a) (e : a = b) : Det p b := e ▸ h

theorem det_nil : Det (Seq []) [] := fun _ => Iff.rfl

theorem det_cons {p : Part} {ps : List Part} {a b : List Xml} (hp : Det p a) (hs : Det (Seq ps) b) :
    Det (Seq (p :: ps)) (a ++ b) := by
  intro l
  simp only [Seq, hp _, hs _]
  constructor
  · rintro ⟨_, _, rfl, rfl, h⟩; exact h
  · exact fun h => ⟨_, _, rfl, rfl, h⟩

theorem det_text {tag : String} {P : Str → Prop} {s : Str} (h : ∀ s', P s' ↔ s' = s) :
    Det (text tag P) [newNode tag s] := by
  intro l
  simp only [text, h]
  constructor
  · rintro ⟨_, rfl, hl⟩; exact hl
  · exact fun h => ⟨_, rfl, h⟩

theorem det_plain {tag : String} {s : Str} : Det (plain tag s) [newNode tag s] := det_text fun _ => Iff.rfl

theorem det_number {w : Nat} {tag : String} {f : NumberFormat} {v : BitVec w} :
    Det (number tag f v) [newNode tag (formatNumber v f)] := det_text fun _ => inFormat_iff _ _ _

theorem det_decimal {w : Nat} {tag : String} {v : BitVec w} :
    Det (number tag .dec v) [newNode tag (decString v)] := det_number

theorem det_flag {tag : String} {b : Bool} : Det (flag tag b) [newNode tag (boolStr b)] := by
  cases b <;> exact det_plain

theorem det_name {cc : IdentifierFormat → Str → Str} {tag : String} {f : Option IdentifierFormat} {s : Str} :
    Det (name cc tag f s) [newNode tag (changeCase cc s f)] := det_text fun _ => renamed_iff _ _ _ _

theorem det_word {α : Type} [DecidableEq α] {table : List (String × α)} {as : α → Str}
    (h : ∀ a, (table.filter fun p => p.2 = a).map (·.1.toList) = [as a]) {tag : String} {a : α} :
    Det (word tag table a) [newNode tag (as a)] := by
  refine det_text fun s => ?_
  have h : ∀ s, s ∈ (table.filter fun p => p.2 = a).map (·.1.toList) ↔ s = as a := fun s => by rw [h]; simp
  rw [← h, List.mem_map]
  constructor
  · rintro ⟨w, hw, rfl⟩; exact ⟨(w, a), List.mem_filter.mpr ⟨hw, by simp⟩, rfl⟩
  · rintro ⟨⟨w, b⟩, hw, rfl⟩
    obtain ⟨h1, h2⟩ := List.mem_filter.mp hw
    simp only [decide_eq_true_eq] at h2
    subst h2
    exact ⟨w, h1, rfl⟩

theorem det_may {α : Type} (o : Option α) {p : α → Part} {g : α → Xml} (h : ∀ a, Det (p a) [g a]) :
    Det (may o p) (optNode o g) := by
  cases o with
  | none => exact fun _ => Iff.rfl
  | some a => exact h a

theorem det_one {P : Xml → Prop} {x : Xml} (h : ∀ y, P y ↔ y = x) : Det (one P) [x] := by
  intro l
  simp only [one, h]
  constructor
  · rintro ⟨_, rfl, hl⟩; exact hl
  · exact fun h => ⟨_, rfl, h⟩

theorem det_each {α : Type} {R : α → Xml → Prop} {g : α → Xml} (h : ∀ a x, R a x ↔ x = g a) (l : List α) :
    Det (each R l) (l.map g) := by
  intro xs
  unfold each
  induction l generalizing xs with
  | nil => exact ⟨fun h => by cases h; rfl, by rintro rfl; exact .nil⟩
  | cons a l ih =>
    constructor
    · intro hp
      cases hp with
      | cons h1 h2 => rw [(h _ _).mp h1, (ih _).mp h2]; rfl
    · rintro rfl
      exact .cons ((h _ _).mpr rfl) ((ih _).mpr rfl)

theorem node_det {tag : String} {A : List (String × Str) → Prop} {as : List (String × Str)} {ps : List Part}
    {cs : List Xml} (hA : ∀ bs, A bs ↔ bs = as) (hs : Det (Seq ps) cs) (x : Xml) :
    Node tag A ps x ↔ x = .elem tag as cs := by
  simp only [Node, hA, hs _]
  constructor
  · rintro ⟨_, _, rfl, rfl, h⟩; exact h
  · exact fun h => ⟨_, _, rfl, rfl, h⟩

theorem derived_iff (cc : IdentifierFormat → Str → Str) (f : Option IdentifierFormat) (o : Option Str)
    (as : List (String × Str)) : derived cc f o as ↔ as = derivedAttr cc o f := by
  cases o with
  | none => exact Iff.rfl
  | some v =>
    simp only [derived, derivedAttr, renamed_iff]
    constructor
    · rintro ⟨_, rfl, h⟩; exact h
    · exact fun h => ⟨_, rfl, h⟩

theorem det_access {tag : String} {a : Access} : Det (word tag accessSpelling a) [newNode tag a.asStr] :=
  det_word (fun a => by cases a <;> decide)
theorem det_usage {tag : String} {a : Usage} : Det (word tag usageSpelling a) [newNode tag a.asStr] :=
  det_word (fun a => by cases a <;> decide)
theorem det_protection {tag : String} {a : Protection} : Det (word tag protectionSpelling a) [newNode tag a.asStr] :=
  det_word (fun a => by cases a <;> decide)
theorem det_endian {tag : String} {a : Endian} : Det (word tag endianSpelling a) [newNode tag a.asStr] :=
  det_word (fun a => by cases a <;> decide)
theorem det_readAction {tag : String} {a : ReadAction} : Det (word tag readActionSpelling a) [newNode tag a.asStr] :=
  det_word (fun a => by cases a <;> decide)
theorem det_mwv {tag : String} {a : ModifiedWriteValues} :
    Det (word tag modifiedWriteValuesSpelling a) [newNode tag a.asStr] :=
  det_word (fun a => by cases a <;> decide)
theorem det_dataType {tag : String} {a : DataType} : Det (word tag dataTypeSpelling a) [newNode tag a.asStr] :=
  det_word (fun a => by cases a <;> decide)
theorem det_blockUsage {tag : String} {a : AddressBlockUsage} :
    Det (word tag addressBlockUsageSpelling a) [newNode tag a.asStr] :=
  det_word (fun a => by cases a <;> decide)

section
variable {tag : String}
theorem may_plain {o : Option Str} : Det (may o (plain tag)) (optNode o (newNode tag)) :=
  det_may _ fun _ => det_plain
theorem may_number {w : Nat} {f : NumberFormat} {o : Option (BitVec w)} :
    Det (may o (number tag f)) (optNode o fun v => newNode tag (formatNumber v f)) :=
  det_may _ fun _ => det_number
theorem may_decimal {w : Nat} {o : Option (BitVec w)} :
    Det (may o (number tag .dec)) (optNode o fun v => newNode tag (decString v)) :=
  det_may _ fun _ => det_decimal
theorem may_flag {o : Option Bool} : Det (may o (flag tag)) (optNode o fun v => newNode tag (boolStr v)) :=
  det_may _ fun _ => det_flag
theorem may_name {cc : IdentifierFormat → Str → Str} {f : Option IdentifierFormat} {o : Option Str} :
    Det (may o (name cc tag f)) (optNode o fun v => newNode tag (changeCase cc v f)) :=
  det_may _ fun _ => det_name
theorem may_access {o : Option Access} :
    Det (may o (word tag accessSpelling)) (optNode o fun v => newNode tag v.asStr) :=
  det_may _ fun _ => det_access
theorem may_usage {o : Option Usage} :
    Det (may o (word tag usageSpelling)) (optNode o fun v => newNode tag v.asStr) :=
  det_may _ fun _ => det_usage
theorem may_protection {o : Option Protection} :
    Det (may o (word tag protectionSpelling)) (optNode o fun v => newNode tag v.asStr) :=
  det_may _ fun _ => det_protection
theorem may_readAction {o : Option ReadAction} :
    Det (may o (word tag readActionSpelling)) (optNode o fun v => newNode tag v.asStr) :=
  det_may _ fun _ => det_readAction
theorem may_mwv {o : Option ModifiedWriteValues} :
    Det (may o (word tag modifiedWriteValuesSpelling)) (optNode o fun v => newNode tag v.asStr) :=
  det_may _ fun _ => det_mwv
theorem may_dataType {o : Option DataType} :
    Det (may o (word tag dataTypeSpelling)) (optNode o fun v => newNode tag v.asStr) :=
  det_may _ fun _ => det_dataType
end

/-- A sequence of parts that are always written. -/
local syntax "seq![" term,* "]" : term
local macro_rules
  | `(seq![]) => `(det_nil)
  | `(seq![$a]) => `(det_cons $a det_nil)
  | `(seq![$a, $as,*]) => `(det_cons $a seq![$as,*])

theorem seq_append {ps qs : List Part} {l : List Xml} :
    Seq (ps ++ qs) l ↔ ∃ a b, Seq ps a ∧ Seq qs b ∧ l = a ++ b := by
  induction ps generalizing l with
  | nil => simp [Seq]
  | cons p ps ih =>
    simp only [List.cons_append, Seq, ih]
    constructor
    · rintro ⟨a, _, ha, ⟨b, c, hb, hc, rfl⟩, rfl⟩
      exact ⟨a ++ b, c, ⟨a, b, ha, hb, rfl⟩, hc, by simp⟩
    · rintro ⟨_, c, ⟨a, b, ha, hb, rfl⟩, hc, rfl⟩
      exact ⟨a, b ++ c, ha, ⟨b, c, hb, hc, rfl⟩, by simp⟩

theorem det_append {ps qs : List Part} {a b : List Xml} (h1 : Det (Seq ps) a) (h2 : Det (Seq qs) b) :
    Det (Seq (ps ++ qs)) (a ++ b) := by
  intro l
  simp only [seq_append, h1 _, h2 _]
  constructor
  · rintro ⟨_, _, rfl, rfl, h⟩; exact h
  · exact fun h => ⟨_, _, rfl, rfl, h⟩

theorem seq_one {p : Part} {l : List Xml} : Seq [p] l ↔ p l := by
  simp [Seq]

theorem seq_mid {ps qs : List Part} {p : Part} {a b : List Xml} (h1 : Det (Seq ps) a) (h2 : Det (Seq qs) b)
    (l : List Xml) : Seq (ps ++ p :: qs) l ↔ ∃ m, p m ∧ l = a ++ (m ++ b) := by
  simp only [seq_append, Seq, h1 _, h2 _]
  constructor
  · rintro ⟨_, _, rfl, ⟨m, _, hm, rfl, rfl⟩, h⟩; exact ⟨m, hm, h⟩
  · rintro ⟨m, hm, h⟩; exact ⟨_, _, rfl, ⟨m, _, hm, rfl, rfl⟩, h⟩

/-- An element with one part that depends on a computation. -/
theorem node_iff {tag : String} {A : List (String × Str) → Prop} {as : List (String × Str)} {ps qs : List Part}
    {p : Part} {a b : List Xml} {m : M (List Xml)} (hA : ∀ bs, A bs ↔ bs = as) (h1 : Det (Seq ps) a)
    (hm : ∀ l, m = .ok l ↔ p l) (h2 : Det (Seq qs) b) (x : Xml) :
    (do let l ← m; .ok (.elem tag as (a ++ l ++ b)) : M Xml) = .ok x ↔ Node tag A (ps ++ p :: qs) x := by
  simp only [bind_ok, Node, seq_mid h1 h2, hA, hm]
  constructor
  · rintro ⟨l, hl, h⟩; injection h with h; exact ⟨_, _, rfl, ⟨l, hl, rfl⟩, by rw [← h]; simp⟩
  · rintro ⟨_, _, rfl, ⟨l, hl, rfl⟩, rfl⟩; exact ⟨l, hl, by simp⟩

section
variable (oc : Bool) (cc : IdentifierFormat → Str → Str) (cfg : EncConfig)

theorem properties_det (p : RegisterProperties) : Det (Seq (properties cfg p)) (encodeProperties cfg p) :=
  Det.of seq![may_number, may_access, may_protection, may_number, may_number]
    (by simp only [encodeProperties, List.append_assoc, List.append_nil])

theorem enumValue_iff (e : EnumeratedValue) (x : Xml) :
    EnumValueWritten cc cfg e x ↔ x = encodeEnumeratedValue cc cfg e :=
  node_det (fun _ => Iff.rfl)
    (Det.of seq![det_name, may_plain, may_number, may_flag] (by simp)) x

theorem enums_iff (e : EnumeratedValues) (x : Xml) :
    EnumsWritten cc cfg e x ↔ x = encodeEnumeratedValues cc cfg e :=
  node_det (derived_iff _ _ _)
    (Det.of seq![may_name, may_usage, det_each (enumValue_iff cc cfg) _] (by simp)) x

theorem block_iff (a : AddressBlock) (x : Xml) :
    BlockWritten cfg a x ↔ x = encodeAddressBlock cfg a :=
  node_det (fun _ => Iff.rfl)
    (Det.of seq![det_number, det_number, det_blockUsage, may_protection] (by simp)) x

theorem interrupt_iff (i : Interrupt) (x : Xml) :
    InterruptWritten cc cfg i x ↔ x = encodeInterrupt cc cfg i :=
  node_det (fun _ => Iff.rfl)
    (Det.of seq![det_name, may_plain, det_decimal] (by simp)) x

theorem cpu_iff (c : Cpu) (x : Xml) : CpuWritten c x ↔ x = encodeCpu c :=
  node_det (fun _ => Iff.rfl)
    (Det.of seq![det_plain, det_plain, det_endian, det_flag, det_flag, may_flag, may_flag, may_flag,
      may_flag, may_flag, may_flag, may_flag, det_decimal, det_flag, may_decimal, may_decimal] (by simp)) x

theorem constraint_det (w : WriteConstraint) : Det (constraint w) [encodeWriteConstraint w] := by
  refine det_one fun x => ?_
  refine node_det (fun _ => Iff.rfl) ?_ x
  cases w with
  | writeAsRead b => exact Det.of seq![det_flag] (by simp)
  | useEnumeratedValues b => exact Det.of seq![det_flag] (by simp)
  | range r =>
    exact Det.of seq![det_one (node_det (fun _ => Iff.rfl)
      (Det.of seq![det_decimal, det_decimal] (by simp; rfl)))] (by simp)

theorem dim_iff (d : DimElement) (x : Xml) :
    encodeDimElement oc cc cfg d = .ok x ↔ Node "dimElement" bare (dims oc cc cfg (some d)) x := by
  have hidx : ∀ l, encodeDimIndex oc d = .ok l ↔ may d.dimIndex (fun l => text "dimIndex" (IndexesWritten oc d l)) l := by
    intro l
    unfold encodeDimIndex
    cases d.dimIndex with
    | none => simp only [may]; exact ⟨fun h => by injection h with h; exact h.symm, fun h => by rw [h]⟩
    | some di =>
      simp only [may, text, bind_ok, indexes_iff]
      constructor
      · rintro ⟨s, hs, h⟩; injection h with h; exact ⟨s, hs, h.symm⟩
      · rintro ⟨s, hs, rfl⟩; exact ⟨s, hs, rfl⟩
  have := node_iff (tag := "dimElement") (A := bare) (as := []) (fun _ => Iff.rfl)
    seq![det_number (tag := "dim") (f := cfg.dimDim) (v := d.dim),
      det_number (tag := "dimIncrement") (f := cfg.dimIncrement) (v := d.dimIncrement)] hidx
    seq![may_plain (tag := "dimName") (o := d.dimName), det_may d.dimArrayIndex (fun a => det_one (x := encodeDimArrayIndex cc cfg a)
      (node_det (fun _ => Iff.rfl)
        (Det.of seq![may_name (cc := cc) (tag := "headerEnumName") (f := cfg.dimArrayIndexHeaderEnumName) (o := a.headerEnumName),
          det_each (enumValue_iff cc cfg) a.values] (by simp))))] x
  simp only [List.append_assoc, List.append_nil] at this
  simp only [encodeDimElement, List.append_assoc]
  exact this

theorem array_iff {tag : String} {info : M Xml} {A : List (String × Str) → Prop} {ps : List Part}
    (h : ∀ x, info = .ok x ↔ Node tag A ps x) (dim : Option DimElement) (x : Xml) :
    encodeArray oc cc cfg tag dim info = .ok x ↔ Node tag A (dims oc cc cfg dim ++ ps) x := by
  cases dim with
  | none => exact h x
  | some d =>
    simp only [encodeArray, bind_ok, dim_iff, h, Node, seq_append, bare]
    constructor
    · rintro ⟨_, ⟨_, cs, rfl, hc, rfl⟩, _, ⟨as, ds, ha, hd, rfl⟩, h⟩
      injection h with h
      exact ⟨as, cs ++ ds, ha, ⟨cs, ds, hc, hd, rfl⟩, by rw [← h]; simp [mergeElem]⟩
    · rintro ⟨as, _, ha, ⟨cs, ds, hc, hd, rfl⟩, rfl⟩
      exact ⟨_, ⟨_, cs, rfl, hc, rfl⟩, _, ⟨as, ds, ha, hd, rfl⟩, by simp [mergeElem]⟩

theorem lastBit_iff (b : BitRange) (m : U32) : b.msb oc = .ok m ↔ LastBit oc b m.toNat := by
  unfold BitRange.msb addC subC arith LastBit
  have h1 := b.offset.isLt
  have h2 := b.width.isLt
  have h3 := m.isLt
  have t4 : (1 : U32).toNat = 1 := rfl
  cases oc with
  | true =>
    simp only [if_true]
    by_cases ho : b.offset.toNat + b.width.toNat < 2 ^ 32
    · rw [if_pos ho, ok_bind]
      have t : (b.offset + b.width).toNat = b.offset.toNat + b.width.toNat := by
        rw [BitVec.toNat_add, Nat.mod_eq_of_lt ho]
      rw [t, t4]
      by_cases h0 : 1 ≤ b.offset.toNat + b.width.toNat
      · rw [if_pos h0]
        have t5 : (b.offset + b.width - 1).toNat = b.offset.toNat + b.width.toNat - 1 := by
          rw [BitVec.toNat_sub_of_le (by rw [BitVec.le_def, t, t4]; exact h0), t, t4]
        constructor
        · intro h; injection h with h; subst h; omega
        · intro h; congr 1; apply BitVec.eq_of_toNat_eq; omega
      · rw [if_neg h0]
        exact ⟨fun h => (by cases h), fun h => by omega⟩
    · rw [if_neg ho]
      exact ⟨fun h => (by cases h), fun h => by omega⟩
  | false =>
    simp only [Bool.false_eq_true, if_false, ite_self, ok_bind]
    constructor
    · intro h; injection h with h; subst h
      refine ⟨h3, ?_⟩
      rw [BitVec.toNat_sub, BitVec.toNat_add, t4]
      omega
    · rintro ⟨_, h⟩
      congr 1
      apply BitVec.eq_of_toNat_eq
      rw [BitVec.toNat_sub, BitVec.toNat_add, t4]
      omega

theorem lastBit_lt {b : BitRange} {n : Nat} (h : LastBit oc b n) : n < 2 ^ 32 := by
  unfold LastBit at h; split at h <;> omega

theorem bits_iff (b : BitRange) (l : List Xml) : encodeBitRange oc cfg b = .ok l ↔ bits oc cfg b l := by
  have e : notationOf cfg b = cfg.fieldBitRange.getD b.rangeType := by
    unfold notationOf; cases cfg.fieldBitRange <;> rfl
  have hof : ∀ n, n < 2 ^ 32 → (BitVec.ofNat 32 n).toNat = n := fun n hn => by
    rw [BitVec.toNat_ofNat, Nat.mod_eq_of_lt hn]
  unfold encodeBitRange bits
  rw [e]
  cases cfg.fieldBitRange.getD b.rangeType with
  | bitRange =>
    simp only [BitRange.bitRange, bind_ok, lastBit_iff, text]
    constructor
    · rintro ⟨_, ⟨m, hm, h1⟩, h⟩
      injection h with h; injection h1 with h1; subst h1
      refine ⟨_, ⟨m.toNat, hm, rfl⟩, ?_⟩
      rw [← h]
      simp [newNode, decString, decimal, BitRange.lsb]
    · rintro ⟨_, ⟨n, hn, rfl⟩, rfl⟩
      refine ⟨_, ⟨BitVec.ofNat 32 n, ?_, rfl⟩, ?_⟩
      · rw [hof n (lastBit_lt oc hn)]; exact hn
      · simp [newNode, decString, decimal, BitRange.lsb, Nat.mod_eq_of_lt (lastBit_lt oc hn)]
  | msbLsb =>
    have hd := (det_decimal (tag := "lsb") (v := b.offset))
    simp only [bind_ok, lastBit_iff, Seq, text, hd _]
    constructor
    · rintro ⟨m, hm, h⟩
      injection h with h
      exact ⟨_, _, rfl, ⟨_, _, ⟨decString m, ⟨m.toNat, hm, (inFormat_iff .dec m _).mpr rfl⟩, rfl⟩, rfl, rfl⟩, h.symm⟩
    · rintro ⟨_, _, rfl, ⟨_, _, ⟨s, ⟨n, hn, hs⟩, rfl⟩, rfl, rfl⟩, rfl⟩
      have t := hof n (lastBit_lt oc hn)
      refine ⟨BitVec.ofNat 32 n, by rw [t]; exact hn, ?_⟩
      rw [← t, inFormat_iff] at hs
      rw [hs]; rfl
  | offsetWidth =>
    have := (Det.of seq![det_decimal (tag := "bitOffset") (v := b.offset),
      det_decimal (tag := "bitWidth") (v := b.width)] rfl)
    refine Iff.trans ?_ (this l).symm
    exact ⟨fun h => (by injection h with h; exact h.symm), fun h => by rw [h]; rfl⟩

theorem fieldInfo_iff (f : FieldInfo) (x : Xml) :
    encodeFieldInfo oc cc cfg f = .ok x ↔
      Node "field" (derived cc cfg.fieldName f.derivedFrom)
    [name cc "name" cfg.fieldName f.name,
     may f.description (plain "description"),
     bits oc cfg f.bitRange,
     may f.access (word "access" accessSpelling),
     may f.modifiedWriteValues (word "modifiedWriteValues" modifiedWriteValuesSpelling),
     may f.writeConstraint constraint,
     may f.readAction (word "readAction" readActionSpelling),
     each (EnumsWritten cc cfg) f.enumeratedValues] x := by
  have := node_iff (tag := "field") (derived_iff cc cfg.fieldName f.derivedFrom)
    seq![det_name (cc := cc) (tag := "name") (f := cfg.fieldName) (s := f.name),
      may_plain (tag := "description") (o := f.description)] (bits_iff oc cfg f.bitRange)
    seq![may_access (tag := "access") (o := f.access),
      may_mwv (tag := "modifiedWriteValues") (o := f.modifiedWriteValues),
      det_may f.writeConstraint constraint_det,
      may_readAction (tag := "readAction") (o := f.readAction),
      det_each (enums_iff cc cfg) f.enumeratedValues] x
  simp only [List.append_assoc, List.append_nil, List.cons_append, List.nil_append] at this
  simp only [encodeFieldInfo, List.append_assoc, List.cons_append, List.nil_append]
  exact this

theorem field_iff (f : Field) (x : Xml) : encodeField oc cc cfg f = .ok x ↔ FieldWritten oc cc cfg f x :=
  array_iff oc cc cfg (fieldInfo_iff oc cc cfg f.info) f.dim? x

theorem each_iff {α : Type} {enc : α → M Xml} {R : α → Xml → Prop} (h : ∀ a x, enc a = .ok x ↔ R a x)
    (l : List α) (xs : List Xml) : l.mapM enc = .ok xs ↔ each R l xs :=
  pairs_mapM fun a _ b => h a b

theorem list_iff {α : Type} {enc : α → M Xml} {R : α → Xml → Prop} {tag : String}
    (h : ∀ a x, enc a = .ok x ↔ R a x) (l : List α) (x : Xml) :
    (∃ xs, l.mapM enc = .ok xs ∧ x = .elem tag [] xs) ↔ Node tag bare [each R l] x := by
  simp only [each_iff h, Node, bare, seq_one]
  constructor
  · rintro ⟨xs, h1, h2⟩; exact ⟨_, xs, rfl, h1, h2⟩
  · rintro ⟨_, xs, rfl, h1, h2⟩; exact ⟨xs, h1, h2⟩

theorem unsorted_fields (s : DerivableSorting) (l : List Field) :
    (if s = .unchanged none then .ok l else sortDerivedFields oc s l : M (List Field)) =
      sortDerivedFields oc s l := by
  split
  · next h => subst h; rfl
  · rfl

theorem unsorted_peripherals (s : DerivableSorting) (l : List Peripheral) :
    (if s = .unchanged none then .ok l else sortDerivedPeripherals oc s l : M (List Peripheral)) =
      sortDerivedPeripherals oc s l := by
  split
  · next h => subst h; rfl
  · rfl

theorem fieldList_iff (o : Option (List Field)) (cs : List Xml) :
    encodeFields oc cc cfg o = .ok cs ↔ may o (fields oc cc cfg) cs := by
  cases o with
  | none => exact ⟨fun h => (by injection h with h; exact h.symm), fun h => by rw [h]; rfl⟩
  | some l =>
    simp only [encodeFields, unsorted_fields, bind_ok, fields_iff, may, fields, one, ← list_iff (field_iff oc cc cfg)]
    have hlen : ∀ l', PlacedDerivable oc (fun f : Field => f.info.bitRange.offset.toNat) (fun f => f.info.name)
        (fun f => f.info.derivedFrom ≠ none ∨ ∃ e ∈ f.info.enumeratedValues, e.derivedFrom ≠ none)
        cfg.fieldSorting l l' → l'.Perm l := fun l' h =>
      (C28_permutation oc).2.1 _ _ _ ((fields_iff oc _ l l').mpr h)
    constructor
    · rintro ⟨l', h1, xs, h2, h⟩
      injection h with h
      cases hl : l with
      | nil =>
        subst hl
        have := (hlen _ h1).eq_nil
        subst this
        injection h2 with h2; subst h2
        exact .inl ⟨rfl, h.symm⟩
      | cons a t =>
        refine .inr ⟨by simp, l', hl ▸ h1, _, ⟨xs, h2, rfl⟩, ?_⟩
        rw [← h, if_neg]
        intro hx
        have e1 := mapM_ok_length h2
        have e2 := (hlen _ h1).length_eq
        rw [hl] at e2
        rw [List.isEmpty_iff] at hx
        rw [hx] at e1
        simp at e1 e2
        omega
    · rintro (⟨rfl, rfl⟩ | ⟨hne, l', h1, _, ⟨xs, h2, rfl⟩, rfl⟩)
      · refine ⟨[], ?_, [], rfl, rfl⟩
        rw [← fields_iff]
        cases cfg.fieldSorting with
        | unchanged s => rcases s with _ | s; rfl; cases s <;> rfl
        | deriveLast s => rcases s with _ | s; rfl; cases s <;> rfl
      · refine ⟨l', h1, xs, h2, ?_⟩
        rw [if_neg]
        intro hx
        have e1 := mapM_ok_length h2
        have e2 := (hlen _ h1).length_eq
        rw [List.isEmpty_iff] at hx
        rw [hx] at e1
        have := List.length_pos_iff.mpr hne
        rw [List.length_nil] at e1
        omega

theorem registerInfo_iff (r : RegisterInfo) (x : Xml) :
    encodeRegisterInfo oc cc cfg r = .ok x ↔
      Node "register" (derived cc cfg.registerName r.derivedFrom)
    ([name cc "name" cfg.registerName r.name,
     may r.displayName (plain "displayName"),
     may r.description (plain "description"),
     may r.alternateGroup (plain "alternateGroup"),
     may r.alternateRegister (name cc "alternateRegister" cfg.registerName),
     number "addressOffset" cfg.registerAddressOffset r.addressOffset] ++
    properties cfg r.properties ++
    [may r.datatype (word "dataType" dataTypeSpelling),
     may r.modifiedWriteValues (word "modifiedWriteValues" modifiedWriteValuesSpelling),
     may r.writeConstraint constraint,
     may r.readAction (word "readAction" readActionSpelling),
     may r.fields (fields oc cc cfg)]) x := by
  have := node_iff (tag := "register") (derived_iff cc cfg.registerName r.derivedFrom)
    (det_append seq![det_name (cc := cc) (tag := "name") (f := cfg.registerName) (s := r.name),
      may_plain (tag := "displayName") (o := r.displayName),
      may_plain (tag := "description") (o := r.description),
      may_plain (tag := "alternateGroup") (o := r.alternateGroup),
      may_name (cc := cc) (tag := "alternateRegister") (f := cfg.registerName) (o := r.alternateRegister),
      det_number (tag := "addressOffset") (f := cfg.registerAddressOffset) (v := r.addressOffset)]
     (det_append (properties_det cfg r.properties)
      seq![may_dataType (tag := "dataType") (o := r.datatype),
      may_mwv (tag := "modifiedWriteValues") (o := r.modifiedWriteValues),
      det_may r.writeConstraint constraint_det,
      may_readAction (tag := "readAction") (o := r.readAction)]))
    (fieldList_iff oc cc cfg r.fields) det_nil x
  simp only [List.append_assoc, List.append_nil, List.cons_append, List.nil_append] at this
  simp only [encodeRegisterInfo, List.append_assoc, List.cons_append, List.nil_append]
  exact this

theorem register_iff (r : Register) (x : Xml) :
    encodeRegister oc cc cfg r = .ok x ↔ RegisterWritten oc cc cfg r x := by
  have := array_iff oc cc cfg (registerInfo_iff oc cc cfg r.info) r.dim? x
  unfold RegisterWritten
  simp only [List.append_assoc] at this ⊢
  exact this

theorem cluster_iff (h : ClusterHead) {children : M (List Xml)} {p : Part} (hc : ∀ l, children = .ok l ↔ p l)
    (x : Xml) :
    encodeClusterWith cc cfg h children = .ok x ↔
      Node "cluster" (derived cc cfg.clusterName h.derivedFrom)
      ([name cc "name" cfg.clusterName h.name,
       may h.description (plain "description"),
       may h.alternateCluster (name cc "alternateCluster" cfg.clusterName),
       may h.headerStructName (plain "headerStructName"),
       number "addressOffset" cfg.clusterAddressOffset h.addressOffset] ++
      properties cfg h.defaultRegisterProperties ++ [p]) x := by
  have := node_iff (tag := "cluster") (derived_iff cc cfg.clusterName h.derivedFrom)
    (det_append seq![det_name (cc := cc) (tag := "name") (f := cfg.clusterName) (s := h.name),
      may_plain (tag := "description") (o := h.description),
      may_name (cc := cc) (tag := "alternateCluster") (f := cfg.clusterName) (o := h.alternateCluster),
      may_plain (tag := "headerStructName") (o := h.headerStructName),
      det_number (tag := "addressOffset") (f := cfg.clusterAddressOffset) (v := h.addressOffset)]
     (properties_det cfg h.defaultRegisterProperties)) hc det_nil x
  simp only [List.append_assoc, List.append_nil, List.cons_append, List.nil_append] at this
  simp only [encodeClusterWith, List.append_assoc, List.cons_append, List.nil_append]
  exact this

set_option linter.unusedSectionVars false in
mutual
theorem rc_iff : ∀ (c : RegisterCluster) (x : Xml),
    encodeRegisterCluster oc cc cfg c = .ok x ↔ RcWritten oc cc cfg c x
  | .register r, x => by rw [encodeRegisterCluster, RcWritten]; exact register_iff oc cc cfg r x
  | .cluster h d cs, x => by
    rw [encodeRegisterCluster, RcWritten]
    have := array_iff oc cc cfg (cluster_iff cc cfg h (rcList_iff cs)) d x
    simp only [List.append_assoc] at this ⊢
    exact this
theorem rcList_iff : ∀ (cs : List RegisterCluster) (l : List Xml),
    encodeRegisterClusters oc cc cfg cs = .ok l ↔ RcsWritten oc cc cfg cs l
  | [], l => by
    rw [encodeRegisterClusters, RcsWritten]
    exact ⟨fun h => (by injection h with h; exact h.symm), fun h => by rw [h]⟩
  | c :: cs, l => by
    rw [encodeRegisterClusters, RcsWritten]
    simp only [bind_ok, rc_iff c, rcList_iff cs]
    constructor
    · rintro ⟨x, hx, xs, hxs, h⟩; injection h with h; exact ⟨x, xs, hx, hxs, h.symm⟩
    · rintro ⟨x, xs, hx, hxs, rfl⟩; exact ⟨x, hx, xs, hxs, rfl⟩
end

theorem registers_iff (o : Option (List RegisterCluster)) (cs : List Xml) :
    encodeRegisters oc cc cfg o = .ok cs ↔
      may o (fun l => one fun x => ∃ l', PlacedRc oc cfg.registerClusterSorting l l' ∧
       Node "registers" bare [each (RcWritten oc cc cfg) l'] x) cs := by
  cases o with
  | none => exact ⟨fun h => (by injection h with h; exact h.symm), fun h => by rw [h]; rfl⟩
  | some l =>
    simp only [encodeRegisters, bind_ok, sortRc_iff, may, one, ← list_iff (rc_iff oc cc cfg)]
    constructor
    · rintro ⟨l', h1, xs, h2, h⟩
      injection h with h
      exact ⟨_, ⟨l', h1, xs, h2, rfl⟩, h.symm⟩
    · rintro ⟨_, ⟨l', h1, xs, h2, rfl⟩, rfl⟩
      exact ⟨l', h1, xs, h2, rfl⟩

theorem blocks_det (o : Option (List AddressBlock)) :
    Det (may o (each (BlockWritten cfg))) ((o.getD []).map (encodeAddressBlock cfg)) := by
  cases o with
  | none => exact fun _ => Iff.rfl
  | some l => exact det_each (block_iff cfg) l

theorem peripheralInfo_iff (p : PeripheralInfo) (x : Xml) :
    encodePeripheralInfo oc cc cfg p = .ok x ↔
      Node "peripheral" (derived cc cfg.peripheralName p.derivedFrom)
    ([name cc "name" cfg.peripheralName p.name,
     may p.displayName (plain "displayName"),
     may p.version (plain "version"),
     may p.description (plain "description"),
     may p.alternatePeripheral (name cc "alternatePeripheral" cfg.peripheralName),
     may p.groupName (plain "groupName"),
     may p.prependToName (name cc "prependToName" cfg.peripheralName),
     may p.appendToName (name cc "appendToName" cfg.peripheralName),
     may p.headerStructName (name cc "headerStructName" cfg.peripheralName),
     number "baseAddress" cfg.peripheralBaseAddress p.baseAddress] ++
    properties cfg p.defaultRegisterProperties ++
    [may p.addressBlock (each (BlockWritten cfg)),
     each (InterruptWritten cc cfg) p.interrupt,
     may p.registers fun l => one fun x => ∃ l', PlacedRc oc cfg.registerClusterSorting l l' ∧
       Node "registers" bare [each (RcWritten oc cc cfg) l'] x]) x := by
  have := node_iff (tag := "peripheral") (derived_iff cc cfg.peripheralName p.derivedFrom)
    (det_append seq![det_name (cc := cc) (tag := "name") (f := cfg.peripheralName) (s := p.name),
      may_plain (tag := "displayName") (o := p.displayName),
      may_plain (tag := "version") (o := p.version),
      may_plain (tag := "description") (o := p.description),
      may_name (cc := cc) (tag := "alternatePeripheral") (f := cfg.peripheralName) (o := p.alternatePeripheral),
      may_plain (tag := "groupName") (o := p.groupName),
      may_name (cc := cc) (tag := "prependToName") (f := cfg.peripheralName) (o := p.prependToName),
      may_name (cc := cc) (tag := "appendToName") (f := cfg.peripheralName) (o := p.appendToName),
      may_name (cc := cc) (tag := "headerStructName") (f := cfg.peripheralName) (o := p.headerStructName),
      det_number (tag := "baseAddress") (f := cfg.peripheralBaseAddress) (v := p.baseAddress)]
     (det_append (properties_det cfg p.defaultRegisterProperties)
      seq![blocks_det cfg p.addressBlock, det_each (interrupt_iff cc cfg) p.interrupt]))
    (registers_iff oc cc cfg p.registers) det_nil x
  simp only [List.append_assoc, List.append_nil, List.cons_append, List.nil_append] at this
  simp only [encodePeripheralInfo, List.append_assoc, List.cons_append, List.nil_append]
  exact this

theorem peripheral_iff (p : Peripheral) (x : Xml) :
    encodePeripheral oc cc cfg p = .ok x ↔ PeripheralWritten oc cc cfg p x := by
  have := array_iff oc cc cfg (peripheralInfo_iff oc cc cfg p.info) p.dim? x
  unfold PeripheralWritten
  simp only [List.append_assoc] at this ⊢
  exact this

theorem device_iff (d : Device) (x : Xml) :
    encodeDevice oc cc cfg d = .ok x ↔ DeviceWritten oc cc cfg d x := by
  have hps : ∀ l, (do
      let sorted ← sortDerivedPeripherals oc cfg.peripheralSorting d.peripherals
      let ps ← sorted.mapM (encodePeripheral oc cc cfg)
      .ok [.elem "peripherals" [] ps] : M (List Xml)) = .ok l ↔
      one (fun x => ∃ l, PlacedDerivable oc (fun p : Peripheral => p.info.baseAddress.toNat)
        (fun p => p.info.name) (fun p => p.info.derivedFrom ≠ none) cfg.peripheralSorting d.peripherals l ∧
        Node "peripherals" bare [each (PeripheralWritten oc cc cfg) l] x) l := by
    intro l
    simp only [bind_ok, peripherals_iff, one, ← list_iff (peripheral_iff oc cc cfg)]
    constructor
    · rintro ⟨l', h1, xs, h2, h⟩
      injection h with h
      exact ⟨_, ⟨l', h1, xs, h2, rfl⟩, h.symm⟩
    · rintro ⟨_, ⟨l', h1, xs, h2, rfl⟩, rfl⟩
      exact ⟨l', h1, xs, h2, rfl⟩
  have := node_iff (tag := "device") (A := fun as => as =
      [("schemaVersion", d.schemaVersion), ("xmlns:xs", d.xmlnsXs),
       ("xs:noNamespaceSchemaLocation", d.noNamespaceSchemaLocation)]) (fun _ => Iff.rfl)
    (det_append seq![may_plain (tag := "vendor") (o := d.vendor),
      may_plain (tag := "vendorID") (o := d.vendorId),
      det_plain (tag := "name") (s := d.name),
      may_plain (tag := "series") (o := d.series),
      det_plain (tag := "version") (s := d.version),
      det_plain (tag := "description") (s := d.description),
      may_plain (tag := "licenseText") (o := d.licenseText),
      det_may d.cpu (fun c => det_one (cpu_iff c)),
      may_plain (tag := "headerSystemFilename") (o := d.headerSystemFilename),
      may_plain (tag := "headerDefinitionsPrefix") (o := d.headerDefinitionsPrefix),
      det_decimal (tag := "addressUnitBits") (v := d.addressUnitBits),
      det_decimal (tag := "width") (v := d.width)]
     (properties_det cfg d.defaultRegisterProperties)) hps det_nil x
  simp only [List.append_assoc, List.append_nil, List.cons_append, List.nil_append, bind_assoc, ok_bind] at this
  simp only [encodeDevice, unsorted_peripherals, List.append_assoc, List.cons_append, List.nil_append]
  unfold DeviceWritten
  simp only [List.cons_append, List.nil_append]
  exact this

end

end Svd.Written

namespace Svd

open Written

/-- **C65.** A device is written as `x` exactly if `x` is what its specification says, for every configuration: every
element in its place, each number in the format of the option for this element, each name in the identifier format for
this element, the bits of fields in the notation asked for, the elements in the order asked for. -/
theorem C65_device (oc : Bool) (cc : IdentifierFormat → Str → Str) (cfg : EncConfig) (d : Device) (x : Xml) :
    encodeDevice oc cc cfg d = .ok x ↔ DeviceWritten oc cc cfg d x :=
  device_iff oc cc cfg d x

/-- **C65** for the parts: peripherals, registers and clusters, fields, descriptions of arrays. -/
theorem C65_parts (oc : Bool) (cc : IdentifierFormat → Str → Str) (cfg : EncConfig) (x : Xml) :
    (∀ p, encodePeripheral oc cc cfg p = .ok x ↔ PeripheralWritten oc cc cfg p x) ∧
    (∀ c, encodeRegisterCluster oc cc cfg c = .ok x ↔ RcWritten oc cc cfg c x) ∧
    (∀ f, encodeField oc cc cfg f = .ok x ↔ FieldWritten oc cc cfg f x) ∧
    (∀ d, encodeDimElement oc cc cfg d = .ok x ↔ Node "dimElement" bare (dims oc cc cfg (some d)) x) :=
  ⟨fun p => peripheral_iff oc cc cfg p x, fun c => rc_iff oc cc cfg c x, fun f => field_iff oc cc cfg f x,
    fun d => dim_iff oc cc cfg d x⟩

/-- **C65.** The texts: numbers in every format, names in every identifier format. -/
theorem C65_texts :
    (∀ (w : Nat) (v : BitVec w) (f : NumberFormat) (s : Str), formatNumber v f = s ↔ InFormat f v.toNat s) ∧
    (∀ (cc : IdentifierFormat → Str → Str) (f : Option IdentifierFormat) (s s' : Str),
      changeCase cc s f = s' ↔ Renamed cc f s s') :=
  ⟨fun _ v f s => eq_comm.trans (inFormat_iff f v s).symm,
    fun cc f s s' => eq_comm.trans (renamed_iff cc f s s').symm⟩

/-- **C65.** Two outcomes of writing the same device are the same. -/
theorem C65_unique (oc : Bool) (cc : IdentifierFormat → Str → Str) (cfg : EncConfig) (d : Device) {x y : Xml}
    (hx : DeviceWritten oc cc cfg d x) (hy : DeviceWritten oc cc cfg d y) : x = y := by
  have h1 := (C65_device oc cc cfg d x).mpr hx
  rw [(C65_device oc cc cfg d y).mpr hy] at h1
  injection h1 with h1
  exact h1.symm

/-- **C28, C29**, exactly: the order of peripherals, of fields, and of registers and clusters, for every option and
every list, and when there is none.  Descending offsets are compared as signed 32-bit numbers, see C29. -/
theorem C29_exact (oc : Bool) :
    (∀ s l l', sortDerivedPeripherals oc s l = .ok l' ↔
      PlacedDerivable oc (fun p : Peripheral => p.info.baseAddress.toNat)
        (fun p => p.info.name) (fun p => p.info.derivedFrom ≠ none) s l l') ∧
    (∀ s l l', sortDerivedFields oc s l = .ok l' ↔
      PlacedDerivable oc (fun f : Field => f.info.bitRange.offset.toNat) (fun f => f.info.name)
        (fun f => f.info.derivedFrom ≠ none ∨ ∃ e ∈ f.info.enumeratedValues, e.derivedFrom ≠ none) s l l') ∧
    (∀ s l l', sortRc oc s l = .ok l' ↔ PlacedRc oc s l l') :=
  ⟨peripherals_iff oc, fields_iff oc, sortRc_iff oc⟩

/-- **C07**, exactly when looking for a range of indexes does not panic. -/
theorem C07_exact (oc : Bool) (d : DimElement) :
    (∃ r, d.indexesAsRange oc = .ok r) ↔ Countable oc d :=
  countable_iff oc d

/-! ### Examples -/

example : InFormat .upperHex8 0x2AB "0x000002AB".toList := by
  have := (C65_texts.1 32 0x2AB .upperHex8 "0x000002AB".toList).mp (by decide)
  exact this
example : ¬ InFormat .upperHex 0x2AB "0x2ab".toList := fun h => by
  have := (C65_texts.1 32 0x2AB .upperHex _).mpr h
  revert this; decide
example : Renamed (fun _ s => s.map Char.toUpper) (some .constant) "ch%s_a".toList "CH%s_A".toList :=
  (C65_texts.2 _ _ _ _).mp (by decide)
example : rank 5 = 5 ∧ rank 0xFFFFFFFF = -1 ∧ rank 0x80000000 = 0x80000000 := by decide
/-- A field of an array, written. -/
def writtenField : Field :=
  .array ⟨"F%s".toList, none, ⟨4, 2, .bitRange⟩, some .readOnly, none, none, none, [], some "G".toList⟩
    ⟨3, 2, some ["0".toList, "1".toList, "2".toList], none, none⟩
example : FieldWritten true (fun _ s => s) { dimDim := .upperHex8 } writtenField
    (.elem "field" [("derivedFrom", "G".toList)]
      [newNode "dim" "0x00000003".toList, newNode "dimIncrement" "0x2".toList, newNode "dimIndex" "0-2".toList,
       newNode "name" "F%s".toList, newNode "bitRange" "[5:4]".toList, newNode "access" "read-only".toList]) :=
  ((C65_parts true _ _ _).2.2.1 writtenField).mp (by decide +kernel)
example : Countable true ⟨2, 2, some ["0".toList, "4294967295".toList], none, none⟩ = False := by
  rw [← C07_exact]
  simp only [eq_iff_iff, iff_false]
  rintro ⟨r, h⟩
  have e : DimElement.indexesAsRange true ⟨2, 2, some ["0".toList, "4294967295".toList], none, none⟩ =
    .error (.panic .overflow) := by decide +kernel
  rw [e] at h; cases h

-- `C65_device` and `C65_unique`: one document can be written, and no other.
example : ∃ x, DeviceWritten true (fun _ s => s) {} Sample.nested x ∧
    ∀ y, DeviceWritten true (fun _ s => s) {} Sample.nested y → y = x := by
  obtain ⟨x, h⟩ := ok_of_isOk (x := encodeDevice true (fun _ s => s) {} Sample.nested) (by decide +kernel)
  have h := (C65_device _ _ _ _ _).mp h
  exact ⟨x, h, fun y hy => C65_unique _ _ _ _ hy h⟩
-- `C29_exact`: the order of two fields, one with bit 31 of its offset set.
example : PlacedDerivable true (fun f : Field => f.info.bitRange.offset.toNat) (fun f => f.info.name)
    (fun f => f.info.derivedFrom ≠ none ∨ ∃ e ∈ f.info.enumeratedValues, e.derivedFrom ≠ none)
    (.unchanged (some .offsetReversed)) [sortField "B" 0x80000001 none, sortField "A" 1 none]
    [sortField "A" 1 none, sortField "B" 0x80000001 none] :=
  ((C29_exact true).2.1 _ _ _).mp ((C29_violated true).2.2 _ _ (by decide) (by decide))

end Svd
