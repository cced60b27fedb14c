import Verif.Spec.Sample
import Verif.Props.SerdeDevice
import Verif.Props.Document
import Verif.Props.Expanded
import Verif.Spec.Value

/-!
# C64 What is read from a JSON or YAML value
-/

namespace Svd

open Spec

namespace Value

/-! ## Entries -/

theorem hits_cons (k : String) (e : String × Val) (es : Entries) :
    hits k (e :: es) = if e.1 = k then e.2 :: hits k es else hits k es := by
  unfold hits
  by_cases h : e.1 = k <;> simp [h]

theorem missing_iff {k : String} {es : Entries} : hits k es = [] ↔ Missing k es := by
  induction es with
  | nil => simp [hits, Missing]
  | cons e es ih =>
    rw [hits_cons]
    by_cases h : e.1 = k
    · rw [if_pos h]
      exact ⟨(by intro h; cases h), fun hm => absurd h (hm e (by simp))⟩
    · rw [if_neg h, ih]
      constructor
      · intro hm x hx
        rcases List.mem_cons.mp hx with rfl | hx
        · exact h
        · exact hm x hx
      · exact fun hm x hx => hm x (by simp [hx])

theorem only_iff {k : String} {es : Entries} {v : Val} : hits k es = [v] ↔ Only k es v := by
  constructor
  · intro h
    induction es with
    | nil => cases h
    | cons e es ih =>
      rw [hits_cons] at h
      by_cases he : e.1 = k
      · rw [if_pos he] at h
        injection h with h1 h2
        refine ⟨[], es, ?_, by simp [Missing], missing_iff.mp h2⟩
        rw [← he, ← h1]
        rfl
      · rw [if_neg he] at h
        obtain ⟨a, b, h1, h2, h3⟩ := ih h
        refine ⟨e :: a, b, by rw [h1]; rfl, ?_, h3⟩
        intro x hx
        rcases List.mem_cons.mp hx with rfl | hx
        · exact he
        · exact h2 x hx
  · rintro ⟨a, b, rfl, h1, h2⟩
    rw [hits_append, missing_iff.mpr h1, hits_cons, if_pos rfl, missing_iff.mpr h2]
    rfl

theorem only_unique {k : String} {es : Entries} {v w : Val} (h : Only k es v) (h' : Only k es w) : v = w := by
  have := (only_iff.mpr h).symm.trans (only_iff.mpr h')
  injection this

section
variable {α : Type} {V : Val → α → Prop} {de : Val → M α} (hV : ∀ v a, de v = .ok a ↔ V v a)
include hV

theorem req (k : String) (es : Entries) (a : α) : reqField de k es = .ok a ↔ Has V es k a := by
  unfold reqField Has
  simp only [← only_iff, ← hV]
  constructor
  · intro h
    split at h
    · rename_i v hv; exact ⟨v, hv, h⟩
    · cases h
  · rintro ⟨v, h1, h2⟩
    rw [h1]
    exact h2

theorem opt (k : String) (es : Entries) (o : Option α) : optField de k es = .ok o ↔ May V es k o := by
  unfold optField
  constructor
  · intro h
    split at h
    · rename_i hv; cases h; exact .missing (missing_iff.mp hv)
    · rename_i hv; cases h; exact .null (only_iff.mp hv)
    · rename_i v hn hv
      obtain ⟨a, h1, h2⟩ := bind_ok.mp h
      cases h2
      exact .given (only_iff.mp hv) (fun h => hn h) ((hV _ _).mp h1)
    · cases h
  · intro h
    cases h with
    | missing h => rw [missing_iff.mpr h]
    | null h => rw [only_iff.mpr h]
    | @given v a h1 h2 h3 =>
      rw [only_iff.mpr h1]
      have h3 := (hV _ _).mpr h3
      cases v with
      | null => exact absurd rfl h2
      | _ => simp only [h3]; rfl

theorem list (v : Val) (l : List α) : deList de v = .ok l ↔ ListVal V v l := by
  unfold ListVal
  cases v with
  | arr vs =>
    show vs.mapM de = .ok l ↔ _
    constructor
    · intro h
      exact ⟨vs, rfl, (pairs_mapM fun x _ y => hV x y).mp h⟩
    · rintro ⟨_, h, hp⟩
      cases h
      exact (pairs_mapM fun x _ y => hV x y).mpr hp
  | _ => exact ⟨(by intro h; cases h), (by rintro ⟨_, h, _⟩; cases h)⟩

theorem items (k : String) (es : Entries) (l : List α) :
    listField (deList de) k es = .ok l ↔ Items V es k l := by
  unfold listField
  constructor
  · intro h
    split at h
    · rename_i hv; cases h; exact .missing (missing_iff.mp hv)
    · rename_i v hv
      obtain ⟨vs, rfl, hp⟩ := (list hV _ _).mp h
      exact .given (only_iff.mp hv) hp
    · cases h
  · intro h
    cases h with
    | missing h => rw [missing_iff.mpr h]
    | given h1 h2 =>
      rw [only_iff.mpr h1]
      exact (list hV _ _).mpr ⟨_, rfl, h2⟩

end

theorem map {α : Type} {P : Entries → α → Prop} {de : Entries → M α} (hP : ∀ es a, de es = .ok a ↔ P es a)
    (v : Val) (a : α) : deStruct de v = .ok a ↔ MapVal P v a := by
  unfold MapVal
  cases v with
  | obj es =>
    exact ⟨fun h => ⟨es, rfl, (hP _ _).mp h⟩, (by rintro ⟨_, h, hp⟩; cases h; exact (hP _ _).mpr hp)⟩
  | _ => exact ⟨(by intro h; cases h), (by rintro ⟨_, h, _⟩; cases h)⟩

theorem req_rest {α : Type} (de : Val → M α) {k : String} {own : List String} (h : k ∉ own) (es : Entries) :
    reqField de k (rest own es) = reqField de k es := by
  unfold reqField
  rw [hits_rest, if_neg h]

theorem opt_rest {α : Type} (de : Val → M α) {k : String} {own : List String} (h : k ∉ own) (es : Entries) :
    optField de k (rest own es) = optField de k es := by
  unfold optField
  rw [hits_rest, if_neg h]

theorem items_rest {α : Type} (de : Val → M (List α)) {k : String} {own : List String} (h : k ∉ own)
    (es : Entries) : listField de k (rest own es) = listField de k es := by
  unfold listField
  rw [hits_rest, if_neg h]

/-! ## Simple values -/

theorem truth (v : Val) (b : Bool) : deBool v = .ok b ↔ TruthVal v b := by
  unfold TruthVal
  cases v <;> simp [deBool, bad, fail]

theorem num {w : Nat} (v : Val) (x : BitVec w) : deInt w v = .ok x ↔ NumVal v x := by
  unfold NumVal
  cases v with
  | num m =>
    unfold deInt
    simp only [Val.num.injEq]
    split
    · rename_i h
      constructor
      · intro h'
        cases h'
        simp [Nat.mod_eq_of_lt h]
      · rintro rfl
        simp
    · rename_i h
      constructor
      · intro h'; cases h'
      · rintro rfl; exact absurd x.isLt h
  | _ => simp [deInt, bad, fail]

theorem txt (v : Val) (s : Str) : deStr v = .ok s ↔ TextVal v s := by
  unfold TextVal
  cases v <;> simp [deStr, bad, fail]

theorem word {α : Type} {all : List α} {name : α → String} {table : List (String × α)}
    (h1 : ∀ p ∈ table, all.find? (fun b => (name b).toList == p.1.toList) = some p.2)
    (h2 : ∀ a ∈ all, (name a, a) ∈ table) (v : Val) (a : α) :
    deUnit all name v = .ok a ↔ WordVal table v a := by
  unfold WordVal
  cases v with
  | str s =>
    show (match all.find? (fun a => (name a).toList == s) with
      | some a => .ok a
      | none => bad : M α) = _ ↔ _
    constructor
    · intro h
      split at h
      · rename_i b hb
        injection h with h
        subst h
        have h3 := List.find?_some hb
        exact ⟨name b, h2 b (List.mem_of_find?_eq_some hb), congrArg Val.str (beq_iff_eq.mp h3).symm⟩
      · cases h
    · rintro ⟨k, hk, h⟩
      injection h with h
      subst h
      rw [h1 _ hk]
  | _ => exact ⟨(by intro h; cases h), (by rintro ⟨_, _, h⟩; cases h)⟩

theorem access : ∀ v a, deAccess v = .ok a ↔ WordVal accessSpelling v a :=
  word (by decide) (by intro a _; cases a <;> decide)
theorem usage : ∀ v a, deUsage v = .ok a ↔ WordVal usageSpelling v a :=
  word (by decide) (by intro a _; cases a <;> decide)
theorem protection : ∀ v a, deProtection v = .ok a ↔ WordVal protectionSpelling v a :=
  word (by decide) (by intro a _; cases a <;> decide)
theorem endian : ∀ v a, deEndian v = .ok a ↔ WordVal endianSpelling v a :=
  word (by decide) (by intro a _; cases a <;> decide)
theorem readAction : ∀ v a, deReadAction v = .ok a ↔ WordVal readActionSpelling v a :=
  word (by decide) (by intro a _; cases a <;> decide)
theorem modified : ∀ v a, deModified v = .ok a ↔ WordVal modifiedWriteValuesSpelling v a :=
  word (by decide) (by intro a _; cases a <;> decide)
theorem dataType : ∀ v a, deDataType v = .ok a ↔ WordVal dataTypeName v a :=
  word (by decide) (by intro a _; cases a <;> decide)
theorem blockUsage : ∀ v a, deBlockUsage v = .ok a ↔ WordVal addressBlockUsageSpelling v a :=
  word (by decide) (by intro a _; cases a <;> decide)

/-! ## Small structs -/

theorem range : ∀ v r, deRange v = .ok r ↔ MapVal RangeVal v r := map fun es r => by
  simp only [bind_ok, req num]
  constructor
  · rintro ⟨_, h1, _, h2, h⟩
    cases h
    exact ⟨h1, h2⟩
  · rintro ⟨h1, h2⟩
    exact ⟨_, h1, _, h2, rfl⟩

theorem constraint (v : Val) (w : WriteConstraint) : deWriteConstraint v = .ok w ↔ ConstraintVal v w := by
  constructor
  · intro h
    unfold deWriteConstraint at h
    split at h
    · rename_i k v
      split at h
      · rename_i hk
        subst hk
        obtain ⟨b, h1, h2⟩ := bind_ok.mp h
        cases h2
        cases (truth _ _).mp h1
        exact .writeAsRead
      · split at h
        · rename_i hk
          subst hk
          obtain ⟨b, h1, h2⟩ := bind_ok.mp h
          cases h2
          cases (truth _ _).mp h1
          exact .useEnumeratedValues
        · split at h
          · rename_i hk
            subst hk
            obtain ⟨b, h1, h2⟩ := bind_ok.mp h
            cases h2
            exact .range ((range _ _).mp h1)
          · cases h
    · cases h
  · intro h
    cases h with
    | writeAsRead => rfl
    | useEnumeratedValues => rfl
    | range h =>
      show (do let r ← deRange _; .ok (.range r) : M WriteConstraint) = _
      rw [(range _ _).mpr h]
      rfl

theorem enumValue : ∀ v r, deEnumValue v = .ok r ↔ MapVal EnumValueVal v r := map fun es r => by
  simp only [bind_ok, req txt, opt txt, opt num, opt truth]
  constructor
  · rintro ⟨_, h1, _, h2, _, h3, _, h4, h⟩
    cases h
    exact ⟨h1, h2, h3, h4⟩
  · rintro ⟨h1, h2, h3, h4⟩
    exact ⟨_, h1, _, h2, _, h3, _, h4, rfl⟩

theorem enums : ∀ v r, deEnums v = .ok r ↔ MapVal EnumsVal v r := map fun es r => by
  simp only [bind_ok, opt txt, opt usage, items enumValue]
  constructor
  · rintro ⟨_, h1, _, h2, _, h3, _, h4, h⟩
    cases h
    exact ⟨h1, h2, h3, h4⟩
  · rintro ⟨h1, h2, h3, h4⟩
    exact ⟨_, h1, _, h2, _, h3, _, h4, rfl⟩

theorem arrayIndex : ∀ v r, deDimArrayIndex v = .ok r ↔ MapVal ArrayIndexVal v r := map fun es r => by
  simp only [bind_ok, opt txt, req (list enumValue)]
  constructor
  · rintro ⟨_, h1, _, h2, h⟩
    cases h
    exact ⟨h1, h2⟩
  · rintro ⟨h1, h2⟩
    exact ⟨_, h1, _, h2, rfl⟩

theorem interrupt : ∀ v r, deInterrupt v = .ok r ↔ MapVal InterruptVal v r := map fun es r => by
  simp only [bind_ok, opt txt, req txt, req num]
  constructor
  · rintro ⟨_, h1, _, h2, _, h3, h⟩
    cases h
    exact ⟨h1, h2, h3⟩
  · rintro ⟨h1, h2, h3⟩
    exact ⟨_, h1, _, h2, _, h3, rfl⟩

theorem addressBlock : ∀ v r, deAddressBlock v = .ok r ↔ MapVal AddressBlockVal v r := map fun es r => by
  simp only [bind_ok, req num, req blockUsage, opt protection]
  constructor
  · rintro ⟨_, h1, _, h2, _, h3, _, h4, h⟩
    cases h
    exact ⟨h1, h2, h3, h4⟩
  · rintro ⟨h1, h2, h3, h4⟩
    exact ⟨_, h1, _, h2, _, h3, _, h4, rfl⟩

theorem cpu : ∀ v r, deCpu v = .ok r ↔ MapVal CpuVal v r := map fun es r => by
  simp only [bind_ok, req txt, req endian, req truth, opt truth, req num, opt num]
  constructor
  · rintro ⟨_, h1, _, h2, _, h3, _, h4, _, h5, _, h6, _, h7, _, h8, _, h9, _, h10, _, h11, _, h12, _, h13, _, h14,
      _, h15, _, h16, h⟩
    cases h
    exact ⟨h1, h2, h3, h4, h5, h6, h7, h8, h9, h10, h11, h12, h13, h14, h15, h16⟩
  · rintro ⟨h1, h2, h3, h4, h5, h6, h7, h8, h9, h10, h11, h12, h13, h14, h15, h16⟩
    exact ⟨_, h1, _, h2, _, h3, _, h4, _, h5, _, h6, _, h7, _, h8, _, h9, _, h10, _, h11, _, h12, _, h13, _, h14,
      _, h15, _, h16, rfl⟩

/-! ## Members in the same map -/

theorem properties (es : Entries) (p : RegisterProperties) : deProperties es = .ok p ↔ PropsVal es p := by
  unfold deProperties
  simp only [bind_ok, opt num, opt access, opt protection]
  constructor
  · rintro ⟨_, h1, _, h2, _, h3, _, h4, _, h5, h⟩
    cases h
    exact ⟨h1, h2, h3, h4, h5⟩
  · rintro ⟨h1, h2, h3, h4, h5⟩
    exact ⟨_, h1, _, h2, _, h3, _, h4, _, h5, rfl⟩

theorem properties_rest {own : List String} (h : ∀ k ∈ ["size", "access", "protection", "resetValue", "resetMask"],
    k ∉ own) (es : Entries) : deProperties (rest own es) = deProperties es := by
  unfold deProperties
  rw [opt_rest _ (h "size" (by simp)), opt_rest _ (h "access" (by simp)), opt_rest _ (h "protection" (by simp)),
    opt_rest _ (h "resetValue" (by simp)), opt_rest _ (h "resetMask" (by simp))]

theorem strs (vs : List Val) (l : List Str) : vs.mapM deStr = .ok l ↔ vs = l.map .str := by
  induction vs generalizing l with
  | nil =>
    cases l with
    | nil => exact ⟨fun _ => rfl, fun _ => rfl⟩
    | cons a l => exact ⟨(by intro h; cases h), (by intro h; cases h)⟩
  | cons v vs ih =>
    rw [mapM_cons]
    simp only [bind_ok, txt, ih, TextVal]
    constructor
    · rintro ⟨s, rfl, l', rfl, h⟩; cases h; rfl
    · intro h
      cases l with
      | nil => cases h
      | cons s l => injection h with h1 h2; exact ⟨s, h1, l, h2, rfl⟩

theorem indexes (v : Val) (o : Option (List Str)) : deDimIndex v = .ok o ↔ IndexesVal v o := by
  have other : ∀ v, (∀ vs, v ≠ .arr vs) → (∀ s, v ≠ .str s) → v ≠ .null →
      (deDimIndex v = .ok o ↔ IndexesVal v o) := by
    intro v h1 h2 h3
    constructor
    · intro h
      cases v with
      | null => exact absurd rfl h3
      | arr l => exact absurd rfl (h1 l)
      | str s => exact absurd rfl (h2 s)
      | _ => cases h
    · intro h
      cases h with
      | null => exact absurd rfl h3
      | list => exact absurd rfl (h1 _)
      | text => exact absurd rfl (h2 _)
  cases v with
  | null =>
    constructor
    · intro h; cases h; exact .null
    · intro h
      cases h
      rfl
  | arr vs =>
    have e : deDimIndex (.arr vs) = (match vs.mapM deStr with
      | .ok l => .ok (some l)
      | .error _ => bad : M (Option (List Str))) := by
      show (do
        let s ← (match vs.mapM deStr with
          | .ok l => .ok (.array l)
          | .error _ => bad : M SerDimIndex)
        match deserializeDimIndex (some s) with
        | some l => .ok l
        | none => bad : M (Option (List Str))) = _
      cases vs.mapM deStr <;> rfl
    rw [e]
    cases h : vs.mapM deStr with
    | ok l =>
      have hl := (strs _ _).mp h
      subst hl
      constructor
      · intro h; cases h; exact .list
      · intro h
        generalize hx : Val.arr (l.map .str) = x at h
        cases h with
        | null => cases hx
        | text => cases hx
        | @list l' =>
          injection hx with hx
          have : l = l' := by
            have h2 := (strs (l'.map .str) l).mpr hx.symm
            rw [(strs _ l').mpr rfl] at h2
            injection h2 with h2
            exact h2.symm
          subst this
          rfl
    | error e =>
      constructor
      · intro h; cases h
      · intro hv
        generalize hx : Val.arr vs = x at hv
        cases hv with
        | null => cases hx
        | text => cases hx
        | @list l' =>
          injection hx with hx
          rw [(strs vs l').mpr hx] at h
          cases h
  | str s =>
    show (match (DimElement.parseIndexes s).map some with
      | some l => .ok l
      | none => bad : M (Option (List Str))) = _ ↔ _
    cases h : DimElement.parseIndexes s with
    | some l =>
      have hl := (C05_parse_indexes_iff s l).mp h
      constructor
      · intro h'; cases h'; exact .text hl
      · intro hv
        cases hv with
        | text ht =>
          rw [(C05_parse_indexes_iff s _).mpr ht] at h
          cases h
          rfl
    | none =>
      constructor
      · intro h'; cases h'
      · intro hv
        cases hv with
        | text ht =>
          rw [(C05_parse_indexes_iff s _).mpr ht] at h
          cases h
  | _ => exact other _ (by simp) (by simp) (by simp)

theorem dim (es : Entries) (d : DimElement) : deDim es = .ok d ↔ DimVal es d := by
  unfold deDim
  simp only [bind_ok, req num, req indexes, opt txt, opt arrayIndex]
  constructor
  · rintro ⟨_, h1, _, h2, _, h3, _, h4, _, h5, h⟩
    cases h
    exact ⟨h1, h2, h3, h4, h5⟩
  · rintro ⟨h1, h2, h3, h4, h5⟩
    exact ⟨_, h1, _, h2, _, h3, _, h4, _, h5, rfl⟩

/-! ## Faults -/

/-- Reading reports an error or returns. -/
def Reports (e : Fault) : Prop := e = .err .deserialize

theorem req_reports {α : Type} {P : Fault → Prop} {de : Val → M α} (hb : P (.err .deserialize))
    (h : ∀ v, Faults P (de v)) (k : String) (es : Entries) : Faults P (reqField de k es) := by
  unfold reqField
  split
  · exact h _
  · exact .error hb

theorem opt_reports {α : Type} {P : Fault → Prop} {de : Val → M α} (hb : P (.err .deserialize))
    (h : ∀ v, Faults P (de v)) (k : String) (es : Entries) : Faults P (optField de k es) := by
  unfold optField
  split
  · exact .ok _
  · exact .ok _
  · exact .bind (h _) fun _ _ => .ok _
  · exact .error hb

theorem items_reports {α : Type} {P : Fault → Prop} {de : Val → M (List α)} (hb : P (.err .deserialize))
    (h : ∀ v, Faults P (de v)) (k : String) (es : Entries) : Faults P (listField de k es) := by
  unfold listField
  split
  · exact .ok _
  · exact h _
  · exact .error hb

theorem list_reports {α : Type} {P : Fault → Prop} {de : Val → M α} (hb : P (.err .deserialize))
    (h : ∀ v, Faults P (de v)) (v : Val) : Faults P (deList de v) := by
  unfold deList
  split
  · exact .mapM fun _ _ => h _
  · exact .error hb

theorem map_reports {α : Type} {P : Fault → Prop} {de : Entries → M α} (hb : P (.err .deserialize))
    (h : ∀ es, Faults P (de es)) (v : Val) : Faults P (deStruct de v) := by
  unfold deStruct
  split
  · exact h _
  · exact .error hb

section
variable {P : Fault → Prop} (hb : P (.err .deserialize))
include hb

theorem txt_reports (v : Val) : Faults P (deStr v) := by
  unfold deStr
  split
  · exact .ok _
  · exact .error hb

theorem truth_reports (v : Val) : Faults P (deBool v) := by
  unfold deBool
  split
  · exact .ok _
  · exact .error hb

theorem num_reports (w : Nat) (v : Val) : Faults P (deInt w v) := by
  unfold deInt
  split
  · split
    · exact .ok _
    · exact .error hb
  · exact .error hb

theorem word_reports {α : Type} (all : List α) (name : α → String) (v : Val) : Faults P (deUnit all name v) := by
  unfold deUnit
  split
  · split
    · exact .ok _
    · exact .error hb
  · exact .error hb

theorem range_reports (v : Val) : Faults P (deRange v) :=
  map_reports hb (fun _ => .bind (req_reports hb (num_reports hb 64) _ _) fun _ _ =>
    .bind (req_reports hb (num_reports hb 64) _ _) fun _ _ => .ok _) v

theorem constraint_reports (v : Val) : Faults P (deWriteConstraint v) := by
  unfold deWriteConstraint
  split
  · split
    · exact .bind (truth_reports hb _) fun _ _ => .ok _
    · split
      · exact .bind (truth_reports hb _) fun _ _ => .ok _
      · split
        · exact .bind (range_reports hb _) fun _ _ => .ok _
        · exact .error hb
  · exact .error hb

theorem enumValue_reports (v : Val) : Faults P (deEnumValue v) :=
  map_reports hb (fun _ => .bind (req_reports hb (txt_reports hb) _ _) fun _ _ =>
    .bind (opt_reports hb (txt_reports hb) _ _) fun _ _ => .bind (opt_reports hb (num_reports hb 64) _ _) fun _ _ =>
      .bind (opt_reports hb (truth_reports hb) _ _) fun _ _ => .ok _) v

theorem enums_reports (v : Val) : Faults P (deEnums v) :=
  map_reports hb (fun _ => .bind (opt_reports hb (txt_reports hb) _ _) fun _ _ =>
    .bind (opt_reports hb (word_reports hb _ _) _ _) fun _ _ => .bind (opt_reports hb (txt_reports hb) _ _) fun _ _ =>
      .bind (items_reports hb (list_reports hb (enumValue_reports hb)) _ _) fun _ _ => .ok _) v

theorem arrayIndex_reports (v : Val) : Faults P (deDimArrayIndex v) :=
  map_reports hb (fun _ => .bind (opt_reports hb (txt_reports hb) _ _) fun _ _ =>
    .bind (req_reports hb (list_reports hb (enumValue_reports hb)) _ _) fun _ _ => .ok _) v

theorem indexes_reports (v : Val) : Faults P (deDimIndex v) := by
  unfold deDimIndex
  split
  · exact .ok _
  · refine .bind ?_ fun _ _ => ?_
    · unfold deDimIndexVal
      split
      · exact .ok _
      · split
        · exact .ok _
        · exact .error hb
    · split
      · exact .ok _
      · exact .error hb

theorem dim_reports (es : Entries) : Faults P (deDim es) :=
  .bind (req_reports hb (num_reports hb 32) _ _) fun _ _ =>
    .bind (req_reports hb (num_reports hb 32) _ _) fun _ _ =>
      .bind (req_reports hb (indexes_reports hb) _ _) fun _ _ =>
        .bind (opt_reports hb (txt_reports hb) _ _) fun _ _ =>
          .bind (opt_reports hb (arrayIndex_reports hb) _ _) fun _ _ => .ok _

end

/-! ## Arrays -/

theorem dimOpt (es : Entries) (o : Option DimElement) : deDimOpt es = .ok o ↔ ShapeVal es o := by
  unfold deDimOpt ShapeVal
  cases h : deDim es with
  | ok d =>
    cases o with
    | some d' =>
      show Except.ok (some d) = .ok (some d') ↔ DimVal es d'
      rw [← dim, h]
      simp
    | none =>
      simp only [reduceCtorEq, Except.ok.injEq, false_iff, Classical.not_not]
      exact ⟨d, (dim _ _).mp h⟩
  | error e =>
    have he : e = .err .deserialize := (dim_reports (P := Reports) rfl es).out e h
    subst he
    cases o with
    | some d' => simp only [Except.ok.injEq, reduceCtorEq, ← dim, h]
    | none => simp only [true_iff, ← dim, h]; simp

theorem array {α : Type} {Info : Entries → α → Prop} {de : Entries → M α}
    (h : ∀ es a, de (rest dimKeys es) = .ok a ↔ Info es a) (v : Val) (m : MaybeArray α) :
    deArray de v = .ok m ↔ ArrayVal Info v m := by
  unfold deArray ArrayVal
  refine map (fun es m => ?_) v m
  simp only [bind_ok, dimOpt, h]
  constructor
  · rintro ⟨o, h1, a, h2, h3⟩
    cases o <;> · cases h3; exact ⟨h2, h1⟩
  · rintro ⟨h1, h2⟩
    exact ⟨m.dim?, h2, m.info, h1, by cases m <;> rfl⟩

/-! ## Bits -/

theorem arith_ok {w : Nat} {oc : Bool} {c : Prop} [Decidable c] {x y : BitVec w} :
    arith oc c x = .ok y ↔ y = x ∧ (oc = true → c) := by
  unfold arith
  by_cases hc : c
  · rw [if_pos hc]
    exact ⟨(by intro h; cases h; exact ⟨rfl, fun _ => hc⟩), (by rintro ⟨rfl, _⟩; rfl)⟩
  · rw [if_neg hc]
    cases oc
    · exact ⟨(by intro h; cases h; exact ⟨rfl, by simp⟩), (by rintro ⟨rfl, _⟩; rfl)⟩
    · exact ⟨(by intro h; cases h), (by rintro ⟨_, h⟩; exact absurd (h rfl) hc)⟩

/-- The computed range. -/
theorem bitsFrom {oc : Bool} {m l : U32} {t : BitRangeType} {b : BitRange} :
    (do
      let d ← subC oc m l
      let w ← addC oc d 1
      .ok { offset := l, width := w, rangeType := t } : M BitRange) = .ok b ↔
    BitsFrom oc m.toNat l.toNat b ∧ b.rangeType = t := by
  unfold BitsFrom subC addC
  simp only [bind_ok, arith_ok]
  have hm := m.isLt
  have hl := l.isLt
  have hw : (m - l + 1).toNat = (m.toNat + 2 ^ 32 - l.toNat + 1) % 2 ^ 32 := by
    rw [BitVec.toNat_add, BitVec.toNat_sub]
    simp only [BitVec.ofNat_eq_ofNat, BitVec.toNat_ofNat]
    omega
  constructor
  · rintro ⟨_, ⟨rfl, h1⟩, _, ⟨rfl, h2⟩, h⟩
    cases h
    refine ⟨⟨rfl, hw, fun ho => ⟨h1 ho, ?_⟩⟩, rfl⟩
    have h1 := h1 ho
    have h2 := h2 ho
    rw [BitVec.toNat_sub] at h2
    simp only [BitVec.ofNat_eq_ofNat, BitVec.toNat_ofNat] at h2
    omega
  · rintro ⟨⟨h1, h2, h3⟩, h4⟩
    refine ⟨_, ⟨rfl, fun ho => (h3 ho).1⟩, _, ⟨rfl, fun ho => ?_⟩, ?_⟩
    · have h3 := h3 ho
      rw [BitVec.toNat_sub]
      simp only [BitVec.ofNat_eq_ofNat, BitVec.toNat_ofNat]
      omega
    · obtain ⟨o, w, t'⟩ := b
      simp only at h1 h2 h4
      have e1 : l = o := BitVec.eq_of_toNat_eq h1.symm
      have e2 : m - l + 1 = w := BitVec.eq_of_toNat_eq (hw.trans h2.symm)
      rw [e2, e1, h4]

theorem fromBitRange_text (oc : Bool) (t : Str) : BitRange.fromBitRange oc t =
    (match parseBitRangeText t with
    | .ok p => do
      let d ← subC oc p.1 p.2
      let w ← addC oc d 1
      .ok (some { offset := p.2, width := w, rangeType := .bitRange })
    | .error _ => .ok none : M (Option BitRange)) := by
  unfold BitRange.fromBitRange parseBitRangeText
  cases "[".toList.isPrefixOf t
  · rfl
  cases "]".toList.isSuffixOf t
  · rfl
  simp only [Bool.not_true, Bool.or_self, Bool.false_eq_true, if_false]
  cases splitOn ':' ((t.drop 1).dropLast) with
  | nil => rfl
  | cons p ps =>
    cases ps with
    | nil => cases h : fromStrRadix 32 10 p <;> simp only [h] <;> rfl
    | cons q qs =>
      cases h : fromStrRadix 32 10 p with
      | error e => simp only [h]; rfl
      | ok m =>
        cases h' : fromStrRadix 32 10 q with
        | error e => simp only [h, h']; rfl
        | ok l => simp only [h, h']

theorem readsText {t : Str} : (∃ p, parseBitRangeText t = .ok p) ↔ ∃ m l, RangeText t m l := by
  constructor
  · rintro ⟨⟨m, l⟩, h⟩; exact ⟨_, _, Document.rangeText.mp h⟩
  · rintro ⟨m, l, h⟩
    have ⟨p, q, r, _, _, h1, h2⟩ := h
    have e1 : (BitVec.ofNat 32 m).toNat = m := by rw [BitVec.toNat_ofNat, Nat.mod_eq_of_lt h1.2]
    have e2 : (BitVec.ofNat 32 l).toNat = l := by rw [BitVec.toNat_ofNat, Nat.mod_eq_of_lt h2.2]
    exact ⟨(BitVec.ofNat 32 m, BitVec.ofNat 32 l), Document.rangeText.mpr (by rw [e1, e2]; exact h)⟩

theorem fromBitRange_iff {oc : Bool} {t : Str} {b : BitRange} : BitRange.fromBitRange oc t = .ok (some b) ↔
    ∃ m l, RangeText t m l ∧ BitsFrom oc m l b ∧ b.rangeType = .bitRange := by
  rw [fromBitRange_text]
  cases h : parseBitRangeText t with
  | error e =>
    constructor
    · intro h'; cases h'
    · rintro ⟨m, l, h1, _⟩
      obtain ⟨p, hp⟩ := readsText.mpr ⟨m, l, h1⟩
      rw [hp] at h
      cases h
  | ok p =>
    obtain ⟨m, l⟩ := p
    have e : (do
      let d ← subC oc m l
      let w ← addC oc d 1
      .ok (some { offset := l, width := w, rangeType := .bitRange }) : M (Option BitRange)) = .ok (some b) ↔
      (do
      let d ← subC oc m l
      let w ← addC oc d 1
      .ok { offset := l, width := w, rangeType := .bitRange } : M BitRange) = .ok b := by
      simp only [bind_ok]
      constructor
      · rintro ⟨d, h1, w, h2, h3⟩; cases h3; exact ⟨d, h1, w, h2, rfl⟩
      · rintro ⟨d, h1, w, h2, h3⟩; cases h3; exact ⟨d, h1, w, h2, rfl⟩
    refine e.trans (bitsFrom.trans ?_)
    constructor
    · intro h'
      exact ⟨m.toNat, l.toNat, Document.rangeText.mp h, h'⟩
    · rintro ⟨m', l', h1, h2⟩
      have ⟨_, _, _, _, _, h3, h4⟩ := h1
      have e1 : (BitVec.ofNat 32 m').toNat = m' := by rw [BitVec.toNat_ofNat, Nat.mod_eq_of_lt h3.2]
      have e2 : (BitVec.ofNat 32 l').toNat = l' := by rw [BitVec.toNat_ofNat, Nat.mod_eq_of_lt h4.2]
      have h5 := Document.rangeText (m := BitVec.ofNat 32 m') (l := BitVec.ofNat 32 l').mpr (by rw [e1, e2]; exact h1)
      rw [h] at h5
      cases h5
      rw [e1, e2]
      exact h2

theorem no_ok {α : Type} {m : M α} {P : α → Prop} (h : ∀ a, m = .ok a ↔ P a) : (¬ ∃ a, P a) ↔ ∃ e, m = .error e := by
  cases m with
  | ok a => exact ⟨fun hn => absurd ⟨a, (h a).mp rfl⟩ hn, (by rintro ⟨_, h⟩; cases h)⟩
  | error e => exact ⟨fun _ => ⟨e, rfl⟩, (by rintro _ ⟨a, ha⟩; cases (h a).mpr ha)⟩

/-- The second notation. -/
def widthPart (es : Entries) : M SerBitRange := do
  let o ← reqField (deInt 32) "bitOffset" es
  let w ← reqField (deInt 32) "bitWidth" es
  .ok (SerBitRange.offsetWidth o w)

/-- The third notation. -/
def endsPart (es : Entries) : M SerBitRange := do
  let l ← reqField (deInt 32) "lsb" es
  let m ← reqField (deInt 32) "msb" es
  .ok (.msbLsb l m)

theorem widthPart_iff {es : Entries} {r : SerBitRange} :
    widthPart es = .ok r ↔ ∃ o w, WidthVal es o w ∧ r = .offsetWidth o w := by
  unfold widthPart WidthVal
  simp only [bind_ok, req num]
  constructor
  · rintro ⟨o, h1, w, h2, h3⟩; cases h3; exact ⟨o, w, ⟨h1, h2⟩, rfl⟩
  · rintro ⟨o, w, ⟨h1, h2⟩, rfl⟩; exact ⟨o, h1, w, h2, rfl⟩

theorem endsPart_iff {es : Entries} {r : SerBitRange} :
    endsPart es = .ok r ↔ ∃ l m, Has NumVal es "lsb" l ∧ Has NumVal es "msb" m ∧ r = .msbLsb l m := by
  unfold endsPart
  simp only [bind_ok, req num]
  constructor
  · rintro ⟨o, h1, w, h2, h3⟩; cases h3; exact ⟨o, w, h1, h2, rfl⟩
  · rintro ⟨o, w, h1, h2, rfl⟩; exact ⟨o, h1, w, h2, rfl⟩

theorem deSerBitRange_iff {es : Entries} {r : SerBitRange} : deSerBitRange es = .ok r ↔
    (∃ t, Has TextVal es "bitRange" t ∧ r = .bitRange t) ∨
    ((¬ ∃ t, Has TextVal es "bitRange" t) ∧ ∃ o w, WidthVal es o w ∧ r = .offsetWidth o w) ∨
    ((¬ ∃ t, Has TextVal es "bitRange" t) ∧ (¬ ∃ o w, WidthVal es o w) ∧
      ∃ l m, Has NumVal es "lsb" l ∧ Has NumVal es "msb" m ∧ r = .msbLsb l m) := by
  show (match reqField deStr "bitRange" es with
    | .ok s => .ok (.bitRange s)
    | .error _ =>
      match widthPart es with
      | .ok r => .ok r
      | .error _ => endsPart es : M SerBitRange) = _ ↔ _
  have hn := no_ok fun t => req txt "bitRange" es t
  cases h : reqField deStr "bitRange" es with
  | ok t =>
    have ht := (req txt "bitRange" es t).mp h
    constructor
    · intro h'; cases h'; exact .inl ⟨t, ht, rfl⟩
    · rintro (⟨t', ht', rfl⟩ | ⟨hno, _⟩ | ⟨hno, _⟩)
      · rw [(req txt _ _ _).mpr ht'] at h
        cases h
        rfl
      · exact absurd ⟨t, ht⟩ hno
      · exact absurd ⟨t, ht⟩ hno
  | error e =>
    have hno := hn.mpr ⟨e, h⟩
    cases hw : widthPart es with
    | ok r' =>
      have hw' := widthPart_iff.mp hw
      constructor
      · intro h'; cases h'; exact .inr (.inl ⟨hno, hw'⟩)
      · rintro (⟨t', ht', rfl⟩ | ⟨_, hr⟩ | ⟨_, hr, _⟩)
        · exact absurd ⟨t', ht'⟩ hno
        · have := widthPart_iff.mpr hr
          rw [hw] at this
          cases this
          rfl
        · obtain ⟨o, w, h1, _⟩ := hw'
          exact absurd ⟨o, w, h1⟩ hr
    | error e' =>
      have hnw : ¬ ∃ o w, WidthVal es o w := by
        rintro ⟨o, w, h'⟩
        rw [widthPart_iff.mpr ⟨o, w, h', rfl⟩] at hw
        cases hw
      constructor
      · intro h'
        exact .inr (.inr ⟨hno, hnw, endsPart_iff.mp h'⟩)
      · rintro (⟨t', ht', rfl⟩ | ⟨_, o, w, hr, _⟩ | ⟨_, _, hr⟩)
        · exact absurd ⟨t', ht'⟩ hno
        · exact absurd ⟨o, w, hr⟩ hnw
        · exact endsPart_iff.mpr hr

theorem bits (oc : Bool) (es : Entries) (b : BitRange) : deBitRange oc es = .ok b ↔ BitsVal oc es b := by
  have e : deBitRange oc es = .ok b ↔ ∃ r, deSerBitRange es = .ok r ∧ r.toBitRange oc = .ok (some b) := by
    unfold deBitRange
    simp only [bind_ok]
    constructor
    · rintro ⟨r, h1, o, h2, h3⟩
      cases o with
      | none => cases h3
      | some b' => cases h3; exact ⟨r, h1, h2⟩
    · rintro ⟨r, h1, h2⟩; exact ⟨r, h1, some b, h2, rfl⟩
  rw [e]
  constructor
  · rintro ⟨r, h1, h2⟩
    rcases deSerBitRange_iff.mp h1 with ⟨t, ht, rfl⟩ | ⟨hn, o, w, hw, rfl⟩ | ⟨hn, hn', l, m, hl, hm, rfl⟩
    · obtain ⟨m, l, h3, h4, h5⟩ := fromBitRange_iff.mp h2
      exact .text ht h3 h4 h5
    · cases h2
      exact .width hn hw rfl
    · obtain ⟨b', h3, h4⟩ := bind_ok.mp h2
      cases h4
      obtain ⟨h5, h6⟩ := bitsFrom.mp h3
      exact .ends hn hn' hl hm h5 h6
  · intro h
    cases h with
    | text h1 h2 h3 h4 =>
      exact ⟨_, deSerBitRange_iff.mpr (.inl ⟨_, h1, rfl⟩), fromBitRange_iff.mpr ⟨_, _, h2, h3, h4⟩⟩
    | width h1 h2 h3 =>
      refine ⟨_, deSerBitRange_iff.mpr (.inr (.inl ⟨h1, _, _, h2, rfl⟩)), ?_⟩
      obtain ⟨o, w, t⟩ := b
      cases h3
      rfl
    | ends h1 h2 h3 h4 h5 h6 =>
      exact ⟨_, deSerBitRange_iff.mpr (.inr (.inr ⟨h1, h2, _, _, h3, h4, rfl⟩)),
        bind_ok.mpr ⟨b, bitsFrom.mpr ⟨h5, h6⟩, rfl⟩⟩

/-! ## Fields and registers -/

theorem bits_rest (oc : Bool) {own : List String} (h : ∀ k ∈ ["bitRange", "bitOffset", "bitWidth", "lsb", "msb"],
    k ∉ own) (es : Entries) : deBitRange oc (rest own es) = deBitRange oc es := by
  unfold deBitRange deSerBitRange
  rw [req_rest _ (h "bitRange" (by simp)), req_rest _ (h "bitOffset" (by simp)), req_rest _ (h "bitWidth" (by simp)),
    req_rest _ (h "lsb" (by simp)), req_rest _ (h "msb" (by simp))]

theorem fieldInfo (oc : Bool) (es : Entries) (f : FieldInfo) :
    deFieldInfo oc (rest dimKeys es) = .ok f ↔ FieldVal oc es f := by
  unfold deFieldInfo
  simp (decide := true) only [req_rest, opt_rest, items_rest, bits_rest, bind_ok, req txt, opt txt, opt access,
    opt modified, opt constraint, opt readAction, items enums, bits]
  constructor
  · rintro ⟨_, h1, _, h2, _, h3, _, h4, _, h5, _, h6, _, h7, _, h8, _, h9, h⟩
    cases h
    exact ⟨h1, h2, h9, h3, h4, h5, h6, h7, h8⟩
  · rintro ⟨h1, h2, h9, h3, h4, h5, h6, h7, h8⟩
    exact ⟨_, h1, _, h2, _, h3, _, h4, _, h5, _, h6, _, h7, _, h8, _, h9, rfl⟩

theorem field (oc : Bool) : ∀ v f, deField oc v = .ok f ↔ ArrayVal (FieldVal oc) v f := array (fieldInfo oc)

theorem registerInfo (oc : Bool) (es : Entries) (r : RegisterInfo) :
    deRegisterInfo oc (rest dimKeys es) = .ok r ↔ RegisterVal oc es r := by
  unfold deRegisterInfo
  simp (decide := true) only [req_rest, opt_rest, properties_rest, bind_ok, req txt, opt txt, req num, opt dataType,
    opt modified, opt constraint, opt readAction, opt (list (field oc)), properties]
  constructor
  · rintro ⟨_, h1, _, h2, _, h3, _, h4, _, h5, _, h6, _, h7, _, h8, _, h9, _, h10, _, h11, _, h12, _,
      h13, h⟩
    cases h
    exact ⟨h1, h2, h3, h4, h5, h6, h13, h7, h8, h9, h10, h11, h12⟩
  · rintro ⟨h1, h2, h3, h4, h5, h6, h13, h7, h8, h9, h10, h11, h12⟩
    exact ⟨_, h1, _, h2, _, h3, _, h4, _, h5, _, h6, _, h7, _, h8, _, h9, _, h10, _, h11, _, h12, _,
      h13, rfl⟩

theorem register (oc : Bool) : ∀ v r, deRegister oc v = .ok r ↔ ArrayVal (RegisterVal oc) v r :=
  array (registerInfo oc)

/-! ## Clusters -/

theorem clusterInfo (children : M (List RegisterCluster)) (es : Entries) (c : ClusterInfo) :
    deClusterInfo children (rest dimKeys es) = .ok c ↔ ClusterVal es c.toClusterHead ∧ children = .ok c.children := by
  unfold deClusterInfo
  simp (decide := true) only [req_rest, opt_rest, properties_rest, bind_ok, req txt, opt txt, req num, properties]
  constructor
  · rintro ⟨_, h1, _, h2, _, h3, _, h4, _, h5, _, h6, _, h7, _, h8, h⟩
    cases h
    exact ⟨⟨h1, h2, h3, h4, h5, h8, h7⟩, h6⟩
  · rintro ⟨⟨h1, h2, h3, h4, h5, h8, h7⟩, h6⟩
    exact ⟨_, h1, _, h2, _, h3, _, h4, _, h5, _, h6, _, h7, _, h8, rfl⟩

theorem children_only {oc : Bool} {es : Entries} {v : Val} (h : hits "children" es = [v]) :
    deChildren oc es = deRcList oc v := by
  induction es with
  | nil => cases h
  | cons e es ih =>
    obtain ⟨k, w⟩ := e
    rw [hits_cons] at h
    rw [deChildren]
    by_cases hk : k = "children"
    · rw [if_pos hk] at h ⊢
      injection h with h1 _
      rw [← h1]
    · rw [if_neg hk] at h ⊢
      exact ih h

theorem children_iff {oc : Bool} {es : Entries} {l : List RegisterCluster} :
    (if (hits "children" es).length = 1 then deChildren oc es else bad : M _) = .ok l ↔
    ∃ v, Only "children" es v ∧ deRcList oc v = .ok l := by
  constructor
  · intro h
    split at h
    · rename_i h1
      obtain ⟨v, hv⟩ := List.length_eq_one_iff.mp h1
      exact ⟨v, only_iff.mp hv, by rw [← children_only hv]; exact h⟩
    · cases h
  · rintro ⟨v, h1, h2⟩
    have hv := only_iff.mpr h1
    rw [if_pos (by rw [hv]; rfl), children_only hv]
    exact h2

theorem cluster_iff {oc : Bool} {es : Entries} {c : RegisterCluster} : deCluster oc (.obj es) = .ok c ↔
    ∃ h d cs v, c = .cluster h d cs ∧ ClusterVal es h ∧ ShapeVal es d ∧ Only "children" es v ∧
      deRcList oc v = .ok cs := by
  rw [deCluster]
  simp only [bind_ok]
  constructor
  · rintro ⟨c', h1, h2⟩
    cases h2
    obtain ⟨_, h, h3, h4⟩ := (array (clusterInfo _) _ _).mp h1
    cases h
    obtain ⟨h5, h6⟩ := h3
    obtain ⟨v, h7, h8⟩ := children_iff.mp h6
    exact ⟨c'.info.toClusterHead, c'.dim?, c'.info.children, v, by cases c' <;> rfl, h5, h4, h7, h8⟩
  · rintro ⟨h, d, cs, v, rfl, h1, h2, h3, h4⟩
    refine ⟨MaybeArray.mk' { h with children := cs } d, ?_, by cases d <;> rfl⟩
    refine (array (clusterInfo _) _ _).mpr ⟨es, rfl, ?_, ?_⟩
    · have e : (MaybeArray.mk' ({ h with children := cs } : ClusterInfo) d).info = { h with children := cs } := by
        cases d <;> rfl
      rw [e]
      exact ⟨h1, children_iff.mpr ⟨v, h3, h4⟩⟩
    · have e : (MaybeArray.mk' ({ h with children := cs } : ClusterInfo) d).dim? = d := by cases d <;> rfl
      rw [e]
      exact h2

theorem list_iff (oc : Bool) (v : Val) (l : List RegisterCluster) :
    deRcList oc v = .ok l ↔ ∃ vs, v = .arr vs ∧ deRcs oc vs = .ok l := by
  constructor
  · intro h
    cases v with
    | arr vs => rw [deRcList] at h; exact ⟨vs, rfl, h⟩
    | _ => rw [deRcList] at h; cases h; (try simp)
  · rintro ⟨vs, rfl, h⟩
    rw [deRcList]
    exact h

theorem rc_iff (oc : Bool) (v : Val) (c : RegisterCluster) : deRc oc v = .ok c ↔
    (∃ w r, v = .obj [("register", w)] ∧ c = .register r ∧ deRegister oc w = .ok r) ∨
    (∃ w, v = .obj [("cluster", w)] ∧ deCluster oc w = .ok c) := by
  constructor
  · intro h
    unfold deRc at h
    split at h
    · rename_i k w
      split at h
      · rename_i hk
        subst hk
        obtain ⟨r, h1, h2⟩ := bind_ok.mp h
        cases h2
        exact .inl ⟨w, r, rfl, rfl, h1⟩
      · split at h
        · rename_i hk
          subst hk
          exact .inr ⟨w, rfl, h⟩
        · cases h
    · cases h
  · rintro (⟨w, r, rfl, rfl, h⟩ | ⟨w, rfl, h⟩)
    · rw [deRc, if_pos rfl, h]
      rfl
    · rw [deRc, if_neg (by decide), if_pos rfl]
      exact h

mutual
theorem tree (oc : Bool) : ∀ (c : RegisterCluster) (v : Val), deRc oc v = .ok c ↔ TreeVal oc v c
  | .register r, v => by
    rw [rc_iff]
    constructor
    · rintro (⟨w, r', rfl, h, h1⟩ | ⟨w, rfl, h⟩)
      · cases h
        exact .register ((register oc _ _).mp h1)
      · cases w with
        | obj es => obtain ⟨_, _, _, _, h, _⟩ := cluster_iff.mp h; cases h
        | _ => rw [deCluster] at h; cases h; (try simp)
    · intro h
      cases h with
      | register h => exact .inl ⟨_, r, rfl, rfl, (register oc _ _).mpr h⟩
  | .cluster hd d cs, v => by
    rw [rc_iff]
    constructor
    · rintro (⟨w, r', rfl, h, h1⟩ | ⟨w, rfl, h⟩)
      · cases h
      · cases w with
        | obj es =>
          obtain ⟨_, _, _, u, h, h1, h2, h3, h4⟩ := cluster_iff.mp h
          cases h
          obtain ⟨vs, rfl, h5⟩ := (list_iff oc _ _).mp h4
          exact .cluster h1 h2 h3 ((trees oc cs vs).mp h5)
        | _ => rw [deCluster] at h; cases h; (try simp)
    · intro h
      cases h with
      | cluster h1 h2 h3 h4 =>
        exact .inr ⟨_, rfl, cluster_iff.mpr ⟨hd, d, cs, _, rfl, h1, h2, h3,
          (list_iff oc _ _).mpr ⟨_, rfl, (trees oc cs _).mpr h4⟩⟩⟩
theorem trees (oc : Bool) : ∀ (l : List RegisterCluster) (vs : List Val), deRcs oc vs = .ok l ↔ TreesVal oc vs l
  | [], vs => by
    constructor
    · intro h
      cases vs with
      | nil => exact .nil
      | cons v vs =>
        rw [deRcs] at h
        obtain ⟨c, _, h⟩ := bind_ok.mp h
        obtain ⟨cs, _, h⟩ := bind_ok.mp h
        cases h
    · intro h
      cases h
      rw [deRcs]
  | c :: cs, vs => by
    constructor
    · intro h
      cases vs with
      | nil => rw [deRcs] at h; cases h
      | cons v vs =>
        rw [deRcs] at h
        obtain ⟨c, h1, h⟩ := bind_ok.mp h
        obtain ⟨cs, h2, h⟩ := bind_ok.mp h
        cases h
        exact .cons ((tree oc c v).mp h1) ((trees oc cs vs).mp h2)
    · intro h
      cases h with
      | cons h1 h2 =>
        rw [deRcs, (tree oc c _).mpr h1, (trees oc cs _).mpr h2]
        rfl
end

/-! ## Peripherals and devices -/

theorem tree_list (oc : Bool) (v : Val) (l : List RegisterCluster) :
    deRcList oc v = .ok l ↔ ∃ vs, v = .arr vs ∧ TreesVal oc vs l := by
  simp only [list_iff, trees]

theorem peripheralInfo (oc : Bool) (es : Entries) (p : PeripheralInfo) :
    dePeripheralInfo oc (rest dimKeys es) = .ok p ↔ PeripheralVal oc es p := by
  unfold dePeripheralInfo
  simp (decide := true) only [req_rest, opt_rest, items_rest, properties_rest, bind_ok, req txt, opt txt, req num,
    opt (list addressBlock), items interrupt, opt (tree_list oc), properties]
  constructor
  · rintro ⟨_, h1, _, h2, _, h3, _, h4, _, h5, _, h6, _, h7, _, h8, _, h9, _, h10, _, h11, _, h12, _,
      h13, _, h14, _, h15, h⟩
    cases h
    exact ⟨h1, h2, h3, h4, h5, h6, h7, h8, h9, h10, h15, h11, h12, h13, h14⟩
  · rintro ⟨h1, h2, h3, h4, h5, h6, h7, h8, h9, h10, h15, h11, h12, h13, h14⟩
    exact ⟨_, h1, _, h2, _, h3, _, h4, _, h5, _, h6, _, h7, _, h8, _, h9, _, h10, _, h11, _, h12, _,
      h13, _, h14, _, h15, rfl⟩

theorem peripheral (oc : Bool) : ∀ v p, dePeripheral oc v = .ok p ↔ ArrayVal (PeripheralVal oc) v p :=
  array (peripheralInfo oc)

theorem device (oc : Bool) : ∀ v d, deDevice oc v = .ok d ↔ MapVal (DeviceVal oc) v d := map fun es d => by
  simp (decide := true) only [properties_rest, bind_ok, req txt, opt txt, req num, opt cpu,
    req (list (peripheral oc)), properties]
  constructor
  · rintro ⟨_, h1, _, h2, _, h3, _, h4, _, h5, _, h6, _, h7, _, h8, _, h9, _, h10, _, h11, _, h12, _,
      h13, _, h14, h⟩
    cases h
    exact ⟨h1, h2, h3, h4, h5, h6, h7, h8, h9, h10, h11, h12, h14, h13, rfl, rfl, rfl⟩
  · rintro ⟨h1, h2, h3, h4, h5, h6, h7, h8, h9, h10, h11, h12, h14, h13, h15, h16, h17⟩
    obtain ⟨_, _, _, _, _, _, _, _, _, _, _, _, _, _, _, _, _⟩ := d
    cases h15
    cases h16
    cases h17
    exact ⟨_, h1, _, h2, _, h3, _, h4, _, h5, _, h6, _, h7, _, h8, _, h9, _, h10, _, h11, _, h12, _,
      h13, _, h14, rfl⟩

/-! ## Failures -/

section
variable {P : Fault → Prop} (hb : P (.err .deserialize))
include hb

theorem interrupt_reports (v : Val) : Faults P (deInterrupt v) :=
  map_reports hb (fun _ => .bind (req_reports hb (txt_reports hb) _ _) fun _ _ =>
    .bind (opt_reports hb (txt_reports hb) _ _) fun _ _ =>
      .bind (req_reports hb (num_reports hb 32) _ _) fun _ _ => .ok _) v

theorem addressBlock_reports (v : Val) : Faults P (deAddressBlock v) :=
  map_reports hb (fun _ => .bind (req_reports hb (num_reports hb 32) _ _) fun _ _ =>
    .bind (req_reports hb (num_reports hb 32) _ _) fun _ _ =>
      .bind (req_reports hb (word_reports hb _ _) _ _) fun _ _ =>
        .bind (opt_reports hb (word_reports hb _ _) _ _) fun _ _ => .ok _) v

theorem cpu_reports (v : Val) : Faults P (deCpu v) :=
  map_reports hb (fun _ => by
    repeat' first
      | exact .ok _
      | exact req_reports hb (txt_reports hb) _ _
      | exact req_reports hb (truth_reports hb) _ _
      | exact opt_reports hb (truth_reports hb) _ _
      | exact req_reports hb (num_reports hb _) _ _
      | exact opt_reports hb (num_reports hb _) _ _
      | exact req_reports hb (word_reports hb _ _) _ _
      | refine .bind ?_ fun _ _ => ?_) v

theorem properties_reports (es : Entries) : Faults P (deProperties es) := by
  unfold deProperties
  repeat' first
    | exact .ok _
    | exact opt_reports hb (num_reports hb _) _ _
    | exact opt_reports hb (word_reports hb _ _) _ _
    | refine .bind ?_ fun _ _ => ?_

theorem array_reports {α : Type} {de : Entries → M α} (h : ∀ es, Faults P (de es)) (v : Val) :
    Faults P (deArray de v) := by
  refine map_reports hb (fun es => .bind ?_ fun o _ => .bind (h _) fun _ _ => ?_) v
  · unfold deDimOpt
    split
    · exact .ok _
    · exact .ok _
    · rename_i h1 _ h2
      exact .error ((dim_reports hb es).out _ h2)
  · cases o <;> exact .ok _

variable (oc : Bool) (ho : oc = true → P (.panic .overflow))
include ho

omit hb in
theorem arith_reports {w : Nat} (c : Prop) [Decidable c] (x : BitVec w) : Faults P (arith oc c x) := by
  unfold arith
  refine .ite (fun _ => .ok _) fun _ => ?_
  cases oc
  · exact .ok _
  · exact .error (ho rfl)

theorem bits_reports (es : Entries) : Faults P (deBitRange oc es) := by
  unfold deBitRange
  refine .bind ?_ fun s _ => .bind ?_ fun o _ => ?_
  · unfold deSerBitRange
    split
    · exact .ok _
    · split
      · exact .ok _
      · exact .bind (req_reports hb (num_reports hb _) _ _) fun _ _ =>
          .bind (req_reports hb (num_reports hb _) _ _) fun _ _ => .ok _
  · cases s with
    | bitRange t =>
      show Faults P (BitRange.fromBitRange oc t)
      rw [fromBitRange_text]
      split
      · exact .bind (arith_reports oc ho _ _) fun _ _ => .bind (arith_reports oc ho _ _) fun _ _ => .ok _
      · exact .ok _
    | offsetWidth o w => exact .ok _
    | msbLsb l m =>
      exact .bind (.bind (arith_reports oc ho _ _) fun _ _ => .bind (arith_reports oc ho _ _) fun _ _ => .ok _)
        fun _ _ => .ok _
  · cases o with
    | some b => exact .ok _
    | none => exact .error hb

theorem field_reports (v : Val) : Faults P (deField oc v) :=
  array_reports hb (fun es => by
    unfold deFieldInfo
    repeat' first
      | exact .ok _
      | exact req_reports hb (txt_reports hb) _ _
      | exact opt_reports hb (txt_reports hb) _ _
      | exact opt_reports hb (word_reports hb _ _) _ _
      | exact opt_reports hb (constraint_reports hb) _ _
      | exact items_reports hb (list_reports hb (enums_reports hb)) _ _
      | exact bits_reports hb oc ho _
      | refine .bind ?_ fun _ _ => ?_) v

theorem register_reports (v : Val) : Faults P (deRegister oc v) :=
  array_reports hb (fun es => by
    unfold deRegisterInfo
    repeat' first
      | exact .ok _
      | exact req_reports hb (txt_reports hb) _ _
      | exact opt_reports hb (txt_reports hb) _ _
      | exact opt_reports hb (word_reports hb _ _) _ _
      | exact opt_reports hb (constraint_reports hb) _ _
      | exact req_reports hb (num_reports hb _) _ _
      | exact opt_reports hb (list_reports hb (field_reports hb oc ho)) _ _
      | exact properties_reports hb _
      | refine .bind ?_ fun _ _ => ?_) v

omit ho in
theorem clusterInfo_reports {children : M (List RegisterCluster)} (h : Faults P children) (es : Entries) :
    Faults P (deClusterInfo children es) := by
  unfold deClusterInfo
  repeat' first
    | exact .ok _
    | exact req_reports hb (txt_reports hb) _ _
    | exact opt_reports hb (txt_reports hb) _ _
    | exact req_reports hb (num_reports hb _) _ _
    | exact h
    | exact properties_reports hb _
    | refine .bind ?_ fun _ _ => ?_

set_option linter.unusedSectionVars false in
mutual
theorem rc_reports : ∀ v, Faults P (deRc oc v)
  | .obj [(k, v)] => by
    rw [deRc]
    exact .ite (fun _ => .bind (register_reports hb oc ho v) fun _ _ => .ok _) fun _ =>
      .ite (fun _ => cluster_reports v) fun _ => .error hb
  | .null => by rw [deRc]; · exact .error hb
                · simp
  | .bool _ => by rw [deRc]; · exact .error hb
                  · simp
  | .num _ => by rw [deRc]; · exact .error hb
                 · simp
  | .str _ => by rw [deRc]; · exact .error hb
                 · simp
  | .other => by rw [deRc]; · exact .error hb
                 · simp
  | .arr _ => by rw [deRc]; · exact .error hb
                 · simp
  | .obj [] => by rw [deRc]; · exact .error hb
                  · simp
  | .obj (_ :: _ :: _) => by rw [deRc]; · exact .error hb
                             · simp
theorem cluster_reports : ∀ v, Faults P (deCluster oc v)
  | .obj es => by
    rw [deCluster]
    exact .bind (array_reports hb (clusterInfo_reports hb
      (.ite (fun _ => children_reports es) fun _ => .error hb)) _) fun _ _ => .ok _
  | .null => by rw [deCluster]; · exact .error hb
                · simp
  | .bool _ => by rw [deCluster]; · exact .error hb
                  · simp
  | .num _ => by rw [deCluster]; · exact .error hb
                 · simp
  | .str _ => by rw [deCluster]; · exact .error hb
                 · simp
  | .other => by rw [deCluster]; · exact .error hb
                 · simp
  | .arr _ => by rw [deCluster]; · exact .error hb
                 · simp
theorem children_reports : ∀ es, Faults P (deChildren oc es)
  | [] => by rw [deChildren]; exact .ok _
  | (k, v) :: es => by
    rw [deChildren]
    exact .ite (fun _ => rcList_reports v) fun _ => children_reports es
theorem rcList_reports : ∀ v, Faults P (deRcList oc v)
  | .arr l => by rw [deRcList]; exact rcs_reports l
  | .null => by rw [deRcList]; · exact .error hb
                · simp
  | .bool _ => by rw [deRcList]; · exact .error hb
                  · simp
  | .num _ => by rw [deRcList]; · exact .error hb
                 · simp
  | .str _ => by rw [deRcList]; · exact .error hb
                 · simp
  | .other => by rw [deRcList]; · exact .error hb
                 · simp
  | .obj _ => by rw [deRcList]; · exact .error hb
                 · simp
theorem rcs_reports : ∀ vs, Faults P (deRcs oc vs)
  | [] => by rw [deRcs]; exact .ok _
  | v :: vs => by
    rw [deRcs]
    exact .bind (rc_reports v) fun _ _ => .bind (rcs_reports vs) fun _ _ => .ok _
end

theorem peripheral_reports (v : Val) : Faults P (dePeripheral oc v) :=
  array_reports hb (fun es => by
    unfold dePeripheralInfo
    repeat' first
      | exact .ok _
      | exact req_reports hb (txt_reports hb) _ _
      | exact opt_reports hb (txt_reports hb) _ _
      | exact req_reports hb (num_reports hb _) _ _
      | exact opt_reports hb (list_reports hb (addressBlock_reports hb)) _ _
      | exact items_reports hb (list_reports hb (interrupt_reports hb)) _ _
      | exact opt_reports hb (rcList_reports hb oc ho) _ _
      | exact properties_reports hb _
      | refine .bind ?_ fun _ _ => ?_) v

theorem device_reports (v : Val) : Faults P (deDevice oc v) :=
  map_reports hb (fun es => by
    repeat' first
      | exact .ok _
      | exact req_reports hb (txt_reports hb) _ _
      | exact opt_reports hb (txt_reports hb) _ _
      | exact req_reports hb (num_reports hb _) _ _
      | exact opt_reports hb (cpu_reports hb) _ _
      | exact req_reports hb (list_reports hb (peripheral_reports hb oc ho)) _ _
      | exact properties_reports hb _
      | refine .bind ?_ fun _ _ => ?_) v

end

theorem reversed {es : Entries} {m l : U32} (h1 : ¬ ∃ t, Has TextVal es "bitRange" t)
    (h2 : ¬ ∃ o w, WidthVal es o w) (hl : Has NumVal es "lsb" l) (hm : Has NumVal es "msb" m)
    (h : m.toNat < l.toNat) : deBitRange true es = .error (.panic .overflow) := by
  have hs := deSerBitRange_iff.mpr (.inr (.inr ⟨h1, h2, l, m, hl, hm, rfl⟩))
  unfold deBitRange
  rw [hs]
  have : subC true m l = panics .overflow := by
    unfold subC arith
    rw [if_neg (by omega)]
    rfl
  simp only [ok_bind, SerBitRange.toBitRange, BitRange.fromMsbLsb, this]
  rfl

theorem missing_append {k : String} {es es' : Entries} :
    Missing k (es ++ es') ↔ Missing k es ∧ Missing k es' := by
  unfold Missing
  constructor
  · exact fun h => ⟨fun e he => h e (by simp [he]), fun e he => h e (by simp [he])⟩
  · rintro ⟨h1, h2⟩ e he
    rcases List.mem_append.mp he with he | he
    · exact h1 e he
    · exact h2 e he

/-- Entries with other keys do not matter. -/
theorem hits_other {k k' : String} (h : k' ≠ k) (a b : Entries) (v : Val) :
    hits k (a ++ (k', v) :: b) = hits k (a ++ b) := by
  rw [hits_append, hits_append, hits_cons, if_neg h]

end Value

/-! ## Theorems -/

/-- **C64**: reading a device from a value succeeds exactly if the value says what a device is, and returns
that device. -/
theorem C64_value (oc : Bool) (v : Val) (d : Device) : deDevice oc v = .ok d ↔ MapVal (DeviceVal oc) v d :=
  Value.device oc v d

/-- **C64** for the parts that can be read on their own. -/
theorem C64_parts (oc : Bool) (v : Val) :
    (∀ p, dePeripheral oc v = .ok p ↔ ArrayVal (PeripheralVal oc) v p) ∧
    (∀ r, deRegister oc v = .ok r ↔ ArrayVal (RegisterVal oc) v r) ∧
    (∀ f, deField oc v = .ok f ↔ ArrayVal (FieldVal oc) v f) ∧
    (∀ c, deRc oc v = .ok c ↔ TreeVal oc v c) ∧
    (∀ c, deCpu v = .ok c ↔ MapVal CpuVal v c) ∧
    (∀ w, deWriteConstraint v = .ok w ↔ ConstraintVal v w) :=
  ⟨Value.peripheral oc v, Value.register oc v, Value.field oc v, fun c => Value.tree oc c v, Value.cpu v,
    Value.constraint v⟩

/-- **C64**: reading a value reports an error or panics on an overflow, the latter only with overflow checks. -/
theorem C64_faults (oc : Bool) (v : Val) (e : Fault) (h : deDevice oc v = .error e) :
    e = .err .deserialize ∨ oc = true ∧ e = .panic .overflow :=
  (Value.device_reports (P := fun e => e = .err .deserialize ∨ oc = true ∧ e = .panic .overflow) (.inl rfl) oc
    (fun ho => .inr ⟨ho, rfl⟩) v).out e h

/-- **C64**: a member that may be missing may also be null, and a member is given at most once. -/
theorem C64_null {α : Type} (V : Val → α → Prop) (k : String) (a b : Entries) (o : Option α) :
    (May V (a ++ (k, .null) :: b) k o ↔ Missing k (a ++ b) ∧ o = none) ∧
    (∀ v w c, ¬ May V (a ++ (k, v) :: b ++ (k, w) :: c) k o) ∧
    (∀ v w c x, ¬ Has V (a ++ (k, v) :: b ++ (k, w) :: c) k x) := by
  have two : ∀ v w c x, ¬ Only k (a ++ (k, v) :: b ++ (k, w) :: c) x := by
    intro v w c x h
    have h := congrArg List.length (Value.only_iff.mpr h)
    simp only [hits_append, Value.hits_cons, if_true, List.length_append, List.length_cons, List.length_nil] at h
    omega
  refine ⟨⟨fun h => ?_, ?_⟩, fun v w c h => ?_, fun v w c x h => ?_⟩
  · cases h with
    | missing h => exact absurd rfl (h (k, .null) (by simp))
    | null h =>
      have h := Value.only_iff.mpr h
      rw [hits_append, Value.hits_cons, if_pos rfl] at h
      refine ⟨Value.missing_append.mpr ⟨Value.missing_iff.mp ?_, Value.missing_iff.mp ?_⟩, rfl⟩
      · cases hx : hits k a with
        | nil => rfl
        | cons x l => rw [hx] at h; simp at h
      · cases hx : hits k b with
        | nil => rfl
        | cons x l =>
          rw [hx] at h
          have h := congrArg List.length h
          simp only [List.length_append, List.length_cons, List.length_nil] at h
          omega
    | given h h1 h2 =>
      have h := Value.only_iff.mpr h
      have hm : Val.null ∈ hits k (a ++ (k, .null) :: b) := by
        rw [hits_append, Value.hits_cons, if_pos rfl]; simp
      rw [h] at hm
      exact absurd (List.mem_singleton.mp hm).symm h1
  · rintro ⟨h, rfl⟩
    obtain ⟨h1, h2⟩ := Value.missing_append.mp h
    exact .null ⟨a, b, rfl, h1, h2⟩
  · cases h with
    | missing h => exact absurd rfl (h (k, v) (by simp))
    | null h => exact two v w c _ h
    | given h _ _ => exact two v w c _ h
  · obtain ⟨u, h, _⟩ := h
    exact two v w c _ h

-- `C64_null`, `C64_parts`: `null` is as good as nothing, and a key given twice as bad as a wrong one.
example : May NumVal [("a", .num 1), ("b", .null)] "b" (none : Option U32) ∧
    ∀ o : Option U32, ¬ May NumVal [("a", .num 1), ("a", .num 1)] "a" o :=
  ⟨(C64_null NumVal "b" [("a", .num 1)] [] none).1.mpr ⟨by unfold Missing; simp, rfl⟩,
    fun o => (C64_null NumVal "a" [] [] o).2.1 (.num 1) (.num 1) []⟩
example : ConstraintVal (.obj [("writeAsRead", .bool true)]) (.writeAsRead true) :=
  ((C64_parts true _).2.2.2.2.2 _).mp (by decide)

/-- **C64**: entries with unknown keys are ignored (here those of a device; error and panic included). -/
theorem C64_unknown (oc : Bool) (k : String) (v : Val) (a b : Entries)
    (hk : k ∉ ["vendor", "vendorID", "name", "series", "version", "description", "licenseText", "cpu",
      "headerSystemFilename", "headerDefinitionsPrefix", "addressUnitBits", "width", "peripherals",
      "size", "access", "protection", "resetValue", "resetMask"]) :
    deDevice oc (.obj (a ++ (k, v) :: b)) = deDevice oc (.obj (a ++ b)) := by
  have e : ∀ k' ∈ ["vendor", "vendorID", "name", "series", "version", "description", "licenseText", "cpu",
      "headerSystemFilename", "headerDefinitionsPrefix", "addressUnitBits", "width", "peripherals",
      "size", "access", "protection", "resetValue", "resetMask"],
      hits k' (a ++ (k, v) :: b) = hits k' (a ++ b) := fun k' hk' =>
    Value.hits_other (fun he => hk (by rw [he]; exact hk')) a b v
  simp only [deDevice, deStruct]
  rw [Value.properties_rest (by decide), Value.properties_rest (by decide)]
  unfold deProperties reqField optField
  simp only [e "vendor" (by simp), e "vendorID" (by simp), e "name" (by simp), e "series" (by simp),
    e "version" (by simp), e "description" (by simp), e "licenseText" (by simp), e "cpu" (by simp),
    e "headerSystemFilename" (by simp), e "headerDefinitionsPrefix" (by simp), e "addressUnitBits" (by simp), e "width" (by simp),
    e "peripherals" (by simp), e "size" (by simp), e "access" (by simp), e "protection" (by simp),
    e "resetValue" (by simp), e "resetMask" (by simp)]

/-- **C64**: a value with `msb` below `lsb` is not reported as error as in a document: with overflow checks the
reader panics, without them the width wraps around. -/
theorem C64_reversed (es : Entries) (m l : U32) (h1 : ¬ ∃ t, Has TextVal es "bitRange" t)
    (h2 : ¬ ∃ o w, WidthVal es o w) (hl : Has NumVal es "lsb" l) (hm : Has NumVal es "msb" m)
    (h : m.toNat < l.toNat) :
    deBitRange true es = .error (.panic .overflow) ∧
    ∃ b, deBitRange false es = .ok b ∧ b.offset = l ∧ b.width.toNat = (m.toNat + 1 + (2 ^ 32 - l.toNat)) % 2 ^ 32 := by
  refine ⟨Value.reversed h1 h2 hl hm h, ⟨l, m - l + 1, .msbLsb⟩, ?_, rfl, ?_⟩
  · refine (Value.bits _ _ _).mpr (.ends h1 h2 hl hm ?_ rfl)
    refine ⟨rfl, ?_, by simp⟩
    have := m.isLt
    have := l.isLt
    show (m - l + 1).toNat = _
    rw [BitVec.toNat_add, BitVec.toNat_sub]
    simp only [BitVec.ofNat_eq_ofNat, BitVec.toNat_ofNat]
    omega
  · have := m.isLt
    have := l.isLt
    show (m - l + 1).toNat = _
    rw [BitVec.toNat_add, BitVec.toNat_sub]
    simp only [BitVec.ofNat_eq_ofNat, BitVec.toNat_ofNat]
    omega

example : deBitRange true [("lsb", .num 3), ("msb", .num 1)] = .error (.panic .overflow) := by
  have no : ∀ {k : String} {v : Val}, Only k [("lsb", .num 3), ("msb", .num 1)] v → k ∈ ["lsb", "msb"] := by
    rintro k v ⟨a, b, h, _⟩
    have : (k, v) ∈ [("lsb", Val.num 3), ("msb", .num 1)] := by rw [h]; simp
    simp at this ⊢
    exact this.imp (·.1) (·.1)
  refine (C64_reversed [("lsb", .num 3), ("msb", .num 1)] 1 3 ?_ ?_ ⟨_, ⟨[], [("msb", .num 1)], rfl, nofun, ?_⟩, rfl⟩
    ⟨_, ⟨[("lsb", .num 3)], [], rfl, ?_, nofun⟩, rfl⟩ (by decide)).1
  · rintro ⟨t, v, h, _⟩; exact absurd (no h) (by decide)
  · rintro ⟨o, w, ⟨v, h, _⟩, _⟩; exact absurd (no h) (by decide)
  · simp [Missing]
  · simp [Missing]

/-- **C64** and C54 together: what is written for a device says what the device is, apart from the arrays
without index list. -/
theorem C64_written (oc : Bool) (d : Device) (h : DeviceParts (fun f => WritableRange f.bitRange) JoinableIndexes d) :
    ∃ v, serDevice oc d = .ok v ∧ MapVal (DeviceVal oc) v (kept d) := by
  obtain ⟨v, h1, h2, _⟩ := C54_serde oc d h
  exact ⟨v, h1, (C64_value oc v _).mp h2⟩

/-! ## Examples -/

/-- The value with an unknown key, a null and the index list as a text. -/
example : MapVal (DeviceVal true) Sample.json Sample.jsonDevice :=
  (C64_value true _ _).mp (by decide +kernel)

namespace Sample

/-- A device with one field with these entries. -/
def oneField (es : Entries) : Val :=
  .obj [("name", .str "D".toList), ("version", .str "1".toList), ("description", .str []), ("width", .num 32),
    ("addressUnitBits", .num 8),
    ("peripherals", .arr [.obj [("baseAddress", .num 0), ("name", .str "P".toList),
      ("registers", .arr [.obj [("register", .obj [("name", .str "R".toList), ("addressOffset", .num 4),
        ("fields", .arr [.obj (("name", .str "F".toList) :: es)])])]])]])]

/-- The bits of that field. -/
def oneFieldBits (oc : Bool) (es : Entries) : M (List BitRange) := do
  let d ← deDevice oc (oneField es)
  .ok (d.peripherals.flatMap fun p => (p.info.registers.getD []).flatMap fun
    | .register r => (r.info.fields.getD []).map fun f => f.info.bitRange
    | .cluster .. => [])

end Sample

/-- The notations of the bits: an unreadable notation counts as missing, `null` is no text, and the order of
preference is text, offset with width, ends. -/
example :
    Sample.oneFieldBits true [("lsb", .num 3), ("msb", .num 7)] = .ok [⟨3, 5, .msbLsb⟩] ∧
    Sample.oneFieldBits true [("bitRange", .str "[9:2]".toList), ("lsb", .num 3), ("msb", .num 7)] =
      .ok [⟨2, 8, .bitRange⟩] ∧
    Sample.oneFieldBits true [("bitRange", .null), ("bitOffset", .num 1), ("bitWidth", .num 0)] =
      .ok [⟨1, 0, .offsetWidth⟩] ∧
    Sample.oneFieldBits true [("bitRange", .str "9:2".toList), ("bitOffset", .num 1), ("bitWidth", .num 2)] =
      .error (.err .deserialize) ∧
    Sample.oneFieldBits true [("bitOffset", .num 1)] = .error (.err .deserialize) := by decide +kernel

/-- Reversed ends: an overflow, or a width of almost all numbers. -/
example :
    Sample.oneFieldBits true [("lsb", .num 3), ("msb", .num 1)] = .error (.panic .overflow) ∧
    Sample.oneFieldBits false [("lsb", .num 3), ("msb", .num 1)] = .ok [⟨3, 0xFFFFFFFF, .msbLsb⟩] ∧
    Sample.oneFieldBits true [("bitRange", .str "[1:3]".toList)] = .error (.panic .overflow) := by decide +kernel

/-- A key given twice, a number that does not fit, a missing member, a word in another case. -/
example :
    Sample.oneFieldBits true [("lsb", .num 3), ("lsb", .num 3), ("msb", .num 7)] = .error (.err .deserialize) ∧
    Sample.oneFieldBits true [("lsb", .num 3), ("msb", .num 0x100000000)] = .error (.err .deserialize) ∧
    Sample.oneFieldBits true [("msb", .num 7)] = .error (.err .deserialize) ∧
    Sample.oneFieldBits true [("lsb", .num 3), ("msb", .num 7), ("access", .str "Read-only".toList)] =
      .error (.err .deserialize) ∧
    Sample.oneFieldBits true [("lsb", .num 3), ("msb", .num 7), ("access", .null)] = .ok [⟨3, 5, .msbLsb⟩] := by
  decide +kernel

-- The hypotheses of `C64_faults` and `C64_unknown` can be met.
example : ∃ e, deDevice true (.obj [("name", .num 3)]) = .error e ∧ (e = .err .deserialize ∨ e = .panic .overflow) := by
  have h : deDevice true (.obj [("name", .num 3)]) = .error (.err .deserialize) := by decide +kernel
  exact ⟨_, h, (C64_faults true _ _ h).imp id (·.2)⟩
example (v : Val) : deDevice true (.obj ([("name", .str "D".toList)] ++ ("comment", v) :: [])) =
    deDevice true (.obj [("name", .str "D".toList)]) :=
  C64_unknown true "comment" v [("name", .str "D".toList)] [] (by decide)

end Svd
