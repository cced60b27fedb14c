import Verif.Model.IterMut
import Verif.Spec.IterMut
import Verif.Spec.Sample
import Verif.Props.Iter

/-!
# C52: mutable iterators and lookups reach exactly the elements of the shared ones
-/

namespace Svd
open Spec

/-! ## Places -/

theorem nodeAt_child {t : List RegisterCluster} {p : Place} {h d cs} (i : Nat)
    (e : nodeAt t p = some (.cluster h d cs)) : nodeAt t (p ++ [i]) = cs[i]? := by
  induction p generalizing t with
  | nil => simp [nodeAt] at e
  | cons j p ih =>
    cases p with
    | nil => simp only [nodeAt] at e; simp [nodeAt, e]
    | cons k p =>
      simp only [nodeAt] at e
      simp only [List.cons_append, nodeAt]
      split at e
      next _ _ _ cs' hj => exact ih e
      next => simp at e

theorem putAt_length (t : List RegisterCluster) (p : Place) (c : RegisterCluster) :
    (putAt t p c).length = t.length := by
  match p with
  | [] => rfl
  | [i] => simp [putAt]
  | i :: j :: p => simp only [putAt]; split <;> simp

theorem getElem?_lt {α : Type} {t : List α} {i : Nat} {a : α} (h : t[i]? = some a) : i < t.length := by
  obtain ⟨h, _⟩ := List.getElem?_eq_some_iff.mp h; exact h

theorem putAt_self {t : List RegisterCluster} {p : Place} {n : RegisterCluster}
    (e : nodeAt t p = some n) : putAt t p n = t := by
  induction p generalizing t with
  | nil => rfl
  | cons j p ih =>
    cases p with
    | nil =>
      simp only [nodeAt] at e
      obtain ⟨h, rfl⟩ := List.getElem?_eq_some_iff.mp e
      simp [putAt]
    | cons k p =>
      simp only [nodeAt] at e
      simp only [putAt]
      split at e
      next h d cs hj =>
        rw [ih e]
        obtain ⟨hlt, hj'⟩ := List.getElem?_eq_some_iff.mp hj
        rw [← hj']; simp
      next => simp at e

theorem nodeAt_put {t : List RegisterCluster} {p : Place} {n : RegisterCluster} (n' : RegisterCluster)
    (e : nodeAt t p = some n) : nodeAt (putAt t p n') p = some n' := by
  induction p generalizing t with
  | nil => simp [nodeAt] at e
  | cons j p ih =>
    cases p with
    | nil =>
      simp only [nodeAt] at e
      simp [nodeAt, putAt, getElem?_lt e]
    | cons k p =>
      simp only [nodeAt] at e
      simp only [putAt]
      split at e
      next h d cs hj =>
        simp only [nodeAt, List.getElem?_set_self (getElem?_lt hj)]
        exact ih e
      next => simp at e

theorem putAt_put {t : List RegisterCluster} {p : Place} {n : RegisterCluster} (a b : RegisterCluster)
    (e : nodeAt t p = some n) : putAt (putAt t p a) p b = putAt t p b := by
  induction p generalizing t with
  | nil => rfl
  | cons j p ih =>
    cases p with
    | nil => simp [putAt]
    | cons k p =>
      simp only [nodeAt] at e
      simp only [putAt]
      split at e
      next h d cs hj =>
        simp only [List.getElem?_set_self (getElem?_lt hj), List.set_set]
        rw [ih e]
      next => simp at e

theorem putAt_child {t : List RegisterCluster} {p : Place} {h d cs} (i : Nat) (c : RegisterCluster)
    (e : nodeAt t p = some (.cluster h d cs)) :
    putAt t (p ++ [i]) c = putAt t p (.cluster h d (cs.set i c)) := by
  induction p generalizing t with
  | nil => simp [nodeAt] at e
  | cons j p ih =>
    cases p with
    | nil => simp only [nodeAt] at e; simp [putAt, e]
    | cons k p =>
      simp only [nodeAt] at e
      simp only [List.cons_append, putAt]
      split at e
      next h' d' cs' hj => have := ih e; simp only [List.cons_append] at this; rw [this]
      next => simp at e

/-! ## The loop over all registers -/

section
variable {σ : Type} (f : Register → σ → Register × σ)

theorem loop_register {t : List RegisterCluster} {p : Place} {r : Register} (rem : List Place) (s : σ)
    (e : nodeAt t p = some (.register r)) :
    loopAllMut f t (p :: rem) s = loopAllMut f (putAt t p (.register (f r s).1)) rem (f r s).2 := by
  rw [loopAllMut, allRegistersNextMut, e]; rfl

theorem loop_cluster {t : List RegisterCluster} {p : Place} {h d cs} (rem : List Place) (s : σ)
    (e : nodeAt t p = some (.cluster h d cs)) :
    loopAllMut f t (p :: rem) s =
      loopAllMut f t ((List.range cs.length).map (fun i => p ++ [i]) ++ rem) s := by
  rw [loopAllMut, allRegistersNextMut, e]
  conv => rhs; rw [loopAllMut]

theorem loop_nil (t : List RegisterCluster) (s : σ) : loopAllMut f t [] s = some (t, s) := by
  rw [loopAllMut, allRegistersNextMut]; rfl

mutual
theorem loop_node (n : RegisterCluster) (t : List RegisterCluster) (p : Place) (rem : List Place) (s : σ)
    (e : nodeAt t p = some n) :
    loopAllMut f t (p :: rem) s = loopAllMut f (putAt t p (updated f n s).1) rem (updated f n s).2 := by
  match n with
  | .register r => rw [loop_register f rem s e]; rfl
  | .cluster h d cs =>
    rw [loop_cluster f rem s e, List.range_eq_range']
    have := loop_children cs t p rem s h d [] e
    simpa [updated] using this

theorem loop_children (cs : List RegisterCluster) (t : List RegisterCluster) (p : Place) (rem : List Place)
    (s : σ) (h : ClusterHead) (d : Option DimElement) (pre : List RegisterCluster)
    (e : nodeAt t p = some (.cluster h d (pre ++ cs))) :
    loopAllMut f t ((List.range' pre.length cs.length).map (fun i => p ++ [i]) ++ rem) s =
      loopAllMut f (putAt t p (.cluster h d (pre ++ (updatedAll f cs s).1))) rem (updatedAll f cs s).2 := by
  match cs with
  | [] =>
    rw [List.append_nil] at e
    simp [updatedAll, putAt_self e]
  | c :: cs =>
    have hc : nodeAt t (p ++ [pre.length]) = some c := by rw [nodeAt_child _ e]; simp
    simp only [List.length_cons, List.range'_succ, List.map_cons, List.cons_append]
    rw [loop_node c t _ _ s hc, putAt_child _ _ e]
    have e' := nodeAt_put (.cluster h d (pre ++ (updated f c s).1 :: cs)) e
    have hs : (pre ++ c :: cs).set pre.length (updated f c s).1 = pre ++ (updated f c s).1 :: cs := by simp
    rw [hs]
    have := loop_children cs _ p rem (updated f c s).2 h d (pre ++ [(updated f c s).1]) (by simpa using e')
    rw [putAt_put _ _ e] at this
    simpa [updatedAll] using this
end

theorem loop_top (cs : List RegisterCluster) (pre : List RegisterCluster) (rem : List Place) (s : σ) :
    loopAllMut f (pre ++ cs) ((List.range' pre.length cs.length).map (fun i => [i]) ++ rem) s =
      loopAllMut f (pre ++ (updatedAll f cs s).1) rem (updatedAll f cs s).2 := by
  induction cs generalizing pre s with
  | nil => simp [updatedAll]
  | cons c cs ih =>
    simp only [List.length_cons, List.range'_succ, List.map_cons, List.cons_append]
    rw [loop_node f c _ _ _ s (by simp [nodeAt])]
    have := ih (pre ++ [(updated f c s).1]) (updated f c s).2
    simpa [updatedAll, putAt] using this

/-- C52: a loop over `all_registers_mut` ends, hands every register of the tree to the caller once in document
order, and changes nothing else. -/
theorem C52_all_registers (t : List RegisterCluster) (s : σ) :
    forAllRegistersMut f t s = some (updatedAll f t s) := by
  have := loop_top f t [] [] s
  simp only [List.nil_append, List.length_nil, List.append_nil, ← List.range_eq_range', loop_nil] at this
  exact this

end

/-- Three registers on two levels, moved by 0, 4 and 8. -/
example :
    forAllRegistersMut
      (fun r n => (.single { r.info with addressOffset := r.info.addressOffset + n }, n + 4))
      [.cluster (Sample.clusterHead "C" 0x10) none
        [.register (.single (Sample.registerInfo "A" 1)), .register (.single (Sample.registerInfo "B" 2))],
       .register (.single (Sample.registerInfo "T" 0x40))] (0 : U32) =
    some (
      [.cluster (Sample.clusterHead "C" 0x10) none
        [.register (.single (Sample.registerInfo "A" 1)), .register (.single (Sample.registerInfo "B" 6))],
       .register (.single (Sample.registerInfo "T" 0x48))], 12) := by
  rw [C52_all_registers]
  rfl

mutual
theorem updated_log (g : Register → Register) (c : RegisterCluster) (l : List Register) :
    (updated (fun r l => (g r, l ++ [r])) c l).2 = l ++ registersIn c ∧
    registersIn (updated (fun r l => (g r, l ++ [r])) c l).1 = (registersIn c).map g := by
  match c with
  | .register r => simp [updated, registersIn]
  | .cluster h d cs => simpa [updated, registersIn] using updatedAll_log g cs l

theorem updatedAll_log (g : Register → Register) (cs : List RegisterCluster) (l : List Register) :
    (updatedAll (fun r l => (g r, l ++ [r])) cs l).2 = l ++ registersInAll cs ∧
    registersInAll (updatedAll (fun r l => (g r, l ++ [r])) cs l).1 = (registersInAll cs).map g := by
  match cs with
  | [] => simp [updatedAll, registersInAll]
  | c :: cs =>
    obtain ⟨h1, h2⟩ := updated_log g c l
    obtain ⟨h3, h4⟩ := updatedAll_log g cs (updated (fun r l => (g r, l ++ [r])) c l).2
    simp only [updatedAll, registersInAll, List.map_append]
    rw [h3, h1, ← h1, h4, h2, h1]
    exact ⟨List.append_assoc _ _ _, rfl⟩
end

/-- C52: the registers handed out are those of `all_registers`, in the same order, and afterwards
`all_registers` gives what the caller made of them. -/
theorem C52_same_registers (g : Register → Register) (t : List RegisterCluster) :
    ∃ t', forAllRegistersMut (fun r l => (g r, l ++ [r])) t [] = some (t', allRegisters t) ∧
      allRegisters t' = (allRegisters t).map g := by
  refine ⟨(updatedAll (fun r l => (g r, l ++ [r])) t []).1, ?_, ?_⟩
  · rw [C52_all_registers, C24_all_registers, show registersInAll t = _ from
      ((updatedAll_log g t []).1.trans (List.nil_append _)).symm]
  · rw [C24_all_registers, C24_all_registers, (updatedAll_log g t []).2]

/-! ## Children -/

theorem ofCluster_mk (h : ClusterHead) (d : Option DimElement) (ch : List RegisterCluster) :
    RegisterCluster.ofCluster (MaybeArray.mk' { h with children := ch } d) = .cluster h d ch := by
  cases d <;> rfl

theorem mk_ofCluster (k : Cluster) : ∃ h d ch, RegisterCluster.ofCluster k = .cluster h d ch ∧
    MaybeArray.mk' { h with children := ch } d = k := by
  cases k with
  | single i => exact ⟨_, _, _, rfl, rfl⟩
  | array i d => exact ⟨_, _, _, rfl, rfl⟩

/-- C52: a loop over `registers_mut` replaces the registers among the children in order, and keeps the
clusters and the order of everything. -/
theorem C52_registers {σ : Type} (f : Register → σ → Register × σ) {cs : List RegisterCluster}
    {rs : List Register} {ks : List Cluster} (h : Separated cs rs ks) (s : σ) :
    Separated (forRegistersMut f cs s).1 (replacedAll f rs s).1 ks ∧
      (forRegistersMut f cs s).2 = (replacedAll f rs s).2 ∧
      (forRegistersMut f cs s).1.map isRegister = cs.map isRegister := by
  induction h generalizing s with
  | nil => exact ⟨.nil, rfl, rfl⟩
  | register _ ih =>
    obtain ⟨h1, h2, h3⟩ := ih (f _ s).2
    refine ⟨.register h1, h2, ?_⟩
    simp only [forRegistersMut, List.map_cons, h3, isRegister]
  | @cluster cs rs ks k _ ih =>
    obtain ⟨h1, h2, h3⟩ := ih s
    obtain ⟨h, d, ch, hk, _⟩ := mk_ofCluster k
    have he : forRegistersMut f (.ofCluster k :: cs) s =
        (.ofCluster k :: (forRegistersMut f cs s).1, (forRegistersMut f cs s).2) := by
      rw [hk]; rfl
    rw [he]
    exact ⟨.cluster h1, h2, by simp [h3]⟩

/-- C52: a loop over `clusters_mut` replaces the clusters among the children in order, and keeps the
registers and the order of everything. -/
theorem C52_clusters {σ : Type} (f : Cluster → σ → Cluster × σ) {cs : List RegisterCluster}
    {rs : List Register} {ks : List Cluster} (h : Separated cs rs ks) (s : σ) :
    Separated (forClustersMut f cs s).1 rs (replacedAll f ks s).1 ∧
      (forClustersMut f cs s).2 = (replacedAll f ks s).2 ∧
      (forClustersMut f cs s).1.map isRegister = cs.map isRegister := by
  have hreg : ∀ k, isRegister (.ofCluster k) = false := fun k => by
    obtain ⟨h, d, ch, hk, _⟩ := mk_ofCluster k; rw [hk]; rfl
  induction h generalizing s with
  | nil => exact ⟨.nil, rfl, rfl⟩
  | register _ ih =>
    obtain ⟨h1, h2, h3⟩ := ih s
    refine ⟨.register h1, h2, ?_⟩
    simp only [forClustersMut, List.map_cons, h3]
  | @cluster cs rs ks k _ ih =>
    obtain ⟨h1, h2, h3⟩ := ih (f k s).2
    obtain ⟨h, d, ch, hk, hk'⟩ := mk_ofCluster k
    have he : forClustersMut f (.ofCluster k :: cs) s =
        (.ofCluster (f k s).1 :: (forClustersMut f cs (f k s).2).1, (forClustersMut f cs (f k s).2).2) := by
      rw [hk]; simp only [forClustersMut, hk']
    rw [he]
    exact ⟨.cluster h1, h2, by simp only [List.map_cons, h3, hreg]⟩

/-! ## Lookups -/

/-- How an answer about the rest of a list extends to the list. -/
theorem replacedFirst_skip {α : Type} {R : α → α → Prop} {a : α} {l : List α} {o : Option (List α)}
    (ha : ∀ z, ¬ R a z) (h : ReplacedFirst R l o) : ReplacedFirst R (a :: l) (o.map (a :: ·)) := by
  cases o with
  | none =>
    intro y hy z hz
    rcases List.mem_cons.mp hy with rfl | hy
    · exact ha z hz
    · exact h y hy z hz
  | some l' =>
    obtain ⟨pre, x, x', post, rfl, h1, h2, rfl⟩ := h
    refine ⟨a :: pre, x, x', post, rfl, ?_, h2, rfl⟩
    intro y hy
    rcases List.mem_cons.mp hy with rfl | hy
    · exact ha
    · exact h1 y hy

theorem replacedFirst_here {α : Type} {R : α → α → Prop} {a a' : α} {l : List α} (h : R a a') :
    ReplacedFirst R (a :: l) (some (a' :: l)) :=
  ⟨[], a, a', l, rfl, by simp, h, rfl⟩

theorem findMut_replaced {α : Type} (p : α → Bool) (f : α → α) (l : List α) :
    ReplacedFirst (fun x x' => p x = true ∧ x' = f x) l (findMut p f l) := by
  induction l with
  | nil => simp [ReplacedFirst, findMut]
  | cons a l ih =>
    rw [findMut]
    by_cases h : p a = true
    · rw [if_pos h]; exact replacedFirst_here ⟨h, rfl⟩
    · rw [if_neg h]; exact replacedFirst_skip (fun z hz => h hz.1) ih

theorem findMut_named {α : Type} (nm : α → Str) (n : Str) (f : α → α) (l : List α) :
    ReplacedFirst (ReplacedNamed nm n f) l (findMut (fun x => nm x == n) f l) := by
  have := findMut_replaced (fun x => nm x == n) f l
  simp only [beq_iff_eq] at this
  exact this

/-- C52: `get_mut_register` refers to the first register among the children with the name. -/
theorem C52_get_mut_register (n : Str) (f : Register → Register) (cs : List RegisterCluster) :
    ReplacedFirst (RegisterNamed n f) cs (getMutRegister n f cs) := by
  induction cs with
  | nil => simp [ReplacedFirst, getMutRegister]
  | cons c cs ih =>
    match c with
    | .register r =>
      rw [getMutRegister]
      by_cases h : r.info.name == n
      · rw [if_pos h]; exact replacedFirst_here ⟨r, rfl, by simpa using h, rfl⟩
      · rw [if_neg h]
        refine replacedFirst_skip ?_ ih
        rintro z ⟨r', hr, hn, _⟩
        cases hr
        exact h (by simpa using hn)
    | .cluster hd d ch =>
      rw [getMutRegister]
      · refine replacedFirst_skip ?_ ih
        rintro z ⟨r', hr, _⟩
        cases hr
      · rintro r ⟨⟩

/-- C52: `get_mut_cluster` refers to the first cluster among the children with the name. -/
theorem C52_get_mut_cluster (n : Str) (f : Cluster → Cluster) (cs : List RegisterCluster) :
    ReplacedFirst (ClusterNamed n f) cs (getMutCluster n f cs) := by
  induction cs with
  | nil => simp [ReplacedFirst, getMutCluster]
  | cons c cs ih =>
    match c with
    | .register r =>
      rw [getMutCluster]
      · refine replacedFirst_skip ?_ ih
        rintro z ⟨k, hr, _⟩
        obtain ⟨_, _, _, hk, _⟩ := mk_ofCluster k
        rw [hk] at hr
        cases hr
      · rintro _ _ _ ⟨⟩
    | .cluster hd d ch =>
      have hname : (MaybeArray.mk' { hd with children := ch } d : Cluster).info.name = hd.name := by
        cases d <;> rfl
      rw [getMutCluster]
      by_cases h : hd.name == n
      · rw [if_pos h]
        refine replacedFirst_here ⟨MaybeArray.mk' { hd with children := ch } d, (ofCluster_mk _ _ _).symm, ?_, rfl⟩
        rw [hname]; simpa using h
      · rw [if_neg h]
        refine replacedFirst_skip ?_ ih
        rintro z ⟨k, hr, hn, _⟩
        obtain ⟨h', d', ch', hk, hk'⟩ := mk_ofCluster k
        rw [hk] at hr
        cases hr
        rw [hk'] at hname
        exact h (by rw [← hname]; simpa using hn)

/-- Two registers and a cluster of the same name: only the first register is changed. -/
example :
    getMutRegister "A".toList (fun r => .array r.info (Sample.dim 2 4))
      [.cluster (Sample.clusterHead "A" 0x10) none [], .register (.single (Sample.registerInfo "A" 1)),
       .register (.single (Sample.registerInfo "A" 2))] =
    some [.cluster (Sample.clusterHead "A" 0x10) none [],
      .register (.array (Sample.registerInfo "A" 1) (Sample.dim 2 4)),
      .register (.single (Sample.registerInfo "A" 2))] := rfl

/-- C52: `get_mut_interrupt` refers to the first interrupt with the name and the rest of the peripheral is
kept. -/
theorem C52_get_mut_interrupt (p : PeripheralInfo) (n : Str) (f : Interrupt → Interrupt) :
    ∃ o, ReplacedFirst (ReplacedNamed Interrupt.name n f) p.interrupt o ∧
      p.getMutInterrupt n f = o.map fun l => { p with interrupt := l } :=
  ⟨_, findMut_named _ _ _ _, rfl⟩

/-- C52: `get_mut_peripheral` refers to the first peripheral with the name and the rest of the device is
kept. -/
theorem C52_get_mut_peripheral (d : Device) (n : Str) (f : Peripheral → Peripheral) :
    ∃ o, ReplacedFirst (ReplacedNamed (fun p : Peripheral => p.info.name) n f) d.peripherals o ∧
      d.getMutPeripheral n f = o.map fun l => { d with peripherals := l } :=
  ⟨_, findMut_named (fun p : Peripheral => p.info.name) _ _ _, rfl⟩

/-- C52: `get_mut_field` refers to the first field with the name and the rest of the register is kept. -/
theorem C52_get_mut_field (r : RegisterInfo) (n : Str) (f : Field → Field) :
    ∃ o, ReplacedFirst (ReplacedNamed (fun p : Field => p.info.name) n f) (r.fields.getD []) o ∧
      r.getMutField n f = o.map fun l => { r with fields := some l } := by
  refine ⟨_, findMut_named (fun p : Field => p.info.name) _ _ _, ?_⟩
  rw [RegisterInfo.getMutField]
  cases r.fields <;> rfl

/-- C52: `get_mut_value` refers to the first value with the name and the rest of the set is kept. -/
theorem C52_get_mut_value (e : EnumeratedValues) (n : Str) (f : EnumeratedValue → EnumeratedValue) :
    ∃ o, ReplacedFirst (ReplacedNamed EnumeratedValue.name n f) e.values o ∧
      e.getMutValue n f = o.map fun l => { e with values := l } :=
  ⟨_, findMut_named _ _ _ _, rfl⟩

/-- C52: `get_mut_enumerated_values` refers to the first set with the usage, if there are one or two sets, and
the rest of the field is kept; otherwise it refers to nothing. -/
theorem C52_get_mut_enumerated_values (r : FieldInfo) (u : Usage) (f : EnumeratedValues → EnumeratedValues) :
    (1 ≤ r.enumeratedValues.length → r.enumeratedValues.length ≤ 2 →
      ∃ o, ReplacedFirst (fun x x' => x.usageOf = some u ∧ x' = f x) r.enumeratedValues o ∧
        r.getMutEnumeratedValues u f = o.map fun l => { r with enumeratedValues := l }) ∧
    (2 < r.enumeratedValues.length → r.getMutEnumeratedValues u f = none) := by
  constructor
  · intro h1 h2
    have := findMut_replaced (fun ev : EnumeratedValues => ev.usageOf == some u) f r.enumeratedValues
    simp only [beq_iff_eq] at this
    refine ⟨_, this, ?_⟩
    rw [FieldInfo.getMutEnumeratedValues, if_pos (by omega)]
  · intro h
    rw [FieldInfo.getMutEnumeratedValues, if_neg (by omega)]

theorem findMut_none {α : Type} (p : α → Bool) (f : α → α) (l : List α) :
    findMut p f l = none ↔ l.find? p = none := by
  induction l with
  | nil => simp [findMut]
  | cons a l ih => rw [findMut, List.find?_cons]; by_cases h : p a = true <;> simp [h, ih]

/-- C52: a mutable lookup gives a reference exactly when the shared one does. -/
theorem C52_found_alike :
    (∀ cs n f, getMutRegister n f cs = none ↔ getRegister cs n = none) ∧
    (∀ cs n f, getMutCluster n f cs = none ↔ getCluster cs n = none) ∧
    (∀ (p : PeripheralInfo) n f, p.getMutInterrupt n f = none ↔ p.getInterrupt n = none) ∧
    (∀ (d : Device) n f, d.getMutPeripheral n f = none ↔ d.getPeripheral n = none) ∧
    (∀ (r : RegisterInfo) n f, r.getMutField n f = none ↔ r.getField n = none) ∧
    (∀ (e : EnumeratedValues) n f, e.getMutValue n f = none ↔ e.getValue n = none) ∧
    (∀ (r : FieldInfo) u f, r.getMutEnumeratedValues u f = none ↔ r.getEnumeratedValues u = none) := by
  refine ⟨?_, ?_, ?_, ?_, ?_, ?_, ?_⟩
  · intro cs n f
    induction cs with
    | nil => simp [getMutRegister, getRegister, registersOf]
    | cons c cs ih =>
      match c with
      | .register r =>
        simp only [getMutRegister, getRegister, registersOf, List.find?_cons] at ih ⊢
        by_cases h : r.info.name == n <;> simp [h, ih]
      | .cluster .. => simpa [getMutRegister, getRegister, registersOf] using ih
  · intro cs n f
    induction cs with
    | nil => simp [getMutCluster, getCluster, clustersOf]
    | cons c cs ih =>
      match c with
      | .register r => simpa [getMutCluster, getCluster, clustersOf] using ih
      | .cluster hd d ch =>
        have hname : (MaybeArray.mk' { hd with children := ch } d : Cluster).info.name = hd.name := by
          cases d <;> rfl
        simp only [getMutCluster, getCluster, clustersOf, List.find?_cons, hname] at ih ⊢
        by_cases h : hd.name == n <;> simp [h, ih]
  · intro p n f
    simp only [PeripheralInfo.getMutInterrupt, PeripheralInfo.getInterrupt, Option.map_eq_none_iff, findMut_none]
  · intro p n f
    simp only [Device.getMutPeripheral, Device.getPeripheral, Option.map_eq_none_iff, findMut_none]
  · intro p n f
    rw [RegisterInfo.getMutField, RegisterInfo.getField, RegisterInfo.fieldList]
    cases p.fields with
    | none => simp
    | some l => simp only [Option.map_eq_none_iff, findMut_none, Option.getD_some]
  · intro p n f
    simp only [EnumeratedValues.getMutValue, EnumeratedValues.getValue, Option.map_eq_none_iff, findMut_none]
  · intro p n f
    rw [FieldInfo.getMutEnumeratedValues, FieldInfo.getEnumeratedValues]
    split
    · simp only [Option.map_eq_none_iff, findMut_none]
    · simp

-- The hypotheses of `C52_registers`, `C52_clusters` and `C52_get_mut_enumerated_values` can be met.
example (f : Cluster → Nat → Cluster × Nat) (g : Register → Nat → Register × Nat) :
    let cs : List RegisterCluster := [.register (.single (Sample.registerInfo "A" 0)),
      .cluster (Sample.clusterHead "C" 4) none [], .register (.single (Sample.registerInfo "B" 8))]
    Separated (forRegistersMut g cs 0).1 (replacedAll g (registersOf cs) 0).1 (clustersOf cs) ∧
      Separated (forClustersMut f cs 0).1 (registersOf cs) (replacedAll f (clustersOf cs) 0).1 :=
  have h := (C25_separated _ _ _).mp ⟨rfl, rfl⟩
  ⟨(C52_registers g h 0).1, (C52_clusters f h 0).1⟩
example (f : EnumeratedValues → EnumeratedValues) : ∃ o,
    ReplacedFirst (fun x x' => x.usageOf = some .write ∧ x' = f x)
      [⟨none, some .read, none, []⟩, ⟨some ['W'], some .write, none, []⟩] o ∧
    (Sample.fieldInfo "F" 0 none [⟨none, some .read, none, []⟩, ⟨some ['W'], some .write, none, []⟩]).getMutEnumeratedValues
      .write f = o.map fun l => Sample.fieldInfo "F" 0 none l :=
  (C52_get_mut_enumerated_values (Sample.fieldInfo "F" 0 none
    [⟨none, some .read, none, []⟩, ⟨some ['W'], some .write, none, []⟩]) .write f).1 (by decide) (by decide)

-- `C52_same_registers`: all registers of a tree, renamed; `C52_found_alike`: nothing is found.
example : ∃ t', allRegisters t' = [.single (Sample.registerInfo "X" 1), .single (Sample.registerInfo "X" 4)] :=
  let ⟨t', _, h⟩ := C52_same_registers (fun r => .single { r.info with name := "X".toList })
    [.cluster (Sample.clusterHead "C" 0x10) none [.register (.single (Sample.registerInfo "A" 1))],
     .register (.single (Sample.registerInfo "B" 4))]
  ⟨t', h.trans (by decide +kernel)⟩
example (f : Register → Register) : getMutRegister "A".toList f
    [.cluster (Sample.clusterHead "C" 0x10) none [.register (.single (Sample.registerInfo "A" 1))]] = none :=
  (C52_found_alike.1 _ _ _).mpr rfl
-- `C52_get_mut_register`, `C52_get_mut_interrupt`, `C52_get_mut_peripheral`, `C52_get_mut_field` and
-- `C52_get_mut_value`: the first with the name is replaced.
example (f : Register → Register) : ReplacedFirst (RegisterNamed "A".toList f)
    [.register (.single (Sample.registerInfo "A" 1)), .register (.single (Sample.registerInfo "A" 2))]
    (some [.register (f (.single (Sample.registerInfo "A" 1))), .register (.single (Sample.registerInfo "A" 2))]) :=
  C52_get_mut_register "A".toList f _
example (f : Field → Field) : ∃ o, ReplacedFirst (ReplacedNamed (fun p : Field => p.info.name) "G".toList f)
      [.single (Sample.fieldInfo "F" 0), .single (Sample.fieldInfo "G" 1), .single (Sample.fieldInfo "G" 2)] o ∧
    some (Sample.registerInfo "R" 0 none (some
      [.single (Sample.fieldInfo "F" 0), f (.single (Sample.fieldInfo "G" 1)), .single (Sample.fieldInfo "G" 2)])) =
    o.map fun l => { Sample.registerInfo "R" 0 with fields := some l } :=
  C52_get_mut_field (Sample.registerInfo "R" 0 none (some
    [.single (Sample.fieldInfo "F" 0), .single (Sample.fieldInfo "G" 1), .single (Sample.fieldInfo "G" 2)])) _ f
example (f : EnumeratedValue → EnumeratedValue) :
    ∃ o, ReplacedFirst (ReplacedNamed EnumeratedValue.name "on".toList f) [⟨"on".toList, none, some 1, none⟩] o ∧
      some (Sample.evs none none [f ⟨"on".toList, none, some 1, none⟩]) =
        o.map fun l => { Sample.evs none none with values := l } :=
  C52_get_mut_value (Sample.evs none none [⟨"on".toList, none, some 1, none⟩]) _ f
example (f : Peripheral → Peripheral) :
    ∃ o, ReplacedFirst (ReplacedNamed (fun p : Peripheral => p.info.name) "P".toList f)
      [.single (Sample.peripheralInfo "Q" 0), .single (Sample.peripheralInfo "P" 0)] o ∧
      some (Sample.device [.single (Sample.peripheralInfo "Q" 0), f (.single (Sample.peripheralInfo "P" 0))]) =
        o.map fun l => { Sample.device [] with peripherals := l } :=
  C52_get_mut_peripheral (Sample.device [.single (Sample.peripheralInfo "Q" 0), .single (Sample.peripheralInfo "P" 0)]) _ f
example (f : Interrupt → Interrupt) :
    ∃ o, ReplacedFirst (ReplacedNamed Interrupt.name "I".toList f) [⟨"I".toList, none, 3⟩] o ∧
      some { Sample.peripheralInfo "P" 0 with interrupt := [f ⟨"I".toList, none, 3⟩] } =
        o.map fun l => { Sample.peripheralInfo "P" 0 with interrupt := l } :=
  C52_get_mut_interrupt { Sample.peripheralInfo "P" 0 with interrupt := [⟨"I".toList, none, 3⟩] } _ f

end Svd
