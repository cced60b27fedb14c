import Verif.Spec.Sample
import Verif.Props.Expanded
import Verif.Props.Path
import Verif.Props.Derive
import Verif.Spec.Chain

/-!
# C37: chains of references are successive inheritance
-/

namespace Svd

open Spec

/-! ## Inheritance determines its result -/

theorem inh_iff {α : Type} {o b n : Option α} : Inh o b n ↔ n = o.or b := by
  unfold Inh
  cases o <;> simp

theorem inhList_iff {α : Type} {o b n : List α} : InhList o b n ↔ n = if o.isEmpty then b else o := by
  unfold InhList
  cases o <;> simp

theorem propsInherited_iff {s o t : RegisterProperties} : PropsInherited s o t ↔ t = s.deriveFrom o := by
  constructor
  · rintro ⟨h1, h2, h3, h4, h5⟩
    rw [inh_iff] at h1 h2 h3 h4 h5
    cases t
    simp only at h1 h2 h3 h4 h5
    subst h1 h2 h3 h4 h5
    rfl
  · rintro rfl; exact C19_properties s o

theorem peripheralInherited_iff {s o t : PeripheralInfo} :
    PeripheralInherited s o t ↔ t = s.deriveFrom o := by
  constructor
  · rintro ⟨h1, h2, h3, h4, h5, h6, h7, h8, h9, h10, h11, h12, h13, h14, h15⟩
    rw [inh_iff] at h1 h2 h3 h4 h5 h6 h8 h9
    rw [propsInherited_iff] at h7
    rw [inhList_iff] at h10
    cases t
    simp only at h1 h2 h3 h4 h5 h6 h7 h8 h9 h10 h11 h12 h13 h14 h15
    subst h1 h2 h3 h4 h5 h6 h7 h8 h9 h10 h11 h12 h13 h14 h15
    rfl
  · rintro rfl; exact C19_peripheral s o

theorem clusterInherited_iff {s o t : ClusterInfo} : ClusterInherited s o t ↔ t = s.deriveFrom o := by
  constructor
  · rintro ⟨h1, h2, h3, h4, h5, h6, h7, h8⟩
    rw [propsInherited_iff] at h1
    rw [inh_iff] at h2
    rw [inhList_iff] at h3
    obtain ⟨⟨⟩, _⟩ := t
    simp only at h1 h2 h3 h4 h5 h6 h7 h8
    subst h1 h2 h3 h4 h5 h6 h7 h8
    rfl
  · rintro rfl; exact C19_cluster s o

theorem enumsInherited_iff {s o t : EnumeratedValues} : EnumsInherited s o t ↔ t = s.deriveFrom o := by
  constructor
  · rintro ⟨h1, h2, h3, h4⟩
    rw [inh_iff] at h1
    rw [inhList_iff] at h2
    cases t
    simp only at h1 h2 h3 h4
    subst h1 h2 h3 h4
    rfl
  · rintro rfl; exact C19_enums s o

theorem registerInherited_iff {s o t : RegisterInfo} : RegisterInherited s o t ↔ t = s.deriveFrom o := by
  constructor
  · rintro ⟨h1, h2, h3, h4, h5, h6, h7, h8, h9, h10, h11, h12, h13⟩
    rw [inh_iff] at h1 h3 h4 h5 h6
    rw [propsInherited_iff] at h2
    cases t
    simp only at h1 h2 h3 h4 h5 h6 h7 h8 h9 h10 h11 h12 h13
    subst h1 h2 h3 h4 h5 h6 h7 h8 h9 h10 h11 h12 h13
    rfl
  · rintro rfl; exact C19_register s o

theorem fieldInherited_iff {s o t : FieldInfo} : FieldInherited s o t ↔ t = s.deriveFrom o := by
  constructor
  · rintro ⟨h1, h2, h3, h4, h5, h6, h7, h8, h9⟩
    rw [inh_iff] at h1 h2 h4 h5 h6
    rw [inhList_iff] at h3
    cases t
    simp only at h1 h2 h3 h4 h5 h6 h7 h8 h9
    subst h1 h2 h3 h4 h5 h6 h7 h8 h9
    rfl
  · rintro rfl; exact C19_field s o

theorem dimInherited_unique {name : Str} {o b n n' : Option DimElement}
    (h : DimInherited name o b n) (h' : DimInherited name o b n') : n = n' := by
  cases o with
  | some d => rw [h.1 d rfl, h'.1 d rfl]
  | none =>
    by_cases hp : ∃ a b, name = a ++ '%' :: 's' :: b
    · rw [h.2.1 rfl hp, h'.2.1 rfl hp]
    · rw [h.2.2 rfl hp, h'.2.2 rfl hp]

theorem maybeArray_ext {α : Type} {a b : MaybeArray α} (h : a.info = b.info) (h' : a.dim? = b.dim?) :
    a = b := by
  cases a <;> cases b <;> simp_all [MaybeArray.info, MaybeArray.dim?]

theorem from_iff {α : Type} {nm : α → Str} {df : α → α → α} {s o t : MaybeArray α} :
    (t.info = df s.info o.info ∧ DimInherited (nm s.info) s.dim? o.dim? t.dim?) ↔
      t = MaybeArray.deriveFrom nm df s o := by
  have := C19_array nm df s o
  constructor
  · rintro ⟨h1, h2⟩
    exact maybeArray_ext (h1.trans this.1.symm) (dimInherited_unique h2 this.2)
  · rintro rfl; exact this

theorem peripheralFrom_iff {s o t : Peripheral} : PeripheralFrom s o t ↔ t = Peripheral.deriveFrom s o := by
  unfold PeripheralFrom
  rw [peripheralInherited_iff]; exact from_iff

theorem clusterFrom_iff {s o t : Cluster} : ClusterFrom s o t ↔ t = Cluster.deriveFrom s o := by
  unfold ClusterFrom
  rw [clusterInherited_iff]; exact from_iff (nm := fun c : ClusterInfo => c.name)

theorem registerFrom_iff {s o t : Register} : RegisterFrom s o t ↔ t = Register.deriveFrom s o := by
  unfold RegisterFrom
  rw [registerInherited_iff]; exact from_iff

theorem fieldFrom_iff {s o t : Field} : FieldFrom s o t ↔ t = Field.deriveFrom s o := by
  unfold FieldFrom
  rw [fieldInherited_iff]; exact from_iff

/-! ## Following a chain -/

/-- A function that follows references link by link computes successive inheritance. -/
theorem follows_chain {κ α β σ : Type} (f : Nat → α → Str → κ → M (α × β)) (name : α → σ)
    (link : σ → κ → Str → κ → α → Prop) (ref : α → Option Str) (from' : α → α → α → Prop)
    (der : α → α → α) (hfrom : ∀ a o b, from' a o b ↔ b = der a o) (hname : ∀ a o, name (der a o) = name a)
    (h0 : ∀ a s k, f 0 a s k = .error .diverge)
    (hstep : ∀ n a s k r, f (n + 1) a s k = .ok r → ∃ k' o, link (name a) k s k' o ∧
      match ref o with
      | some s' => f n (der a o) s' k' = .ok r
      | none => r.1 = der a o)
    (hback : ∀ n a s k k' o, link (name a) k s k' o →
      match ref o with
      | some s' => ∀ r, f n (der a o) s' k' = .ok r → f (n + 1) a s k = .ok r
      | none => ∃ x, f (n + 1) a s k = .ok (der a o, x))
    (a : α) (s : Str) (k : κ) (b : α) :
    (∃ n x, f n a s k = .ok (b, x)) ↔
      ∃ os, Chain (link (name a)) ref k s os ∧ Successive from' a os b := by
  constructor
  · rintro ⟨n, x, h⟩
    induction n generalizing a s k with
    | zero => rw [h0] at h; cases h
    | succ n ih =>
      obtain ⟨k', o, hl, h⟩ := hstep n a s k _ h
      cases hr : ref o with
      | none =>
        rw [hr] at h
        exact ⟨[o], .last hl hr, .cons ((hfrom a o b).mpr h) .nil⟩
      | some s' =>
        rw [hr] at h
        obtain ⟨os, h1, h2⟩ := ih _ _ _ h
        rw [hname] at h1
        exact ⟨o :: os, .next hl hr h1, .cons ((hfrom a o _).mpr rfl) h2⟩
  · rintro ⟨os, hc, hs⟩
    generalize hl : link (name a) = lk at hc
    induction hc generalizing a with
    | @last k s k' o h hr =>
      subst hl
      cases hs with
      | cons h1 h2 =>
        cases h2
        rw [hfrom] at h1
        subst h1
        have := hback 0 a s k k' o h
        rw [hr] at this
        exact ⟨1, this⟩
    | @next k s k' o s' os h hr _ ih =>
      subst hl
      cases hs with
      | cons h1 h2 =>
        rw [hfrom] at h1
        subst h1
        obtain ⟨n, x, hn⟩ := ih (der a o) h2 (by rw [hname])
        have := hback n a s k k' o h
        rw [hr] at this
        exact ⟨n + 1, x, this _ hn⟩

/-! ## Reading references -/

theorem split_dotted_iff {s : Str} {l : List Str} :
    splitOn '.' s = l ↔ l ≠ [] ∧ s = dotted l ∧ NoDots l := by
  constructor
  · rintro rfl
    exact ⟨splitOn_ne_nil '.' s, by rw [dotted_eq_joinWith, join_splitOn], fun c hc => splitOn_mem hc⟩
  · rintro ⟨h1, rfl, h3⟩
    exact splitOn_dotted h3 h1

theorem dotted_one (x : Str) : dotted [x] = x := by simp [dotted, List.intercalate]

theorem blockRef_iff {path : BlockPath} {s : Str} {b : BlockPath} {n : Str} :
    BlockRef path s b n ↔ ∃ pd, BlockPath.parseStr s = .ok pd ∧ b = pd.1.getD path ∧ n = pd.2 := by
  unfold BlockRef BlockPath.parseStr
  constructor
  · rintro (⟨h1, rfl, rfl⟩ | ⟨h1, h2⟩)
    · have : splitOn '.' n = [n] := split_dotted_iff.mpr ⟨by simp, (dotted_one n).symm, by simp [NoDots, h1]⟩
      exact ⟨(none, n), by rw [this]; rfl, rfl, rfl⟩
    · have : splitOn '.' s = blockComponents b ++ [n] := split_dotted_iff.mpr ⟨by simp, h1, h2⟩
      exact ⟨(some b, n), by rw [this, blockParse_concat]; rfl, rfl, rfl⟩
  · rintro ⟨pd, h, rfl, rfl⟩
    obtain ⟨hne, hj, hd⟩ := split_dotted_iff.mp (rfl : splitOn '.' s = _)
    revert hne hj hd h
    generalize splitOn '.' s = v
    intro h hne hj hd
    rcases List.eq_nil_or_concat v with rfl | ⟨i, x, rfl⟩
    · exact absurd rfl hne
    · simp only [List.concat_eq_append] at *
      rw [blockParse_concat] at h
      injection h with h
      subst h
      cases i with
      | nil =>
        rw [List.nil_append, dotted_one] at hj
        exact .inl ⟨hj ▸ hd x (by simp), rfl, hj.symm⟩
      | cons p ps => exact .inr ⟨hj, hd⟩

theorem fieldRef_iff {path : RegisterPath} {s : Str} {b : RegisterPath} {n : Str} :
    FieldRef path s b n ↔ ∃ pd, FieldPath.parseStr s = .ok pd ∧ b = pd.1.getD path ∧ n = pd.2 := by
  unfold FieldRef FieldPath.parseStr
  constructor
  · rintro (⟨h1, rfl, rfl⟩ | ⟨h1, h2⟩)
    · have : splitOn '.' n = [n] := split_dotted_iff.mpr ⟨by simp, (dotted_one n).symm, by simp [NoDots, h1]⟩
      exact ⟨(none, n), by rw [this]; rfl, rfl, rfl⟩
    · have : splitOn '.' s = registerComponents b ++ [n] := split_dotted_iff.mpr ⟨by simp, h1, h2⟩
      exact ⟨(some b, n), by rw [this, registerComponents, blockComponents, fieldParse_concat], rfl, rfl⟩
  · rintro ⟨pd, h, rfl, rfl⟩
    obtain ⟨hne, hj, hd⟩ := split_dotted_iff.mp (rfl : splitOn '.' s = _)
    revert hne hj hd h
    generalize splitOn '.' s = v
    intro h hne hj hd
    rcases List.eq_nil_or_concat v with rfl | ⟨i, x, rfl⟩
    · exact absurd rfl hne
    · simp only [List.concat_eq_append] at *
      rcases List.eq_nil_or_concat i with rfl | ⟨j, y, rfl⟩
      · have e : FieldPath.parseVec ([] ++ [x]) = .ok (none, x) := rfl
        rw [e] at h
        injection h with h
        subst h
        rw [List.nil_append, dotted_one] at hj
        exact .inl ⟨hj ▸ hd x (by simp), rfl, hj.symm⟩
      · simp only [List.concat_eq_append] at *
        rw [fieldParse_concat] at h
        cases j with
        | nil => cases h
        | cons p ps =>
          injection h with h
          subst h
          exact .inr ⟨hj, hd⟩

/-- The field a dotted reference points to, as components. -/
theorem enumFieldPath_iff {path q : FieldPath} {v : List Str} :
    v ≠ [] → (enumFieldPath path v = .ok q ↔
      (q.register = path.register ∧ v = [q.name]) ∨
      (q.register.block = path.register.block ∧ v = [q.register.name, q.name]) ∨
      v = fieldComponents q) := by
  intro hv
  rcases List.eq_nil_or_concat v with rfl | ⟨i, x, rfl⟩
  · exact absurd rfl hv
  · simp only [List.concat_eq_append]
    unfold enumFieldPath
    rw [List.getLast?_concat, List.dropLast_concat]
    dsimp only
    rcases List.eq_nil_or_concat i with rfl | ⟨j, y, rfl⟩
    · simp only [List.isEmpty_nil, ↓reduceIte, List.nil_append]
      constructor
      · intro h
        injection h with h
        subst h
        exact .inl ⟨rfl, rfl⟩
      · rintro (⟨h1, h2⟩ | ⟨_, h2⟩ | h2)
        · injection h2 with h2
          subst h2
          rw [← h1]; rfl
        · simp at h2
        · have := congrArg List.length h2
          simp [fieldComponents, registerComponents, blockComponents] at this
    · simp only [List.concat_eq_append]
      have e : (j ++ [y]).isEmpty = false := by simp
      simp only [e, Bool.false_eq_true, ↓reduceIte, RegisterPath.parseVec, blockParse_concat, ok_bind]
      cases j with
      | nil =>
        simp only [List.nil_append]
        constructor
        · intro h
          injection h with h
          subst h
          exact .inr (.inl ⟨rfl, rfl⟩)
        · rintro (⟨h1, h2⟩ | ⟨h1, h2⟩ | h2)
          · simp at h2
          · simp only [List.cons_append, List.nil_append, List.cons.injEq, and_true] at h2
            obtain ⟨rfl, rfl⟩ := h2
            rw [← h1]; rfl
          · have := congrArg List.length h2
            simp [fieldComponents, registerComponents, blockComponents] at this
      | cons p ps =>
        simp only
        constructor
        · intro h
          injection h with h
          subst h
          exact .inr (.inr rfl)
        · rintro (⟨h1, h2⟩ | ⟨h1, h2⟩ | h2)
          · have := congrArg List.length h2; simp at this
          · have := congrArg List.length h2; simp at this
          · obtain ⟨⟨⟨P, ms⟩, R⟩, F⟩ := q
            simp only [fieldComponents, registerComponents, blockComponents] at h2
            obtain ⟨h3, h4⟩ := List.append_inj' h2 rfl
            obtain ⟨h5, h6⟩ := List.append_inj' h3 rfl
            simp only [List.cons.injEq, and_true] at h4 h5 h6
            obtain ⟨rfl, rfl⟩ := h5
            subst h4 h6
            rfl

/-! ## C37 -/

theorem peripheral_name (a o : Peripheral) : (Peripheral.deriveFrom a o).info.name = a.info.name := by
  unfold Peripheral.deriveFrom; rw [MaybeArray.deriveFrom_info]; rfl

theorem cluster_name (a o : Cluster) : (Cluster.deriveFrom a o).info.name = a.info.name := by
  unfold Cluster.deriveFrom; rw [MaybeArray.deriveFrom_info]; rfl

theorem register_name (a o : Register) : (Register.deriveFrom a o).info.name = a.info.name := by
  unfold Register.deriveFrom; rw [MaybeArray.deriveFrom_info]; rfl

theorem field_name (a o : Field) : (Field.deriveFrom a o).info.name = a.info.name := by
  unfold Field.deriveFrom; rw [MaybeArray.deriveFrom_info]; rfl

/-- **C37.** Peripherals: a reference is resolved, at some recursion depth, to a result exactly if there
is a chain of references that ends, and the result is obtained by inheriting from each link in turn,
nearest first. -/
theorem C37_peripheral (d : Device) (ix : Index) (hix : Index.create d = .ok ix) (p : Peripheral)
    (s : Str) (q : Peripheral) :
    (∃ n path, derivePeripheral ix n p s = .ok (q, path)) ↔
      ∃ ps, Chain (fun (_ : Unit) s _ => PeripheralLink (allPeripherals namesOf d) p.info.name s)
          (fun p => p.info.derivedFrom) () s ps ∧ Successive PeripheralFrom p ps q := by
  have hl := (C43_last d ix hix).1
  refine follows_chain (fun n p s (_ : Unit) => derivePeripheral ix n p s) (fun p => p.info.name)
    (fun self _ s _ => PeripheralLink (allPeripherals namesOf d) self s) _ _ Peripheral.deriveFrom
    (fun _ _ _ => peripheralFrom_iff) peripheral_name (fun _ _ _ => rfl) ?_ ?_ p s () q
  · intro n a s _ r h
    obtain ⟨o, h1, h2, h3⟩ := derivePeripheral_step.mp h
    refine ⟨(), o, ⟨h1, (hl _ _).mp h2⟩, ?_⟩
    cases hr : o.info.derivedFrom with
    | some s' => rw [hr] at h3; exact h3
    | none => rw [hr] at h3; rw [h3]
  · rintro n a s _ _ o ⟨h1, h2⟩
    cases hr : o.info.derivedFrom with
    | some s' =>
      exact fun r h => derivePeripheral_step.mpr ⟨o, h1, (hl _ _).mpr h2, by rw [hr]; exact h⟩
    | none => exact ⟨_, derivePeripheral_step.mpr ⟨o, h1, (hl _ _).mpr h2, by rw [hr]⟩⟩

/-- **C37.** Clusters; `path` is the block of the element. -/
theorem C37_cluster (d : Device) (ix : Index) (hix : Index.create d = .ok ix) (c : Cluster)
    (s : Str) (path : BlockPath) (q : Cluster) :
    (∃ n x, deriveCluster ix n c s path = .ok (q, x)) ↔
      ∃ cs, Chain (ClusterLink (allClusters namesOf d) c.info.name)
          (fun c => c.info.derivedFrom) path s cs ∧ Successive ClusterFrom c cs q := by
  have hl := (C43_last d ix hix).2.1
  refine follows_chain (fun n p s k => deriveCluster ix n p s k) (fun p => p.info.name)
    (ClusterLink (allClusters namesOf d)) _ _ Cluster.deriveFrom
    (fun _ _ _ => clusterFrom_iff) cluster_name (fun _ _ _ => rfl) ?_ ?_ c s path q
  · intro n a s _ r h
    obtain ⟨pd, o, h0, h1, h2, h3⟩ := deriveCluster_step.mp h
    refine ⟨_, o, ⟨_, blockRef_iff.mpr ⟨pd, h0, rfl, rfl⟩, h1, (hl _ _).mp h2⟩, ?_⟩
    cases hr : o.info.derivedFrom with
    | some s' => rw [hr] at h3; exact h3
    | none => rw [hr] at h3; rw [h3]
  · rintro n a s k k' o ⟨m, h0, h1, h2⟩
    obtain ⟨pd, hp, rfl, rfl⟩ := blockRef_iff.mp h0
    cases hr : o.info.derivedFrom with
    | some s' =>
      exact fun r h => deriveCluster_step.mpr ⟨pd, o, hp, h1, (hl _ _).mpr h2, by rw [hr]; exact h⟩
    | none => exact ⟨_, deriveCluster_step.mpr ⟨pd, o, hp, h1, (hl _ _).mpr h2, by rw [hr]⟩⟩

/-- **C37.** Registers; `path` is the block of the element. -/
theorem C37_register (d : Device) (ix : Index) (hix : Index.create d = .ok ix) (c : Register)
    (s : Str) (path : BlockPath) (q : Register) :
    (∃ n x, deriveRegister ix n c s path = .ok (q, x)) ↔
      ∃ cs, Chain (RegisterLink (allRegisterPaths namesOf d) c.info.name)
          (fun c => c.info.derivedFrom) path s cs ∧ Successive RegisterFrom c cs q := by
  have hl := (C43_last d ix hix).2.2.1
  refine follows_chain (fun n p s k => deriveRegister ix n p s k) (fun p => p.info.name)
    (RegisterLink (allRegisterPaths namesOf d)) _ _ Register.deriveFrom
    (fun _ _ _ => registerFrom_iff) register_name (fun _ _ _ => rfl) ?_ ?_ c s path q
  · intro n a s _ r h
    obtain ⟨pd, o, h0, h1, h2, h3⟩ := deriveRegister_step.mp h
    refine ⟨_, o, ⟨_, blockRef_iff.mpr ⟨pd, h0, rfl, rfl⟩, h1, (hl _ _).mp h2⟩, ?_⟩
    cases hr : o.info.derivedFrom with
    | some s' => rw [hr] at h3; exact h3
    | none => rw [hr] at h3; rw [h3]
  · rintro n a s k k' o ⟨m, h0, h1, h2⟩
    obtain ⟨pd, hp, rfl, rfl⟩ := blockRef_iff.mp h0
    cases hr : o.info.derivedFrom with
    | some s' =>
      exact fun r h => deriveRegister_step.mpr ⟨pd, o, hp, h1, (hl _ _).mpr h2, by rw [hr]; exact h⟩
    | none => exact ⟨_, deriveRegister_step.mpr ⟨pd, o, hp, h1, (hl _ _).mpr h2, by rw [hr]⟩⟩

/-- **C37.** Fields; `path` is the register of the element. -/
theorem C37_field (d : Device) (ix : Index) (hix : Index.create d = .ok ix) (c : Field)
    (s : Str) (path : RegisterPath) (q : Field) :
    (∃ n x, deriveField ix n c s path = .ok (q, x)) ↔
      ∃ cs, Chain (FieldLink (allFields namesOf d) c.info.name)
          (fun c => c.info.derivedFrom) path s cs ∧ Successive FieldFrom c cs q := by
  have hl := (C43_last d ix hix).2.2.2.1
  refine follows_chain (fun n p s k => deriveField ix n p s k) (fun p => p.info.name)
    (FieldLink (allFields namesOf d)) _ _ Field.deriveFrom
    (fun _ _ _ => fieldFrom_iff) field_name (fun _ _ _ => rfl) ?_ ?_ c s path q
  · intro n a s _ r h
    obtain ⟨pd, o, h0, h1, h2, h3⟩ := deriveField_step.mp h
    refine ⟨_, o, ⟨_, fieldRef_iff.mpr ⟨pd, h0, rfl, rfl⟩, h1, (hl _ _).mp h2⟩, ?_⟩
    cases hr : o.info.derivedFrom with
    | some s' => rw [hr] at h3; exact h3
    | none => rw [hr] at h3; rw [h3]
  · rintro n a s k k' o ⟨m, h0, h1, h2⟩
    obtain ⟨pd, hp, rfl, rfl⟩ := fieldRef_iff.mp h0
    cases hr : o.info.derivedFrom with
    | some s' =>
      exact fun r h => deriveField_step.mpr ⟨pd, o, hp, h1, (hl _ _).mpr h2, by rw [hr]; exact h⟩
    | none => exact ⟨_, deriveField_step.mpr ⟨pd, o, hp, h1, (hl _ _).mpr h2, by rw [hr]⟩⟩

theorem findSome_first {α β : Type} {g : α → Option β} {l : List α} {b : β} :
    l.findSome? g = some b ↔
      ∃ pre a post, l = pre ++ a :: post ∧ g a = some b ∧ ∀ x ∈ pre, g x = none := by
  constructor
  · intro h
    induction l with
    | nil => cases h
    | cons a l ih =>
      rw [List.findSome?_cons] at h
      cases hg : g a with
      | some c =>
        rw [hg] at h
        injection h with h
        exact ⟨[], a, l, rfl, h ▸ hg, by simp⟩
      | none =>
        rw [hg] at h
        obtain ⟨pre, x, post, rfl, h1, h2⟩ := ih h
        exact ⟨a :: pre, x, post, rfl, h1, by simpa [hg] using h2⟩
  · rintro ⟨pre, a, post, rfl, h1, h2⟩
    induction pre with
    | nil => simp [h1]
    | cons x pre ih =>
      rw [List.cons_append, List.findSome?_cons, h2 x (by simp)]
      exact ih fun y hy => h2 y (by simp [hy])

theorem resolveEnum_iff {d : Device} {ix : Index} (hix : Index.create d = .ok ix)
    {ev : EnumeratedValues} {s : Str} {path : FieldPath} {e : EnumeratedValues} {q : FieldPath}
    (hs : some s ≠ ev.name) :
    (∃ n, resolveEnum ix ev s path = .ok (some (e, ⟨q, n⟩))) ↔
      EnumLink (allRegisterPaths namesOf d) (allEnums namesOf d) ev.name path s q e := by
  have hl := (C43_last d ix hix).2.2.2.2
  have hr := (C43_last d ix hix).2.2.1
  have hnone : ∀ q, mapGet ix.evs q = none ↔ ¬ ∃ x, LastAt (allEnums namesOf d) q x := by
    intro q
    simp only [← hl]
    cases mapGet ix.evs q <;> simp
  unfold resolveEnum EnumLink
  obtain ⟨hne, hj, hd⟩ := split_dotted_iff.mp (rfl : splitOn '.' s = _)
  simp only [ne_eq, hs, not_false_eq_true, true_and]
  revert hne hj hd
  generalize hv : splitOn '.' s = v
  intro hne hj hd
  rcases List.eq_nil_or_concat v with rfl | ⟨i, x, rfl⟩
  · exact absurd rfl hne
  simp only [List.concat_eq_append] at *
  rw [List.getLast?_concat, List.dropLast_concat]
  dsimp only
  cases i with
  | nil =>
    rw [List.nil_append, dotted_one] at hj
    subst hj
    have hdot : '.' ∉ s := hd s (by simp)
    simp only [List.isEmpty_nil, ↓reduceIte]
    unfold findEnumInRegister
    constructor
    · rintro ⟨n, h⟩
      injection h with h
      split at h
      · cases h
      · next r hreg =>
        obtain ⟨pre, f, post, h1, h2, h3⟩ := findSome_first.mp h
        obtain ⟨e', he, h4⟩ := Option.map_eq_some_iff.mp h2
        simp only [Prod.mk.injEq] at h4
        obtain ⟨rfl, h4⟩ := h4
        simp only [RegisterPath.newField, FieldPath.newEnum, EnumPath.mk.injEq] at h4
        obtain ⟨rfl, rfl⟩ := h4
        refine .inl ⟨hdot, r, pre ++ f :: post, pre, f, post, (hr _ _).mp hreg, ?_, rfl, rfl,
          (hl _ _).mp he, fun g hg => ?_⟩
        · unfold RegisterInfo.fieldList at h1
          cases hf : r.info.fields with
          | none => rw [hf] at h1; simp at h1
          | some fs => rw [hf] at h1; simp only [Option.getD_some] at h1; rw [h1]
        · exact (hnone _).mp (Option.map_eq_none_iff.mp (h3 g hg))
    · rintro (⟨_, r, fs, pre, f, post, h1, h2, h3, h4, h5, h6⟩ | ⟨n, h1, _⟩)
      · refine ⟨s, ?_⟩
        rw [(hr _ _).mpr h1]
        dsimp only
        congr 1
        refine findSome_first.mpr ⟨pre, f, post, ?_, ?_, fun g hg => ?_⟩
        · rw [← h3]; unfold RegisterInfo.fieldList; rw [h2]; rfl
        · subst h4
          exact Option.map_eq_some_iff.mpr ⟨e, (hl _ _).mpr h5, rfl⟩
        · exact Option.map_eq_none_iff.mpr ((hnone _).mpr (h6 g hg))
      · obtain ⟨v, h1, h2, h3⟩ := h1
        exfalso
        have : splitOn '.' s = v ++ [n] := split_dotted_iff.mpr ⟨by simp, h1, h2⟩
        rw [this] at hv
        have hlen := congrArg List.length hv
        rcases h3 with ⟨_, rfl⟩ | ⟨_, rfl⟩ | rfl
        · simp at hlen
        · simp at hlen
        · simp [fieldComponents, registerComponents, blockComponents] at hlen
  | cons y ys =>
    have hdot : '.' ∈ s := by
      rw [hj, dotted_concat (by simp)]; simp
    have e0 : (y :: ys).isEmpty = false := rfl
    simp only [e0, Bool.false_eq_true, ↓reduceIte]
    have key := fun q => enumFieldPath_iff (path := path) (q := q) (v := y :: ys) (by simp)
    constructor
    · rintro ⟨n, h⟩
      obtain ⟨fd, hfd, h⟩ := bind_ok.mp h
      split at h
      · cases h
      · next hself =>
        injection h with h
        obtain ⟨e', he, h4⟩ := Option.map_eq_some_iff.mp h
        simp only [Prod.mk.injEq] at h4
        obtain ⟨rfl, h4⟩ := h4
        simp only [FieldPath.newEnum, EnumPath.mk.injEq] at h4
        obtain ⟨rfl, rfl⟩ := h4
        exact .inr ⟨x, ⟨_, hj, hd, (key _).mp hfd⟩, hself, (hl _ _).mp he⟩
    · rintro (⟨h, _⟩ | ⟨n, ⟨v, h1, h2, h3⟩, h4, h5⟩)
      · exact absurd hdot h
      · have : splitOn '.' s = v ++ [n] := split_dotted_iff.mpr ⟨by simp, h1, h2⟩
        rw [this] at hv
        obtain ⟨hv1, hv2⟩ := List.append_inj' hv rfl
        injection hv2 with hv2 _
        subst hv1 hv2
        refine ⟨n, bind_ok.mpr ⟨q, (key q).mpr h3, ?_⟩⟩
        rw [if_neg h4]
        exact congrArg _ (Option.map_eq_some_iff.mpr ⟨e, (hl _ _).mpr h5, rfl⟩)

/-- **C37.** Enumerated values; `path` is the field of the element. -/
theorem C37_enums (d : Device) (ix : Index) (hix : Index.create d = .ok ix) (c : EnumeratedValues)
    (s : Str) (path : FieldPath) (q : EnumeratedValues) :
    (∃ n x, deriveEnumeratedValues ix n c s path = .ok (q, x)) ↔
      ∃ cs, Chain (EnumLink (allRegisterPaths namesOf d) (allEnums namesOf d) c.name)
          (fun c => c.derivedFrom) path s cs ∧ Successive EnumsInherited c cs q := by
  refine follows_chain (fun n p s k => deriveEnumeratedValues ix n p s k) (fun p => p.name)
    (EnumLink (allRegisterPaths namesOf d) (allEnums namesOf d)) _ _ EnumeratedValues.deriveFrom
    (fun _ _ _ => enumsInherited_iff) (fun _ _ => rfl) (fun _ _ _ => rfl) ?_ ?_ c s path q
  · intro n a s k r h
    simp only [deriveEnumeratedValues] at h
    by_cases hs : some s = a.name
    · rw [if_pos hs] at h; cases h
    · rw [if_neg hs] at h
      obtain ⟨re, hre, h⟩ := bind_ok.mp h
      rcases re with _ | ⟨o, ⟨q, m⟩⟩
      · cases h
      · refine ⟨q, o, (resolveEnum_iff hix hs).mp ⟨m, hre⟩, ?_⟩
        simp only at h
        cases hr : o.derivedFrom with
        | some s' => rw [hr] at h; exact h
        | none => rw [hr] at h; injection h with h; rw [← h]
  · intro n a s k k' o hlink
    have hs := hlink.1
    obtain ⟨m, hre⟩ := (resolveEnum_iff hix hs).mpr hlink
    cases hr : o.derivedFrom with
    | some s' =>
      intro r h
      show deriveEnumeratedValues ix (n + 1) a s k = .ok r
      rw [deriveEnumeratedValues, if_neg hs, hre]
      simp only [ok_bind, hr]
      exact h
    | none =>
      show ∃ x, deriveEnumeratedValues ix (n + 1) a s k = .ok (_, x)
      rw [deriveEnumeratedValues, if_neg hs, hre]
      simp only [ok_bind, hr]
      exact ⟨_, rfl⟩

/-! ## A device whose only references are those of peripherals -/

theorem chain_mem {κ α : Type} {link : κ → Str → κ → α → Prop} {ref : α → Option Str} {k : κ} {s : Str}
    {os : List α} (h : Chain link ref k s os) : ∀ o ∈ os, ∃ k s k', link k s k' o := by
  induction h with
  | last h _ =>
    intro o ho
    rw [List.mem_singleton] at ho
    subst ho; exact ⟨_, _, _, h⟩
  | next h _ _ ih =>
    intro o ho
    rcases List.mem_cons.mp ho with rfl | ho
    · exact ⟨_, _, _, h⟩
    · exact ih o ho

theorem successive_registers {p q : Peripheral} {ps : List Peripheral}
    (h : Successive PeripheralFrom p ps q) :
    (q.info.registers = p.info.registers ∨ (p.info.registers = none ∧
      ∃ o ∈ ps, q.info.registers = o.info.registers)) ∧
    q.info.derivedFrom = p.info.derivedFrom ∧
    (∀ d, p.dim? = some d → q.dim? = some d) := by
  induction h with
  | nil => exact ⟨.inl rfl, rfl, fun _ h => h⟩
  | @cons a o b os c h _ ih =>
    obtain ⟨h1, h2⟩ := h
    obtain ⟨i1, i2, i3⟩ := ih
    refine ⟨?_, i2.trans h1.derivedFrom, fun d hd => i3 d (h2.1 d hd)⟩
    have hb := inh_iff.mp h1.registers
    cases ha : a.info.registers with
    | some l =>
      rw [ha] at hb
      simp only [Option.some_or] at hb
      rcases i1 with i1 | ⟨i1, _⟩
      · exact .inl (i1.trans hb)
      · rw [hb] at i1; cases i1
    | none =>
      rw [ha] at hb
      simp only [Option.none_or] at hb
      rcases i1 with i1 | ⟨i1, x, hx, i3⟩
      · exact .inr ⟨rfl, o, by simp, i1.trans hb⟩
      · exact .inr ⟨rfl, x, by simp [hx], i3⟩

theorem resolved_noRef {d : Device} (h : ∀ p ∈ d.peripherals, ∀ l, p.info.registers = some l → RcsNoRef l)
    {p q : Peripheral} (hp : p ∈ d.peripherals) (hq : Resolved (allPeripherals namesOf d) p q) :
    PeripheralNoRef q := by
  rcases hq with ⟨h1, rfl⟩ | ⟨s, ps, h1, h2, h3⟩
  · exact ⟨h1, h q hp⟩
  · obtain ⟨h4, h5, _⟩ := successive_registers h3
    rw [mapInfo_info] at h4 h5
    refine ⟨h5, fun l hl => ?_⟩
    rcases h4 with h4 | ⟨_, o, ho, h4⟩
    · exact h p hp l (h4 ▸ hl)
    · obtain ⟨_, _, _, _, hlast⟩ := chain_mem h2 o ho
      exact h o (mem_allPeripherals.mp (lastAt_mem hlast)).1 l (h4 ▸ hl)

theorem expandPeripheral_eq (oc : Bool) (ix : Index) (n : Nat) (p : Peripheral) :
    expandPeripheral oc ix n p = (do
      let pp ← (match p.info.derivedFrom with
        | some dpath =>
          derivePeripheral ix n (p.mapInfo fun i => { i with derivedFrom := none }) dpath
        | none => .ok (p, none) : M (Peripheral × Option BlockPath))
      peripheralTail oc ix n (pp.2.getD (BlockPath.new pp.1.info.name)) pp.1) := rfl

theorem resolved_iff {d : Device} {ix : Index} (hix : Index.create d = .ok ix) (p q : Peripheral) :
    Resolved (allPeripherals namesOf d) p q ↔ ∃ N path, ∀ n, N ≤ n →
      (match p.info.derivedFrom with
        | some dpath =>
          derivePeripheral ix n (p.mapInfo fun i => { i with derivedFrom := none }) dpath
        | none => .ok (p, none) : M (Peripheral × Option BlockPath)) = .ok (q, path) := by
  unfold Resolved
  cases hd : p.info.derivedFrom with
  | none =>
    constructor
    · rintro (⟨_, rfl⟩ | ⟨s, _, h, _⟩)
      · exact ⟨0, none, fun _ _ => rfl⟩
      · cases h
    · rintro ⟨N, path, h⟩
      have := h N (Nat.le_refl _)
      injection this with this
      injection this with h1 h2
      exact .inl ⟨rfl, h1.symm⟩
  | some s =>
    have key := C37_peripheral d ix hix (p.mapInfo fun i => { i with derivedFrom := none }) s q
    simp only [mapInfo_info] at key
    constructor
    · rintro (⟨h, _⟩ | ⟨s', ps, h, h1, h2⟩)
      · cases h
      · injection h with h
        subst h
        obtain ⟨n, path, hn⟩ := key.mpr ⟨ps, h1, h2⟩
        exact ⟨n, path, fun m hm =>
          (extends_le (fun n => derivePeripheral_extends ix n _ s) hm).ok hn⟩
    · rintro ⟨N, path, h⟩
      obtain ⟨ps, h1, h2⟩ := key.mp ⟨N, path, h N (Nat.le_refl _)⟩
      exact .inr ⟨s, ps, rfl, h1, h2⟩

theorem resolved_indexable {d d' : Device} {qs : List Peripheral}
    (h : Pairs (Resolved (allPeripherals namesOf d)) d.peripherals qs)
    (he : DeviceExpanded { d with peripherals := qs } d') : Indexable d := by
  have hi := expanded_indexable he
  intro p hp
  obtain ⟨q, hq, hr⟩ := pairs_left h p hp
  have hq := hi q hq
  rcases hr with ⟨_, rfl⟩ | ⟨s, ps, h1, h2, h3⟩
  · exact hq
  · obtain ⟨h4, h5, h6⟩ := successive_registers h3
    rw [mapInfo_info] at h4
    refine ⟨fun l hl => ?_, ?_⟩
    · rcases h4 with h4 | ⟨h4, _⟩
      · exact hq.1 l (h4.trans hl)
      · rw [hl] at h4; cases h4
    · cases p with
      | single i => trivial
      | array i dim =>
        have := h6 dim rfl
        have hq2 := hq.2
        cases q with
        | single j => cases this
        | array j dim' => injection this with this; subst this; exact hq2

/-- **C37.** A device whose references are all references of peripherals expands exactly if all chains
end in the device and the device with the resolved peripherals expands; the result is its
expansion. -/
theorem C37_device (d d' : Device)
    (h : ∀ p ∈ d.peripherals, ∀ l, p.info.registers = some l → RcsNoRef l) :
    (∃ fuel, expand true fuel d = .ok d') ↔
      ∃ qs, Pairs (Resolved (allPeripherals namesOf d)) d.peripherals qs ∧
        DeviceExpanded { d with peripherals := qs } d' := by
  have main : ∀ ix, Index.create d = .ok ix → ∀ ps, (∀ p ∈ ps, p ∈ d.peripherals) → ∀ ls,
      (∃ n, ps.mapM (expandPeripheral true ix n) = .ok ls) ↔
      ∃ qs, Pairs (Resolved (allPeripherals namesOf d)) ps qs ∧ Pairs PeripheralExpanded qs ls := by
    intro ix hix ps
    induction ps with
    | nil =>
      intro _ ls
      constructor
      · rintro ⟨n, hn⟩; injection hn with hn; subst hn; exact ⟨[], .nil, .nil⟩
      · rintro ⟨qs, h1, h2⟩; cases h1; cases h2; exact ⟨0, rfl⟩
    | cons p ps ih =>
      intro hps ls
      have ih := ih fun p hp => hps p (by simp [hp])
      constructor
      · rintro ⟨n, hn⟩
        rw [mapM_cons] at hn
        obtain ⟨l, hl, hn⟩ := bind_ok.mp hn
        obtain ⟨ls', hls, hn⟩ := bind_ok.mp hn
        injection hn with hn; subst hn
        obtain ⟨qs, h1, h2⟩ := (ih ls').mp ⟨n, hls⟩
        rw [expandPeripheral_eq] at hl
        obtain ⟨⟨q, path⟩, hq, hl⟩ := bind_ok.mp hl
        have hres : Resolved (allPeripherals namesOf d) p q := by
          refine (resolved_iff hix p q).mpr ⟨n, path, fun m hm => ?_⟩
          revert hq
          cases p.info.derivedFrom with
          | none => exact id
          | some s => exact fun hq => (extends_le (fun n => derivePeripheral_extends ix n _ s) hm).ok hq
        obtain ⟨N, hN⟩ := peripheralTail_iff q (resolved_noRef h (hps p (by simp)) hres).2
        refine ⟨q :: qs, .cons hres h1, .cons ((hN (max n N) (by omega) ix
          (path.getD (BlockPath.new q.info.name)) l).mp ?_) h2⟩
        have : Extends (peripheralTail true ix n (path.getD (BlockPath.new q.info.name)) q)
            (peripheralTail true ix (max n N) (path.getD (BlockPath.new q.info.name)) q) := by
          unfold peripheralTail
          refine .bind ?_ fun _ => .refl _
          cases q.info.registers
          · exact .refl _
          · exact .bind (.mapM fun c _ => extends_le (fun n => expandRC_extends true ix n _ c)
              (Nat.le_max_left _ _)) fun _ => .refl _
        exact this.ok hl
      · rintro ⟨qs, h1, h2⟩
        cases h1 with
        | @cons _ q _ qs h1 h3 =>
          cases h2 with
          | @cons _ l _ ls h2 h4 =>
            obtain ⟨n, hn⟩ := (ih ls).mpr ⟨qs, h3, h4⟩
            obtain ⟨N, path, hN⟩ := (resolved_iff hix p q).mp h1
            obtain ⟨N', hN'⟩ := peripheralTail_iff q (resolved_noRef h (hps p (by simp)) h1).2
            refine ⟨max n (max N N'), ?_⟩
            rw [mapM_cons]
            refine bind_ok.mpr ⟨l, ?_, bind_ok.mpr ⟨ls, ?_, rfl⟩⟩
            · rw [expandPeripheral_eq]
              exact bind_ok.mpr ⟨_, hN _ (by omega), (hN' _ (by omega) ix _ l).mpr h2⟩
            · exact (Extends.mapM fun p _ => extends_le (fun n => expandPeripheral_extends true ix n p)
                (Nat.le_max_left _ _)).ok hn
  constructor
  · rintro ⟨fuel, hf⟩
    obtain ⟨ix, hix, hf⟩ := bind_ok.mp hf
    obtain ⟨ls, hls, hf⟩ := bind_ok.mp hf
    injection hf with hf
    obtain ⟨qs, h1, h2⟩ := (main ix hix _ (fun _ h => h) ls).mp ⟨fuel, hls⟩
    exact ⟨qs, h1, ls, h2, hf.symm⟩
  · rintro ⟨qs, h1, h2⟩
    obtain ⟨ix, hix⟩ := (C43_builds d).mpr (resolved_indexable h1 h2)
    obtain ⟨ls, h3, rfl⟩ := h2
    obtain ⟨n, hn⟩ := (main ix hix _ (fun _ h => h) ls).mpr ⟨qs, h1, h3⟩
    exact ⟨n, bind_ok.mpr ⟨ix, hix, bind_ok.mpr ⟨ls, hn, rfl⟩⟩⟩

-- Two links, an array at the end of the chain: everything is inherited.
def chainDevice : Device := Sample.device
  [.single (Sample.peripheralInfo "A" 0x1000 (some "B")),
   .single (Sample.peripheralInfo "B" 0x2000 (some "C1")),
   .array (Sample.peripheralInfo "C%s" 0x3000 none (some [.register (.single (Sample.registerInfo "R" 4))]))
     (Sample.dim 2 0x100)]
example : (expand true 3 chainDevice).map sampleRegisters =
    .ok ((["A", "B", "C0", "C1"] : List String).map fun p => (p.toList, [("R".toList, 4)])) := by
  decide +kernel
example : ∀ p ∈ chainDevice.peripherals, ∀ l, p.info.registers = some l → RcsNoRef l := by
  simp [chainDevice, Sample.device, Sample.peripheralInfo, MaybeArray.info, RcsNoRef, RcNoRef,
    RegisterNoRef, Sample.registerInfo]

-- `C37_peripheral`: the chain from `A`.
example : ∃ q ps, Chain (fun (_ : Unit) s _ => PeripheralLink (allPeripherals namesOf chainDevice) "A".toList s)
      (fun p => p.info.derivedFrom) () "B".toList ps ∧
    Successive PeripheralFrom (.single (Sample.peripheralInfo "A" 0x1000 (some "B"))) ps q := by
  obtain ⟨ix, hix⟩ := ok_of_isOk (x := Index.create chainDevice) (by decide +kernel)
  have h : (Index.create chainDevice >>= fun ix => derivePeripheral ix 3
      (.single (Sample.peripheralInfo "A" 0x1000 (some "B"))) "B".toList).isOk = true := by decide +kernel
  rw [hix, ok_bind] at h
  obtain ⟨⟨q, path⟩, h⟩ := ok_of_isOk h
  exact ⟨q, (C37_peripheral chainDevice ix hix _ _ q).mp ⟨3, path, h⟩⟩

/-- References between the elements of two peripherals, relative and with full paths. -/
def chainParts : Device := Sample.device [.single (Sample.peripheralInfo "P" 0 none (some
  [.cluster (Sample.clusterHead "C" 0x10 (some "D")) none [],
   .cluster (Sample.clusterHead "D" 0x20 (some "Q.E")) none [],
   .register (.single (Sample.registerInfo "R" 0 (some "S"))),
   .register (.single (Sample.registerInfo "S" 4 (some "Q.E.T") (some
     [.single (Sample.fieldInfo "F" 0 (some "G") [Sample.evs (some "A") (some "B"), Sample.evs (some "B") (some "Q.E.T.H.X")]),
      .single (Sample.fieldInfo "G" 1 (some "Q.E.T.H"))])))])),
   .single (Sample.peripheralInfo "Q" 0x100 none (some
  [.cluster (Sample.clusterHead "E" 0) none [.register (.single (Sample.registerInfo "T" 8 none (some
     [.single (Sample.fieldInfo "H" 5 none [Sample.evs (some "X")])])))]]))]

-- `C37_cluster`, `C37_register`, `C37_field` and `C37_enums`: chains of two links, the second with a full path.
example : (∃ q cs, Chain (ClusterLink (allClusters namesOf chainParts) "C".toList) (fun c => c.info.derivedFrom)
      ⟨"P".toList, []⟩ "D".toList cs ∧ Successive ClusterFrom (.single ⟨Sample.clusterHead "C" 0x10 (some "D"), []⟩) cs q) ∧
    (∃ q cs, Chain (RegisterLink (allRegisterPaths namesOf chainParts) "R".toList) (fun c => c.info.derivedFrom)
      ⟨"P".toList, []⟩ "S".toList cs ∧ Successive RegisterFrom (.single (Sample.registerInfo "R" 0 (some "S"))) cs q) ∧
    (∃ q cs, Chain (FieldLink (allFields namesOf chainParts) "F".toList) (fun c => c.info.derivedFrom)
      ⟨⟨"P".toList, []⟩, "S".toList⟩ "G".toList cs ∧ Successive FieldFrom (.single (Sample.fieldInfo "F" 0 (some "G"))) cs q) ∧
    ∃ q cs, Chain (EnumLink (allRegisterPaths namesOf chainParts) (allEnums namesOf chainParts) (some "A".toList))
      (fun c => c.derivedFrom) ⟨⟨⟨"P".toList, []⟩, "S".toList⟩, "F".toList⟩ "B".toList cs ∧
      Successive EnumsInherited (Sample.evs (some "A") (some "B")) cs q := by
  obtain ⟨ix, hix⟩ := ok_of_isOk (x := Index.create chainParts) (by decide +kernel)
  have h : (Index.create chainParts >>= fun ix => do
      let _ ← deriveCluster ix 3 (.single ⟨Sample.clusterHead "C" 0x10 (some "D"), []⟩) "D".toList ⟨"P".toList, []⟩
      let _ ← deriveRegister ix 3 (.single (Sample.registerInfo "R" 0 (some "S"))) "S".toList ⟨"P".toList, []⟩
      let _ ← deriveField ix 3 (.single (Sample.fieldInfo "F" 0 (some "G"))) "G".toList ⟨⟨"P".toList, []⟩, "S".toList⟩
      deriveEnumeratedValues ix 3 (Sample.evs (some "A") (some "B")) "B".toList
        ⟨⟨⟨"P".toList, []⟩, "S".toList⟩, "F".toList⟩).isOk = true := by decide +kernel
  rw [hix, ok_bind] at h
  obtain ⟨x, h⟩ := ok_of_isOk h
  obtain ⟨⟨a, p1⟩, h1, h⟩ := bind_ok.mp h
  obtain ⟨⟨b, p2⟩, h2, h⟩ := bind_ok.mp h
  obtain ⟨⟨c, p3⟩, h3, h⟩ := bind_ok.mp h
  exact ⟨⟨a, (C37_cluster _ ix hix _ _ _ a).mp ⟨3, p1, h1⟩⟩, ⟨b, (C37_register _ ix hix _ _ _ b).mp ⟨3, p2, h2⟩⟩,
    ⟨c, (C37_field _ ix hix _ _ _ c).mp ⟨3, p3, h3⟩⟩, ⟨x.1, (C37_enums _ ix hix _ _ _ x.1).mp ⟨3, x.2, h⟩⟩⟩

end Svd
