import Verif.Spec.Sample
import Verif.Props.Chain
import Verif.Spec.Refs

/-!
# C38: bad references are reported
-/

namespace Svd

open Spec

/-! ## An element keeps what it has -/

theorem derivePeripheral_keeps {ix : Index} {n : Nat} {p : Peripheral} {s : Str}
    {r : Peripheral × Option BlockPath} {cs : List RegisterCluster}
    (h : derivePeripheral ix n p s = .ok r) (hp : p.info.registers = some cs) :
    r.1.info.registers = some cs ∧ r.2 = none ∧ r.1.info.name = p.info.name := by
  induction n generalizing p s with
  | zero => cases h
  | succ n ih =>
    obtain ⟨d, _, _, h⟩ := derivePeripheral_step.mp h
    have hq : (Peripheral.deriveFrom p d).info.registers = some cs := by
      unfold Peripheral.deriveFrom
      rw [MaybeArray.deriveFrom_info]
      simp [PeripheralInfo.deriveFrom, hp]
    split at h
    · have := ih h hq
      rw [peripheral_name] at this
      exact this
    · rw [h]
      exact ⟨hq, by simp [hp], peripheral_name p d⟩

theorem deriveCluster_keeps {ix : Index} {n : Nat} {c : Cluster} {s : Str} {b : BlockPath}
    {r : Cluster × Option BlockPath} (h : deriveCluster ix n c s b = .ok r) (hc : c.info.children ≠ []) :
    r.1.info.children = c.info.children ∧ r.2 = none ∧ r.1.info.name = c.info.name := by
  induction n generalizing c s b with
  | zero => cases h
  | succ n ih =>
    obtain ⟨_, d, _, _, _, h⟩ := deriveCluster_step.mp h
    have hi : c.info.children.isEmpty = false := by simpa using hc
    have hq : (Cluster.deriveFrom c d).info.children = c.info.children := by
      unfold Cluster.deriveFrom
      rw [MaybeArray.deriveFrom_info]
      simp [ClusterInfo.deriveFrom, hc]
    split at h
    · have := ih h (by rw [hq]; exact hc)
      rw [cluster_name, hq] at this
      exact this
    · rw [h]
      exact ⟨hq, by simp [hi], cluster_name c d⟩

theorem deriveRegister_keeps {ix : Index} {n : Nat} {c : Register} {s : Str} {b : BlockPath}
    {r : Register × Option RegisterPath} {fs : List Field} (h : deriveRegister ix n c s b = .ok r)
    (hc : c.info.fields = some fs) :
    r.1.info.fields = some fs ∧ r.2 = none ∧ r.1.info.name = c.info.name := by
  induction n generalizing c s b with
  | zero => cases h
  | succ n ih =>
    obtain ⟨_, d, _, _, _, h⟩ := deriveRegister_step.mp h
    have hq : (Register.deriveFrom c d).info.fields = some fs := by
      unfold Register.deriveFrom
      rw [MaybeArray.deriveFrom_info]
      simp [RegisterInfo.deriveFrom, hc]
    split at h
    · have := ih h hq
      rw [register_name] at this
      exact this
    · rw [h]
      exact ⟨hq, by simp [hc], register_name c d⟩

theorem deriveField_keeps {ix : Index} {n : Nat} {c : Field} {s : Str} {b : RegisterPath}
    {r : Field × Option FieldPath} (h : deriveField ix n c s b = .ok r)
    (hc : c.info.enumeratedValues ≠ []) :
    r.1.info.enumeratedValues = c.info.enumeratedValues ∧ r.2 = none ∧ r.1.info.name = c.info.name := by
  induction n generalizing c s b with
  | zero => cases h
  | succ n ih =>
    obtain ⟨_, d, _, _, _, h⟩ := deriveField_step.mp h
    have hi : c.info.enumeratedValues.isEmpty = false := by simpa using hc
    have hq : (Field.deriveFrom c d).info.enumeratedValues = c.info.enumeratedValues := by
      unfold Field.deriveFrom
      rw [MaybeArray.deriveFrom_info]
      simp [FieldInfo.deriveFrom, hc]
    split at h
    · have := ih h (by rw [hq]; exact hc)
      rw [field_name, hq] at this
      exact this
    · rw [h]
      exact ⟨hq, by simp [hi], field_name c d⟩

/-! ## Every element is expanded under its own path -/

theorem blockOf_expanded {oc : Bool} {fuel : Nat} {d d' : Device} {ix : Index}
    (hix : Index.create d = .ok ix) (h : expand oc fuel d = .ok d') {b : BlockPath}
    {cs : List RegisterCluster} (hb : BlockOf d b cs) :
    ∃ n ls, cs.mapM (expandRC oc ix n b) = .ok ls := by
  induction hb with
  | @peripheral p cs hp hr =>
    obtain ⟨ix', hix', h⟩ := bind_ok.mp h
    rw [hix] at hix'
    injection hix' with hix'
    subst hix'
    obtain ⟨ls, hls, _⟩ := bind_ok.mp h
    obtain ⟨l, _, hl⟩ := mapM_ok_mem hls hp
    rw [expandPeripheral_eq] at hl
    obtain ⟨⟨q, path⟩, hq, hl⟩ := bind_ok.mp hl
    have hk : q.info.registers = some cs ∧ path = none ∧ q.info.name = p.info.name := by
      revert hq
      cases p.info.derivedFrom with
      | none => intro hq; injection hq with hq; injection hq with h1 h2; subst h1 h2; exact ⟨hr, rfl, rfl⟩
      | some s =>
        intro hq
        have := derivePeripheral_keeps hq (by rw [mapInfo_info]; exact hr)
        rw [mapInfo_info] at this
        exact this
    obtain ⟨h1, rfl, h2⟩ := hk
    unfold peripheralTail at hl
    obtain ⟨o, ho, _⟩ := bind_ok.mp hl
    rw [h1] at ho
    obtain ⟨ls, hls, _⟩ := bind_ok.mp ho
    simp only [Option.getD_none, h2] at hls
    exact ⟨fuel, ls, hls⟩
  | @cluster b cs hd dim sub _ hm ih =>
    by_cases hs : sub = []
    · subst hs; exact ⟨0, [], rfl⟩
    obtain ⟨n, ls, hls⟩ := ih
    obtain ⟨l, _, hl⟩ := mapM_ok_mem hls hm
    cases n with
    | zero => cases hl
    | succ n =>
      rw [expandRC] at hl
      obtain ⟨⟨q, path⟩, hq, hl⟩ := bind_ok.mp hl
      have hmk : ∀ i : ClusterInfo, (MaybeArray.mk' i dim).info = i := by intro i; cases dim <;> rfl
      have hk : q.info.children = sub ∧ path = none ∧ q.info.name = hd.name := by
        revert hq
        cases hd.derivedFrom with
        | none =>
          intro hq; injection hq with hq; injection hq with h1 h2; subst h1 h2
          rw [hmk]; exact ⟨rfl, rfl, rfl⟩
        | some s =>
          intro hq
          have := deriveCluster_keeps hq (by rw [hmk]; exact hs)
          rw [hmk] at this
          exact this
      obtain ⟨h1, rfl, h2⟩ := hk
      obtain ⟨ls, hls, _⟩ := bind_ok.mp hl
      simp only [Option.getD_none, h2, h1] at hls
      exact ⟨n, ls, hls⟩

theorem fieldOf_expanded {oc : Bool} {fuel : Nat} {d d' : Device} {ix : Index}
    (hix : Index.create d = .ok ix) (h : expand oc fuel d = .ok d') {q : RegisterPath}
    {f : Field} (hf : FieldOf d q f) : ∃ n l, expandField oc ix n q f = .ok l := by
  obtain ⟨cs, r, fs, hb, hr, hn, hfs, hm⟩ := hf
  obtain ⟨n, ls, hls⟩ := blockOf_expanded hix h hb
  obtain ⟨l, _, hl⟩ := mapM_ok_mem hls hr
  cases n with
  | zero => cases hl
  | succ n =>
    rw [expandRC] at hl
    unfold expandRegisterArray at hl
    obtain ⟨⟨r', path⟩, hq, hl⟩ := bind_ok.mp hl
    have hk : r'.info.fields = some fs ∧ path = none ∧ r'.info.name = r.info.name := by
      revert hq
      cases r.info.derivedFrom with
      | none => intro hq; injection hq with hq; injection hq with h1 h2; subst h1 h2; exact ⟨hfs, rfl, rfl⟩
      | some s =>
        intro hq
        have := deriveRegister_keeps hq (by rw [mapInfo_info]; exact hfs)
        rw [mapInfo_info] at this
        exact this
    obtain ⟨h1, rfl, h2⟩ := hk
    obtain ⟨o, ho, _⟩ := bind_ok.mp hl
    simp only [h1] at ho
    obtain ⟨ls, hls, _⟩ := bind_ok.mp ho
    simp only [Option.getD_none, h2, hn] at hls
    obtain ⟨l, _, hl⟩ := mapM_ok_mem hls hm
    exact ⟨n + 1, l, hl⟩

theorem resolveEnum_error {ix : Index} {e : EnumeratedValues} {s : Str} {path : FieldPath} {x : Fault}
    (h : resolveEnum ix e s path = .error x) : ∃ y, x = .err y := by
  unfold resolveEnum at h
  cases hl : (splitOn '.' s).getLast? with
  | none => exact absurd (List.getLast?_eq_none_iff.mp hl) (splitOn_ne_nil _ _)
  | some n =>
    rw [hl] at h
    dsimp only at h
    split at h
    · cases h
    · rename_i hv
      cases hq : enumFieldPath path (splitOn '.' s).dropLast with
      | ok q =>
        rw [hq, ok_bind] at h
        split at h
        · injection h with h; exact ⟨_, h.symm⟩
        · cases h
      | error y =>
        exfalso
        generalize (splitOn '.' s).dropLast = v at hv hq
        rcases List.eq_nil_or_concat v with rfl | ⟨i, a, rfl⟩
        · exact hv rfl
        · simp only [List.concat_eq_append] at hq
          unfold enumFieldPath at hq
          rw [List.getLast?_concat, List.dropLast_concat] at hq
          dsimp only at hq
          split at hq
          · cases hq
          · rcases List.eq_nil_or_concat i with rfl | ⟨j, b, rfl⟩
            · rename_i hn; exact hn rfl
            · simp only [List.concat_eq_append, RegisterPath.parseVec, blockParse_concat, ok_bind] at hq
              split at hq <;> cases hq

/-! ## C38 -/

/-- **C38.** Whenever expansion returns a device, every reference of the original leads through elements
of the device, never to the referring element itself, and the chain ends. So a device with a reference
to a missing element, or to the element itself, never expands to a device. -/
theorem C38_refs (oc : Bool) (fuel : Nat) (d d' : Device) (h : expand oc fuel d = .ok d') :
    RefsEnd namesOf d := by
  obtain ⟨ix, hix, h0⟩ := bind_ok.mp h
  refine ⟨?_, ?_, ?_, ?_, ?_⟩
  · intro p hp s hs
    obtain ⟨ls, hls, _⟩ := bind_ok.mp h0
    obtain ⟨l, _, hl⟩ := mapM_ok_mem hls hp
    rw [expandPeripheral_eq, hs] at hl
    obtain ⟨⟨q, path⟩, hq, _⟩ := bind_ok.mp hl
    obtain ⟨ps, h1, _⟩ := (C37_peripheral d ix hix _ _ _).mp ⟨fuel, path, hq⟩
    rw [mapInfo_info] at h1
    exact ⟨ps, h1⟩
  · intro b cs hb hd dim sub hm s hs
    obtain ⟨n, ls, hls⟩ := blockOf_expanded hix h hb
    obtain ⟨l, _, hl⟩ := mapM_ok_mem hls hm
    cases n with
    | zero => cases hl
    | succ n =>
      rw [expandRC, hs] at hl
      obtain ⟨⟨q, path⟩, hq, _⟩ := bind_ok.mp hl
      obtain ⟨ps, h1, _⟩ := (C37_cluster d ix hix _ _ _ _).mp ⟨_, path, hq⟩
      have hmk : ∀ i : ClusterInfo, (MaybeArray.mk' i dim).info = i := by intro i; cases dim <;> rfl
      rw [hmk] at h1
      exact ⟨ps, h1⟩
  · intro b cs hb r hm s hs
    obtain ⟨n, ls, hls⟩ := blockOf_expanded hix h hb
    obtain ⟨l, _, hl⟩ := mapM_ok_mem hls hm
    cases n with
    | zero => cases hl
    | succ n =>
      rw [expandRC] at hl
      unfold expandRegisterArray at hl
      rw [hs] at hl
      obtain ⟨⟨q, path⟩, hq, _⟩ := bind_ok.mp hl
      obtain ⟨ps, h1, _⟩ := (C37_register d ix hix _ _ _ _).mp ⟨_, path, hq⟩
      rw [mapInfo_info] at h1
      exact ⟨ps, h1⟩
  · intro q f hf s hs
    obtain ⟨n, l, hl⟩ := fieldOf_expanded hix h hf
    unfold expandField at hl
    rw [hs] at hl
    obtain ⟨⟨g, path⟩, hq, _⟩ := bind_ok.mp hl
    obtain ⟨ps, h1, _⟩ := (C37_field d ix hix _ _ _ _).mp ⟨_, path, hq⟩
    rw [mapInfo_info] at h1
    exact ⟨ps, h1⟩
  · intro q f hf e he s hs
    obtain ⟨n, l, hl⟩ := fieldOf_expanded hix h hf
    unfold expandField at hl
    obtain ⟨⟨g, path⟩, hq, hl⟩ := bind_ok.mp hl
    have hk : g.info.enumeratedValues = f.info.enumeratedValues ∧ path = none ∧
        g.info.name = f.info.name := by
      revert hq
      cases f.info.derivedFrom with
      | none => intro hq; injection hq with hq; injection hq with h1 h2; subst h1 h2; exact ⟨rfl, rfl, rfl⟩
      | some s =>
        intro hq
        have := deriveField_keeps hq (by rw [mapInfo_info]; exact List.ne_nil_of_mem he)
        rw [mapInfo_info] at this
        exact this
    obtain ⟨h1, rfl, h2⟩ := hk
    obtain ⟨evs, hevs, _⟩ := bind_ok.mp hl
    simp only [Option.getD_none, h1, h2] at hevs
    obtain ⟨e', _, he'⟩ := mapM_ok_mem hevs he
    unfold expandEv at he'
    rw [hs] at he'
    obtain ⟨⟨e2, x⟩, h3, _⟩ := bind_ok.mp he'
    obtain ⟨ps, h4, _⟩ := (C37_enums d ix hix _ _ _ _).mp ⟨_, x, h3⟩
    exact ⟨ps, h4⟩

example : RefsEnd namesOf chainDevice :=
  let ⟨_, h⟩ := ok_of_isOk (x := expand true 3 chainDevice) (by decide +kernel)
  C38_refs true 3 _ _ h

/-- What resolving a reference returns when its first link is missing or the element itself: an error
(for a field: unless the reference has exactly two components). -/
theorem C38_errors (d : Device) (ix : Index) (hix : Index.create d = .ok ix) (n : Nat) (s : Str) :
    (∀ p : Peripheral, (¬ ∃ q, PeripheralLink (allPeripherals namesOf d) p.info.name s q) →
      ∃ e, derivePeripheral ix (n + 1) p s = .error (.err e)) ∧
    (∀ (c : Cluster) b, (¬ ∃ b' q, ClusterLink (allClusters namesOf d) c.info.name b s b' q) →
      ∃ e, deriveCluster ix (n + 1) c s b = .error (.err e)) ∧
    (∀ (r : Register) b, (¬ ∃ b' q, RegisterLink (allRegisterPaths namesOf d) r.info.name b s b' q) →
      ∃ e, deriveRegister ix (n + 1) r s b = .error (.err e)) ∧
    (∀ (f : Field) b, (¬ ∃ b' q, FieldLink (allFields namesOf d) f.info.name b s b' q) →
      s.count '.' ≠ 1 → ∃ e, deriveField ix (n + 1) f s b = .error (.err e)) ∧
    (∀ (e : EnumeratedValues) b, (¬ ∃ b' q, EnumLink (allRegisterPaths namesOf d) (allEnums namesOf d)
        e.name b s b' q) → ∃ x, deriveEnumeratedValues ix (n + 1) e s b = .error (.err x)) := by
  obtain ⟨l1, l2, l3, l4, l5⟩ := C43_last d ix hix
  refine ⟨?_, ?_, ?_, ?_, ?_⟩
  · intro p h
    rw [derivePeripheral]
    by_cases hs : s = p.info.name
    · rw [if_pos hs]; exact ⟨_, rfl⟩
    · rw [if_neg hs]
      dsimp only
      cases hg : mapGet ix.peripherals (BlockPath.new s) with
      | some q => exact absurd ⟨q, hs, (l1 _ _).mp hg⟩ h
      | none => exact ⟨_, rfl⟩
  · intro c b h
    obtain ⟨pb, pn, hp, _⟩ := C41_parse_text s
    rw [deriveCluster, hp, ok_bind]
    dsimp only
    by_cases hs : pb.getD b = b ∧ pn = c.info.name
    · rw [if_pos hs]; exact ⟨_, rfl⟩
    · rw [if_neg hs]
      cases hg : mapGet ix.clusters ((pb.getD b).newCluster pn) with
      | some q => exact absurd ⟨_, q, _, blockRef_iff.mpr ⟨_, hp, rfl, rfl⟩, hs, (l2 _ _).mp hg⟩ h
      | none => exact ⟨_, rfl⟩
  · intro c b h
    obtain ⟨pb, pn, hp, hp', _⟩ := C41_parse_text s
    rw [deriveRegister, hp', ok_bind]
    dsimp only
    by_cases hs : pb.getD b = b ∧ pn = c.info.name
    · rw [if_pos hs]; exact ⟨_, rfl⟩
    · rw [if_neg hs]
      cases hg : mapGet ix.registers ((pb.getD b).newRegister pn) with
      | some q => exact absurd ⟨_, q, _, blockRef_iff.mpr ⟨_, hp, rfl, rfl⟩, hs, (l3 _ _).mp hg⟩ h
      | none => exact ⟨_, rfl⟩
  · intro c b h hdot
    obtain ⟨pb, pn, hp, _⟩ := (C42_exact s).2 hdot
    rw [deriveField, hp, ok_bind]
    dsimp only
    by_cases hs : pb.getD b = b ∧ pn = c.info.name
    · rw [if_pos hs]; exact ⟨_, rfl⟩
    · rw [if_neg hs]
      cases hg : mapGet ix.fields ((pb.getD b).newField pn) with
      | some q => exact absurd ⟨_, q, _, fieldRef_iff.mpr ⟨_, hp, rfl, rfl⟩, hs, (l4 _ _).mp hg⟩ h
      | none => exact ⟨_, rfl⟩
  · intro e b h
    rw [deriveEnumeratedValues]
    by_cases hs : some s = e.name
    · rw [if_pos hs]; exact ⟨_, rfl⟩
    · rw [if_neg hs]
      cases hre : resolveEnum ix e s b with
      | ok o =>
        rcases o with _ | ⟨o, ⟨q, m⟩⟩
        · exact ⟨_, rfl⟩
        · exact absurd ⟨q, o, (resolveEnum_iff hix hs).mp ⟨m, hre⟩⟩ h
      | error x =>
        obtain ⟨x, rfl⟩ := resolveEnum_error hre
        exact ⟨_, rfl⟩

example : ∃ e, (Index.create chainDevice >>= fun ix =>
    derivePeripheral ix 1 (.single (Sample.peripheralInfo "Z" 0 (some "C7"))) "C7".toList) = .error (.err e) := by
  obtain ⟨ix, hix⟩ := ok_of_isOk (x := Index.create chainDevice) (by decide +kernel)
  rw [hix, ok_bind]
  refine (C38_errors chainDevice ix hix 0 "C7".toList).1 _ ?_
  rintro ⟨q, _, pre, post, h, _⟩
  have h1 : (allPeripherals namesOf chainDevice).map (·.1) = ["A", "B", "C0", "C1", "C%s"].map fun n => ⟨n.toList, []⟩ := by
    decide +kernel
  rw [h] at h1
  have h2 : (⟨"C7".toList, []⟩ : BlockPath) ∈ ["A", "B", "C0", "C1", "C%s"].map fun n : String => ⟨n.toList, []⟩ := by
    rw [← h1]; simp
  revert h2; decide

/-- A device with a reference that leads nowhere never becomes an expanded device. -/
theorem C38_device (oc : Bool) (fuel : Nat) (d : Device) (h : ¬ RefsEnd namesOf d) :
    ∃ f, expand oc fuel d = .error f := by
  cases he : expand oc fuel d with
  | ok d' => exact absurd (C38_refs oc fuel d d' he) h
  | error f => exact ⟨f, rfl⟩

-- A peripheral derived from itself: its chain of references has no first link.
example (oc : Bool) (fuel : Nat) : ∃ f, expand oc fuel (Sample.device
    [.single (Sample.peripheralInfo "A" 0 (some "A")), .single (Sample.peripheralInfo "B" 0x100)]) = .error f := by
  refine C38_device oc fuel _ fun h => ?_
  obtain ⟨ps, hp⟩ := h.peripheral _ List.mem_cons_self "A".toList rfl
  cases hp with
  | last h _ => exact h.1 rfl
  | next h _ _ => exact h.1 rfl

/-- A peripheral whose reference names no peripheral of the device, or itself. -/
theorem C38_peripheral (oc : Bool) (fuel : Nat) (d : Device) (p : Peripheral) (s : Str)
    (hp : p ∈ d.peripherals) (hs : p.info.derivedFrom = some s)
    (hbad : s = p.info.name ∨ ∀ x ∈ allPeripherals namesOf d, x.1 ≠ BlockPath.new s) :
    ∃ f, expand oc fuel d = .error f := by
  refine C38_device oc fuel d fun h => ?_
  obtain ⟨ps, hc⟩ := h.peripheral p hp s hs
  have : ∃ q, PeripheralLink (allPeripherals namesOf d) p.info.name s q := by
    cases hc with
    | last h1 _ => exact ⟨_, h1⟩
    | next h1 _ _ => exact ⟨_, h1⟩
  obtain ⟨q, h1, h2⟩ := this
  rcases hbad with rfl | hbad
  · exact h1 rfl
  · exact hbad _ (lastAt_mem h2) rfl

-- A missing peripheral; a register that names itself; a field two links away from a missing one;
-- enumerated values that name themselves.
example : expand true 5 (Sample.device [.single (Sample.peripheralInfo "A" 0 (some "B"))]) =
    .error (.err (.notFound "peripheral" "B".toList)) := by decide +kernel
example : expand true 5 (Sample.device [.single (Sample.peripheralInfo "A" 0 none
    (some [.register (.single (Sample.registerInfo "R" 0 (some "A.R")))]))]) =
    .error (.err (.selfDerived "register" "A.R".toList)) := by decide +kernel
example : expand true 5 (Sample.device [.single (Sample.peripheralInfo "A" 0 none
    (some [.register (.single (Sample.registerInfo "R" 0 none (some
      [.single (Sample.fieldInfo "F" 0 (some "A.R.G")), .single (Sample.fieldInfo "G" 1 (some "H"))])))]))]) =
    .error (.err (.notFound "field" "H".toList)) := by decide +kernel
example : expand true 5 (Sample.device [.single (Sample.peripheralInfo "A" 0 none
    (some [.register (.single (Sample.registerInfo "R" 0 none (some
      [.single (Sample.fieldInfo "F" 0 none [Sample.evs (some "E") (some "F.E")])])))]))]) =
    .error (.err (.selfDerived "enumeratedValues" "A.R.F.E".toList)) := by decide +kernel
-- References that are all good, with the device they give.
example : (expand true 3 chainDevice).isOk = true := by decide +kernel

end Svd
