import Verif.Props.Unchecked

/-!
# Property expansion keeps paths unambiguous

Used to state C86 for the device that was read.
-/

namespace Svd

open Spec

namespace FillPaths

/-- What is handed on to the registers and clusters of a peripheral, if they are filled. -/
def fromPeripheral (d : Device) (p : Peripheral) : Option RegisterProperties :=
  if p.info.derivedFrom.isSome then none
  else some (p.info.defaultRegisterProperties.deriveFrom d.defaultRegisterProperties)

/-- What is handed on to the registers and clusters of a cluster, if they are filled. -/
def fromCluster (o : Option RegisterProperties) (h : ClusterHead) : Option RegisterProperties :=
  o.bind fun x => if h.derivedFrom.isSome then none else some (h.defaultRegisterProperties.deriveFrom x)

/-- A block with what is handed on to it. -/
inductive FillAt (d : Device) : BlockPath → Option RegisterProperties → List RegisterCluster → Prop where
  | peripheral {b p cs} : PeripheralAt d b p → p.info.registers = some cs → FillAt d b (fromPeripheral d p) cs
  | cluster {b o cs h dim sub n} : FillAt d b o cs → .cluster h dim sub ∈ cs → Named h.name dim n →
      FillAt d ⟨b.peripheral, b.path ++ [n]⟩ (fromCluster o h) sub

/-- A filled register or cluster. -/
def fillRc : Option RegisterProperties → RegisterCluster → RegisterCluster
  | none, c => c
  | some x, c => expandPropertiesRC x c

/-- A filled register. -/
def fillRegister : Option RegisterProperties → Register → Register
  | none, r => r
  | some x, r => expandPropertiesRegister x r

theorem rcs_map (x : RegisterProperties) (cs : List RegisterCluster) :
    expandPropertiesRCs x cs = cs.map (expandPropertiesRC x) := by
  induction cs with
  | nil => rw [expandPropertiesRCs]; rfl
  | cons c cs ih => rw [expandPropertiesRCs, ih, List.map_cons]

theorem fill_none (cs : List RegisterCluster) : cs.map (fillRc none) = cs := by
  have : fillRc none = id := funext fun c => by cases c <;> rfl
  rw [this, List.map_id]

theorem fill_some (x : RegisterProperties) (cs : List RegisterCluster) :
    cs.map (fillRc (some x)) = expandPropertiesRCs x cs := (rcs_map x cs).symm

theorem fill_register (o : Option RegisterProperties) (r : Register) :
    fillRc o (.register r) = .register (fillRegister o r) := by
  cases o with
  | none => rfl
  | some x => exact expandPropertiesRC.eq_1 ..

theorem fill_cluster (o : Option RegisterProperties) (h : ClusterHead) (dim : Option DimElement)
    (cs : List RegisterCluster) :
    fillRc o (.cluster h dim cs) = .cluster h dim (cs.map (fillRc (fromCluster o h))) := by
  cases o with
  | none => exact congrArg (RegisterCluster.cluster h dim) (fill_none cs).symm
  | some x =>
    show expandPropertiesRC x (.cluster h dim cs) = _
    rw [expandPropertiesRC]
    unfold fromCluster
    simp only [Option.bind_some]
    split
    · rw [fill_none]
    · rw [fill_some]

theorem peripheralAt {d : Device} {b : BlockPath} {p : Peripheral} (h : PeripheralAt (expandProperties d) b p) :
    ∃ p0, PeripheralAt d b p0 ∧ p = expandPropertiesPeripheral d.defaultRegisterProperties p0 := by
  obtain ⟨h1, h2, h3⟩ := h
  obtain ⟨p0, h4, rfl⟩ := List.mem_map.mp h1
  refine ⟨p0, ⟨h4, h2, ?_⟩, rfl⟩
  have hn : (expandPropertiesPeripheral d.defaultRegisterProperties p0).info.name = p0.info.name := by
    unfold expandPropertiesPeripheral
    split
    · rfl
    · rw [Shuffle.info_map]
  have hd : (expandPropertiesPeripheral d.defaultRegisterProperties p0).dim? = p0.dim? := by
    unfold expandPropertiesPeripheral
    split
    · rfl
    · rw [Shuffle.dim_map]
  rw [hn, hd] at h3
  exact h3

theorem registers (d : Device) (p : Peripheral) :
    (expandPropertiesPeripheral d.defaultRegisterProperties p).info.registers =
      p.info.registers.map fun cs => cs.map (fillRc (fromPeripheral d p)) := by
  unfold expandPropertiesPeripheral fromPeripheral
  split
  · cases p.info.registers with
    | none => rfl
    | some cs => simp only [Option.map_some, fill_none]
  · rw [Shuffle.info_map]
    cases p.info.registers with
    | none => rfl
    | some cs => simp only [Option.map_some, fill_some]

theorem blockAt {d : Device} {b : BlockPath} {cs : List RegisterCluster} (h : BlockAt (expandProperties d) b cs) :
    ∃ o cs0, FillAt d b o cs0 ∧ cs = cs0.map (fillRc o) := by
  induction h with
  | peripheral h1 h2 =>
    obtain ⟨p0, h3, rfl⟩ := peripheralAt h1
    rw [registers] at h2
    obtain ⟨cs0, h4, rfl⟩ := Option.map_eq_some_iff.mp h2
    exact ⟨_, cs0, .peripheral h3 h4, rfl⟩
  | cluster _ h2 h3 ih =>
    obtain ⟨o, cs0, h4, rfl⟩ := ih
    obtain ⟨c, h5, h6⟩ := List.mem_map.mp h2
    cases c with
    | register r => rw [fill_register] at h6; exact nomatch h6
    | cluster h dim sub =>
      rw [fill_cluster] at h6
      cases h6
      exact ⟨_, sub, .cluster h4 h5 h3, rfl⟩

theorem block {d : Device} {b : BlockPath} {o : Option RegisterProperties} {cs : List RegisterCluster}
    (h : FillAt d b o cs) : BlockAt d b cs := by
  induction h with
  | peripheral h1 h2 => exact .peripheral h1 h2
  | cluster _ h2 h3 ih => exact .cluster ih h2 h3

theorem same_head {d : Device} (hu : Unambiguous d) {b : BlockPath} {cs cs' : List RegisterCluster}
    {h h' : ClusterHead} {dim dim' : Option DimElement} {sub sub' : List RegisterCluster} {n : Str}
    (h1 : BlockAt d b cs) (h2 : .cluster h dim sub ∈ cs) (h3 : Named h.name dim n)
    (h1' : BlockAt d b cs') (h2' : .cluster h' dim' sub' ∈ cs') (h3' : Named h'.name dim' n) :
    h = h' ∧ dim = dim' ∧ sub = sub' := by
  have key : ∀ {cs : List RegisterCluster} {h : ClusterHead} {dim : Option DimElement} {sub : List RegisterCluster},
      BlockAt d b cs → .cluster h dim sub ∈ cs → Named h.name dim n →
      ClusterAt d ⟨b.peripheral, b.path ++ [n]⟩ (MaybeArray.mk' { h with children := sub } dim) := by
    intro cs h dim sub h1 h2 h3
    refine ⟨b, n, cs, h1, ?_, ?_, rfl⟩
    · rw [Shuffle.info_mk, Shuffle.dim_mk]; exact h2
    · rw [Shuffle.info_mk, Shuffle.dim_mk]; exact h3
  have := hu.clusters _ _ _ (key h1 h2 h3) (key h1' h2' h3')
  have hi := congrArg MaybeArray.info this
  have hd := congrArg MaybeArray.dim? this
  rw [Shuffle.info_mk, Shuffle.info_mk] at hi
  rw [Shuffle.dim_mk, Shuffle.dim_mk] at hd
  exact ⟨congrArg ClusterInfo.toClusterHead hi, hd, congrArg ClusterInfo.children hi⟩

theorem same_fill {d : Device} (hu : Unambiguous d) {b : BlockPath} {o : Option RegisterProperties}
    {cs : List RegisterCluster} (h : FillAt d b o cs) : ∀ {b' o' cs'}, FillAt d b' o' cs' → b' = b → o' = o := by
  induction h with
  | peripheral h1 h2 =>
    intro b' o' cs' h' hb
    cases h' with
    | peripheral h1' =>
      subst hb
      rw [hu.peripherals _ _ _ h1 h1']
    | cluster =>
      have := h1.2.1
      rw [← hb] at this
      simp at this
  | @cluster b0 o0 cs0 hd0 dim0 sub0 n0 h1 h2 h3 ih =>
    intro b' o' cs' h' hb
    cases h' with
    | peripheral h1' =>
      have := h1'.2.1
      rw [hb] at this
      simp at this
    | @cluster b2 o2 cs2 hd2 dim2 sub2 n2 h1' h2' h3' =>
      injection hb with k1 k2
      obtain ⟨k3, k4⟩ := List.append_inj' k2 rfl
      cases k4
      have hb : b2 = b0 := by
        cases b2
        cases b0
        cases k1
        cases k3
        rfl
      subst hb
      obtain ⟨rfl, _, _⟩ := same_head hu (block h1) h2 h3 (block h1') h2' h3'
      rw [ih h1' rfl]

theorem registerAt {d : Device} {q : RegisterPath} {r : Register} (h : RegisterAt (expandProperties d) q r) :
    ∃ o cs r0, FillAt d q.block o cs ∧ RegisterAt d q r0 ∧ r = fillRegister o r0 := by
  obtain ⟨cs, h1, h2, h3⟩ := h
  obtain ⟨o, cs0, h4, rfl⟩ := blockAt h1
  obtain ⟨c, h5, h6⟩ := List.mem_map.mp h2
  cases c with
  | cluster h dim sub => rw [fill_cluster] at h6; exact nomatch h6
  | register r0 =>
    rw [fill_register] at h6
    injection h6 with h6
    subst h6
    refine ⟨o, cs0, r0, h4, ⟨cs0, block h4, h5, ?_⟩, rfl⟩
    have hn : (fillRegister o r0).info.name = r0.info.name ∧ (fillRegister o r0).dim? = r0.dim? := by
      cases o with
      | none => exact ⟨rfl, rfl⟩
      | some x =>
        show (expandPropertiesRegister x r0).info.name = _ ∧ (expandPropertiesRegister x r0).dim? = _
        unfold expandPropertiesRegister
        split
        · exact ⟨rfl, rfl⟩
        · rw [Shuffle.info_map, Shuffle.dim_map]; exact ⟨rfl, rfl⟩
    rw [hn.1, hn.2] at h3
    exact h3

theorem fields (o : Option RegisterProperties) (r : Register) : (fillRegister o r).info.fields = r.info.fields := by
  cases o with
  | none => rfl
  | some x =>
    show (expandPropertiesRegister x r).info.fields = _
    unfold expandPropertiesRegister
    split
    · rfl
    · rw [Shuffle.info_map]

theorem fieldAt {d : Device} {q : FieldPath} {f : Field} (h : FieldAt (expandProperties d) q f) : FieldAt d q f := by
  obtain ⟨r, l, h1, h2, h3, h4⟩ := h
  obtain ⟨o, cs, r0, h5, h6, rfl⟩ := registerAt h1
  rw [fields] at h2
  exact ⟨r0, l, h6, h2, h3, h4⟩

/-- Filling in properties makes no path ambiguous. -/
theorem unambiguous {d : Device} (hu : Unambiguous d) : Unambiguous (expandProperties d) where
  peripherals q p p' h h' := by
    obtain ⟨a, h1, rfl⟩ := peripheralAt h
    obtain ⟨b, h2, rfl⟩ := peripheralAt h'
    rw [hu.peripherals q a b h1 h2]
  clusters q c c' h h' := by
    have key : ∀ {c : Cluster}, ClusterAt (expandProperties d) q c → ∃ b n o cs hd dim sub, FillAt d b o cs ∧
        .cluster hd dim sub ∈ cs ∧ Named hd.name dim n ∧ q = ⟨b.peripheral, b.path ++ [n]⟩ ∧
        c = MaybeArray.mk' { hd with children := sub.map (fillRc (fromCluster o hd)) } dim := by
      rintro c ⟨b, n, cs, h1, h2, h3, rfl⟩
      obtain ⟨o, cs0, h4, rfl⟩ := blockAt h1
      obtain ⟨x, h5, h6⟩ := List.mem_map.mp h2
      cases x with
      | register r => rw [fill_register] at h6; exact nomatch h6
      | cluster hd dim sub =>
        rw [fill_cluster] at h6
        injection h6 with k1 k2 k3
        refine ⟨b, n, o, cs0, hd, dim, sub, h4, h5, ?_, rfl, ?_⟩
        · rw [k1, k2]; exact h3
        · refine Shuffle.arr_ext ?_ (by rw [Shuffle.dim_mk, k2])
          rw [Shuffle.info_mk, k3]
          have : c.info = { c.info.toClusterHead with children := c.info.children } := rfl
          rw [this, ← k1]
    obtain ⟨b, n, o, cs, hd, dim, sub, k1, k2, k3, rfl, rfl⟩ := key h
    obtain ⟨b', n', o', cs', hd', dim', sub', k1', k2', k3', hq, rfl⟩ := key h'
    injection hq with e1 e2
    obtain ⟨e3, e4⟩ := List.append_inj' e2 rfl
    cases e4
    have hb : b = b' := by
      cases b
      cases b'
      cases e1
      cases e3
      rfl
    subst hb
    obtain ⟨rfl, rfl, rfl⟩ := same_head hu (block k1) k2 k3 (block k1') k2' k3'
    rw [same_fill hu k1 k1' rfl]
  registers q r r' h h' := by
    obtain ⟨o, cs, r0, h1, h2, rfl⟩ := registerAt h
    obtain ⟨o', cs', r0', h1', h2', rfl⟩ := registerAt h'
    rw [hu.registers q _ _ h2 h2', same_fill hu h1 h1' rfl]
  fields q f f' h h' := hu.fields q f f' (fieldAt h) (fieldAt h')
  enums q e e' h h' := by
    obtain ⟨f, h1, h2, h3⟩ := h
    obtain ⟨f', h1', h2', h3'⟩ := h'
    exact hu.enums q e e' ⟨f, fieldAt h1, h2, h3⟩ ⟨f', fieldAt h1', h2', h3'⟩
  groups q r fs f g e e' h1 h2 h3 h4 h5 h6 h7 h8 := by
    obtain ⟨o, cs, r0, k1, k2, rfl⟩ := registerAt h1
    rw [fields] at h2
    exact hu.groups q r0 fs f g e e' k2 h2 h3 h4 h5 h6 h7 h8

end FillPaths

end Svd
