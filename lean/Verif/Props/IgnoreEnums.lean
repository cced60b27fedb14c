import Verif.Props.ParseLevel
import Verif.Spec.Enums
import Verif.Model.Encode

/-!
# C31: `ignore_enums`
-/

namespace Svd

open Spec Xml

/-- Whenever `m` returns a value, `n` returns its image under `g`. -/
def Yields {α β : Type} (g : α → β) (m : M α) (n : M β) : Prop := ∀ a, m = .ok a → n = .ok (g a)

namespace Yields

theorem bind {α α' β β' : Type} {g : α → α'} {g' : β → β'} {m : M α} {n : M α'} {f : α → M β}
    {k : α' → M β'} (h : Yields g m n) (h' : ∀ a, Yields g' (f a) (k (g a))) :
    Yields g' (m >>= f) (n >>= k) := by
  intro b hb
  obtain ⟨a, h1, h2⟩ := bind_ok.mp hb
  exact bind_ok.mpr ⟨g a, h a h1, h' a b h2⟩

/-- The first step is the same. -/
theorem same {α β β' : Type} {g' : β → β'} {m : M α} {f : α → M β} {k : α → M β'}
    (h' : ∀ a, Yields g' (f a) (k a)) : Yields g' (m >>= f) (m >>= k) :=
  bind (g := id) (fun _ h => h) h'

theorem ok {α β : Type} {g : α → β} {a : α} {b : β} (h : g a = b) : Yields g (.ok a) (.ok b) := by
  intro a' ha; cases ha; rw [h]

theorem fail {α β : Type} {g : α → β} {e : Err} {n : M β} : Yields g (Svd.fail e) n := by
  intro a ha; cases ha

theorem ite {α β : Type} {g : α → β} {c : Prop} [Decidable c] {m m' : M α} {n n' : M β}
    (h : Yields g m n) (h' : Yields g m' n') :
    Yields g (if c then m else m') (if c then n else n') := by
  split
  · exact h
  · exact h'

theorem mapM {α β γ : Type} {g : β → γ} {f : α → M β} {k : α → M γ} {l : List α}
    (h : ∀ a ∈ l, Yields g (f a) (k a)) : Yields (List.map g) (l.mapM f) (l.mapM k) := by
  induction l with
  | nil => exact ok rfl
  | cons a l ih =>
    rw [mapM_cons, mapM_cons]
    exact bind (h a (by simp)) fun _ => bind (ih fun b hb => h b (by simp [hb])) fun _ => ok rfl

end Yields

/-- The configuration with and without `ignore_enums`. -/
def ignoring (cfg : ParseConfig) (b : Bool) : ParseConfig := { cfg with ignoreEnums := b }

variable (oc : Bool) (cfg : ParseConfig)

theorem plainField_validate {f : FieldInfo} {lvl : ValidateLevel} (h : f.validate lvl = .ok ()) :
    (plainField f).validate lvl = .ok () := by
  unfold FieldInfo.validate at h ⊢
  unfold whenM at h ⊢
  split at h
  · rw [if_pos ‹_›]
    obtain ⟨⟨⟩, h1, h⟩ := bind_ok.mp h
    refine bind_ok.mpr ⟨(), h1, ?_⟩
    obtain ⟨hw, _⟩ := iteBind_ok.mp h
    refine iteBind_ok.mpr ⟨hw, ?_⟩
    simp [plainField, pure, Except.pure, compatibleEnums]
    by_cases hlt : f.bitRange.width.toNat < 64 <;> simp only [hlt, decide_true, decide_false] <;> rfl
  · rw [if_neg ‹_›]

theorem parseFieldInfo_plain (t : Xml) :
    Yields plainField (parseFieldInfo oc (ignoring cfg false) t)
      (parseFieldInfo oc (ignoring cfg true) t) := by
  unfold parseFieldInfo
  refine .ite .fail ?_
  refine .same fun _ => .same fun _ => .same fun _ => .same fun _ => .same fun _ =>
    .bind (g := fun _ => none) ?_ fun _ => .same fun _ => .bind (g := fun _ => []) ?_ fun _ => ?_
  · intro _ _; rfl
  · intro _ _; rfl
  · intro f hf
    have hv := (buildField_ok hf).1
    unfold FieldInfoBuilder.build at hf ⊢
    obtain ⟨nm, h1, h⟩ := bind_ok.mp hf
    obtain ⟨br, h2, h⟩ := bind_ok.mp h
    obtain ⟨_, rfl⟩ := validated h
    refine bind_ok.mpr ⟨nm, h1, bind_ok.mpr ⟨br, h2, bind_ok.mpr ⟨(), plainField_validate hv, rfl⟩⟩⟩

theorem parseArray_plain {α : Type} {tag : String} {nm : α → Str} {t : Xml} {m n : M α} {g : α → α}
    (h : Yields g m n) (hnm : ∀ a, nm (g a) = nm a) :
    Yields (MaybeArray.mapInfo g) (parseArray (ignoring cfg false) tag nm t m)
      (parseArray (ignoring cfg true) tag nm t n) := by
  unfold parseArray
  refine .ite .fail ?_
  refine .bind h fun a => ?_
  simp only [hnm]
  refine .ite (.same fun d => .same fun _ => ?_) (.ok rfl)
  split
  · exact .ite .fail (.ok rfl)
  · exact .ok rfl

theorem plainRegister_validate {r : RegisterInfo} {lvl : ValidateLevel} (h : r.validate lvl = .ok ()) :
    (plainRegister r).validate lvl = .ok () := by
  have e : ∀ o : Option (List Field), (forOpt (o.map fun l => l.map fun f => f.mapInfo plainField)
      fun fs => if fs.isEmpty && lvl.isStrict then fail .emptyFields else .ok ()) =
      forOpt o fun fs => if fs.isEmpty && lvl.isStrict then fail .emptyFields else .ok () := by
    rintro (_ | l)
    · rfl
    · cases l <;> rfl
  unfold RegisterInfo.validate at h ⊢
  unfold plainRegister
  simp only [e]
  exact h

theorem parseRegisterInfo_plain (t : Xml) :
    Yields plainRegister (parseRegisterInfo oc (ignoring cfg false) t)
      (parseRegisterInfo oc (ignoring cfg true) t) := by
  unfold parseRegisterInfo
  refine .same fun _ => .same fun _ => .same fun _ => .same fun _ => .same fun _ => .same fun _ =>
    .same fun _ => .same fun _ => .same fun _ => .same fun _ => .same fun _ =>
    .bind (g := Option.map fun l => l.map fun f => f.mapInfo plainField) ?_ fun _ => ?_
  · split
    · exact .bind (.mapM fun x _ => parseArray_plain cfg (parseFieldInfo_plain oc cfg x) fun _ => rfl)
        fun _ => .ok rfl
    · exact .ok rfl
  · intro r hr
    have hv := (buildRegister_ok hr).1
    unfold RegisterInfoBuilder.build at hr ⊢
    obtain ⟨nm, h1, h⟩ := bind_ok.mp hr
    obtain ⟨ao, h2, h⟩ := bind_ok.mp h
    obtain ⟨p, h3, h⟩ := bind_ok.mp h
    obtain ⟨_, rfl⟩ := validated h
    exact bind_ok.mpr ⟨nm, h1, bind_ok.mpr ⟨ao, h2, bind_ok.mpr ⟨p, h3,
      bind_ok.mpr ⟨(), plainRegister_validate hv, rfl⟩⟩⟩⟩

/-- A cluster description with its children's fields made plain. -/
def plainCluster (c : ClusterInfo) : ClusterInfo := { c with children := plainRcs c.children }

theorem plainRcs_isEmpty (l : List RegisterCluster) : (plainRcs l).isEmpty = l.isEmpty := by
  cases l <;> simp [plainRcs]

theorem parseClusterInfoWith_plain (t : Xml) {m n : M (List RegisterCluster)} (h : Yields plainRcs m n) :
    Yields plainCluster (parseClusterInfoWith (ignoring cfg false) t m)
      (parseClusterInfoWith (ignoring cfg true) t n) := by
  unfold parseClusterInfoWith
  refine .same fun _ => .same fun _ => .same fun _ => .same fun _ => .same fun _ => .same fun _ =>
    .bind h fun _ => ?_
  intro c hc
  have hv := (buildCluster_ok hc).1
  unfold ClusterInfoBuilder.build at hc ⊢
  obtain ⟨nm, h1, h⟩ := bind_ok.mp hc
  obtain ⟨ao, h2, h⟩ := bind_ok.mp h
  obtain ⟨p, h3, h⟩ := bind_ok.mp h
  obtain ⟨cs, h4, h⟩ := bind_ok.mp h
  obtain ⟨_, rfl⟩ := validated h
  cases h4
  refine bind_ok.mpr ⟨nm, h1, bind_ok.mpr ⟨ao, h2, bind_ok.mpr ⟨p, h3, bind_ok.mpr ⟨_, rfl,
    bind_ok.mpr ⟨(), ?_, rfl⟩⟩⟩⟩⟩
  unfold ClusterInfo.validate validateClusterParts at hv ⊢
  simp only [plainRcs_isEmpty]
  exact hv

theorem plainRc_ofCluster (c : Cluster) :
    plainRc (.ofCluster c) = .ofCluster (c.mapInfo plainCluster) := by
  cases c <;> simp [RegisterCluster.ofCluster, plainRc, MaybeArray.mapInfo, plainCluster]

mutual
theorem parseRC_plain : ∀ t : Xml,
    Yields plainRc (parseRegisterCluster oc (ignoring cfg false) t)
      (parseRegisterCluster oc (ignoring cfg true) t)
  | .elem tag attrs kids => by
    unfold parseRegisterCluster
    refine .ite ?_ (.ite ?_ .fail)
    · exact .bind (parseArray_plain cfg (parseRegisterInfo_plain oc cfg _) fun _ => rfl) fun _ =>
        .ok (by simp [plainRc])
    · exact .bind (parseArray_plain cfg (parseClusterInfoWith_plain cfg _
        (parseKids_plain kids)) fun _ => rfl) fun c => .ok (plainRc_ofCluster c)
  | .text _ => by unfold parseRegisterCluster; exact .fail
  | .other => by unfold parseRegisterCluster; exact .fail
theorem parseKids_plain : ∀ ts : List Xml,
    Yields plainRcs (parseClusterKids oc (ignoring cfg false) ts)
      (parseClusterKids oc (ignoring cfg true) ts)
  | [] => by unfold parseClusterKids; exact .ok (by simp [plainRcs])
  | x :: xs => by
    unfold parseClusterKids
    refine .ite ?_ (parseKids_plain xs)
    exact .bind (parseRC_plain x) fun _ => .bind (parseKids_plain xs) fun _ => .ok (by simp [plainRcs])
end

theorem plainRcs_map (l : List RegisterCluster) : l.map plainRc = plainRcs l := by
  induction l with
  | nil => simp [plainRcs]
  | cons c l ih => simp [plainRcs, ih]

theorem plainPeripheral_validate {p : PeripheralInfo} {lvl : ValidateLevel}
    (h : p.validate lvl = .ok ()) : (plainPeripheral p).validate lvl = .ok () := by
  have e : ∀ o : Option (List RegisterCluster), (forOpt (o.map plainRcs)
      fun fs => if fs.isEmpty && lvl.isStrict then fail .emptyRegisters else .ok ()) =
      forOpt o fun fs => if fs.isEmpty && lvl.isStrict then fail .emptyRegisters else .ok () := by
    rintro (_ | l)
    · rfl
    · cases l <;> simp [forOpt, plainRcs]
  unfold PeripheralInfo.validate at h ⊢
  unfold plainPeripheral
  simp only [e]
  exact h

theorem parsePeripheralInfo_plain (t : Xml) :
    Yields plainPeripheral (parsePeripheralInfo oc (ignoring cfg false) t)
      (parsePeripheralInfo oc (ignoring cfg true) t) := by
  unfold parsePeripheralInfo
  refine .ite .fail ?_
  refine .same fun _ => .same fun _ => .same fun _ => .same fun _ => .same fun _ => .same fun _ =>
    .same fun _ => .same fun _ => .same fun _ => .same fun _ => .same fun _ => .same fun _ =>
    .same fun _ => .bind (g := Option.map plainRcs) ?_ fun _ => ?_
  · split
    · exact .bind (.mapM fun x _ => parseRC_plain oc cfg x) fun _ => .ok (by simp [plainRcs_map])
    · exact .ok rfl
  · intro p hp
    have hv := (buildPeripheral_ok hp).1
    unfold PeripheralInfoBuilder.build at hp ⊢
    obtain ⟨nm, h1, h⟩ := bind_ok.mp hp
    obtain ⟨ao, h2, h⟩ := bind_ok.mp h
    obtain ⟨p, h3, h⟩ := bind_ok.mp h
    obtain ⟨_, rfl⟩ := validated h
    exact bind_ok.mpr ⟨nm, h1, bind_ok.mpr ⟨ao, h2, bind_ok.mpr ⟨p, h3,
      bind_ok.mpr ⟨(), plainPeripheral_validate hv, rfl⟩⟩⟩⟩

theorem parseDevice_plain (t : Xml) :
    Yields plainDevice (parseDevice oc (ignoring cfg false) t)
      (parseDevice oc (ignoring cfg true) t) := by
  unfold parseDevice
  refine .ite .fail ?_
  refine .same fun _ => .same fun _ => .same fun _ => .same fun _ => .same fun _ => .same fun _ =>
    .same fun _ => .same fun _ => .same fun _ => .same fun _ =>
    .bind (.mapM fun x _ => parseArray_plain cfg (parsePeripheralInfo_plain oc cfg x) fun _ => rfl)
      fun _ => .same fun _ => .same fun _ => .same fun _ => .same fun _ => ?_
  intro d hd
  have hv := (buildDevice_ok hd).1
  unfold DeviceBuilder.build at hd ⊢
  obtain ⟨x1, h1, h⟩ := bind_ok.mp hd
  obtain ⟨x2, h2, h⟩ := bind_ok.mp h
  obtain ⟨x3, h3, h⟩ := bind_ok.mp h
  obtain ⟨x4, h4, h⟩ := bind_ok.mp h
  obtain ⟨x5, h5, h⟩ := bind_ok.mp h
  obtain ⟨x6, h6, h⟩ := bind_ok.mp h
  obtain ⟨x7, h7, h⟩ := bind_ok.mp h
  obtain ⟨_, rfl⟩ := validated h
  cases h7
  refine bind_ok.mpr ⟨x1, h1, bind_ok.mpr ⟨x2, h2, bind_ok.mpr ⟨x3, h3, bind_ok.mpr ⟨x4, h4,
    bind_ok.mpr ⟨x5, h5, bind_ok.mpr ⟨x6, h6, bind_ok.mpr ⟨_, rfl, bind_ok.mpr ⟨(), ?_, rfl⟩⟩⟩⟩⟩⟩⟩⟩
  unfold Device.validate at hv ⊢
  simp only [List.isEmpty_map]
  exact hv

/-- **C31.** If a document parses normally to a device, it parses with `ignore_enums` to the same
device without the enumerated values and write constraints of its fields. -/
theorem C31_ignore_enums (doc : List Xml) (d : Device)
    (h : parseDocument oc { cfg with ignoreEnums := false } doc = .ok d) :
    parseDocument oc { cfg with ignoreEnums := true } doc = .ok (plainDevice d) := by
  refine (?_ : Yields plainDevice (parseDocument oc (ignoring cfg false) doc)
    (parseDocument oc (ignoring cfg true) doc)) d h
  unfold parseDocument
  exact .same fun _ => parseDevice_plain oc cfg _

/-- A small document used by the examples, with the given children of its only field. -/
def enumDocument (extra : List Xml) : List Xml :=
  [.elem "device" [] [newNode "name" "D".toList, .elem "peripherals" [] [.elem "peripheral" []
    [newNode "name" "P".toList, newNode "baseAddress" "0".toList, .elem "registers" []
      [.elem "cluster" [] [newNode "name" "C".toList, newNode "addressOffset" "0".toList,
        .elem "register" [] [newNode "name" "R".toList, newNode "addressOffset" "0".toList,
        .elem "fields" [] [.elem "field" [] (newNode "name" "F".toList ::
          newNode "bitRange" "[1:0]".toList :: extra)]]]]]]]]

/-- Enumerated values and a write constraint. -/
def enumExtra : List Xml :=
  [.elem "writeConstraint" [] [newNode "writeAsRead" "true".toList],
   .elem "enumeratedValues" [] [.elem "enumeratedValue" []
     [newNode "name" "A".toList, newNode "value" "3".toList]]]

-- Without the option the enumeration is read, with it the result is that of the document without it.
example : (parseDocument true {} (enumDocument enumExtra)).isOk = true ∧
    parseDocument true {} (enumDocument enumExtra) ≠ parseDocument true {} (enumDocument []) ∧
    parseDocument true { ignoreEnums := true } (enumDocument enumExtra) =
      parseDocument true {} (enumDocument []) := by decide +kernel

-- The converse fails: a bad enumeration is not noticed.
example : (parseDocument true {} (enumDocument [.elem "enumeratedValues" [] []])).isOk = false ∧
    (parseDocument true { ignoreEnums := true }
      (enumDocument [.elem "enumeratedValues" [] []])).isOk = true := by decide +kernel

end Svd
