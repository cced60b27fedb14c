import Verif.Spec.Overflow
import Verif.Spec.Sample
import Verif.Lemmas.Except
import Verif.Model.Top
import Verif.Model.Encode
import Verif.Model.Serde
import Verif.Model.Iter
import Verif.Model.Message
import Verif.Props.Fails

/-!
# C74: overflow checks only change what overflows
-/

namespace Svd

open Spec

/-- `SameUnlessOverflow` for proofs. -/
abbrev Same {α : Type} (t f : M α) : Prop := SameUnlessOverflow t f

namespace Same

variable {α β : Type}

theorem refl (m : M α) : Same m m := .inr rfl

theorem bind {m m' : M α} {f f' : α → M β} (h : Same m m') (h' : ∀ a, Same (f a) (f' a)) :
    Same (m >>= f) (m' >>= f') := by
  rcases h with h | h
  · subst h; exact .inl rfl
  · subst h
    cases m' with
    | error e => exact .inr rfl
    | ok a => exact h' a

theorem arith {w : Nat} {p : Prop} [Decidable p] (x : BitVec w) : Same (arith true p x) (arith false p x) := by
  unfold Svd.arith
  split
  · exact refl _
  · exact .inl rfl

theorem ite {c : Prop} [Decidable c] {m m' n n' : M α} (h : Same m m') (h' : Same n n') :
    Same (if c then m else n) (if c then m' else n') := by
  split
  · exact h
  · exact h'

theorem mapM {f f' : α → M β} (h : ∀ a, Same (f a) (f' a)) (l : List α) : Same (l.mapM f) (l.mapM f') := by
  induction l with
  | nil => exact refl _
  | cons a l ih =>
    rw [mapM_cons, mapM_cons]
    exact bind (h a) fun _ => bind ih fun _ => refl _

theorem mapM' {f f' : α → M β} (l : List α) (h : ∀ a ∈ l, Same (f a) (f' a)) : Same (l.mapM f) (l.mapM f') := by
  induction l with
  | nil => exact refl _
  | cons a l ih =>
    rw [mapM_cons, mapM_cons]
    exact bind (h a (by simp)) fun _ => bind (ih fun b hb => h b (by simp [hb])) fun _ => refl _

theorem foldlM {f f' : β → α → M β} (h : ∀ b a, Same (f b a) (f' b a)) (l : List α) (b : β) :
    Same (l.foldlM f b) (l.foldlM f' b) := by
  induction l generalizing b with
  | nil => exact refl _
  | cons a l ih => exact bind (h b a) fun b => ih b

end Same

/-- Going through the two computations in step. -/
macro "in_step" : tactic => `(tactic|
  repeat' first
    | assumption
    | with_reducible exact Same.refl _
    | with_reducible refine Same.bind ?_ fun _ => ?_
    | with_reducible refine Same.ite ?_ ?_
    | with_reducible refine Same.mapM (fun _ => ?_) _)

theorem addC_same {w : Nat} (a b : BitVec w) : Same (addC true a b) (addC false a b) := Same.arith _
theorem subC_same {w : Nat} (a b : BitVec w) : Same (subC true a b) (subC false a b) := Same.arith _
theorem mulC_same {w : Nat} (a b : BitVec w) : Same (mulC true a b) (mulC false a b) := Same.arith _
theorem shlC_same (a : U64) (n : U32) : Same (shlC true a n) (shlC false a n) := Same.arith _
theorem shrC_same (a : U64) (n : U32) : Same (shrC true a n) (shrC false a n) := Same.arith _

/-! ## Bit ranges and arrays -/

theorem msb_same (b : BitRange) : Same (b.msb true) (b.msb false) :=
  .bind (addC_same ..) fun _ => subC_same ..

theorem bitRange_same (b : BitRange) : Same (b.bitRange true) (b.bitRange false) :=
  .bind (msb_same b) fun _ => .refl _

theorem fromMsbLsb_same (m l : U32) : Same (BitRange.fromMsbLsb true m l) (BitRange.fromMsbLsb false m l) :=
  .bind (subC_same ..) fun _ => .bind (addC_same ..) fun _ => .refl _

theorem fromBitRange_same (s : Str) : Same (BitRange.fromBitRange true s) (BitRange.fromBitRange false s) := by
  unfold BitRange.fromBitRange
  refine .ite (.refl _) ?_
  rcases splitOn ':' ((s.drop 1).dropLast) with _ | ⟨p, _ | ⟨q, r⟩⟩
  · exact .refl _
  · exact .refl _
  · dsimp only
    cases fromStrRadix 32 10 p with
    | error e => exact .refl _
    | ok m =>
      cases fromStrRadix 32 10 q with
      | error e => exact .refl _
      | ok l => exact .bind (subC_same ..) fun _ => .bind (addC_same ..) fun _ => .refl _

theorem offsetAt_same (b : U32) (d : DimElement) (i : Nat) : Same (offsetAt true b d i) (offsetAt false b d i) :=
  .bind (mulC_same ..) fun _ => addC_same ..

theorem baseAddressAt_same (b : U64) (d : DimElement) (i : Nat) :
    Same (baseAddressAt true b d i) (baseAddressAt false b d i) :=
  .bind (mulC_same ..) fun _ => addC_same ..

theorem indexesAsRange_same (d : DimElement) : Same (d.indexesAsRange true) (d.indexesAsRange false) := by
  unfold DimElement.indexesAsRange
  refine .bind (.refl _) fun o => ?_
  cases o with
  | none => exact .refl _
  | some l =>
    dsimp only
    cases (l.map BitVec.toNat).min? with
    | none => exact .refl _
    | some mn =>
      cases (l.map BitVec.toNat).max? with
      | none => exact .refl _
      | some mx => exact .bind (subC_same ..) fun _ => .bind (addC_same ..) fun _ => .refl _

theorem FieldInfo.expand_same (i : FieldInfo) (d : DimElement) : Same (i.expand true d) (i.expand false d) := by
  refine .mapM (fun k => ?_) _
  exact .bind (.refl _) fun _ => .bind (.refl _) fun _ => .bind (offsetAt_same ..) fun _ => .refl _

theorem RegisterInfo.expand_same (i : RegisterInfo) (d : DimElement) :
    Same (i.expand true d) (i.expand false d) := by
  refine .mapM (fun k => ?_) _
  exact .bind (.refl _) fun _ => .bind (.refl _) fun _ => .bind (.refl _) fun _ =>
    .bind (offsetAt_same ..) fun _ => .refl _

theorem ClusterInfo.expandAt_same (i : ClusterInfo) (d : DimElement) (k : Nat) :
    Same (i.expandAt true d k) (i.expandAt false d k) :=
  .bind (.refl _) fun _ => .bind (.refl _) fun _ => .bind (offsetAt_same ..) fun _ => .refl _

theorem PeripheralInfo.expand_same (i : PeripheralInfo) (d : DimElement) :
    Same (i.expand true d) (i.expand false d) := by
  refine .mapM (fun k => ?_) _
  exact .bind (.refl _) fun _ => .bind (.refl _) fun _ => .bind (.refl _) fun _ =>
    .bind (baseAddressAt_same ..) fun _ => .refl _

/-! ## Expansion -/

theorem expandField_same (ix : Index) (fuel : Nat) (p : RegisterPath) (f : Field) :
    Same (expandField true ix fuel p f) (expandField false ix fuel p f) := by
  unfold expandField
  refine .bind (.refl _) fun ff => .bind (.refl _) fun evs => ?_
  cases ff.1 with
  | single i => exact .refl _
  | array i d => exact .bind (FieldInfo.expand_same ..) fun _ => .refl _

theorem expandRegisterArray_same (ix : Index) (fuel : Nat) (p : BlockPath) (r : Register) :
    Same (expandRegisterArray true ix fuel p r) (expandRegisterArray false ix fuel p r) := by
  unfold expandRegisterArray
  refine .bind (.refl _) fun rr => .bind ?_ fun fs => ?_
  · cases rr.1.info.fields with
    | none => exact .refl _
    | some l => exact .bind (.mapM (fun f => expandField_same ..) l) fun _ => .refl _
  · cases rr.1 with
    | single i => exact .refl _
    | array i d => exact .bind (RegisterInfo.expand_same ..) fun _ => .refl _

theorem expandCluster_same (c : ClusterInfo) : Same (expandCluster true c) (expandCluster false c) := by
  refine .mapM (fun rc => ?_) _
  cases rc with
  | cluster => exact .refl _
  | register r => exact .bind (addC_same ..) fun _ => .refl _

theorem flattenCluster_same (c : Cluster) : Same (flattenCluster true c) (flattenCluster false c) := by
  cases c with
  | single i => exact expandCluster_same i
  | array i d =>
    exact .bind (.mapM (fun k => .bind (ClusterInfo.expandAt_same ..) fun ci => expandCluster_same ci) _)
      fun _ => .refl _

theorem expandRC_same (ix : Index) (n : Nat) (p : BlockPath) (rc : RegisterCluster) :
    Same (expandRC true ix n p rc) (expandRC false ix n p rc) := by
  induction n generalizing p rc with
  | zero => exact .refl _
  | succ n ih =>
    cases rc with
    | register r => rw [expandRC, expandRC]; exact expandRegisterArray_same ..
    | cluster h d cs =>
      rw [expandRC, expandRC]
      exact .bind (.refl _) fun cc => .bind (.mapM (fun rc => ih _ rc) _) fun l => flattenCluster_same _

theorem expandPeripheral_same (ix : Index) (fuel : Nat) (p : Peripheral) :
    Same (expandPeripheral true ix fuel p) (expandPeripheral false ix fuel p) := by
  unfold expandPeripheral
  refine .bind (.refl _) fun pp => .bind ?_ fun rs => ?_
  · cases pp.1.info.registers with
    | none => exact .refl _
    | some l => exact .bind (.mapM (fun f => expandRC_same ..) l) fun _ => .refl _
  · cases pp.1 with
    | single i => exact .refl _
    | array i d => exact .bind (PeripheralInfo.expand_same ..) fun _ => .refl _

/-- **C74** (expansion). -/
theorem C74_expand (fuel : Nat) (d : Device) : SameUnlessOverflow (expand true fuel d) (expand false fuel d) :=
  Same.bind (.refl _) fun _ => .bind (.mapM (fun _ => expandPeripheral_same ..) _) fun _ => .refl _

/-! ## Parsing -/

theorem finishBitRange_same (m l : U32) (ty : BitRangeType) :
    Same (finishBitRange true m l ty) (finishBitRange false m l ty) :=
  .ite (.refl _) (.bind (subC_same ..) fun _ => .bind (addC_same ..) fun _ => .refl _)

theorem parseBitRange_same (t : Xml) : Same (parseBitRange true t) (parseBitRange false t) := by
  unfold parseBitRange
  cases t.getChild "bitRange" with
  | some r =>
    dsimp only
    cases r.textOf with
    | none => exact .refl _
    | some x => exact .bind (.refl _) fun _ => finishBitRange_same ..
  | none =>
    dsimp only
    cases t.getChild "lsb" with
    | none => exact .refl _
    | some l =>
      cases t.getChild "msb" with
      | none => exact .refl _
      | some m => exact .bind (.refl _) fun _ => .bind (.refl _) fun _ => finishBitRange_same ..

theorem parseArray_same {α : Type} (cfg : ParseConfig) (tag : String) (nm : α → Str) (t : Xml) {m m' : M α}
    (h : Same m m') : Same (parseArray cfg tag nm t m) (parseArray cfg tag nm t m') :=
  .ite (.refl _) (.bind h fun _ => .refl _)

theorem parseFieldInfo_same (cfg : ParseConfig) (t : Xml) :
    Same (parseFieldInfo true cfg t) (parseFieldInfo false cfg t) :=
  .ite (.refl _) (.bind (parseBitRange_same t) fun _ => .refl _)

theorem parseField_same (cfg : ParseConfig) (t : Xml) : Same (parseField true cfg t) (parseField false cfg t) :=
  parseArray_same _ _ _ _ (parseFieldInfo_same cfg t)

theorem parseRegisterInfo_same (cfg : ParseConfig) (t : Xml) :
    Same (parseRegisterInfo true cfg t) (parseRegisterInfo false cfg t) := by
  unfold parseRegisterInfo
  have h : Same (match t.getChild "fields" with
      | some fs => do
        let l ← (fs.children.filter Xml.isElement).mapM (parseField true cfg)
        .ok (some l)
      | none => .ok none : M (Option (List Field))) (match t.getChild "fields" with
      | some fs => do
        let l ← (fs.children.filter Xml.isElement).mapM (parseField false cfg)
        .ok (some l)
      | none => .ok none : M (Option (List Field))) := by
    cases t.getChild "fields" with
    | none => exact .refl _
    | some fs => exact .bind (.mapM (parseField_same cfg) _) fun _ => .refl _
  in_step

theorem parseRegister_same (cfg : ParseConfig) (t : Xml) :
    Same (parseRegister true cfg t) (parseRegister false cfg t) :=
  parseArray_same _ _ _ _ (parseRegisterInfo_same cfg t)

theorem parseClusterInfoWith_same (cfg : ParseConfig) (t : Xml) {m m' : M (List RegisterCluster)}
    (h : Same m m') : Same (parseClusterInfoWith cfg t m) (parseClusterInfoWith cfg t m') := by
  unfold parseClusterInfoWith; in_step

mutual
theorem parseRegisterCluster_same (cfg : ParseConfig) :
    ∀ t, Same (parseRegisterCluster true cfg t) (parseRegisterCluster false cfg t)
  | .elem tag attrs kids => by
    rw [parseRegisterCluster, parseRegisterCluster]
    exact .ite (.bind (parseRegister_same ..) fun _ => .refl _)
      (.ite (.bind (parseArray_same _ _ _ _ (parseClusterInfoWith_same _ _ (parseClusterKids_same cfg kids)))
        fun _ => .refl _) (.refl _))
  | .text _ => .refl _
  | .other => .refl _
theorem parseClusterKids_same (cfg : ParseConfig) :
    ∀ l, Same (parseClusterKids true cfg l) (parseClusterKids false cfg l)
  | [] => .refl _
  | x :: xs => by
    rw [parseClusterKids, parseClusterKids]
    exact .ite (.bind (parseRegisterCluster_same cfg x) fun _ => .bind (parseClusterKids_same cfg xs)
      fun _ => .refl _) (parseClusterKids_same cfg xs)
end

theorem parsePeripheralInfo_same (cfg : ParseConfig) (t : Xml) :
    Same (parsePeripheralInfo true cfg t) (parsePeripheralInfo false cfg t) := by
  unfold parsePeripheralInfo
  have h : Same (match t.getChild "registers" with
      | some fs => do
        let l ← (fs.children.filter Xml.isElement).mapM (parseRegisterCluster true cfg)
        .ok (some l)
      | none => .ok none : M (Option (List RegisterCluster))) (match t.getChild "registers" with
      | some fs => do
        let l ← (fs.children.filter Xml.isElement).mapM (parseRegisterCluster false cfg)
        .ok (some l)
      | none => .ok none : M (Option (List RegisterCluster))) := by
    cases t.getChild "registers" with
    | none => exact .refl _
    | some fs => exact .bind (.mapM (parseRegisterCluster_same cfg) _) fun _ => .refl _
  in_step

theorem parsePeripheral_same (cfg : ParseConfig) (t : Xml) :
    Same (parsePeripheral true cfg t) (parsePeripheral false cfg t) :=
  parseArray_same _ _ _ _ (parsePeripheralInfo_same cfg t)

theorem parseDevice_same (cfg : ParseConfig) (t : Xml) : Same (parseDevice true cfg t) (parseDevice false cfg t) := by
  unfold parseDevice
  have h := parsePeripheral_same cfg
  in_step
  all_goals exact h _

theorem parseDocument_same (cfg : ParseConfig) (top : List Xml) :
    Same (parseDocument true cfg top) (parseDocument false cfg top) :=
  .bind (.refl _) fun _ => parseDevice_same ..

/-- **C74** (parsing, with the expansions asked for). -/
theorem C74_parse (fuel : Nat) (cfg : ParseConfig) (top : List Xml) :
    SameUnlessOverflow (parseWithConfig true fuel cfg top) (parseWithConfig false fuel cfg top) :=
  Same.bind (parseDocument_same cfg top) fun _ => .ite (C74_expand ..) (.refl _)

/-! ## Writing -/

theorem negI32_same (x : U32) : Same (negI32 true x) (negI32 false x) := by
  unfold negI32
  split
  · exact .inl rfl
  · exact .refl _

theorem sortByKey_same {α κ : Type} (le : κ → κ → Bool) {k k' : α → M κ} (h : ∀ a, Same (k a) (k' a)) (l : List α) :
    Same (sortByKey le k l) (sortByKey le k' l) := by
  unfold sortByKey
  exact .ite (.refl _) (.bind (.mapM (fun a => .bind (h a) fun _ => .refl _) _) fun _ => .refl _)

theorem sortRefs_same {α : Type} (off : α → Nat) (off32 : α → U32) (nm : α → Str) (s : Option Sorting) (l : List α) :
    Same (sortRefs true off off32 nm s l) (sortRefs false off off32 nm s l) := by
  rcases s with _ | (_ | _ | _)
  · exact .refl _
  · exact .refl _
  · exact sortByKey_same (fun a b : Int => decide (a ≤ b)) (fun a => negI32_same (off32 a)) l
  · exact .refl _

theorem sortDerived_same {α : Type} {srt srt' : Option Sorting → List α → M (List α)}
    (h : ∀ s l, Same (srt s l) (srt' s l)) (der : α → Bool) (s : DerivableSorting) (l : List α) :
    Same (sortDerived srt der s l) (sortDerived srt' der s l) := by
  cases s with
  | unchanged s => exact h s l
  | deriveLast s => exact .bind (h ..) fun _ => .bind (h ..) fun _ => .refl _

theorem sortDerivedRegisterCluster_same (s : DerivableSorting) (l : List RegisterCluster) :
    Same (sortDerivedRegisterCluster true s l) (sortDerivedRegisterCluster false s l) :=
  sortDerived_same (fun _ _ => sortRefs_same ..) ..

theorem rcSort_same (l : List RegisterCluster) (s : DerivableSorting) (b : Bool) :
    Same (rcSort true l s b) (rcSort false l s b) :=
  .bind (sortDerivedRegisterCluster_same ..) fun _ => .bind (sortDerivedRegisterCluster_same ..) fun _ => .refl _

theorem sortRc_same (s : RcSorting) (l : List RegisterCluster) : Same (sortRc true s l) (sortRc false s l) := by
  unfold sortRc
  split
  · exact .refl _
  · exact sortDerivedRegisterCluster_same ..
  · exact rcSort_same ..
  · exact rcSort_same ..

section
variable (cc : IdentifierFormat → Str → Str) (cfg : EncConfig)

theorem encodeDimElement_same (d : DimElement) :
    Same (encodeDimElement true cc cfg d) (encodeDimElement false cc cfg d) := by
  refine .bind ?_ fun _ => .refl _
  unfold encodeDimIndex
  cases d.dimIndex with
  | none => exact .refl _
  | some di => exact .bind (.bind (indexesAsRange_same d) fun _ => .refl _) fun _ => .refl _

theorem encodeArray_same (tag : String) (d : Option DimElement) {m m' : M Xml} (h : Same m m') :
    Same (encodeArray true cc cfg tag d m) (encodeArray false cc cfg tag d m') := by
  cases d with
  | none => exact h
  | some d => exact .bind (encodeDimElement_same cc cfg d) fun _ => .bind h fun _ => .refl _

theorem encodeBitRange_same (b : BitRange) : Same (encodeBitRange true cfg b) (encodeBitRange false cfg b) := by
  unfold encodeBitRange
  cases cfg.fieldBitRange.getD b.rangeType with
  | bitRange => exact .bind (bitRange_same b) fun _ => .refl _
  | msbLsb => exact .bind (msb_same b) fun _ => .refl _
  | offsetWidth => exact .refl _

theorem encodeField_same (f : Field) : Same (encodeField true cc cfg f) (encodeField false cc cfg f) :=
  encodeArray_same _ _ _ _ (.bind (encodeBitRange_same ..) fun _ => .refl _)

theorem encodeFields_same (l : Option (List Field)) :
    Same (encodeFields true cc cfg l) (encodeFields false cc cfg l) := by
  cases l with
  | none => exact .refl _
  | some v =>
    refine .bind (.ite (.refl _) ?_) fun _ => .bind (.mapM (encodeField_same cc cfg) _) fun _ => .refl _
    exact sortDerived_same (fun _ _ => sortRefs_same ..) ..

theorem encodeRegister_same (r : Register) : Same (encodeRegister true cc cfg r) (encodeRegister false cc cfg r) :=
  encodeArray_same _ _ _ _ (.bind (encodeFields_same ..) fun _ => .refl _)

mutual
theorem encodeRegisterCluster_same :
    ∀ rc, Same (encodeRegisterCluster true cc cfg rc) (encodeRegisterCluster false cc cfg rc)
  | .register r => by rw [encodeRegisterCluster, encodeRegisterCluster]; exact encodeRegister_same ..
  | .cluster h d cs => by
    rw [encodeRegisterCluster, encodeRegisterCluster]
    exact encodeArray_same _ _ _ _ (.bind (encodeRegisterClusters_same cs) fun _ => .refl _)
theorem encodeRegisterClusters_same :
    ∀ l, Same (encodeRegisterClusters true cc cfg l) (encodeRegisterClusters false cc cfg l)
  | [] => .refl _
  | c :: cs => by
    rw [encodeRegisterClusters, encodeRegisterClusters]
    exact .bind (encodeRegisterCluster_same c) fun _ => .bind (encodeRegisterClusters_same cs) fun _ => .refl _
end

theorem encodePeripheral_same (p : Peripheral) :
    Same (encodePeripheral true cc cfg p) (encodePeripheral false cc cfg p) := by
  refine encodeArray_same _ _ _ _ (.bind ?_ fun _ => .refl _)
  cases p.info.registers with
  | none => exact .refl _
  | some v =>
    exact .bind (sortRc_same ..) fun _ => .bind (.mapM (encodeRegisterCluster_same cc cfg) _) fun _ => .refl _

/-- **C74** (writing). -/
theorem C74_encode (d : Device) :
    SameUnlessOverflow (encodeDevice true cc cfg d) (encodeDevice false cc cfg d) := by
  refine Same.bind (.ite (.refl _) ?_) fun _ => .bind (.mapM (encodePeripheral_same cc cfg) _) fun _ => .refl _
  exact sortDerived_same (fun _ _ => sortRefs_same ..) ..

end

/-! ## Serde -/

theorem serArray_same {α : Type} {f f' : α → M Entries} (h : ∀ a, Same (f a) (f' a)) (m : MaybeArray α) :
    Same (serArray f m) (serArray f' m) := by
  cases m with
  | single i => exact .bind (h i) fun _ => .refl _
  | array i d => exact .bind (.refl _) fun _ => .bind (h i) fun _ => .refl _

theorem serListM_same {α : Type} {f f' : α → M Val} (h : ∀ a, Same (f a) (f' a)) (l : List α) :
    Same (serListM f l) (serListM f' l) := .bind (.mapM h l) fun _ => .refl _

theorem optEntryM_same {α : Type} (k : String) {f f' : α → M Val} (h : ∀ a, Same (f a) (f' a)) (o : Option α) :
    Same (optEntryM k f o) (optEntryM k f' o) := by
  cases o with
  | none => exact .refl _
  | some a => exact .bind (h a) fun _ => .refl _

theorem toSer_same (b : BitRange) : Same (b.toSer true) (b.toSer false) := by
  unfold BitRange.toSer
  cases b.rangeType with
  | bitRange => exact .bind (bitRange_same b) fun _ => .refl _
  | msbLsb => exact .bind (msb_same b) fun _ => .refl _
  | offsetWidth => exact .refl _

theorem serField_same (f : Field) : Same (serField true f) (serField false f) :=
  serArray_same (fun _ => .bind (.bind (toSer_same _) fun _ => .refl _) fun _ => .refl _) f

theorem serRegister_same (r : Register) : Same (serRegister true r) (serRegister false r) :=
  serArray_same (fun _ => .bind (optEntryM_same _ (serListM_same serField_same) _) fun _ => .refl _) r

mutual
theorem serRc_same : ∀ rc, Same (serRc true rc) (serRc false rc)
  | .register r => by rw [serRc, serRc]; exact .bind (serRegister_same r) fun _ => .refl _
  | .cluster h d cs => by rw [serRc, serRc]; exact .bind (serRcs_same cs) fun _ => .refl _
theorem serRcs_same : ∀ l, Same (serRcs true l) (serRcs false l)
  | [] => .refl _
  | c :: cs => by
    rw [serRcs, serRcs]; exact .bind (serRc_same c) fun _ => .bind (serRcs_same cs) fun _ => .refl _
end

theorem serPeripheral_same (p : Peripheral) : Same (serPeripheral true p) (serPeripheral false p) :=
  serArray_same (fun _ => .bind (optEntryM_same _ (fun l => .bind (serRcs_same l) fun _ => .refl _) _)
    fun _ => .refl _) p

/-- **C74** (serialising). -/
theorem C74_serialize (d : Device) : SameUnlessOverflow (serDevice true d) (serDevice false d) :=
  Same.bind (serListM_same serPeripheral_same _) fun _ => .refl _

theorem reqField_same {α : Type} {f f' : Val → M α} (h : ∀ v, Same (f v) (f' v)) (k : String) (es : Entries) :
    Same (reqField f k es) (reqField f' k es) := by
  unfold reqField
  rcases hits k es with _ | ⟨v, _ | ⟨w, l⟩⟩
  · exact .refl _
  · exact h v
  · exact .refl _

theorem optField_same {α : Type} {f f' : Val → M α} (h : ∀ v, Same (f v) (f' v)) (k : String) (es : Entries) :
    Same (optField f k es) (optField f' k es) := by
  unfold optField
  rcases hits k es with _ | ⟨v, _ | ⟨w, l⟩⟩
  · exact .refl _
  · cases v
    case null => exact .refl _
    all_goals exact .bind (h _) fun _ => .refl _
  · cases v <;> exact .refl _

theorem deList_same {α : Type} {f f' : Val → M α} (h : ∀ v, Same (f v) (f' v)) (v : Val) :
    Same (deList f v) (deList f' v) := by
  cases v
  case arr l => exact .mapM h l
  all_goals exact .refl _

theorem deStruct_same {α : Type} {f f' : Entries → M α} (h : ∀ v, Same (f v) (f' v)) (v : Val) :
    Same (deStruct f v) (deStruct f' v) := by
  cases v
  case obj l => exact h l
  all_goals exact .refl _

theorem deArray_same {α : Type} {f f' : Entries → M α} (h : ∀ v, Same (f v) (f' v)) (v : Val) :
    Same (deArray f v) (deArray f' v) :=
  deStruct_same (fun _ => .bind (.refl _) fun _ => .bind (h _) fun _ => .refl _) v

theorem deBitRange_same (es : Entries) : Same (deBitRange true es) (deBitRange false es) := by
  refine .bind (.refl _) fun s => .bind ?_ fun _ => .refl _
  cases s with
  | bitRange s => exact fromBitRange_same s
  | offsetWidth o w => exact .refl _
  | msbLsb l m => exact .bind (fromMsbLsb_same ..) fun _ => .refl _

theorem deField_same (v : Val) : Same (deField true v) (deField false v) := by
  refine deArray_same (fun es => ?_) v
  unfold deFieldInfo
  have h := deBitRange_same (rest fieldKeys es)
  in_step

theorem deRegister_same (v : Val) : Same (deRegister true v) (deRegister false v) := by
  refine deArray_same (fun es => ?_) v
  unfold deRegisterInfo
  have h := optField_same (deList_same deField_same) "fields" es
  in_step

theorem deClusterInfo_same (es : Entries) {m m' : M (List RegisterCluster)} (h : Same m m') :
    Same (deClusterInfo m es) (deClusterInfo m' es) := by
  unfold deClusterInfo; in_step

mutual
theorem deRc_same : ∀ v, Same (deRc true v) (deRc false v)
  | .obj [(k, v)] => by
    rw [deRc, deRc]
    exact .ite (.bind (deRegister_same v) fun _ => .refl _) (.ite (deCluster_same v) (.refl _))
  | .obj [] => by simp only [deRc]; exact .refl _
  | .obj (_ :: _ :: _) => by simp only [deRc]; exact .refl _
  | .arr _ => by simp only [deRc]; exact .refl _
  | .str _ => by simp only [deRc]; exact .refl _
  | .num _ => by simp only [deRc]; exact .refl _
  | .bool _ => by simp only [deRc]; exact .refl _
  | .null => by simp only [deRc]; exact .refl _
  | .other => by simp only [deRc]; exact .refl _
theorem deCluster_same : ∀ v, Same (deCluster true v) (deCluster false v)
  | .obj es => by
    rw [deCluster, deCluster]
    exact .bind (deArray_same (fun es' => deClusterInfo_same es' (.ite (deChildren_same es) (.refl _))) _)
      fun _ => .refl _
  | .arr _ => by simp only [deCluster]; exact .refl _
  | .str _ => by simp only [deCluster]; exact .refl _
  | .num _ => by simp only [deCluster]; exact .refl _
  | .bool _ => by simp only [deCluster]; exact .refl _
  | .null => by simp only [deCluster]; exact .refl _
  | .other => by simp only [deCluster]; exact .refl _
theorem deChildren_same : ∀ es, Same (deChildren true es) (deChildren false es)
  | [] => by simp only [deChildren]; exact .refl _
  | (k, v) :: es => by
    rw [deChildren, deChildren]
    exact .ite (deRcList_same v) (deChildren_same es)
theorem deRcList_same : ∀ v, Same (deRcList true v) (deRcList false v)
  | .arr l => by rw [deRcList, deRcList]; exact deRcs_same l
  | .obj _ => by simp only [deRcList]; exact .refl _
  | .str _ => by simp only [deRcList]; exact .refl _
  | .num _ => by simp only [deRcList]; exact .refl _
  | .bool _ => by simp only [deRcList]; exact .refl _
  | .null => by simp only [deRcList]; exact .refl _
  | .other => by simp only [deRcList]; exact .refl _
theorem deRcs_same : ∀ l, Same (deRcs true l) (deRcs false l)
  | [] => by simp only [deRcs]; exact .refl _
  | v :: vs => by
    rw [deRcs, deRcs]
    exact .bind (deRc_same v) fun _ => .bind (deRcs_same vs) fun _ => .refl _
end

theorem dePeripheral_same (v : Val) : Same (dePeripheral true v) (dePeripheral false v) := by
  refine deArray_same (fun es => ?_) v
  unfold dePeripheralInfo
  have h := optField_same deRcList_same "registers" es
  in_step

/-- **C74** (deserialising). -/
theorem C74_deserialize (v : Val) : SameUnlessOverflow (deDevice true v) (deDevice false v) := by
  refine deStruct_same (fun es => ?_) v
  have h := reqField_same (deList_same dePeripheral_same) "peripherals" es
  in_step

/-! ## Bit masks and the texts of errors -/

theorem FieldInfo.bitmask_same (f : FieldInfo) : Same (f.bitmask true) (f.bitmask false) :=
  .bind (subC_same ..) fun _ => .bind (shrC_same ..) fun _ => shlC_same ..

theorem maskLoop_same (mask : U64) (inc : U32) (l : List Nat) (b : U64) :
    Same (maskLoop true mask inc b l) (maskLoop false mask inc b l) := by
  induction l generalizing b with
  | nil => exact .refl _
  | cons i l ih => exact .bind (mulC_same ..) fun _ => .bind (shlC_same ..) fun _ => ih _

/-- **C74** (bit mask of a field). -/
theorem C74_field_bitmask (f : Field) : SameUnlessOverflow (Field.bitmask true f) (Field.bitmask false f) := by
  cases f with
  | single f => exact f.bitmask_same
  | array f d => exact Same.bind f.bitmask_same fun _ => maskLoop_same ..

/-- **C74** (bit mask of a register). -/
theorem C74_register_bitmask (r : RegisterInfo) : SameUnlessOverflow (r.bitmask true) (r.bitmask false) :=
  Same.foldlM (fun _ f => .bind (C74_field_bitmask f) fun _ => .refl _) _ _

/-- **C74** (texts of errors). -/
theorem C74_message (dbg : Str → Str) (e : Err) :
    SameUnlessOverflow (e.message true dbg) (e.message false dbg) := by
  cases e
  case enumOutOfRange v lo hi =>
    by_cases h : hi = 0
    · exact .inl (if_pos ⟨h, rfl⟩)
    · exact .inr (by simp only [Err.message, h, false_and, if_false])
  all_goals (unfold Err.message; exact Same.refl _)

/-- **C74.** So the fault that a device has (C63) is also the fault without overflow checks, unless it is an
overflow. -/
theorem C74_fails (d : Device) (e : Fault) (h : DeviceFails namesOf d e) (he : e ≠ .panic .overflow) :
    ∃ N, ∀ n, N ≤ n → expand false n d = .error e := by
  obtain ⟨N, hN⟩ := (C63_fails d e).mpr h
  refine ⟨N, fun n hn => ?_⟩
  rcases C74_expand n d with h' | h'
  · rw [hN n hn] at h'; injection h' with h'; exact absurd h' he
  · rw [h', hN n hn]

-- A register array that leaves the 32 bits of its address space: the second instance wraps around to address 0.
def wrapping : Device := Sample.device
  [.single (Sample.peripheralInfo "P" 0x1000 none (some
     [.register (.array (Sample.registerInfo "R%s" 0xFFFFFFFC) (Sample.dim 2 4))]))]

example : expand true 9 wrapping = .error (.panic .overflow) := by decide +kernel

example : (expand false 9 wrapping).toOption.map (fun d => d.peripherals.map fun p =>
    (p.info.registers.getD []).map fun r => (String.ofList r.name, r.addressOffset.toNat)) =
    some [[("R0", 0xFFFFFFFC), ("R1", 0)]] := by decide +kernel

-- A field from bit 0 to bit 4294967295 has no width in 32 bits, without checks it has width 0.
example : BitRange.fromMsbLsb true 0xFFFFFFFF 0 = .error (.panic .overflow) ∧
    BitRange.fromMsbLsb false 0xFFFFFFFF 0 = .ok ⟨0, 0, .msbLsb⟩ := by decide +kernel

-- Where nothing overflows the two builds agree.
example : expand false 9 Sample.nested = expand true 9 Sample.nested ∧ (expand true 9 Sample.nested).isOk = true := by
  decide +kernel

-- `C74_expand`, `C74_encode`, `C74_serialize` and `C74_deserialize` say that both builds agree if the checked
-- build does not stop.
example : expand false 9 manyRefs = expand true 9 manyRefs ∧
    encodeDevice false (fun _ s => s) {} Sample.nested = encodeDevice true (fun _ s => s) {} Sample.nested ∧
    serDevice false Sample.nested = serDevice true Sample.nested ∧
    deDevice false (.obj []) = deDevice true (.obj []) :=
  ⟨(C74_expand _ _).resolve_left (by decide +kernel), (C74_encode _ _ _).resolve_left (by decide +kernel),
    (C74_serialize _).resolve_left fun h => absurd (congrArg Except.isOk h) (by decide +kernel), (C74_deserialize _).resolve_left (by decide +kernel)⟩
-- `C74_parse`, `C74_field_bitmask`, `C74_register_bitmask` and `C74_message`, likewise.
example : parseWithConfig false 3 {} [.elem "device" [] []] = parseWithConfig true 3 {} [.elem "device" [] []] ∧
    Field.bitmask false (.single (Sample.fieldInfo "F" 3)) = Field.bitmask true (.single (Sample.fieldInfo "F" 3)) ∧
    (Sample.registerInfo "R" 0 none (some [.single (Sample.fieldInfo "F" 3)])).bitmask false = .ok 8 ∧
    Err.message false id (.enumOutOfRange 9 0 8) = Err.message true id (.enumOutOfRange 9 0 8) :=
  ⟨(C74_parse _ _ _).resolve_left (by decide +kernel), (C74_field_bitmask _).resolve_left (by decide +kernel),
    ((C74_register_bitmask _).resolve_left (by decide +kernel)).trans (by decide +kernel),
    (C74_message _ _).resolve_left (by decide +kernel)⟩

end Svd
