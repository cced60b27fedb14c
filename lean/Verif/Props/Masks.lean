import Verif.Spec.Masks
import Verif.Props.Count

/-!
# C78: bit masks of expanded registers
-/

namespace Svd

open Spec

namespace Masks

theorem eachInWord_inWord {f : Field} (h : EachInWord f) : InWord f := by
  cases f with
  | single f => exact h
  | array f d => exact ⟨h.1, fun k hk => by have := h.2 k hk; omega⟩

theorem offsetAt_small {oc : Bool} {o : U32} {d : DimElement} {k : Nat} {v : U32} (hk : k < d.dim.toNat)
    (hs : o.toNat + k * d.dimIncrement.toNat < 64) (h : offsetAt oc o d k = .ok v) :
    v.toNat = o.toNat + k * d.dimIncrement.toNat := by
  rw [offsetAt_fits oc o d hk (by omega)] at h
  cases h
  rw [BitVec.toNat_ofNat, Nat.mod_eq_of_lt (by omega)]

theorem field_covers {oc : Bool} {ix : Index} {fuel : Nat} {rp : RegisterPath} {f : Field} {l : List Field}
    (hn : f.info.derivedFrom = none) (h : expandField oc ix fuel rp f = .ok l) (hw : EachInWord f) :
    (∀ g ∈ l, InWord g) ∧ ∀ i, (∃ g ∈ l, Covers g i) ↔ Covers f i := by
  unfold expandField at h
  rw [hn] at h
  simp only [ok_bind] at h
  obtain ⟨evs, _, h⟩ := bind_ok.mp h
  cases f with
  | single i =>
    cases h
    refine ⟨fun g hg => ?_, fun i => ?_⟩
    · cases List.mem_singleton.mp hg; exact hw
    · simp [Covers]
  | array i d =>
    simp only [MaybeArray.mapInfo] at h
    obtain ⟨is, hi, h⟩ := bind_ok.mp h
    cases h
    have hat : ∀ k < d.dim.toNat, ∃ g, is[k]? = some g ∧ g.bitRange.width = i.bitRange.width ∧
        g.bitRange.offset.toNat = i.bitRange.offset.toNat + k * d.dimIncrement.toNat := by
      intro k hk
      have hg := mapM_ok_get hi k
      rw [List.getElem?_range hk] at hg
      cases hik : is[k]? with
      | none => rw [hik] at hg; cases hg
      | some g =>
        rw [hik] at hg
        simp only [Option.map_some, Option.some.injEq] at hg
        unfold FieldInfo.expandAt at hg
        simp only [bind_ok] at hg
        obtain ⟨_, _, _, _, o, ho, hg⟩ := hg
        cases hg
        exact ⟨_, rfl, rfl, offsetAt_small hk (hw.2 k hk) ho⟩
    have hlen : is.length = d.dim.toNat := by rw [mapM_ok_length hi, List.length_range]
    have hmem : ∀ g ∈ is, ∃ k < d.dim.toNat, g.bitRange.width = i.bitRange.width ∧
        g.bitRange.offset.toNat = i.bitRange.offset.toNat + k * d.dimIncrement.toNat := by
      intro g hg
      obtain ⟨k, hk, rfl⟩ := List.mem_iff_getElem.mp hg
      obtain ⟨g, h1, h2⟩ := hat k (hlen ▸ hk)
      rw [List.getElem?_eq_getElem hk] at h1
      cases h1
      exact ⟨k, hlen ▸ hk, h2⟩
    refine ⟨fun g hg => ?_, fun b => ?_⟩
    · obtain ⟨g', hg', rfl⟩ := List.mem_map.mp hg
      obtain ⟨k, hk, h1, h2⟩ := hmem g' hg'
      exact ⟨h1 ▸ hw.1.1, h1 ▸ hw.1.2.1, h2 ▸ hw.2 k hk⟩
    · constructor
      · rintro ⟨g, hg, hc⟩
        obtain ⟨g', hg', rfl⟩ := List.mem_map.mp hg
        obtain ⟨k, hk, h1, h2⟩ := hmem g' hg'
        refine ⟨k, hk, ?_⟩
        simp only [Covers] at hc
        rw [h1, h2] at hc
        exact hc
      · rintro ⟨k, hk, hc⟩
        obtain ⟨g, h1, h2, h3⟩ := hat k hk
        refine ⟨.single g, List.mem_map.mpr ⟨g, List.mem_of_getElem? h1, rfl⟩, ?_⟩
        simp only [Covers]
        rw [h2, h3]
        exact hc

/-- The fields `gs` are what the fields `fs` expand to. -/
def Grown (oc : Bool) (fs gs : Option (List Field)) : Prop :=
  (fs = none ∧ gs = none) ∨ ∃ ix fuel rp l ls, fs = some l ∧ (∀ f ∈ l, f.info.derivedFrom = none) ∧
    l.mapM (expandField oc ix fuel rp) = .ok ls ∧ gs = some ls.flatten

theorem grown_mask {oc : Bool} (oc' : Bool) {r r' : RegisterInfo} (h : Grown oc r.fields r'.fields)
    (hw : RegisterInWord r) : r'.bitmask oc' = r.bitmask oc' := by
  rcases h with ⟨h1, h2⟩ | ⟨ix, fuel, rp, l, ls, h1, hn, hl, h2⟩
  · unfold RegisterInfo.bitmask RegisterInfo.fieldList
    rw [h1, h2]
  · have hw' := hw l h1
    have key : ∀ f ∈ l, ∀ bs, expandField oc ix fuel rp f = .ok bs →
        (∀ g ∈ bs, InWord g) ∧ ∀ i, (∃ g ∈ bs, Covers g i) ↔ Covers f i :=
      fun f hf bs hb => field_covers (hn f hf) hb (hw' f hf)
    have hin : ∀ fs, r'.fields = some fs → ∀ f ∈ fs, InWord f := by
      intro fs hfs f hf
      rw [h2] at hfs
      cases hfs
      obtain ⟨bs, hbs, hf⟩ := List.mem_flatten.mp hf
      obtain ⟨a, ha, hb⟩ := mapM_ok_mem' hl hbs
      exact (key a ha bs hb).1 f hf
    obtain ⟨m, hm, hb⟩ := C23_register oc' r fun fs hfs f hf => eachInWord_inWord (hw fs hfs f hf)
    obtain ⟨m', hm', hb'⟩ := C23_register oc' r' hin
    rw [hm, hm']
    congr 1
    refine BitVec.eq_of_getLsbD_eq fun i hi => ?_
    rw [Bool.eq_iff_iff, hb i hi, hb' i hi]
    constructor
    · rintro ⟨fs, hfs, f, hf, hc⟩
      rw [h2] at hfs
      cases hfs
      obtain ⟨bs, hbs, hf⟩ := List.mem_flatten.mp hf
      obtain ⟨a, ha, hb⟩ := mapM_ok_mem' hl hbs
      exact ⟨l, h1, a, ha, ((key a ha bs hb).2 i).mp ⟨f, hf, hc⟩⟩
    · rintro ⟨fs, hfs, f, hf, hc⟩
      rw [h1] at hfs
      cases hfs
      obtain ⟨bs, hbs, hb⟩ := mapM_ok_mem hl hf
      obtain ⟨g, hg, hc⟩ := ((key f hf bs hb).2 i).mpr hc
      exact ⟨_, h2, g, List.mem_flatten.mpr ⟨bs, hbs, hg⟩, hc⟩

/-! ## The registers in order -/

theorem listedAll_eq {α : Type} (w : RegisterInfo → α) (cs : List RegisterCluster) :
    listedAll w cs = (cs.map (listed w)).flatten := by
  induction cs with
  | nil => rfl
  | cons c cs ih => rw [listedAll, ih, List.map_cons, List.flatten_cons]

theorem listedAll_append {α : Type} (w : RegisterInfo → α) (a b : List RegisterCluster) :
    listedAll w (a ++ b) = listedAll w a ++ listedAll w b := by
  rw [listedAll_eq, listedAll_eq, listedAll_eq, List.map_append, List.flatten_append]

theorem listedAll_flatten {α : Type} {w : RegisterInfo → α} {β : Type} {v : β → List α} {f : β → M (List RegisterCluster)}
    {l : List β} {ls : List (List RegisterCluster)} (h : l.mapM f = .ok ls)
    (hf : ∀ a ∈ l, ∀ bs, f a = .ok bs → listedAll w bs = v a) : listedAll w ls.flatten = (l.map v).flatten := by
  induction l generalizing ls with
  | nil => cases h; rfl
  | cons a l ih =>
    rw [mapM_cons] at h
    obtain ⟨b, hb, h⟩ := bind_ok.mp h
    obtain ⟨bs, hbs, h⟩ := bind_ok.mp h
    cases h
    rw [List.flatten_cons, listedAll_append, hf a (by simp) b hb, ih hbs fun a ha => hf a (by simp [ha]), List.map_cons,
      List.flatten_cons]

theorem map_const {α β : Type} {w : α → β} {b : β} {l : List α} (h : ∀ a ∈ l, w a = b) :
    l.map w = List.replicate l.length b := by
  induction l with
  | nil => rfl
  | cons a l ih =>
    rw [List.map_cons, h a (by simp), ih fun a ha => h a (by simp [ha])]
    rfl

theorem singles_listed {α : Type} (w : RegisterInfo → α) (is : List RegisterInfo) :
    listedAll w (is.map fun i => .register (.single i)) = is.map w := by
  induction is with
  | nil => rfl
  | cons i is ih => rw [List.map_cons, listedAll, ih]; rfl

section
variable {α : Type} {oc : Bool} {P : RegisterInfo → Prop} {w : RegisterInfo → α}

theorem register_listed (hw : ∀ i i', i'.fields = i.fields → w i' = w i)
    (hs : ∀ r r', P r → Grown oc r.fields r'.fields → w r' = w r) {ix : Index} {fuel : Nat} {path : BlockPath}
    {r : Register} {l : List RegisterCluster} (hn : RegisterNoRef r) (hp : P r.info)
    (h : expandRegisterArray oc ix fuel path r = .ok l) :
    listedAll w l = List.replicate (copies r.dim?) (w r.info) := by
  unfold expandRegisterArray at h
  rw [hn.1] at h
  simp only [ok_bind] at h
  obtain ⟨fs, hfs, h⟩ := bind_ok.mp h
  have hf : Grown oc r.info.fields fs := by
    cases hr : r.info.fields with
    | none => rw [hr] at hfs; cases hfs; exact .inl ⟨rfl, rfl⟩
    | some gs =>
      rw [hr] at hfs
      obtain ⟨ls, h1, h2⟩ := bind_ok.mp hfs
      cases h2
      exact .inr ⟨_, _, _, _, _, rfl, fun f hf => (hn.2 gs hr f hf).1, h1, rfl⟩
  have hwr : w { r.info with fields := fs } = w r.info := hs r.info _ hp hf
  cases r with
  | single i =>
    cases h
    exact congrArg (fun x => [x]) hwr
  | array i d =>
    simp only [MaybeArray.mapInfo] at h
    obtain ⟨is, hi, h⟩ := bind_ok.mp h
    cases h
    rw [singles_listed, map_const (b := w i), mapM_ok_length hi, List.length_range]
    · rfl
    · intro b hb
      obtain ⟨k, _, hk⟩ := mapM_ok_mem' hi hb
      unfold RegisterInfo.expandAt at hk
      simp only [bind_ok] at hk
      obtain ⟨_, _, _, _, _, _, _, _, hk⟩ := hk
      cases hk
      refine (hw { i with fields := fs } _ ?_).trans hwr
      rfl

theorem cluster_listed (hw : ∀ i i', i'.fields = i.fields → w i' = w i) {c : ClusterInfo} {l : List RegisterCluster}
    (h : expandCluster oc c = .ok l) : listedAll w l = listedAll w c.children := by
  unfold expandCluster at h
  generalize c.children = cs at h
  induction cs generalizing l with
  | nil => cases h; rfl
  | cons a cs ih =>
    rw [mapM_cons] at h
    obtain ⟨b, hb, h⟩ := bind_ok.mp h
    obtain ⟨bs, hbs, h⟩ := bind_ok.mp h
    cases h
    rw [listedAll, listedAll, ih hbs]
    congr 1
    cases a with
    | cluster h d cs => cases hb
    | register r =>
      obtain ⟨off, _, hb⟩ := bind_ok.mp hb
      cases hb
      cases r with
      | single i => exact congrArg (fun x => [x]) (hw i _ rfl)
      | array i d => exact congrArg (List.replicate (copies (some d))) (hw i _ rfl)

theorem flatten_listed (hw : ∀ i i', i'.fields = i.fields → w i' = w i) {c : Cluster} {l : List RegisterCluster}
    (h : flattenCluster oc c = .ok l) :
    listedAll w l = (List.replicate (copies c.dim?) (listedAll w c.info.children)).flatten := by
  cases c with
  | single i => rw [cluster_listed hw h]; exact (List.append_nil _).symm
  | array i d =>
    unfold flattenCluster at h
    obtain ⟨ls, h1, h2⟩ := bind_ok.mp h
    cases h2
    rw [listedAll_flatten (v := fun _ => listedAll w i.children) h1, map_const (b := listedAll w i.children) fun _ _ => rfl,
      List.length_range]
    · rfl
    · intro k _ bs hk
      obtain ⟨ci, hci, hk⟩ := bind_ok.mp hk
      rw [cluster_listed hw hk]
      unfold ClusterInfo.expandAt at hci
      simp only [bind_ok] at hci
      obtain ⟨_, _, _, _, _, _, hci⟩ := hci
      cases hci
      rfl

theorem registersInAll_mem {cs : List RegisterCluster} {c : RegisterCluster} (hc : c ∈ cs) {r : Register}
    (hr : r ∈ registersIn c) : r ∈ registersInAll cs := by
  induction cs with
  | nil => cases hc
  | cons a cs ih =>
    rw [registersInAll, List.mem_append]
    rcases List.mem_cons.mp hc with rfl | hc
    · exact .inl hr
    · exact .inr (ih hc)

theorem rc_listed (hw : ∀ i i', i'.fields = i.fields → w i' = w i)
    (hs : ∀ r r', P r → Grown oc r.fields r'.fields → w r' = w r) {ix : Index} (fuel : Nat) {path : BlockPath}
    {c : RegisterCluster} {l : List RegisterCluster} (hn : RcNoRef c) (hp : ∀ r ∈ registersIn c, P r.info)
    (h : expandRC oc ix fuel path c = .ok l) : listedAll w l = listed w c := by
  induction fuel generalizing path c l with
  | zero => cases c <;> cases h
  | succ n ih =>
    cases c with
    | register r => exact register_listed hw hs hn (hp r (by simp [registersIn])) h
    | cluster hd d cs =>
      unfold expandRC at h
      rw [hn.1] at h
      simp only [ok_bind] at h
      obtain ⟨ls, h1, h2⟩ := bind_ok.mp h
      have h3 := flatten_listed hw h2
      have hm : ∀ a ∈ cs, ∀ path bs, expandRC oc ix n path a = .ok bs → listedAll w bs = listed w a :=
        fun a ha path bs hb => ih (Count.rcsNoRef_mem hn.2 a ha) (fun r hr => hp r (registersInAll_mem ha hr)) hb
      cases d with
      | none =>
        simp only [MaybeArray.mk', MaybeArray.mapInfo, MaybeArray.info, MaybeArray.dim?] at h1 h3
        rw [h3, listed, listedAll_eq w cs, listedAll_flatten h1 fun a ha bs hb => hm a ha _ bs hb]
      | some d =>
        simp only [MaybeArray.mk', MaybeArray.mapInfo, MaybeArray.info, MaybeArray.dim?] at h1 h3
        rw [h3, listed, listedAll_eq w cs, listedAll_flatten h1 fun a ha bs hb => hm a ha _ bs hb]

theorem peripheral_listed (hw : ∀ i i', i'.fields = i.fields → w i' = w i)
    (hs : ∀ r r', P r → Grown oc r.fields r'.fields → w r' = w r) {ix : Index} {fuel : Nat} {p : Peripheral}
    {l : List Peripheral} (hn : PeripheralNoRef p) (hp : ∀ cs, p.info.registers = some cs → ∀ r ∈ registersInAll cs, P r.info)
    (h : expandPeripheral oc ix fuel p = .ok l) :
    ∀ q ∈ l, listedAll w (q.info.registers.getD []) = listedAll w (p.info.registers.getD []) := by
  unfold expandPeripheral at h
  rw [hn.1] at h
  simp only [ok_bind] at h
  obtain ⟨rs, hrs, h⟩ := bind_ok.mp h
  have hr : listedAll w (rs.getD []) = listedAll w (p.info.registers.getD []) := by
    cases hpr : p.info.registers with
    | none => rw [hpr] at hrs; cases hrs; rfl
    | some cs =>
      rw [hpr] at hrs
      obtain ⟨ls, h1, h2⟩ := bind_ok.mp hrs
      cases h2
      simp only [Option.getD_some]
      rw [listedAll_eq w cs]
      exact listedAll_flatten h1 fun a ha bs hb => rc_listed hw hs fuel (Count.rcsNoRef_mem (hn.2 cs hpr) a ha)
        (fun r hr => hp cs hpr r (registersInAll_mem ha hr)) hb
  intro q hq
  cases p with
  | single i => cases h; cases List.mem_singleton.mp hq; exact hr
  | array i d =>
    simp only [MaybeArray.mapInfo] at h
    obtain ⟨is, hi, h⟩ := bind_ok.mp h
    cases h
    obtain ⟨b, hb, rfl⟩ := List.mem_map.mp hq
    obtain ⟨k, _, hk⟩ := mapM_ok_mem' hi hb
    unfold PeripheralInfo.expandAt at hk
    simp only [bind_ok] at hk
    obtain ⟨_, _, _, _, _, _, _, _, hk⟩ := hk
    cases hk
    exact hr

end

end Masks

open Masks

/-- **C78.** In a device without references, whose fields all begin within 64 bits, the bit masks of the
registers of every expanded peripheral are, in order, those of the registers its description stands for. -/
theorem C78_masks (oc oc' : Bool) (fuel : Nat) (d d' : Device) (hn : DeviceNoRef d)
    (hw : ∀ p ∈ d.peripherals, ∀ cs, p.info.registers = some cs → ∀ r ∈ registersInAll cs, RegisterInWord r.info)
    (h : expand oc fuel d = .ok d') :
    ∃ ls, Pairs (fun p l => l.length = copies p.dim? ∧ ∀ q ∈ l, ∃ is : List RegisterInfo,
        q.info.registers.getD [] = is.map (fun i => .register (.single i)) ∧
        is.map (RegisterInfo.bitmask oc') = listedAll (RegisterInfo.bitmask oc') (p.info.registers.getD []))
      d.peripherals ls ∧ d'.peripherals = ls.flatten := by
  have hflat := (C33_flat oc fuel d d' h).1
  unfold expand at h
  obtain ⟨ix, _, h1⟩ := bind_ok.mp h
  obtain ⟨ls, hls, h2⟩ := bind_ok.mp h1
  clear h h1
  cases h2
  refine ⟨ls, ?_, rfl⟩
  have hflat' : ∀ l ∈ ls, ∀ q ∈ l, FlatPeripheral q := fun l hl q hq => hflat q (List.mem_flatten.mpr ⟨l, hl, hq⟩)
  clear hflat
  unfold DeviceNoRef at hn
  generalize d.peripherals = ps at hn hls hw
  have hm : ∀ i i' : RegisterInfo, i'.fields = i.fields → i'.bitmask oc' = i.bitmask oc' := fun i i' h => by
    unfold RegisterInfo.bitmask RegisterInfo.fieldList; rw [h]
  induction ps generalizing ls with
  | nil => cases hls; exact .nil
  | cons p ps ih =>
    rw [mapM_cons] at hls
    obtain ⟨b, hb, hls⟩ := bind_ok.mp hls
    obtain ⟨bs, hbs, hls⟩ := bind_ok.mp hls
    cases hls
    refine .cons ⟨(Count.peripheral_count Count.steady_one (hn p (by simp)) hb).1.1, fun q hq => ?_⟩
      (ih bs (fun l hl => hflat' l (by simp [hl])) (fun p hp => hn p (by simp [hp])) hbs fun p hp => hw p (by simp [hp]))
    have h1 := peripheral_listed (P := RegisterInWord) (w := RegisterInfo.bitmask oc') hm
      (fun r r' hr hg => grown_mask oc' hg hr) (hn p (by simp)) (hw p (by simp)) hb q hq
    have h2 := hflat' b (by simp) q hq
    rw [← h1]
    have h3 : ∀ l : List RegisterCluster, (∀ r ∈ l, FlatRegister r) →
        ∃ is : List RegisterInfo, l = is.map (fun i => .register (.single i)) := by
      intro l hl
      induction l with
      | nil => exact ⟨[], rfl⟩
      | cons c cs ih =>
        obtain ⟨is, rfl⟩ := ih fun r hr => hl r (by simp [hr])
        have := hl c (by simp)
        cases this with
        | @mk i _ _ => exact ⟨i :: is, rfl⟩
    cases h2 with
    | @mk i _ hr =>
      cases hi : i.registers with
      | none => exact ⟨[], by simp [MaybeArray.info, hi], by simp [MaybeArray.info, hi, listedAll]⟩
      | some l =>
        obtain ⟨is, rfl⟩ := h3 l (hr l hi)
        refine ⟨is, by simp [MaybeArray.info, hi], ?_⟩
        simp only [MaybeArray.info, hi, Option.getD_some, singles_listed]

-- The hypotheses of `C78_masks` can be met.
example : ∃ d', expand true 9 counted = .ok d' ∧ ∀ q ∈ d'.peripherals, ∃ is : List RegisterInfo,
    q.info.registers.getD [] = is.map (fun i => .register (.single i)) ∧
    is.map (RegisterInfo.bitmask true) = (List.replicate 4 (.ok 0x107 :: List.replicate 5 (.ok 0))).flatten := by
  obtain ⟨d', h⟩ := ok_of_isOk (x := expand true 9 counted) (by decide +kernel)
  obtain ⟨ls, h1, h2⟩ := C78_masks true true 9 counted d' counted_noRef (by
    intro p hp cs hcs r hr fs hfs f hf
    simp only [counted, Sample.device, List.mem_singleton] at hp
    subst hp
    cases hcs
    simp only [registersInAll, registersIn, List.append_nil, List.cons_append, List.nil_append, List.mem_cons,
      List.not_mem_nil, or_false] at hr
    rcases hr with rfl | rfl
    · cases hfs
      simp only [List.mem_cons, List.not_mem_nil, or_false] at hf
      rcases hf with rfl | rfl
      · unfold EachInWord; decide
      · unfold EachInWord; decide
    · cases hfs) h
  refine ⟨d', h, fun q hq => ?_⟩
  rw [h2] at hq
  unfold counted Sample.device at h1
  cases h1 with
  | cons h3 h4 =>
    cases h4
    simp only [List.flatten_cons, List.flatten_nil, List.append_nil] at hq
    obtain ⟨is, h5, h6⟩ := h3.2 q hq
    exact ⟨is, h5, h6.trans (by decide +kernel)⟩

/-- A register with two 1-bit fields, at bits 40 and 80: the second does not exist in 64 bits. -/
def beyond : Device :=
  Sample.device [.single (Sample.peripheralInfo "P" 0x1000 none (some
    [.register (.single (Sample.registerInfo "R" 0 none (some
      [.array (Sample.fieldInfo "F%s" 40) (Sample.dim 2 40)])))]))]

/-- **C78 (witness).** The condition is needed: the mask of a field array drops the bits beyond 64, but once
the array is expanded the mask of the register panics. -/
theorem C78_beyond :
    (beyond.peripherals.map fun p => listedAll (RegisterInfo.bitmask true) (p.info.registers.getD [])) =
      [[.ok (1#64 <<< 40)]] ∧
    ∃ d', expand true 9 beyond = .ok d' ∧
      (d'.peripherals.map fun p => listedAll (RegisterInfo.bitmask true) (p.info.registers.getD [])) =
        [[.error (.panic .overflow)]] := by
  refine ⟨by decide +kernel, ?_⟩
  have h : (expand true 9 beyond).map (fun d' => d'.peripherals.map fun p =>
      listedAll (RegisterInfo.bitmask true) (p.info.registers.getD [])) = .ok [[.error (.panic .overflow)]] := by
    decide +kernel
  cases h1 : expand true 9 beyond with
  | error e => rw [h1] at h; cases h
  | ok d' => rw [h1] at h; exact ⟨d', rfl, by injection h⟩

end Svd
