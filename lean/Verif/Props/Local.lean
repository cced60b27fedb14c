import Verif.Spec.Sample
import Verif.Props.Full
import Verif.Spec.Local

/-!
# C70: peripherals are expanded independently of the other peripherals
-/

namespace Svd

open Spec

set_option linter.unusedSectionVars false

namespace Local

/-! ## References -/

theorem dotted_head (c c' : Str) (cs : List Str) : dotted (c :: c' :: cs) = c ++ '.' :: dotted (c' :: cs) := by
  simp [dotted, List.intercalate, List.intersperse]

theorem dotted_count (v : List Str) (a b c : Str) : 2 ≤ (dotted (v ++ [a, b, c])).count '.' := by
  induction v with
  | nil =>
    show 2 ≤ (dotted [a, b, c]).count '.'
    rw [dotted_head, dotted_head]
    simp only [List.count_append, List.count_cons_self]
    omega
  | cons x v ih =>
    obtain ⟨y, l, hl⟩ : ∃ y l, v ++ [a, b, c] = y :: l := by
      cases v with
      | nil => exact ⟨_, _, rfl⟩
      | cons y v => exact ⟨_, _, rfl⟩
    rw [List.cons_append, hl, dotted_head, ← hl, List.count_append, List.count_cons_self]
    omega

section
variable {N : Str → Prop}

theorem blockRef_stays {path b : BlockPath} {s n : Str} (h : BlockRef path s b n) (hs : PathStays N s)
    (hp : N path.peripheral) : N b.peripheral := by
  rcases h with ⟨_, rfl, _⟩ | ⟨h1, h2⟩
  · exact hp
  · obtain ⟨y, l, hl⟩ : ∃ y l, b.path ++ [n] = y :: l := by
      cases b.path with
      | nil => exact ⟨_, _, rfl⟩
      | cons y v => exact ⟨_, _, rfl⟩
    refine hs b.peripheral (dotted (b.path ++ [n])) ?_ (h2 _ (by simp [blockComponents]))
    rw [h1, blockComponents, List.cons_append, hl, dotted_head]

theorem fieldRef_stays {path b : RegisterPath} {s n : Str} (h : FieldRef path s b n) (hs : PathStays N s)
    (hp : N path.block.peripheral) : N b.block.peripheral := by
  rcases h with ⟨_, rfl, _⟩ | ⟨h1, h2⟩
  · exact hp
  · obtain ⟨y, l, hl⟩ : ∃ y l, b.block.path ++ [b.name] ++ [n] = y :: l := by
      cases b.block.path with
      | nil => exact ⟨_, _, rfl⟩
      | cons y v => exact ⟨_, _, rfl⟩
    refine hs b.block.peripheral (dotted (b.block.path ++ [b.name] ++ [n])) ?_
      (h2 _ (by simp [registerComponents, blockComponents]))
    rw [h1, registerComponents, blockComponents, List.cons_append, List.cons_append, hl, dotted_head]

theorem enumRef_stays {path q : FieldPath} {s n : Str} (h : EnumRef path s q n) (hs : EnumPathStays N s)
    (hp : N path.register.block.peripheral) : N q.register.block.peripheral := by
  obtain ⟨v, h1, h2, h3⟩ := h
  rcases h3 with ⟨h3, _⟩ | ⟨h3, _⟩ | rfl
  · rw [h3]; exact hp
  · rw [h3]; exact hp
  · have he : fieldComponents q ++ [n] =
        q.register.block.peripheral :: (q.register.block.path ++ [q.register.name, q.name, n]) := by
      simp [fieldComponents, registerComponents, blockComponents]
    rw [he] at h1 h2
    refine hs _ (dotted (q.register.block.path ++ [q.register.name, q.name, n])) ?_ (h2 _ (by simp))
      (dotted_count ..)
    obtain ⟨y, l, hl⟩ : ∃ y l, q.register.block.path ++ [q.register.name, q.name, n] = y :: l := by
      cases q.register.block.path with
      | nil => exact ⟨_, _, rfl⟩
      | cons y v => exact ⟨_, _, rfl⟩
    rw [h1, hl, dotted_head]

theorem rcsStay_iff {l : List RegisterCluster} : RcsStay N l ↔ ∀ c ∈ l, RcStays N c := by
  induction l with
  | nil => simp [RcsStay]
  | cons c l ih => simp [RcsStay, ih]

end

/-! ## Expansion depends on what is found -/

/-- Everything found in `d` under the names `N` is also found in `d'`, in the registers of `d` no other
enumerated values are found, and no reference of these elements leaves `N`. -/
structure Finds (N : Str → Prop) (d d' : Device) : Prop where
  peripherals : ∀ k a, N k.peripheral → LastAt (allPeripherals namesOf d) k a →
    LastAt (allPeripherals namesOf d') k a
  clusters : ∀ k a, N k.peripheral → LastAt (allClusters namesOf d) k a → LastAt (allClusters namesOf d') k a
  registers : ∀ k a, N k.block.peripheral → LastAt (allRegisterPaths namesOf d) k a →
    LastAt (allRegisterPaths namesOf d') k a
  fields : ∀ k a, N k.register.block.peripheral → LastAt (allFields namesOf d) k a →
    LastAt (allFields namesOf d') k a
  enums : ∀ k a, N k.field.register.block.peripheral → LastAt (allEnums namesOf d) k a →
    LastAt (allEnums namesOf d') k a
  noMore : ∀ q r, N q.block.peripheral → LastAt (allRegisterPaths namesOf d) q r → ∀ f s x,
    LastAt (allEnums namesOf d') ⟨⟨q, f⟩, s⟩ x → LastAt (allEnums namesOf d) ⟨⟨q, f⟩, s⟩ x
  closed : ∀ p ∈ d.peripherals, ∀ n, Calls p n → N n → PeripheralStays N p

theorem inherits_sim {κ α π : Type} {base base' : κ → Str → κ → π → α → Prop} {ref : α → Option Str}
    {from' : α → α → α → Prop} {childless : α → Prop} {K : κ → Prop} {R : Str → Prop} {H : π → Prop}
    {C : α → Prop}
    (hb : ∀ k s k' q o, K k → R s → base k s k' q o →
      base' k s k' q o ∧ K k' ∧ H q ∧ (∀ t, ref o = some t → R t) ∧ C o)
    (hc : ∀ a o b, from' a o b → C a → C o → C b) {k : κ} {s : Str} {a b : α} {h : Option π}
    (hi : Inherits base ref from' childless k s a b h) (hk : K k) (hs : R s) (ha : C a) :
    Inherits base' ref from' childless k s a b h ∧ C b ∧ ∀ q, h = some q → H q := by
  induction hi with
  | last h1 h2 h3 h4 =>
    obtain ⟨g1, _, g3, _, g5⟩ := hb _ _ _ _ _ hk hs h1
    refine ⟨.last g1 h2 h3 h4, hc _ _ _ h3 ha g5, ?_⟩
    intro q hq
    injection hq with hq
    subst hq
    exact g3
  | lastOwn h1 h2 h3 h4 =>
    obtain ⟨g1, _, _, _, g5⟩ := hb _ _ _ _ _ hk hs h1
    exact ⟨.lastOwn g1 h2 h3 h4, hc _ _ _ h3 ha g5, fun q hq => by cases hq⟩
  | next h1 h2 h3 _ ih =>
    obtain ⟨g1, g2, _, g4, g5⟩ := hb _ _ _ _ _ hk hs h1
    obtain ⟨i1, i2, i3⟩ := ih g2 (g4 _ h2) (hc _ _ _ h3 ha g5)
    exact ⟨.next g1 h2 h3 i1, i2, i3⟩

theorem chain_sim {κ α : Type} {link link' : κ → Str → κ → α → Prop} {ref : α → Option Str}
    {K : κ → Prop} {R : Str → Prop}
    (hl : ∀ k s k' a, K k → R s → link k s k' a → link' k s k' a ∧ K k' ∧ ∀ t, ref a = some t → R t)
    {k : κ} {s : Str} {as : List α} (hi : Chain link ref k s as) (hk : K k) (hs : R s) :
    Chain link' ref k s as := by
  induction hi with
  | last h1 h2 => exact .last (hl _ _ _ _ hk hs h1).1 h2
  | next h1 h2 _ ih =>
    obtain ⟨g1, g2, g3⟩ := hl _ _ _ _ hk hs h1
    exact .next g1 h2 (ih g2 (g3 _ h2))

theorem pairs_mono {α β : Type} {R S : α → β → Prop} {l : List α} {m : List β}
    (h : ∀ a ∈ l, ∀ b, R a b → S a b) (hp : Pairs R l m) : Pairs S l m := by
  induction hp with
  | nil => exact .nil
  | cons h1 _ ih =>
    exact .cons (h _ List.mem_cons_self _ h1) (ih fun a ha => h a (List.mem_cons_of_mem _ ha))

theorem inh_keeps {α : Type} {s o t : Option α} {P : α → Prop} (h : Inh s o t) (hs : ∀ x, s = some x → P x)
    (ho : ∀ x, o = some x → P x) : ∀ x, t = some x → P x := by
  intro x hx
  cases hr : s with
  | none => exact ho x ((h.2 hr).symm.trans hx)
  | some m =>
    have := (h.1 m hr).symm.trans hx
    injection this with this
    subst this
    exact hs _ hr

theorem inhList_keeps {α : Type} {s o t : List α} {P : List α → Prop} (h : InhList s o t) (hs : P s)
    (ho : P o) : P t := by
  by_cases hr : s = []
  · rw [h.2 hr]; exact ho
  · rw [h.1 hr]; exact hs

section
variable {N : Str → Prop} {d d' : Device} (hf : Finds N d d')
include hf

/-! ### The elements found -/

theorem block_stays {b : BlockPath} {cs : List RegisterCluster} (h : BlockAt d b cs) (hb : N b.peripheral) :
    RcsStay N cs := by
  induction h with
  | peripheral h hl => exact (hf.closed _ h.1 _ h.2.2 hb).2 _ hl
  | cluster _ hm _ ih => exact (rcsStay_iff.mp (ih hb) _ hm).2

theorem cluster_stays {q : BlockPath} {c : Cluster} (h : LastAt (allClusters namesOf d) q c)
    (hq : N q.peripheral) : (∀ s, c.info.derivedFrom = some s → PathStays N s) ∧ RcsStay N c.info.children := by
  obtain ⟨b, n, cs, h1, h2, _, rfl⟩ := mem_allClusters.mp (lastAt_mem h)
  exact rcsStay_iff.mp (block_stays hf h1 hq) _ h2

theorem register_stays {q : RegisterPath} {r : Register} (h : LastAt (allRegisterPaths namesOf d) q r)
    (hq : N q.block.peripheral) : RegisterStays N r := by
  obtain ⟨cs, h1, h2, _⟩ := mem_allRegisterPaths.mp (lastAt_mem h)
  exact rcsStay_iff.mp (block_stays hf h1 hq) _ h2

theorem field_stays {q : FieldPath} {f : Field} (h : LastAt (allFields namesOf d) q f)
    (hq : N q.register.block.peripheral) : FieldStays N f := by
  obtain ⟨r, l, ⟨cs, h1, h2, _⟩, h3, h4, _⟩ := mem_allFields.mp (lastAt_mem h)
  exact (rcsStay_iff.mp (block_stays hf h1 hq) _ h2).2 l h3 f h4

theorem enums_stay {q : EnumPath} {e : EnumeratedValues} (h : LastAt (allEnums namesOf d) q e)
    (hq : N q.field.register.block.peripheral) : EnumsStay N e := by
  obtain ⟨f, ⟨r, l, ⟨cs, h1, h2, _⟩, h3, h4, _⟩, h5, _⟩ := mem_allEnums.mp (lastAt_mem h)
  exact ((rcsStay_iff.mp (block_stays hf h1 hq) _ h2).2 l h3 f h4).2 e h5

/-! ### Resolving -/

theorem peripheralResolved {p q : Peripheral} {home : BlockPath}
    (h : PeripheralResolved namesOf d p q home) (hn : N p.info.name) (hp : PeripheralStays N p) :
    PeripheralResolved namesOf d' p q home ∧ (∀ l, q.info.registers = some l → RcsStay N l) ∧
      N home.peripheral := by
  cases h with
  | own h => exact ⟨.own h, hp.2, hn⟩
  | @derived _ s home h1 h2 =>
    obtain ⟨g1, g2, g3⟩ := inherits_sim (base := PeripheralBase namesOf d p.info.name)
      (base' := PeripheralBase namesOf d' p.info.name) (K := fun _ => True) (R := N)
      (H := fun b => N b.peripheral) (C := fun p => ∀ l, p.info.registers = some l → RcsStay N l)
      (by
        rintro _ s _ q o _ hs ⟨⟨h3, h4⟩, rfl⟩
        have := mem_allPeripherals.mp (lastAt_mem h4)
        have := hf.closed _ this.1 _ this.2.2 hs
        exact ⟨⟨⟨h3, hf.peripherals _ _ hs h4⟩, rfl⟩, trivial, hs, this.1, this.2⟩)
      (fun a o b h ha ho => inh_keeps h.1.registers ha ho) h2 trivial (hp.1 _ h1)
      (by rw [mapInfo_info]; exact hp.2)
    refine ⟨.derived h1 g1, g2, ?_⟩
    cases home with
    | none => exact hn
    | some q => exact g3 q rfl

theorem clusterResolved {b : BlockPath} {p q : Cluster} {home : BlockPath}
    (h : ClusterResolved namesOf d b p q home) (hb : N b.peripheral)
    (hp : ∀ s, p.info.derivedFrom = some s → PathStays N s) (hc : RcsStay N p.info.children) :
    ClusterResolved namesOf d' b p q home ∧ RcsStay N q.info.children ∧ N home.peripheral := by
  cases h with
  | own h => exact ⟨.own h, hc, hb⟩
  | @derived _ s home h1 h2 =>
    obtain ⟨g1, g2, g3⟩ := inherits_sim (base := ClusterBase namesOf d p.info.name)
      (base' := ClusterBase namesOf d' p.info.name) (K := fun b => N b.peripheral) (R := PathStays N)
      (H := fun b => N b.peripheral) (C := fun p => RcsStay N p.info.children)
      (by
        rintro k s k' q o hk hs ⟨n, h3, h4, rfl, h6⟩
        have hk' := blockRef_stays h3 hs hk
        have := cluster_stays hf h6 hk'
        exact ⟨⟨n, h3, h4, rfl, hf.clusters _ _ hk' h6⟩, hk', hk', this.1, this.2⟩)
      (fun a o b h ha ho => inhList_keeps h.1.children ha ho) h2 hb (hp _ h1)
      (by rw [mapInfo_info]; exact hc)
    refine ⟨.derived h1 g1, g2, ?_⟩
    cases home with
    | none => exact hb
    | some q => exact g3 q rfl

theorem registerResolved {b : BlockPath} {p q : Register} {home : RegisterPath}
    (h : RegisterResolved namesOf d b p q home) (hb : N b.peripheral) (hp : RegisterStays N p) :
    RegisterResolved namesOf d' b p q home ∧
      (∀ l, q.info.fields = some l → ∀ f ∈ l, FieldStays N f) ∧ N home.block.peripheral := by
  cases h with
  | own h => exact ⟨.own h, hp.2, hb⟩
  | @derived _ s home h1 h2 =>
    obtain ⟨g1, g2, g3⟩ := inherits_sim (base := RegisterBase namesOf d p.info.name)
      (base' := RegisterBase namesOf d' p.info.name) (K := fun b => N b.peripheral) (R := PathStays N)
      (H := fun b => N b.block.peripheral)
      (C := fun p => ∀ l, p.info.fields = some l → ∀ f ∈ l, FieldStays N f)
      (by
        rintro k s k' q o hk hs ⟨n, h3, h4, rfl, h6⟩
        have hk' := blockRef_stays h3 hs hk
        have := register_stays hf h6 hk'
        exact ⟨⟨n, h3, h4, rfl, hf.registers _ _ hk' h6⟩, hk', hk', this.1, this.2⟩)
      (fun a o b h ha ho => inh_keeps h.1.fields ha ho) h2 hb (hp.1 _ h1)
      (by rw [mapInfo_info]; exact hp.2)
    refine ⟨.derived h1 g1, g2, ?_⟩
    cases home with
    | none => exact hb
    | some q => exact g3 q rfl

theorem fieldResolved {b : RegisterPath} {p q : Field} {home : FieldPath}
    (h : FieldResolved namesOf d b p q home) (hb : N b.block.peripheral) (hp : FieldStays N p) :
    FieldResolved namesOf d' b p q home ∧ (∀ e ∈ q.info.enumeratedValues, EnumsStay N e) ∧
      N home.register.block.peripheral := by
  cases h with
  | own h => exact ⟨.own h, hp.2, hb⟩
  | @derived _ s home h1 h2 =>
    obtain ⟨g1, g2, g3⟩ := inherits_sim (base := FieldBase namesOf d p.info.name)
      (base' := FieldBase namesOf d' p.info.name) (K := fun b => N b.block.peripheral) (R := PathStays N)
      (H := fun b => N b.register.block.peripheral)
      (C := fun p => ∀ e ∈ p.info.enumeratedValues, EnumsStay N e)
      (by
        rintro k s k' q o hk hs ⟨n, h3, h4, rfl, h6⟩
        have hk' := fieldRef_stays h3 hs hk
        have := field_stays hf h6 hk'
        exact ⟨⟨n, h3, h4, rfl, hf.fields _ _ hk' h6⟩, hk', hk', this.1, this.2⟩)
      (fun a o b h ha ho => inhList_keeps (P := fun l => ∀ e ∈ l, EnumsStay N e) h.1.enumeratedValues ha ho)
      h2 hb (hp.1 _ h1) (by rw [mapInfo_info]; exact hp.2)
    refine ⟨.derived h1 g1, g2, ?_⟩
    cases home with
    | none => exact hb
    | some q => exact g3 q rfl

theorem enumsResolved {b : FieldPath} {p q : EnumeratedValues} (h : EnumsResolved namesOf d b p q)
    (hb : N b.register.block.peripheral) (hp : EnumsStay N p) : EnumsResolved namesOf d' b p q := by
  cases h with
  | own h => exact .own h
  | derived h1 h2 h3 =>
    refine .derived h1 (chain_sim
      (link := EnumLink (allRegisterPaths namesOf d) (allEnums namesOf d) p.name)
      (K := fun b => N b.register.block.peripheral) (R := EnumPathStays N) ?_ h2 hb (hp _ h1)) h3
    rintro path s q e hk hs ⟨hself, h⟩
    rcases h with ⟨h4, r, fs, pre, f, post, h5, h6, h7, rfl, h9, h10⟩ | ⟨n, h4, h5, h6⟩
    · exact ⟨⟨hself, .inl ⟨h4, r, fs, pre, f, post, hf.registers _ _ hk h5, h6, h7, rfl, hf.enums _ _ hk h9,
        fun g hg ⟨x, hx⟩ => h10 g hg ⟨x, hf.noMore _ _ hk h5 _ _ _ hx⟩⟩⟩, hk, enums_stay hf h9 hk⟩
    · have hk' := enumRef_stays h4 hs hk
      exact ⟨⟨hself, .inr ⟨n, h4, h5, hf.enums _ _ hk' h6⟩⟩, hk', enums_stay hf h6 hk'⟩

/-! ### Expanding -/

theorem fieldFull {b : RegisterPath} {f : Field} {l : List Field} (h : FieldFull namesOf d b f l)
    (hb : N b.block.peripheral) (hp : FieldStays N f) : FieldFull namesOf d' b f l := by
  obtain ⟨f', home, evs, h1, h2, h3⟩ := h
  obtain ⟨g1, g2, g3⟩ := fieldResolved hf h1 hb hp
  exact ⟨f', home, evs, g1, pairs_mono (fun e he _ h => enumsResolved hf h g3 (g2 e he)) h2, h3⟩

theorem fieldsFull {b : RegisterPath} {o o' : Option (List Field)} (h : FieldsFull namesOf d b o o')
    (hb : N b.block.peripheral) (hp : ∀ l, o = some l → ∀ f ∈ l, FieldStays N f) :
    FieldsFull namesOf d' b o o' := by
  cases h with
  | none => exact .none
  | some h => exact .some (pairs_mono (fun f hm _ h => fieldFull hf h hb (hp _ rfl f hm)) h)

theorem registerFull {b : BlockPath} {r : Register} {l : List RegisterInfo}
    (h : RegisterFull namesOf d b r l) (hb : N b.peripheral) (hp : RegisterStays N r) :
    RegisterFull namesOf d' b r l := by
  obtain ⟨r', home, fs, h1, h2, h3⟩ := h
  obtain ⟨g1, g2, g3⟩ := registerResolved hf h1 hb hp
  exact ⟨r', home, fs, g1, fieldsFull hf h2 g3 g2, h3⟩

mutual
theorem rcFull {b : BlockPath} {c : RegisterCluster} {l : List RegisterInfo} :
    RcFull namesOf d b c l → N b.peripheral → RcStays N c → RcFull namesOf d' b c l
  | .register h, hb, hp => .register (registerFull hf h hb hp)
  | .cluster (h := hd) (cs := cs) (dim := dim) h1 h2 h3, hb, hp => by
    have hi : (MaybeArray.mk' (⟨hd, cs⟩ : ClusterInfo) dim).info = ⟨hd, cs⟩ := by
      cases dim <;> rfl
    obtain ⟨g1, g2, g3⟩ := clusterResolved hf h1 hb (by rw [hi]; exact hp.1) (by rw [hi]; exact hp.2)
    exact .cluster g1 (rcsFull h2 g3 g2) h3
theorem rcsFull {b : BlockPath} {cs : List RegisterCluster} {l : List RegisterInfo} :
    RcsFull namesOf d b cs l → N b.peripheral → RcsStay N cs → RcsFull namesOf d' b cs l
  | .nil, _, _ => .nil
  | .cons h1 h2, hb, hp => .cons (rcFull h1 hb hp.1) (rcsFull h2 hb hp.2)
end

theorem peripheralFull {p : Peripheral} {l : List Peripheral} (h : PeripheralFull namesOf d p l)
    (hn : N p.info.name) (hp : PeripheralStays N p) : PeripheralFull namesOf d' p l := by
  obtain ⟨p', home, rs, h1, h2, h3⟩ := h
  obtain ⟨g1, g2, g3⟩ := peripheralResolved hf h1 hn hp
  refine ⟨p', home, rs, g1, ?_, h3⟩
  revert h2 g2
  generalize p'.info.registers = o
  intro h2 g2
  cases h2 with
  | none => exact .none
  | some h => exact .some (rcsFull hf h g3 (g2 _ rfl))

end

/-! ## What is found depends on the peripherals called by a name -/

theorem lastAt_getLast {κ α : Type} [DecidableEq κ] {l : List (κ × α)} {k : κ} {a : α} :
    LastAt l k a ↔ (l.filter fun x => x.1 = k).getLast? = some (k, a) := by
  constructor
  · rintro ⟨pre, post, rfl, h⟩
    have : (post.filter fun x => x.1 = k) = [] := by
      rw [List.filter_eq_nil_iff]
      intro x hx
      simpa using h x hx
    simp [this]
  · intro h
    have hm : (k, a) ∈ l := (List.mem_filter.mp (List.mem_of_getLast? h)).1
    obtain ⟨b, hb⟩ := lastAt_exists hm
    have := hb
    obtain ⟨pre, post, rfl, hp⟩ := hb
    have hn : (post.filter fun x => x.1 = k) = [] := by
      rw [List.filter_eq_nil_iff]
      intro x hx
      simpa using hp x hx
    simp [hn] at h
    rw [← h]
    exact this

theorem lastAt_restrict {κ α β : Type} [DecidableEq κ] {g : β → List (κ × α)} {k : κ} {keep : β → Bool}
    {l : List β} (h : ∀ p ∈ l, ∀ x ∈ g p, x.1 = k → keep p = true) {a : α} :
    LastAt (l.flatMap g) k a ↔ LastAt ((l.filter keep).flatMap g) k a := by
  rw [lastAt_getLast, lastAt_getLast]
  have : ((l.flatMap g).filter fun x => x.1 = k) = (((l.filter keep).flatMap g).filter fun x => x.1 = k) := by
    induction l with
    | nil => rfl
    | cons p l ih =>
      have ih := ih fun q hq => h q (List.mem_cons_of_mem _ hq)
      by_cases hk : keep p = true
      · rw [List.filter_cons_of_pos hk, List.flatMap_cons, List.flatMap_cons, List.filter_append,
          List.filter_append, ih]
      · rw [List.filter_cons_of_neg hk, List.flatMap_cons, List.filter_append, ih]
        have : ((g p).filter fun x => x.1 = k) = [] := by
          rw [List.filter_eq_nil_iff]
          intro x hx he
          exact hk (h p List.mem_cons_self x hx (by simpa using he))
        rw [this, List.nil_append]
  rw [this]

theorem lastAt_called {κ α : Type} [DecidableEq κ] {g : Peripheral → List (κ × α)} {per : κ → Str}
    (hg : ∀ p, ∀ x ∈ g p, Calls p (per x.1)) {d : Device} {k : κ} {a : α} :
    LastAt (d.peripherals.flatMap g) k a ↔ LastAt ((called d (per k)).flatMap g) k a := by
  classical
  refine lastAt_restrict fun p _ x hx he => ?_
  rw [decide_eq_true_iff, ← he]
  exact hg p x hx

theorem lastAt_calls {κ α : Type} {g : Peripheral → List (κ × α)} {per : κ → Str}
    (hg : ∀ p, ∀ x ∈ g p, Calls p (per x.1)) {d : Device} {k : κ} {a : α}
    (h : LastAt (d.peripherals.flatMap g) k a) : ∃ p ∈ d.peripherals, Calls p (per k) := by
  obtain ⟨p, hp, hx⟩ := List.mem_flatMap.mp (lastAt_mem h)
  exact ⟨p, hp, hg p _ hx⟩

theorem blockAt_calls {d : Device} {b : BlockPath} {cs : List RegisterCluster} (h : BlockAt d b cs) :
    ∃ p ∈ d.peripherals, Calls p b.peripheral := by
  induction h with
  | peripheral h _ => exact ⟨_, h.1, h.2.2⟩
  | cluster _ _ _ ih => exact ih

/-- The elements of one peripheral. -/
def alone (d : Device) (p : Peripheral) : Device := { d with peripherals := [p] }

theorem alone_calls {d : Device} {p : Peripheral} {n : Str} (h : ∃ q ∈ (alone d p).peripherals, Calls q n) :
    Calls p n := by
  obtain ⟨q, hq, h⟩ := h
  rw [List.mem_singleton.mp hq] at h
  exact h

theorem peripherals_split (d : Device) : allPeripherals namesOf d =
    d.peripherals.flatMap fun p => allPeripherals namesOf (alone d p) := by
  simp [allPeripherals, alone]

theorem clusters_split (d : Device) : allClusters namesOf d =
    d.peripherals.flatMap fun p => allClusters namesOf (alone d p) := by
  simp [allClusters, alone]

theorem registers_split (d : Device) : allRegisterPaths namesOf d =
    d.peripherals.flatMap fun p => allRegisterPaths namesOf (alone d p) := by
  simp [allRegisterPaths, alone]

theorem fields_split (d : Device) : allFields namesOf d =
    d.peripherals.flatMap fun p => allFields namesOf (alone d p) := by
  unfold allFields
  rw [registers_split, List.flatMap_assoc]

theorem enums_split (d : Device) : allEnums namesOf d =
    d.peripherals.flatMap fun p => allEnums namesOf (alone d p) := by
  unfold allEnums
  rw [fields_split, List.flatMap_assoc]

theorem kept {κ α : Type} [DecidableEq κ] {all : Device → List (κ × α)} {per : κ → Str} {d d' : Device}
    (hs : ∀ d, all d = d.peripherals.flatMap fun p => all (alone d p))
    (ha : ∀ p, all (alone d p) = all (alone d' p))
    (hc : ∀ d p, ∀ x ∈ all (alone d p), Calls p (per x.1)) {k : κ} (hk : called d' (per k) = called d (per k))
    {a : α} : LastAt (all d) k a ↔ LastAt (all d') k a := by
  rw [hs d, hs d', lastAt_called (hc d), lastAt_called (hc d'), hk]
  simp only [ha]

section
theorem hP (d : Device) (p : Peripheral) : ∀ x ∈ allPeripherals namesOf (alone d p), Calls p x.1.peripheral := by
  intro x hx
  have := mem_allPeripherals.mp hx
  exact alone_calls ⟨_, this.1, this.2.2⟩

theorem hC (d : Device) (p : Peripheral) : ∀ x ∈ allClusters namesOf (alone d p), Calls p x.1.peripheral := by
  intro x hx
  obtain ⟨b, n, cs, h1, _, _, h2⟩ := mem_allClusters.mp hx
  rw [h2]
  exact alone_calls (n := b.peripheral) (blockAt_calls h1)

theorem hR (d : Device) (p : Peripheral) :
    ∀ x ∈ allRegisterPaths namesOf (alone d p), Calls p x.1.block.peripheral := by
  intro x hx
  obtain ⟨cs, h1, _⟩ := mem_allRegisterPaths.mp hx
  exact alone_calls (blockAt_calls h1)

theorem hF (d : Device) (p : Peripheral) :
    ∀ x ∈ allFields namesOf (alone d p), Calls p x.1.register.block.peripheral := by
  intro x hx
  obtain ⟨r, l, ⟨cs, h1, _⟩, _⟩ := mem_allFields.mp hx
  exact alone_calls (blockAt_calls h1)

theorem hE (d : Device) (p : Peripheral) :
    ∀ x ∈ allEnums namesOf (alone d p), Calls p x.1.field.register.block.peripheral := by
  intro x hx
  obtain ⟨f, ⟨r, l, ⟨cs, h1, _⟩, _⟩, _⟩ := mem_allEnums.mp hx
  exact alone_calls (blockAt_calls h1)
end

/-- A name that stands for the same peripherals leads to the same elements. -/
theorem same {d d' : Device} {n : Str} (h : called d' n = called d n) :
    (∀ k a, k.peripheral = n → (LastAt (allPeripherals namesOf d) k a ↔ LastAt (allPeripherals namesOf d') k a)) ∧
    (∀ k a, k.peripheral = n → (LastAt (allClusters namesOf d) k a ↔ LastAt (allClusters namesOf d') k a)) ∧
    (∀ k a, k.block.peripheral = n →
      (LastAt (allRegisterPaths namesOf d) k a ↔ LastAt (allRegisterPaths namesOf d') k a)) ∧
    (∀ k a, k.register.block.peripheral = n →
      (LastAt (allFields namesOf d) k a ↔ LastAt (allFields namesOf d') k a)) ∧
    (∀ k a, k.field.register.block.peripheral = n →
      (LastAt (allEnums namesOf d) k a ↔ LastAt (allEnums namesOf d') k a)) := by
  refine ⟨?_, ?_, ?_, ?_, ?_⟩
  · intro k a hk; subst hk
    exact kept (d := d) (d' := d') (per := fun k => k.peripheral) peripherals_split (fun _ => rfl) hP h
  · intro k a hk; subst hk
    exact kept (d := d) (d' := d') (per := fun k => k.peripheral) clusters_split (fun _ => rfl) hC h
  · intro k a hk; subst hk
    exact kept (d := d) (d' := d') (per := fun k => k.block.peripheral) registers_split (fun _ => rfl) hR h
  · intro k a hk; subst hk
    exact kept (d := d) (d' := d') (per := fun k => k.register.block.peripheral) fields_split (fun _ => rfl) hF h
  · intro k a hk; subst hk
    exact kept (d := d) (d' := d') (per := fun k => k.field.register.block.peripheral) enums_split (fun _ => rfl) hE h

section
variable {N : Str → Prop} (hN : ∀ n, N n)
include hN

theorem register_true (r : Register) : RegisterStays N r :=
  ⟨fun _ _ n _ _ _ => hN n, fun _ _ _ _ => ⟨fun _ _ n _ _ _ => hN n, fun _ _ _ _ n _ _ _ _ => hN n⟩⟩

mutual
theorem rc_true : ∀ c : RegisterCluster, RcStays N c
  | .register r => register_true hN r
  | .cluster _ _ cs => ⟨fun _ _ n _ _ _ => hN n, rcs_true cs⟩
theorem rcs_true : ∀ cs : List RegisterCluster, RcsStay N cs
  | [] => trivial
  | c :: cs => ⟨rc_true c, rcs_true cs⟩
end

theorem stays_true (p : Peripheral) : PeripheralStays N p := ⟨fun s _ => hN s, fun l _ => rcs_true hN l⟩

end

theorem finds_more {d d' : Device} (h : NamesKept d d') : Finds (fun _ => True) d d' := by
  have go : ∀ {κ α : Type} {all : Device → List (κ × α)} {per : κ → Str},
      (∀ d, all d = d.peripherals.flatMap fun p => all (alone d p)) →
      (∀ d p, ∀ x ∈ all (alone d p), Calls p (per x.1)) → ∀ k a, LastAt (all d) k a →
      called d' (per k) = called d (per k) := by
    intro κ α all per hs hc k a hl
    rw [hs d] at hl
    obtain ⟨p, hp, hn⟩ := lastAt_calls (hc d) hl
    exact h p hp _ hn
  refine ⟨?_, ?_, ?_, ?_, ?_, ?_, fun p _ _ _ _ => stays_true (fun _ => trivial) p⟩
  · exact fun k a _ hl => ((same (go (per := fun k => k.peripheral) peripherals_split hP k a hl)).1 _ _ rfl).mp hl
  · exact fun k a _ hl => ((same (go (per := fun k => k.peripheral) clusters_split hC k a hl)).2.1 _ _ rfl).mp hl
  · exact fun k a _ hl =>
      ((same (go (per := fun k => k.block.peripheral) registers_split hR k a hl)).2.2.1 _ _ rfl).mp hl
  · exact fun k a _ hl =>
      ((same (go (per := fun k => k.register.block.peripheral) fields_split hF k a hl)).2.2.2.1 _ _ rfl).mp hl
  · exact fun k a _ hl =>
      ((same (go (per := fun k => k.field.register.block.peripheral) enums_split hE k a hl)).2.2.2.2 _ _ rfl).mp hl
  · exact fun k a _ hl f s x hx =>
      ((same (go (per := fun k => k.block.peripheral) registers_split hR k a hl)).2.2.2.2 _ _ rfl).mpr hx

theorem finds_less {d d' : Device} (h : NamesKept d d') (hs : SelfContained d) :
    Finds (fun n => ∃ q ∈ d.peripherals, Calls q n) d' d := by
  have go : ∀ n, (∃ q ∈ d.peripherals, Calls q n) → called d n = called d' n :=
    fun n ⟨q, hq, hn⟩ => (h q hq n hn).symm
  refine ⟨fun k a hk => ((same (go _ hk)).1 _ _ rfl).mp, fun k a hk => ((same (go _ hk)).2.1 _ _ rfl).mp,
    fun k a hk => ((same (go _ hk)).2.2.1 _ _ rfl).mp, fun k a hk => ((same (go _ hk)).2.2.2.1 _ _ rfl).mp,
    fun k a hk => ((same (go _ hk)).2.2.2.2 _ _ rfl).mp,
    fun k a hk _ f s x hx => ((same (go _ hk)).2.2.2.2 _ _ rfl).mpr hx, ?_⟩
  intro p hp n hn hN
  classical
  have : p ∈ called d' n := List.mem_filter.mpr ⟨hp, by simpa using hn⟩
  rw [← go n hN] at this
  exact hs p (List.mem_filter.mp this).1

theorem keeps {d d' : Device} (h : NamesKept d d') {p : Peripheral} {l : List Peripheral}
    (hl : PeripheralFull namesOf d p l) : PeripheralFull namesOf d' p l :=
  peripheralFull (finds_more h) hl trivial (stays_true (fun _ => trivial) p)

theorem keeps_less {d d' : Device} (h : NamesKept d d') (hs : SelfContained d) {p : Peripheral}
    (hp : p ∈ d.peripherals) {l : List Peripheral} (hl : PeripheralFull namesOf d' p l) :
    PeripheralFull namesOf d p l :=
  peripheralFull (finds_less h hs) hl ⟨p, hp, .inl rfl⟩ (hs p hp)

theorem unique {d e : Device} (he : DeviceFull namesOf d e) {p : Peripheral} {l l' : List Peripheral}
    (h : PeripheralFull namesOf d p l) (h' : PeripheralFull namesOf d p l') : l = l' := by
  obtain ⟨ix, hix⟩ := (C43_builds d).mpr (full_indexable he)
  obtain ⟨n, hn⟩ := (expandPeripheral_full hix p l).mpr h
  obtain ⟨n', hn'⟩ := (expandPeripheral_full hix p l').mpr h'
  have st : Steady fun n => expandPeripheral true ix n p := fun n => expandPeripheral_extends true ix n p
  have h1 := st.le (Nat.le_max_left n n') hn
  rw [st.le (Nat.le_max_right n n') hn'] at h1
  injection h1 with h1
  exact h1.symm

open Classical in
/-- What a peripheral of the device becomes. -/
noncomputable def becomes (d : Device) (p : Peripheral) : List Peripheral :=
  if h : ∃ l, PeripheralFull namesOf d p l then h.choose else []

theorem becomes_full {d : Device} {p : Peripheral} {l : List Peripheral} (h : PeripheralFull namesOf d p l) :
    PeripheralFull namesOf d p (becomes d p) := by
  unfold becomes
  rw [dif_pos ⟨l, h⟩]
  exact Exists.choose_spec _

theorem flatten_of {α β : Type} {R : α → List β → Prop} {f : α → List β} {l : List α} {ls : List (List β)}
    (h : Pairs R l ls) (hf : ∀ a ∈ l, ∀ m, R a m → m = f a) : ls.flatten = l.flatMap f := by
  induction h with
  | nil => rfl
  | cons h1 _ ih =>
    rw [List.flatten_cons, List.flatMap_cons, ih fun a ha => hf a (List.mem_cons_of_mem _ ha),
      hf _ List.mem_cons_self _ h1]

theorem pairs_of {α β : Type} {R : α → β → Prop} {f : α → β} {l : List α} (h : ∀ a ∈ l, R a (f a)) :
    Pairs R l (l.map f) := by
  induction l with
  | nil => exact .nil
  | cons a l ih => exact .cons (h _ List.mem_cons_self) (ih fun a ha => h a (List.mem_cons_of_mem _ ha))

theorem full_becomes {d e : Device} (he : DeviceFull namesOf d e) :
    e.peripherals = d.peripherals.flatMap (becomes d) := by
  obtain ⟨ls, h, rfl⟩ := id he
  exact flatten_of h fun p _ m hm => unique he hm (becomes_full hm)

theorem full_mem {d e : Device} (he : DeviceFull namesOf d e) {p : Peripheral} (hp : p ∈ d.peripherals) :
    PeripheralFull namesOf d p (becomes d p) := by
  obtain ⟨ls, h, rfl⟩ := he
  obtain ⟨l, _, hl⟩ := pairs_left h p hp
  exact becomes_full hl

theorem full_of {d : Device} {f : Peripheral → List Peripheral}
    (h : ∀ p ∈ d.peripherals, PeripheralFull namesOf d p (f p)) :
    DeviceFull namesOf d { d with peripherals := d.peripherals.flatMap f } :=
  ⟨_, pairs_of h, by rw [List.flatMap_def]⟩

/-- A name of a single peripheral stands for the same peripheral in any order. -/
theorem kept_of_perm {d d' : Device} (hp : d'.peripherals.Perm d.peripherals)
    (hd : DistinctNames d.peripherals) : NamesKept d d' := by
  classical
  intro p _ n _
  have h := hp.filter fun p => decide (Calls p n)
  have hd := hd.filter fun p => decide (Calls p n)
  show d'.peripherals.filter _ = d.peripherals.filter _
  revert h hd
  have hall : ∀ q ∈ d.peripherals.filter (fun p => decide (Calls p n)), Calls q n := fun q hq => by
    simpa using (List.mem_filter.mp hq).2
  revert hall
  generalize d.peripherals.filter (fun p => decide (Calls p n)) = l
  intro hall h hd
  match l, h with
  | [], h => exact h.eq_nil
  | [a], h => exact List.perm_singleton.mp h
  | a :: b :: l, _ =>
    exact absurd ⟨hall a (by simp), hall b (by simp)⟩ ((List.pairwise_cons.mp hd).1 b (by simp) n)

theorem distinct_perm {l l' : List Peripheral} (hp : l'.Perm l) (hd : DistinctNames l) : DistinctNames l' :=
  (hp.pairwise_iff fun h n hn => h n ⟨hn.2, hn.1⟩).mpr hd

theorem around_kept {d : Device} {xs ys : List Peripheral}
    (hnew : ∀ x, x ∈ xs ∨ x ∈ ys → ∀ p ∈ d.peripherals, ∀ n, ¬ (Calls x n ∧ Calls p n)) :
    NamesKept d { d with peripherals := xs ++ d.peripherals ++ ys } := by
  classical
  intro p hp n hn
  show List.filter _ (xs ++ d.peripherals ++ ys) = List.filter _ d.peripherals
  have hx : xs.filter (fun p => decide (Calls p n)) = [] := by
    rw [List.filter_eq_nil_iff]
    intro x hx hc
    exact hnew x (.inl hx) p hp n ⟨by simpa using hc, hn⟩
  have hy : ys.filter (fun p => decide (Calls p n)) = [] := by
    rw [List.filter_eq_nil_iff]
    intro x hx hc
    exact hnew x (.inr hx) p hp n ⟨by simpa using hc, hn⟩
  rw [List.filter_append, List.filter_append, hx, hy, List.nil_append, List.append_nil]

end Local

open Local

/-! ## C70 -/

/-- **C70.** If every name of a peripheral of `d` stands for the same peripherals in `d'`, what a peripheral
of `d` becomes is the same in both; other peripherals of `d'` have no influence on it. -/
theorem C70_added {d d' e e' : Device} (h : NamesKept d d') {fuel fuel' : Nat}
    (he : expand true fuel d = .ok e) (he' : expand true fuel' d' = .ok e') :
    ∃ f, e.peripherals = d.peripherals.flatMap f ∧ e'.peripherals = d'.peripherals.flatMap f := by
  have he := (C56_expansion d e).mp ⟨fuel, he⟩
  have he' := (C56_expansion d' e').mp ⟨fuel', he'⟩
  refine ⟨becomes d', ?_, full_becomes he'⟩
  obtain ⟨ls, hl, rfl⟩ := he
  exact flatten_of hl fun p _ m hm => unique he' (keeps h hm) (becomes_full (keeps h hm))

/-- **C70.** So peripherals with new names can be added in front or at the end; the result for the others
stays. -/
theorem C70_around {d e e' : Device} (xs ys : List Peripheral)
    (hnew : ∀ x, x ∈ xs ∨ x ∈ ys → ∀ p ∈ d.peripherals, ∀ n, ¬ (Calls x n ∧ Calls p n)) {fuel fuel' : Nat}
    (he : expand true fuel d = .ok e)
    (he' : expand true fuel' { d with peripherals := xs ++ d.peripherals ++ ys } = .ok e') :
    ∃ as bs, e'.peripherals = as ++ e.peripherals ++ bs := by
  obtain ⟨f, h1, h2⟩ := C70_added (around_kept hnew) he he'
  refine ⟨xs.flatMap f, ys.flatMap f, ?_⟩
  rw [h2, h1, List.flatMap_append, List.flatMap_append]

/-- **C70.** If no reference of `d` leaves `d`, all other peripherals can be removed from a larger device `d'`
without changing what those of `d` become. -/
theorem C70_removed {d d' e' : Device} (h : NamesKept d d') (hs : SelfContained d) {fuel' : Nat}
    (he' : expand true fuel' d' = .ok e') :
    ∃ fuel e f, expand true fuel d = .ok e ∧ e.peripherals = d.peripherals.flatMap f ∧
      e'.peripherals = d'.peripherals.flatMap f := by
  classical
  have hf' := (C56_expansion d' e').mp ⟨fuel', he'⟩
  have hd : DeviceFull namesOf d { d with peripherals := d.peripherals.flatMap (becomes d') } := by
    refine full_of fun p hp => keeps_less h hs hp (full_mem hf' ?_)
    have : p ∈ called d p.info.name := List.mem_filter.mpr ⟨hp, decide_eq_true_iff.mpr (.inl rfl)⟩
    rw [← h p hp _ (.inl rfl)] at this
    exact (List.mem_filter.mp this).1
  obtain ⟨fuel, hfuel⟩ := (C56_expansion _ _).mpr hd
  exact ⟨fuel, _, becomes d', hfuel, rfl, full_becomes hf'⟩

/-- **C70.** The order of the peripherals does not matter as long as no two share a name: the other order
expands as well, and every peripheral becomes the same. -/
theorem C70_order {d d' e : Device} (hp : d'.peripherals.Perm d.peripherals)
    (hd : DistinctNames d.peripherals) {fuel : Nat} (he : expand true fuel d = .ok e) :
    ∃ fuel' e' f, expand true fuel' d' = .ok e' ∧ e.peripherals = d.peripherals.flatMap f ∧
      e'.peripherals = d'.peripherals.flatMap f ∧ e'.peripherals.Perm e.peripherals := by
  have hf := (C56_expansion d e).mp ⟨fuel, he⟩
  have hd' : DeviceFull namesOf d' { d' with peripherals := d'.peripherals.flatMap (becomes d) } :=
    full_of fun p hm => keeps (kept_of_perm hp hd) (full_mem hf (hp.mem_iff.mp hm))
  obtain ⟨fuel', hfuel⟩ := (C56_expansion _ _).mpr hd'
  refine ⟨fuel', _, becomes d, hfuel, full_becomes hf, rfl, ?_⟩
  rw [full_becomes hf]
  exact hp.flatMap_right _

-- A device with references from one peripheral to another, in both orders and beside an array.
theorem manyRefs_names : DistinctNames manyRefs.peripherals := by
  refine .cons ?_ (.cons (by simp) .nil)
  rintro q hq n ⟨h1, h2⟩
  rw [List.mem_singleton.mp hq] at h2
  have h1 : n ∈ ["Q".toList] := mem_namesOf.mpr h1
  have h2 : n ∈ ["P".toList] := mem_namesOf.mpr h2
  rw [List.mem_singleton.mp h1] at h2
  exact absurd h2 (by decide)
example : (expand true 6 { manyRefs with peripherals := manyRefs.peripherals.reverse }).map sampleRegisters =
    (expand true 6 manyRefs).map fun d => (sampleRegisters d).reverse := by decide +kernel
example : ∃ fuel' e', expand true fuel' { manyRefs with peripherals := manyRefs.peripherals.reverse } = .ok e' := by
  have : (expand true 6 manyRefs).isOk = true := by decide +kernel
  cases h : expand true 6 manyRefs with
  | error e => rw [h] at this; cases this
  | ok d' =>
    obtain ⟨n, e, _, he, _⟩ := C70_order (d' := { manyRefs with peripherals := manyRefs.peripherals.reverse })
      (List.reverse_perm _) manyRefs_names h
    exact ⟨n, e, he⟩
def aroundRefs : Device := { manyRefs with peripherals := [.array (Sample.peripheralInfo "P%s" 0x4000) (Sample.dim 2 0x100)] ++
  manyRefs.peripherals ++ [.single (Sample.peripheralInfo "Z" 0x5000 (some "P0"))] }
example : (expand true 6 aroundRefs).map (fun e => (sampleRegisters e).drop 2 |>.take 2) =
    (expand true 6 manyRefs).map sampleRegisters := by decide +kernel
theorem aroundRefs_new (x : Peripheral) (hx : x ∈ [.array (Sample.peripheralInfo "P%s" 0x4000) (Sample.dim 2 0x100)] ∨
      x ∈ [.single (Sample.peripheralInfo "Z" 0x5000 (some "P0"))]) (p : Peripheral)
    (hp : p ∈ manyRefs.peripherals) (n : Str) : ¬ (Calls x n ∧ Calls p n) := by
  rintro ⟨h1, h2⟩
  have h2 : n ∈ ["Q".toList, "P".toList] := by
    have h2 : n ∈ namesOf p.info.name p.dim? := mem_namesOf.mpr h2
    rcases List.mem_cons.mp hp with rfl | hp
    · exact List.mem_cons.mpr (.inl (List.mem_singleton.mp h2))
    · rw [List.mem_singleton.mp hp] at h2
      exact List.mem_cons.mpr (.inr h2)
  rcases hx with hx | hx
  · rw [List.mem_singleton.mp hx] at h1
    have h1 : n ∈ ["P0".toList, "P1".toList, "P%s".toList] := mem_namesOf.mpr h1
    have : ∀ n ∈ ["Q".toList, "P".toList], n ∉ ["P0".toList, "P1".toList, "P%s".toList] := by decide
    exact this n h2 h1
  · rw [List.mem_singleton.mp hx] at h1
    have h1 : n ∈ ["Z".toList] := mem_namesOf.mpr h1
    have : ∀ n ∈ ["Q".toList, "P".toList], n ∉ ["Z".toList] := by decide
    exact this n h2 h1
example (e e' : Device) (h : expand true 6 manyRefs = .ok e) (h' : expand true 6 aroundRefs = .ok e') :
    ∃ as bs, e'.peripherals = as ++ e.peripherals ++ bs := C70_around _ _ aroundRefs_new h h'
theorem manyRefs_contained : SelfContained manyRefs := by
  have path : ∀ {N : Str → Prop} {s t : Str}, '.' ∉ t → some t = some s → PathStays N s := by
    rintro N s _ hs ⟨⟩ n t rfl _
    exact absurd (by simp) hs
  intro p hp
  rcases List.mem_cons.mp hp with rfl | hp
  · refine ⟨?_, fun l h => (by cases h)⟩
    rintro s ⟨⟩
    exact ⟨_, List.mem_cons_of_mem _ List.mem_cons_self, .inl rfl⟩
  · rw [List.mem_singleton.mp hp]
    refine ⟨fun s h => (by cases h), ?_⟩
    rintro l ⟨⟩
    refine ⟨⟨fun s h => path (by decide) h, trivial⟩, ⟨fun s h => (by cases h),
      ⟨fun s h => (by cases h), ?_⟩, ⟨fun s h => path (by decide) h, fun l h => (by cases h)⟩, trivial⟩, trivial⟩
    rintro l ⟨⟩ f hf
    rcases List.mem_cons.mp hf with rfl | hf
    · refine ⟨fun s h => (by cases h), fun e he s h => ?_⟩
      rw [List.mem_singleton.mp he] at h
      cases h
    rcases List.mem_cons.mp hf with rfl | hf
    · exact ⟨fun s h => path (by decide) h, fun e he => (by cases he)⟩
    rw [List.mem_singleton.mp hf]
    refine ⟨fun s h => (by cases h), fun e he s h n t hn hd _ => ?_⟩
    rw [List.mem_singleton.mp he] at h
    exact path (N := fun n => ∃ q ∈ manyRefs.peripherals, Calls q n) (t := "E".toList) (by decide) h n t hn hd
example {e' : Device} (h' : expand true 6 aroundRefs = .ok e') :
    ∃ fuel e f, expand true fuel manyRefs = .ok e ∧ e.peripherals = manyRefs.peripherals.flatMap f ∧
      e'.peripherals = aroundRefs.peripherals.flatMap f := 
  C70_removed (around_kept aroundRefs_new) manyRefs_contained h'

/-- Two peripherals with the same name, and a third that refers to them. -/
def twice (a b : String) : Device := Sample.device
  [.single (Sample.peripheralInfo "A" 0x1000 none (some [.register (.single (Sample.registerInfo a 0))])),
   .single (Sample.peripheralInfo "A" 0x1000 none (some [.register (.single (Sample.registerInfo b 0))])),
   .single (Sample.peripheralInfo "B" 0x2000 (some "A"))]

/-- **C70.** With a repeated name the order does matter: both orders expand, but the last peripheral called
`A` is the one referred to. -/
theorem C70_repeated : (twice "R" "S").peripherals.Perm (twice "S" "R").peripherals ∧
    ∃ fuel e e', expand true fuel (twice "R" "S") = .ok e ∧ expand true fuel (twice "S" "R") = .ok e' ∧
      ¬ e.peripherals.Perm e'.peripherals := by
  refine ⟨.swap _ _ _, 3, ?_⟩
  have r1 : (expand true 3 (twice "R" "S")).map sampleRegisters = .ok [("A".toList, [("R".toList, 0)]),
      ("A".toList, [("S".toList, 0)]), ("B".toList, [("S".toList, 0)])] := by decide +kernel
  have r2 : (expand true 3 (twice "S" "R")).map sampleRegisters = .ok [("A".toList, [("S".toList, 0)]),
      ("A".toList, [("R".toList, 0)]), ("B".toList, [("R".toList, 0)])] := by decide +kernel
  cases h1 : expand true 3 (twice "R" "S") with
  | error _ => rw [h1] at r1; cases r1
  | ok e =>
    cases h2 : expand true 3 (twice "S" "R") with
    | error _ => rw [h2] at r2; cases r2
    | ok e' =>
      rw [h1] at r1; rw [h2] at r2
      refine ⟨e, e', rfl, rfl, fun h => ?_⟩
      injection r1 with r1; injection r2 with r2
      have : (sampleRegisters e).Perm (sampleRegisters e') := h.map _
      rw [r1, r2] at this
      have := this.mem_iff (a := ("B".toList, [("S".toList, 0)]))
      revert this
      decide

-- The hypotheses of `C70_added` can be met.
example {e e' : Device} (h : expand true 6 manyRefs = .ok e) (h' : expand true 6 aroundRefs = .ok e') :
    ∃ f, e.peripherals = manyRefs.peripherals.flatMap f ∧ e'.peripherals = aroundRefs.peripherals.flatMap f :=
  C70_added (around_kept aroundRefs_new) h h'
example : (expand true 6 manyRefs).isOk = true ∧ (expand true 6 aroundRefs).isOk = true := by decide +kernel

end Svd
