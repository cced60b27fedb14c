import Verif.Props.Full
import Verif.Spec.Spelled

/-! # C90: a reference may be a bare name or a full path -/

namespace Svd
open Spec

namespace Spelled
variable {N : Str → Prop}

/-! ## Two computations that succeed together -/

/-- Both give a result, and the results are related; or neither does. -/
def Together {α β : Type} (R : α → β → Prop) (x : M α) (y : M β) : Prop :=
  (∃ a b, x = .ok a ∧ y = .ok b ∧ R a b) ∨ ((∃ e, x = .error e) ∧ ∃ e, y = .error e)

theorem Together.bind {α β γ δ : Type} {R : α → β → Prop} {S : γ → δ → Prop} {x : M α} {y : M β}
    {f : α → M γ} {g : β → M δ} (h : Together R x y) (hf : ∀ a b, R a b → Together S (f a) (g b)) :
    Together S (x >>= f) (y >>= g) := by
  obtain ⟨a, b, rfl, rfl, hr⟩ | ⟨⟨e, rfl⟩, e', rfl⟩ := h
  · exact hf a b hr
  · exact Or.inr ⟨⟨e, rfl⟩, e', rfl⟩

theorem Together.ok {α β : Type} {R : α → β → Prop} {a : α} {b : β} (h : R a b) :
    Together R (.ok a) (.ok b) := Or.inl ⟨a, b, rfl, rfl, h⟩

theorem Together.error {α β : Type} {R : α → β → Prop} (e e' : Fault) :
    Together R (.error e : M α) (.error e' : M β) := Or.inr ⟨⟨e, rfl⟩, e', rfl⟩

theorem Together.refl {α : Type} {R : α → α → Prop} (h : ∀ a, R a a) (x : M α) : Together R x x := by
  cases x with
  | error e => exact .error e e
  | ok a => exact .ok (h a)

theorem Together.same {α : Type} {x y : M α} (h : Together (· = ·) x y) (a : α) :
    x = .ok a ↔ y = .ok a := by
  obtain ⟨a, b, rfl, rfl, rfl⟩ | ⟨⟨e, rfl⟩, e', rfl⟩ := h
  · rfl
  · simp

theorem Together.mapM {α β γ δ : Type} {R : α → β → Prop} {S : γ → δ → Prop} {f : α → M γ} {g : β → M δ}
    {l : List α} {l' : List β} (h : Pairs R l l') (hf : ∀ a b, R a b → Together S (f a) (g b)) :
    Together (Pairs S) (l.mapM f) (l'.mapM g) := by
  induction h with
  | nil => exact .ok .nil
  | cons hab _ ih =>
    rw [List.mapM_cons, List.mapM_cons]
    exact (hf _ _ hab).bind fun c d hcd => ih.bind fun cs ds hs => .ok (.cons hcd hs)

theorem pairs_eq {α : Type} {l l' : List α} (h : Pairs (· = ·) l l') : l = l' := by
  induction h with
  | nil => rfl
  | cons h _ ih => rw [h, ih]

theorem pairs_append {α β : Type} {R : α → β → Prop} {l m : List α} {l' m' : List β} (h : Pairs R l l')
    (hm : Pairs R m m') : Pairs R (l ++ m) (l' ++ m') := by
  induction h with
  | nil => exact hm
  | cons h _ ih => exact .cons h ih

theorem pairs_rev {α β : Type} {R : α → β → Prop} {l : List α} {l' : List β} (h : Pairs R l l') :
    Pairs R l.reverse l'.reverse := by
  induction h with
  | nil => exact .nil
  | cons h _ ih => rw [List.reverse_cons, List.reverse_cons]; exact pairs_append ih (.cons h .nil)

theorem pairs_map_same {α β γ : Type} {R : β → γ → Prop} {f : α → β} {g : α → γ} {l : List α}
    (h : ∀ a ∈ l, R (f a) (g a)) : Pairs R (l.map f) (l.map g) := by
  induction l with
  | nil => exact .nil
  | cons a l ih => exact .cons (h a (by simp)) (ih fun b hb => h b (by simp [hb]))

theorem pairs_flatMap_same {α β γ : Type} {R : β → γ → Prop} {f : α → List β} {g : α → List γ} {l : List α}
    (h : ∀ a ∈ l, Pairs R (f a) (g a)) : Pairs R (l.flatMap f) (l.flatMap g) := by
  induction l with
  | nil => exact .nil
  | cons a l ih => exact pairs_append (h a (by simp)) (ih fun b hb => h b (by simp [hb]))

theorem pairs_flatMap {α β γ δ : Type} {R : α → β → Prop} {S : γ → δ → Prop} {f : α → List γ}
    {g : β → List δ} {l : List α} {l' : List β} (h : Pairs R l l')
    (hf : ∀ a b, R a b → Pairs S (f a) (g b)) : Pairs S (l.flatMap f) (l'.flatMap g) := by
  induction h with
  | nil => exact .nil
  | cons h _ ih => exact pairs_append (hf _ _ h) ih

theorem pairs_mono' {α β : Type} {R S : α → β → Prop} (hRS : ∀ a b, R a b → S a b) {l : List α}
    {m : List β} (h : Pairs R l m) : Pairs S l m := by
  induction h with
  | nil => exact .nil
  | cons h1 _ ih => exact .cons (hRS _ _ h1) ih

/-- Entries under the same key, related at this key. -/
def Entry {κ α β : Type} (R : κ → α → β → Prop) (x : κ × α) (y : κ × β) : Prop :=
  x.1 = y.1 ∧ R x.1 x.2 y.2

theorem lookup_opt {κ α β : Type} [DecidableEq κ] {R : κ → α → β → Prop} {l : List (κ × α)}
    {l' : List (κ × β)} (h : Pairs (Entry R) l l') (k : κ) :
    (mapGet l k = none ∧ mapGet l' k = none) ∨
      ∃ a b, mapGet l k = some a ∧ mapGet l' k = some b ∧ R k a b := by
  induction h with
  | nil => exact Or.inl ⟨rfl, rfl⟩
  | @cons a b as bs h _ ih =>
    obtain ⟨ka, a⟩ := a
    obtain ⟨kb, b⟩ := b
    obtain ⟨hk, hr⟩ := h
    simp only at hk hr
    subst hk
    unfold mapGet at ih ⊢
    by_cases hc : ka = k
    · subst hc
      simp only [List.find?_cons, beq_self_eq_true, Option.map_some]
      exact Or.inr ⟨a, b, rfl, rfl, hr⟩
    · simp only [List.find?_cons, beq_eq_false_iff_ne.mpr hc]
      exact ih

theorem lookup {κ α β : Type} [DecidableEq κ] {R : κ → α → β → Prop} {l : List (κ × α)} {l' : List (κ × β)}
    (h : Pairs (Entry R) l l') (k : κ) (e e' : Err) :
    Together (R k) (okOr (mapGet l k) e) (okOr (mapGet l' k) e') := by
  obtain ⟨h1, h2⟩ | ⟨a, b, h1, h2, hr⟩ := lookup_opt h k
  · rw [h1, h2]; exact .error _ _
  · rw [h1, h2]; exact .ok hr

/-! ## Spelling -/

/-- The home, if known, is `b`. -/
def At {κ : Type} (home : Option κ) (b : κ) : Prop := ∀ q, home = some q → q = b

theorem at_none {κ : Type} (b : κ) : At none b := fun _ h => nomatch h

section
variable {κ : Type} {points : κ → Str → κ → Str → Prop} {home : Option κ} {a b : Option Str}

theorem sameRef_none (h : SameRef points none a b) : a = b := by
  obtain h | ⟨_, _, _, _, _, h, _⟩ := h
  · exact h
  · exact nomatch h

theorem sameRef_isNone (h : SameRef points home a b) : a = none ↔ b = none := by
  obtain rfl | ⟨_, _, _, _, _, _, rfl, rfl, _⟩ := h <;> simp

theorem sameRef_some {s : Str} (h : SameRef points home (some s) b) : ∃ s', b = some s' := by
  cases b with
  | none => exact nomatch (sameRef_isNone h).mpr rfl
  | some s' => exact ⟨s', rfl⟩

/-- Both spellings mean the same place and the same name. -/
theorem parse_same {parse : Str → M (Option κ × Str)}
    (hp : ∀ k s q n, points k s q n ↔ ∃ pd, parse s = .ok pd ∧ q = pd.1.getD k ∧ n = pd.2)
    {path : κ} {s s' : Str} (hat : At home path) (h : SameRef points home (some s) (some s')) :
    Together (fun a b => a.1.getD path = b.1.getD path ∧ a.2 = b.2) (parse s) (parse s') := by
  obtain h | ⟨k, t, t', q, n, hk, h, h', h1, h2⟩ := h
  · injection h with h
    rw [h]; exact .refl (fun _ => ⟨rfl, rfl⟩) _
  · have := hat k hk
    subst this
    injection h with h
    injection h' with h'
    subst h; subst h'
    obtain ⟨pd, hpd, h3, h4⟩ := (hp _ _ _ _).mp h1
    obtain ⟨pd', hpd', h5, h6⟩ := (hp _ _ _ _).mp h2
    rw [hpd, hpd']
    exact .ok ⟨h3.symm.trans h5, h4.symm.trans h6⟩

end

theorem rcsSpelled_pairs : ∀ {home : Option BlockPath} {cs cs' : List RegisterCluster},
    RcsSpelled N home cs cs' → Pairs (RcSpelled N home) cs cs'
  | _, [], _, h => by unfold RcsSpelled at h; rw [h]; exact .nil
  | _, c :: cs, [], h => by unfold RcsSpelled at h; exact h.elim
  | _, c :: cs, c' :: cs', h => by
    unfold RcsSpelled at h
    exact .cons h.1 (rcsSpelled_pairs h.2)

theorem enumSpelled_none {e e' : EnumeratedValues} (h : EnumSpelled N none e e') : e = e' := by
  obtain ⟨s, hs, rfl, _⟩ := h
  rw [← sameRef_none hs]

theorem enumsSpelled_none {l l' : List EnumeratedValues} (h : Pairs (EnumSpelled N none) l l') : l' = l :=
  (pairs_eq (pairs_mono' (fun _ _ => enumSpelled_none) h)).symm

theorem fieldSpelled_none {f f' : Field} (h : FieldSpelled N none f f') : f = f' := by
  obtain ⟨s, es, hs, rfl, he⟩ := h
  rw [Option.map_none, ite_self] at he
  rw [← sameRef_none hs, enumsSpelled_none he]
  cases f <;> rfl

theorem fieldsSpelled_none {o o' : Option (List Field)} (h : FieldsSpelled N none o o') : o' = o := by
  cases o with
  | none =>
    cases o' with
    | none => rfl
    | some l => exact h.elim
  | some l =>
    cases o' with
    | none => exact h.elim
    | some l' => exact congrArg some (pairs_eq (pairs_mono' (fun _ _ => fieldSpelled_none) h)).symm

theorem registerSpelled_none {r r' : Register} (h : RegisterSpelled N none r r') : r' = r := by
  obtain ⟨s, fs, hs, rfl, hf⟩ := h
  rw [Option.map_none, ite_self] at hf
  rw [← sameRef_none hs, fieldsSpelled_none hf]
  cases r <;> rfl

mutual
theorem rcSpelled_none : ∀ {c c' : RegisterCluster}, RcSpelled N none c c' → c' = c
  | .register r, .register r', h => by
    unfold RcSpelled at h; rw [registerSpelled_none h]
  | .register r, .cluster .., h => by unfold RcSpelled at h; exact h.elim
  | .cluster .., .register _, h => by unfold RcSpelled at h; exact h.elim
  | .cluster h d cs, .cluster h' d' cs', hh => by
    unfold RcSpelled at hh
    obtain ⟨rfl, hs, hd, hc⟩ := hh
    rw [← sameRef_none hs] at hd
    rw [Option.map_none, ite_self] at hc
    rw [rcsSpelled_none hc, hd]
theorem rcsSpelled_none : ∀ {cs cs' : List RegisterCluster}, RcsSpelled N none cs cs' → cs' = cs
  | [], _, h => by unfold RcsSpelled at h; exact h
  | c :: cs, [], h => by unfold RcsSpelled at h; exact h.elim
  | c :: cs, c' :: cs', h => by
    unfold RcsSpelled at h
    rw [rcSpelled_none h.1, rcsSpelled_none h.2]
end

/-! ## The index -/

/-- The same cluster at `b`, but for spelling. -/
def ClusterAtSpelled (N : Str → Prop) (b : BlockPath) (c c' : Cluster) : Prop :=
  ∃ home cs s, At home ⟨b.peripheral, b.path.dropLast⟩ ∧ SameRef BlockRef home c.info.derivedFrom s ∧
    c' = c.mapInfo (fun i => { i with derivedFrom := s, children := cs }) ∧
    ∃ inner, At inner b ∧ (c.info.derivedFrom ≠ none → inner = none) ∧ RcsSpelled N inner c.info.children cs

/-- The same register at `q`, but for spelling. -/
def RegisterAtSpelled (N : Str → Prop) (q : RegisterPath) (r r' : Register) : Prop :=
  ∃ home s fs, At home q.block ∧ SameRef BlockRef home r.info.derivedFrom s ∧
    r' = r.mapInfo (fun i => { i with derivedFrom := s, fields := fs }) ∧
    ∃ inner, At inner q ∧ (r.info.derivedFrom ≠ none → inner = none) ∧
      FieldsSpelled N inner r.info.fields fs

/-- The same field at `q`, but for spelling. -/
def FieldAtSpelled (N : Str → Prop) (q : FieldPath) (f f' : Field) : Prop :=
  ∃ home s es, At home q.register ∧ SameRef FieldRef home f.info.derivedFrom s ∧
    f' = f.mapInfo (fun i => { i with derivedFrom := s, enumeratedValues := es }) ∧
    ∃ inner, At inner q ∧ (f.info.derivedFrom ≠ none → inner = none) ∧
      Pairs (EnumSpelled N inner) f.info.enumeratedValues es

/-- The same group of enumerated values at `q`, but for spelling. -/
def EnumAtSpelled (N : Str → Prop) (q : EnumPath) (e e' : EnumeratedValues) : Prop :=
  ∃ home, At home q.field ∧ EnumSpelled N home e e'

/-- The same peripheral at `b`, but for spelling. -/
def PeripheralAtSpelled (N : Str → Prop) (b : BlockPath) (p p' : Peripheral) : Prop :=
  ∃ rs, p' = p.mapInfo (fun i => { i with registers := rs }) ∧
    ∃ inner, At inner b ∧ (p.info.derivedFrom ≠ none → inner = none) ∧
      ChildrenSpelled N inner p.info.registers rs

theorem field_at {home : Option BlockPath} {b : BlockPath} (hb : At home b) {r : Register} {n : Str}
    (hn : n ∈ namesOf r.info.name r.dim?) :
    At (if r.info.derivedFrom = none ∧ r.dim? = none then home.map fun b => ⟨b, r.info.name⟩ else none)
      (⟨b, n⟩ : RegisterPath) := by
  intro q hq
  split at hq
  · rename_i h
    rw [h.2] at hn
    unfold namesOf at hn
    rw [List.mem_singleton] at hn
    subst hn
    cases home with
    | none => exact nomatch hq
    | some h =>
      have := hb h rfl
      subst this
      injection hq with hq
      exact hq.symm
  · exact nomatch hq

theorem enum_at {home : Option RegisterPath} {b : RegisterPath} (hb : At home b) {f : Field} {n : Str}
    (hn : n ∈ namesOf f.info.name f.dim?) :
    At (if f.info.derivedFrom = none ∧ f.dim? = none then home.map fun b => ⟨b, f.info.name⟩ else none)
      (⟨b, n⟩ : FieldPath) := by
  intro q hq
  split at hq
  · rename_i h
    rw [h.2] at hn
    unfold namesOf at hn
    rw [List.mem_singleton] at hn
    subst hn
    cases home with
    | none => exact nomatch hq
    | some h =>
      have := hb h rfl
      subst this
      injection hq with hq
      exact hq.symm
  · exact nomatch hq

theorem inner_at {home : Option BlockPath} {b : BlockPath} (hb : At home b) {name n : Str}
    {d : Option DimElement} {ref : Option Str} (hn : n ∈ namesOf name d) :
    At (if ref = none ∧ d = none then home.map fun b => ⟨b.peripheral, b.path ++ [name]⟩ else none)
      (⟨b.peripheral, b.path ++ [n]⟩ : BlockPath) := by
  intro q hq
  split at hq
  · rename_i h
    obtain ⟨_, rfl⟩ := h
    unfold namesOf at hn
    rw [List.mem_singleton] at hn
    subst hn
    cases home with
    | none => exact nomatch hq
    | some h =>
      have := hb h rfl
      subst this
      injection hq with hq
      exact hq.symm
  · exact nomatch hq

theorem spelled_dim {home : Option BlockPath} {r r' : Register} (h : RegisterSpelled N home r r') :
    r'.dim? = r.dim? ∧ r'.info.name = r.info.name := by
  obtain ⟨s, fs, _, rfl, _⟩ := h
  cases r <;> exact ⟨rfl, rfl⟩

theorem own_spelled {home : Option BlockPath} {b : BlockPath} (hb : At home b)
    {cs cs' : List RegisterCluster} (h : RcsSpelled N home cs cs') :
    Pairs (Entry (RegisterAtSpelled N)) (ownRegisters namesOf b cs) (ownRegisters namesOf b cs') := by
  unfold ownRegisters
  refine pairs_flatMap (rcsSpelled_pairs h) fun c c' hc => ?_
  cases c with
  | register r =>
    cases c' with
    | cluster h' d' cs' => unfold RcSpelled at hc; exact hc.elim
    | register r' =>
      unfold RcSpelled at hc
      obtain ⟨hd, hn⟩ := spelled_dim hc
      simp only [hd, hn]
      refine pairs_map_same fun n hn => ⟨rfl, ?_⟩
      obtain ⟨s, fs, hs, hr, hf⟩ := hc
      refine ⟨home, s, fs, hb, hs, hr, _, field_at hb hn, ?_, hf⟩
      intro hne
      rw [if_neg fun h => hne h.1]
  | cluster h d cs =>
    cases c' with
    | register r' => unfold RcSpelled at hc; exact hc.elim
    | cluster h' d' cs' => exact .nil

mutual
theorem within_spelled : ∀ {home : Option BlockPath} {b : BlockPath} {c c' : RegisterCluster}, At home b →
    RcSpelled N home c c' → Pairs (Entry (RegisterAtSpelled N)) (registersWithin namesOf b c)
      (registersWithin namesOf b c') ∧
    Pairs (Entry (ClusterAtSpelled N)) (clustersIn namesOf b c) (clustersIn namesOf b c')
  | _, _, .register _, .register _, _, _ => ⟨.nil, .nil⟩
  | _, _, .register r, .cluster .., _, h => by unfold RcSpelled at h; exact h.elim
  | _, _, .cluster .., .register _, _, h => by unfold RcSpelled at h; exact h.elim
  | home, b, .cluster h d cs, .cluster h' d' cs', hb, hh => by
    unfold RcSpelled at hh
    obtain ⟨rfl, hs, hd, hc⟩ := hh
    have hname : h'.name = h.name := by rw [hd]
    unfold registersWithin clustersIn
    rw [hname]
    refine ⟨pairs_flatMap_same fun n hn => ?_, pairs_flatMap_same fun n hn => ?_⟩
    · exact pairs_append (own_spelled (inner_at hb hn) hc) (withinAll_spelled (inner_at hb hn) hc).1
    · refine pairs_append (withinAll_spelled (inner_at hb hn) hc).2 (.cons ⟨rfl, ?_⟩ .nil)
      refine ⟨home, cs', h'.derivedFrom, ?_, ?_, ?_, _, inner_at (ref := h.derivedFrom) hb hn, ?_, ?_⟩
      · simpa using hb
      · cases d' <;> exact hs
      · rw [hd]; cases d' <;> rfl
      · intro hne
        rw [if_neg]
        rintro ⟨h1, _⟩
        apply hne
        cases d' <;> exact h1
      · cases d' <;> exact hc
theorem withinAll_spelled : ∀ {home : Option BlockPath} {b : BlockPath} {cs cs' : List RegisterCluster},
    At home b → RcsSpelled N home cs cs' →
    Pairs (Entry (RegisterAtSpelled N)) (registersWithinAll namesOf b cs) (registersWithinAll namesOf b cs') ∧
    Pairs (Entry (ClusterAtSpelled N)) (clustersInAll namesOf b cs) (clustersInAll namesOf b cs')
  | _, _, [], _, _, h => by unfold RcsSpelled at h; rw [h]; exact ⟨.nil, .nil⟩
  | _, _, c :: cs, [], _, h => by unfold RcsSpelled at h; exact h.elim
  | _, _, c :: cs, c' :: cs', hb, h => by
    unfold RcsSpelled at h
    obtain ⟨h1, h2⟩ := within_spelled hb h.1
    obtain ⟨h3, h4⟩ := withinAll_spelled hb h.2
    exact ⟨pairs_append h1 h3, pairs_append h2 h4⟩
end

theorem peripheral_at {p : Peripheral} {n : Str} (hn : n ∈ namesOf p.info.name p.dim?) :
    At (if p.info.derivedFrom = none ∧ p.dim? = none then some ⟨p.info.name, []⟩ else none)
      (⟨n, []⟩ : BlockPath) := by
  intro q hq
  split at hq
  · rename_i h
    rw [h.2] at hn
    unfold namesOf at hn
    rw [List.mem_singleton] at hn
    subst hn
    injection hq with hq
    exact hq.symm
  · exact nomatch hq

theorem peripheral_names {p : Peripheral} {rs : Option (List RegisterCluster)} :
    (p.mapInfo fun i => { i with registers := rs }).info.name = p.info.name ∧
    (p.mapInfo fun i => { i with registers := rs }).dim? = p.dim? ∧
    (p.mapInfo fun i => { i with registers := rs }).info.derivedFrom = p.info.derivedFrom ∧
    (p.mapInfo fun i => { i with registers := rs }).info.registers = rs := by
  cases p <;> exact ⟨rfl, rfl, rfl, rfl⟩

/-- Two indexes that are the same but for the spelling of references. -/
structure IxSpelled (N : Str → Prop) (ix jx : Index) : Prop where
  peripherals : Pairs (Entry (PeripheralAtSpelled N)) ix.peripherals jx.peripherals
  clusters : Pairs (Entry (ClusterAtSpelled N)) ix.clusters jx.clusters
  registers : Pairs (Entry (RegisterAtSpelled N)) ix.registers jx.registers
  fields : Pairs (Entry (FieldAtSpelled N)) ix.fields jx.fields
  evs : Pairs (Entry (EnumAtSpelled N)) ix.evs jx.evs

theorem children_spelled {p p' : Peripheral} (h : PeripheralSpelled N p p') :
    RcsSpelled N (if p.info.derivedFrom = none ∧ p.dim? = none then some ⟨p.info.name, []⟩ else none)
      (p.info.registers.getD []) (p'.info.registers.getD []) := by
  obtain ⟨rs, rfl, h⟩ := h
  rw [peripheral_names.2.2.2]
  cases hr : p.info.registers with
  | none =>
    rw [hr] at h
    cases rs with
    | none => unfold RcsSpelled; rfl
    | some l => exact h.elim
  | some l =>
    rw [hr] at h
    cases rs with
    | none => exact h.elim
    | some l' => exact h

theorem same_names {p p' : Peripheral} (h : PeripheralSpelled N p p') :
    p'.info.name = p.info.name ∧ p'.dim? = p.dim? := by
  obtain ⟨rs, rfl, _⟩ := h
  exact ⟨peripheral_names.1, peripheral_names.2.1⟩

theorem field_dim {home : Option RegisterPath} {f f' : Field} (h : FieldSpelled N home f f') :
    f'.dim? = f.dim? ∧ f'.info.name = f.info.name := by
  obtain ⟨s, es, _, rfl, _⟩ := h
  cases f <;> exact ⟨rfl, rfl⟩

theorem field_parts {f : Field} {s : Option Str} {es : List EnumeratedValues} :
    (f.mapInfo fun i => { i with derivedFrom := s, enumeratedValues := es }).info.derivedFrom = s ∧
    (f.mapInfo fun i => { i with derivedFrom := s, enumeratedValues := es }).info.enumeratedValues = es := by
  cases f <;> exact ⟨rfl, rfl⟩

theorem register_parts {r : Register} {s : Option Str} {fs : Option (List Field)} :
    (r.mapInfo fun i => { i with derivedFrom := s, fields := fs }).info.derivedFrom = s ∧
    (r.mapInfo fun i => { i with derivedFrom := s, fields := fs }).info.fields = fs := by
  cases r <;> exact ⟨rfl, rfl⟩

theorem fieldList_spelled {home : Option RegisterPath} {o o' : Option (List Field)}
    (h : FieldsSpelled N home o o') : Pairs (FieldSpelled N home) (o.getD []) (o'.getD []) := by
  cases o with
  | none =>
    cases o' with
    | none => exact .nil
    | some l => exact h.elim
  | some l =>
    cases o' with
    | none => exact h.elim
    | some l' => exact h

theorem fields_spelled {l l' : List (RegisterPath × Register)}
    (h : Pairs (Entry (RegisterAtSpelled N)) l l') : Pairs (Entry (FieldAtSpelled N))
      (l.flatMap fun q => fieldsOf namesOf q.1 q.2) (l'.flatMap fun q => fieldsOf namesOf q.1 q.2) := by
  refine pairs_flatMap h fun x y hxy => ?_
  obtain ⟨k, r⟩ := x
  obtain ⟨k', r'⟩ := y
  obtain ⟨hk, home, s, fs, _, _, hr, inner, hin, _, hf⟩ := hxy
  simp only at hk hr hin hf
  subst hk; subst hr
  unfold fieldsOf
  simp only [register_parts]
  refine pairs_flatMap (fieldList_spelled hf) fun f f' hff => ?_
  obtain ⟨hd, hn⟩ := field_dim hff
  simp only [hd, hn]
  refine pairs_map_same fun n hn => ⟨rfl, ?_⟩
  obtain ⟨s, es, hs, hf, he⟩ := hff
  refine ⟨inner, s, es, hin, hs, hf, _, enum_at hin hn, ?_, he⟩
  intro hne
  rw [if_neg fun h => hne h.1]

theorem enumsOf_spelled {q : FieldPath} {inner : Option FieldPath} (hin : At inner q)
    {l l' : List EnumeratedValues} (h : Pairs (EnumSpelled N inner) l l') :
    Pairs (Entry (EnumAtSpelled N)) (l.filterMap fun e => e.name.map fun n => ((⟨q, n⟩ : EnumPath), e))
      (l'.filterMap fun e => e.name.map fun n => ((⟨q, n⟩ : EnumPath), e)) := by
  induction h with
  | nil => exact .nil
  | @cons a b _ _ hab _ ih =>
    have hname : b.name = a.name := by
      obtain ⟨s, _, rfl, _⟩ := hab; rfl
    rw [List.filterMap_cons, List.filterMap_cons, hname]
    cases hn : a.name with
    | none => exact ih
    | some n => exact .cons ⟨rfl, inner, hin, hab⟩ ih

theorem enums_spelled {l l' : List (FieldPath × Field)} (h : Pairs (Entry (FieldAtSpelled N)) l l') :
    Pairs (Entry (EnumAtSpelled N)) (l.flatMap fun q => enumsOf q.1 q.2)
      (l'.flatMap fun q => enumsOf q.1 q.2) := by
  refine pairs_flatMap h fun x y hxy => ?_
  obtain ⟨k, f⟩ := x
  obtain ⟨k', f'⟩ := y
  obtain ⟨hk, home, s, es, _, _, hf, inner, hin, _, he⟩ := hxy
  simp only at hk hf hin he
  subst hk; subst hf
  unfold enumsOf
  simp only [field_parts]
  exact enumsOf_spelled hin he

theorem adds_spelled {d e : Device} (h : DeviceSpelled N d e) {ix jx : Index}
    (hi : Index.create d = .ok ix) (hj : Index.create e = .ok jx) : IxSpelled N ix jx := by
  obtain ⟨ps, rfl, hps⟩ := h
  have ha := Index.create_adds hi
  have hb := Index.create_adds hj
  have hregs : Pairs (Entry (RegisterAtSpelled N)) (allRegisterPaths namesOf d)
      (allRegisterPaths namesOf { d with peripherals := ps }) := by
    refine pairs_flatMap hps fun p p' hp => ?_
    obtain ⟨hn, hd⟩ := same_names hp
    simp only [hn, hd]
    refine pairs_flatMap_same fun n hn => ?_
    exact pairs_append (own_spelled (peripheral_at hn) (children_spelled hp))
      (withinAll_spelled (peripheral_at hn) (children_spelled hp)).1
  have hf : Pairs (Entry (FieldAtSpelled N)) (allFields namesOf d)
      (allFields namesOf { d with peripherals := ps }) := fields_spelled hregs
  refine ⟨?_, ?_, ?_, ?_, ?_⟩
  · rw [ha.peripherals, hb.peripherals]
    refine pairs_rev (pairs_flatMap hps fun p p' hp => ?_)
    obtain ⟨hn, hd⟩ := same_names hp
    simp only [hn, hd]
    refine pairs_map_same fun n hn => ⟨rfl, ?_⟩
    obtain ⟨rs, hp', hm⟩ := hp
    refine ⟨rs, hp', _, peripheral_at hn, ?_, hm⟩
    intro hne
    rw [if_neg fun h => hne h.1]
  · rw [ha.clusters, hb.clusters]
    refine pairs_rev (pairs_flatMap hps fun p p' hp => ?_)
    obtain ⟨hn, hd⟩ := same_names hp
    simp only [hn, hd]
    refine pairs_flatMap_same fun n hn => ?_
    exact (withinAll_spelled (peripheral_at hn) (children_spelled hp)).2
  · rw [ha.registers, hb.registers]
    exact pairs_rev hregs
  · rw [ha.fields, hb.fields]
    exact pairs_rev hf
  · rw [ha.evs, hb.evs]
    exact pairs_rev (enums_spelled hf)

theorem fieldParts_iff {D : DimElement → Prop} {home : Option RegisterPath} {f f' : Field}
    (h : FieldSpelled N home f f') : FieldParts (fun _ => True) D f ↔ FieldParts (fun _ => True) D f' := by
  obtain ⟨s, es, _, rfl, _⟩ := h
  cases f <;> exact Iff.rfl

theorem registerParts_iff {D : DimElement → Prop} {home : Option BlockPath} {r r' : Register}
    (h : RegisterSpelled N home r r') :
    RegisterParts (fun _ => True) D r ↔ RegisterParts (fun _ => True) D r' := by
  obtain ⟨s, fs, _, rfl, hf⟩ := h
  unfold RegisterParts
  rw [register_parts.2]
  have hd : DimPart D (r.mapInfo fun i => { i with derivedFrom := s, fields := fs }) ↔ DimPart D r := by
    cases r <;> exact Iff.rfl
  rw [hd]
  cases hr : r.info.fields with
  | none =>
    rw [hr] at hf
    cases fs with
    | none => exact Iff.rfl
    | some l => exact hf.elim
  | some l =>
    rw [hr] at hf
    cases fs with
    | none => exact hf.elim
    | some l' =>
      simp only [Option.some.injEq, forall_eq']
      have : ∀ {home : Option RegisterPath} {l l' : List Field}, Pairs (FieldSpelled N home) l l' →
          ((∀ f ∈ l, FieldParts (fun _ => True) D f) ↔ ∀ f ∈ l', FieldParts (fun _ => True) D f) := by
        intro home l l' hl
        induction hl with
        | nil => exact Iff.rfl
        | cons hp _ ih =>
          simp only [List.forall_mem_cons, ih,
            fieldParts_iff (D := D) hp]
      rw [this hf]

mutual
theorem rc_parts {D : DimElement → Prop} : ∀ {home : Option BlockPath}
    {c c' : RegisterCluster}, RcSpelled N home c c' → (RcParts (fun _ => True) D c ↔ RcParts (fun _ => True) D c')
  | home, .register r, .register r', h => by
    unfold RcSpelled at h
    unfold RcParts
    exact registerParts_iff h
  | _, .register r, .cluster .., h => by unfold RcSpelled at h; exact h.elim
  | _, .cluster .., .register _, h => by unfold RcSpelled at h; exact h.elim
  | home, .cluster h d cs, .cluster h' d' cs', hh => by
    unfold RcSpelled at hh
    obtain ⟨rfl, _, _, hc⟩ := hh
    unfold RcParts
    rw [rcs_parts hc]
theorem rcs_parts {D : DimElement → Prop} : ∀ {home : Option BlockPath}
    {cs cs' : List RegisterCluster}, RcsSpelled N home cs cs' →
    (RcsParts (fun _ => True) D cs ↔ RcsParts (fun _ => True) D cs')
  | _, [], _, h => by unfold RcsSpelled at h; rw [h]
  | _, c :: cs, [], h => by unfold RcsSpelled at h; exact h.elim
  | _, c :: cs, c' :: cs', h => by
    unfold RcsSpelled at h
    unfold RcsParts
    rw [rc_parts h.1, rcs_parts h.2]
end

theorem peripheral_parts {D : DimElement → Prop} {p p' : Peripheral}
    (h : PeripheralSpelled N p p') : PeripheralParts (fun _ => True) D p ↔ PeripheralParts (fun _ => True) D p' := by
  obtain ⟨rs, rfl, h⟩ := h
  unfold PeripheralParts
  rw [peripheral_names.2.2.2]
  have hd : DimPart D (p.mapInfo fun i => { i with registers := rs }) ↔ DimPart D p := by
    cases p <;> exact Iff.rfl
  rw [hd]
  cases hr : p.info.registers with
  | none =>
    rw [hr] at h
    cases rs with
    | none => exact Iff.rfl
    | some l => exact h.elim
  | some l =>
    rw [hr] at h
    cases rs with
    | none => exact h.elim
    | some l' =>
      have := rcs_parts (D := D) h
      simp only [Option.some.injEq, forall_eq', this]

theorem create_spelled {d e : Device} (h : DeviceSpelled N d e) :
    Together (IxSpelled N) (Index.create d) (Index.create e) := by
  have hi : Indexable d ↔ Indexable e := by
    obtain ⟨ps, rfl, hps⟩ := h
    have : ∀ {l l' : List Peripheral}, Pairs (PeripheralSpelled N) l l' →
        ((∀ p ∈ l, PeripheralParts (fun _ => True) EnoughIndexes p) ↔
          ∀ p ∈ l', PeripheralParts (fun _ => True) EnoughIndexes p) := by
      intro l l' hl
      induction hl with
      | nil => exact Iff.rfl
      | cons hp _ ih => simp only [List.forall_mem_cons, ih, peripheral_parts hp]
    exact this hps
  cases hc : Index.create d with
  | ok ix =>
    obtain ⟨jx, hj⟩ := (C43_builds e).mpr (hi.mp ((C43_builds d).mp ⟨ix, hc⟩))
    rw [hj]
    exact .ok (adds_spelled h hc hj)
  | error f =>
    cases hj : Index.create e with
    | error f' => exact .error f f'
    | ok jx =>
      obtain ⟨ix, hx⟩ := (C43_builds d).mpr (hi.mpr ((C43_builds e).mp ⟨jx, hj⟩))
      rw [hx] at hc; cases hc

/-! ## Enumerated values -/

section
variable {ix jx : Index} (h : IxSpelled N ix jx)
include h

/-- The same group found, but for spelling. -/
def FoundSpelled (N : Str → Prop) : Option (EnumeratedValues × EnumPath) →
    Option (EnumeratedValues × EnumPath) → Prop
  | none, none => True
  | some (e, q), some (e', q') => q' = q ∧ EnumAtSpelled N q e e'
  | _, _ => False

theorem findAt_spelled (q : EnumPath) :
    FoundSpelled N ((mapGet ix.evs q).map fun d => (d, q)) ((mapGet jx.evs q).map fun d => (d, q)) := by
  obtain ⟨h1, h2⟩ | ⟨a, b, h1, h2, hr⟩ := lookup_opt h.evs q
  · rw [h1, h2]; exact trivial
  · rw [h1, h2]; exact ⟨rfl, hr⟩

theorem findEnum_spelled (q : RegisterPath) (s : Str) :
    FoundSpelled N (findEnumInRegister ix q s) (findEnumInRegister jx q s) := by
  unfold findEnumInRegister
  obtain ⟨h1, h2⟩ | ⟨r, r', h1, h2, home, s', fs, _, _, hr, inner, _, _, hf⟩ := lookup_opt h.registers q
  · rw [h1, h2]; exact trivial
  · rw [h1, h2]
    subst hr
    simp only [RegisterInfo.fieldList, register_parts]
    have := fieldList_spelled hf
    revert this
    generalize r.info.fields.getD [] = l
    generalize fs.getD [] = l'
    intro hl
    induction hl with
    | nil => exact trivial
    | @cons a b _ _ hab _ ih =>
      simp only [List.findSome?_cons, (field_dim hab).2]
      have := findAt_spelled h ((q.newField a.info.name).newEnum s)
      revert this
      generalize (mapGet ix.evs ((q.newField a.info.name).newEnum s)).map
        (fun d => (d, (q.newField a.info.name).newEnum s)) = x
      generalize (mapGet jx.evs ((q.newField a.info.name).newEnum s)).map
        (fun d => (d, (q.newField a.info.name).newEnum s)) = y
      intro hxy
      cases x with
      | none =>
        cases y with
        | none => exact ih
        | some y => exact hxy.elim
      | some x =>
        cases y with
        | none => exact hxy.elim
        | some y => exact hxy

omit h in
theorem resolve_dotted (ix : Index) {ev : EnumeratedValues} {s n : Str} {path q : FieldPath}
    (hr : EnumRef path s q n) : resolveEnum ix ev s path =
      if q = path ∧ some n = ev.name then
        fail (.selfDerived "enumeratedValues" (path.display ++ ['.'] ++ n))
      else .ok ((mapGet ix.evs (q.newEnum n)).map fun d => (d, q.newEnum n)) := by
  obtain ⟨v, rfl, hn, hq⟩ := hr
  have hv : v ≠ [] := by
    rintro rfl
    obtain ⟨_, h⟩ | ⟨_, h⟩ | h := hq
    · exact nomatch h
    · exact nomatch h
    · simp [fieldComponents] at h
  unfold resolveEnum
  rw [splitOn_dotted hn (by simp), List.getLast?_concat, List.dropLast_concat]
  have he : v.isEmpty = false := by
    cases v with
    | nil => exact absurd rfl hv
    | cons => rfl
  simp only [he, Bool.false_eq_true, if_false, (enumFieldPath_iff hv).mpr hq]
  rfl

theorem resolveEnum_spelled (ev : EnumeratedValues) {s s' : Str} {path : FieldPath}
    {home : Option FieldPath} (hat : At home path) (hs : SameRef EnumRef home (some s) (some s')) :
    Together (FoundSpelled N) (resolveEnum ix ev s path) (resolveEnum jx ev s' path) := by
  obtain hs | ⟨k, t, t', q, n, hk, ht, ht', h1, h2⟩ := hs
  · injection hs with hs
    subst hs
    unfold resolveEnum
    cases (splitOn '.' s).getLast? with
    | none => exact .error _ _
    | some dname =>
      simp only
      split
      · exact .ok (findEnum_spelled h _ _)
      · refine Together.bind (.refl (R := (· = ·)) (fun _ => rfl) _) fun a b hab => ?_
        subst hab
        split
        · exact .error _ _
        · exact .ok (findAt_spelled h _)
  · have := hat k hk
    subst this
    injection ht with ht
    injection ht' with ht'
    subst ht; subst ht'
    rw [resolve_dotted ix h1, resolve_dotted jx h2]
    split
    · exact .error _ _
    · exact .ok (findAt_spelled h _)

theorem deriveEnum_spelled : ∀ (n : Nat) (ev : EnumeratedValues) (s s' : Str) (path : FieldPath)
    (home : Option FieldPath), At home path → SameRef EnumRef home (some s) (some s') →
    (∀ m, ev.name = some m → N m) → (s ≠ s' → ¬ N s ∧ ¬ N s') →
    Together (· = ·) (deriveEnumeratedValues ix n ev s path) (deriveEnumeratedValues jx n ev s' path)
  | 0, _, _, _, _, _, _, _, _, _ => .error _ _
  | n + 1, ev, s, s', path, home, hat, hs, hN, hd => by
    unfold deriveEnumeratedValues
    have key : (some s = ev.name) ↔ (some s' = ev.name) := by
      by_cases he : s = s'
      · rw [he]
      · obtain ⟨h1, h2⟩ := hd he
        exact ⟨fun h => absurd (hN s h.symm) h1, fun h => absurd (hN s' h.symm) h2⟩
    by_cases hself : some s = ev.name
    · rw [if_pos hself, if_pos (key.mp hself)]
      exact .error _ _
    · rw [if_neg hself, if_neg (fun h => hself (key.mpr h))]
      refine (resolveEnum_spelled h ev hat hs).bind fun a b hab => ?_
      cases a with
      | none =>
        cases b with
        | none => exact .error _ _
        | some b => exact hab.elim
      | some a =>
        cases b with
        | none => exact hab.elim
        | some b =>
          obtain ⟨o, q⟩ := a
          obtain ⟨o', q'⟩ := b
          obtain ⟨rfl, home', hat', t, ht, rfl, _, hdt⟩ := hab
          simp only
          cases hr : o.derivedFrom with
          | none =>
            rw [hr] at ht
            rw [(sameRef_isNone ht).mp rfl]
            exact .ok rfl
          | some u =>
            rw [hr] at ht hdt
            obtain ⟨u', rfl⟩ := sameRef_some ht
            refine deriveEnum_spelled n _ u u' _ home' hat' ht hN fun hne => ?_
            have := hdt (fun h => hne (Option.some.inj h))
            exact ⟨this u (Or.inl rfl), this u' (Or.inr rfl)⟩

theorem expandEv_spelled (n : Nat) {path : FieldPath} {home : Option FieldPath} (hat : At home path)
    {e e' : EnumeratedValues} (he : EnumSpelled N home e e') :
    Together (· = ·) (expandEv ix n path e) (expandEv jx n path e') := by
  obtain ⟨t, ht, rfl, hN, hdt⟩ := he
  unfold expandEv
  simp only
  cases hr : e.derivedFrom with
  | none =>
    rw [hr] at ht
    rw [(sameRef_isNone ht).mp rfl]
    refine .ok ?_
    cases e
    simp only at hr
    subst hr
    rfl
  | some u =>
    rw [hr] at ht hdt
    obtain ⟨u', rfl⟩ := sameRef_some ht
    refine (deriveEnum_spelled h n { e with derivedFrom := none } u u' path home hat ht hN fun hne => ?_).bind fun a b hab => ?_
    · have := hdt (fun h => hne (Option.some.inj h))
      exact ⟨this u (Or.inl rfl), this u' (Or.inr rfl)⟩
    · rw [hab]; exact .ok rfl

/-! ## Fields -/

/-- The same field, enumerated values spelled for the place where they will be read. -/
def FResolvedSpelled (N : Str → Prop) (x y : Field × Option FieldPath) : Prop :=
  y.2 = x.2 ∧ ∃ es, y.1 = x.1.mapInfo (fun i => { i with enumeratedValues := es }) ∧
    ∃ inner, (∀ b, At inner (x.2.getD b)) ∧ Pairs (EnumSpelled N inner) x.1.info.enumeratedValues es

omit h in
theorem derive_enums (f o : Field) (t : Option Str) (es : List EnumeratedValues) :
    (f.info.enumeratedValues.isEmpty = true →
      Field.deriveFrom f (o.mapInfo fun i => { i with derivedFrom := t, enumeratedValues := es }) =
        (Field.deriveFrom f o).mapInfo (fun i => { i with enumeratedValues := es }) ∧
      (Field.deriveFrom f o).info.enumeratedValues = o.info.enumeratedValues) ∧
    (f.info.enumeratedValues.isEmpty = false →
      Field.deriveFrom f (o.mapInfo fun i => { i with derivedFrom := t, enumeratedValues := es }) =
        Field.deriveFrom f o ∧
      (Field.deriveFrom f o).info.enumeratedValues = f.info.enumeratedValues) := by
  unfold Field.deriveFrom MaybeArray.deriveFrom FieldInfo.deriveFrom
  constructor
  · intro he
    cases f <;> cases o <;> simp only [MaybeArray.info] at he <;> simp only [MaybeArray.mapInfo, he, if_true]
    · exact ⟨trivial, rfl⟩
    · split <;> exact ⟨by trivial, rfl⟩
    · exact ⟨trivial, rfl⟩
    · exact ⟨trivial, rfl⟩
  · intro he
    cases f <;> cases o <;> simp only [MaybeArray.info] at he <;>
      simp only [MaybeArray.mapInfo, he, Bool.false_eq_true, if_false]
    · exact ⟨trivial, rfl⟩
    · split <;> exact ⟨by trivial, rfl⟩
    · exact ⟨trivial, rfl⟩
    · exact ⟨trivial, rfl⟩

omit h in
theorem mapInfo_enums (f : Field) :
    f.mapInfo (fun i => { i with enumeratedValues := f.info.enumeratedValues }) = f := by
  cases f <;> rfl

theorem deriveField_spelled : ∀ (n : Nat) (f : Field) (s s' : Str) (path : RegisterPath)
    (home : Option RegisterPath), At home path → SameRef FieldRef home (some s) (some s') →
    Pairs (EnumSpelled N none) f.info.enumeratedValues f.info.enumeratedValues →
    Together (FResolvedSpelled N) (deriveField ix n f s path) (deriveField jx n f s' path)
  | 0, _, _, _, _, _, _, _, _ => .error _ _
  | n + 1, f, s, s', path, home, hat, hs, hown => by
    unfold deriveField
    refine (parse_same (parse := FieldPath.parseStr) (fun _ _ _ _ => fieldRef_iff) hat hs).bind fun a b hab => ?_
    obtain ⟨h1, h2⟩ := hab
    simp only [h1, h2]
    split
    · exact .error _ _
    · refine (lookup h.fields _ _ _).bind fun o o' ho => ?_
      obtain ⟨home', t, es, hat', ht, rfl, inner, hin, hne, hes⟩ := ho
      rw [field_parts.1]
      cases hd : o.info.derivedFrom with
      | none =>
        rw [hd] at ht
        rw [(sameRef_isNone ht).mp rfl]
        refine .ok ⟨rfl, ?_⟩
        cases he : f.info.enumeratedValues.isEmpty with
        | true =>
          obtain ⟨hd1, hd2⟩ := (derive_enums f o none es).1 he
          refine ⟨es, hd1, inner, fun b => hin, ?_⟩
          simp only [hd2]
          exact hes
        | false =>
          obtain ⟨hd1, hd2⟩ := (derive_enums f o none es).2 he
          refine ⟨(Field.deriveFrom f o).info.enumeratedValues, ?_, none, fun b => at_none _, ?_⟩
          · simp only [hd1, mapInfo_enums]
          · simp only [hd2]; exact hown
      | some u =>
        rw [hd] at ht
        obtain ⟨u', rfl⟩ := sameRef_some ht
        have := hne (by rw [hd]; exact fun h => nomatch h)
        subst this
        have hc := enumsSpelled_none hes
        subst hc
        cases he : f.info.enumeratedValues.isEmpty with
        | true =>
          obtain ⟨hd1, hd2⟩ := (derive_enums f o (some u') o.info.enumeratedValues).1 he
          rw [hd1, ← hd2, mapInfo_enums]
          exact deriveField_spelled n _ u u' _ home' hat' ht (by rw [hd2]; exact hes)
        | false =>
          obtain ⟨hd1, hd2⟩ := (derive_enums f o (some u') o.info.enumeratedValues).2 he
          rw [hd1]
          exact deriveField_spelled n _ u u' _ home' hat' ht (by rw [hd2]; exact hown)

theorem expandField_spelled (oc : Bool) (n : Nat) {path : RegisterPath} {home : Option RegisterPath}
    (hat : At home path) {f f' : Field} (hf : FieldSpelled N home f f') :
    Together (· = ·) (expandField oc ix n path f) (expandField oc jx n path f') := by
  obtain ⟨t, es, ht, rfl, hes⟩ := hf
  unfold expandField
  rw [field_parts.1]
  refine Together.bind (R := fun x y => ∃ es, y.1 = x.1.mapInfo (fun i => { i with enumeratedValues := es }) ∧
    y.2 = x.2 ∧ ∃ inner, At inner (x.2.getD (path.newField x.1.info.name)) ∧
      Pairs (EnumSpelled N inner) x.1.info.enumeratedValues es) ?_ fun a b hab => ?_
  · cases hd : f.info.derivedFrom with
    | none =>
      rw [hd] at ht
      have := (sameRef_isNone ht).mp rfl
      subst this
      refine .ok ⟨es, ?_, rfl, _, ?_, hes⟩
      · cases f with
        | single i => cases i; simp only [MaybeArray.info] at hd; subst hd; rfl
        | array i d => cases i; simp only [MaybeArray.info] at hd; subst hd; rfl
      · intro q hq
        split at hq
        · cases home with
          | none => exact nomatch hq
          | some b =>
            have := hat b rfl
            subst this
            injection hq with hq
            exact hq.symm
        · exact nomatch hq
    | some u =>
      rw [hd] at ht
      rw [hd, if_neg (fun h => nomatch h.1)] at hes
      obtain ⟨u', rfl⟩ := sameRef_some ht
      have := enumsSpelled_none hes
      subst this
      have hmap : ((f.mapInfo fun i => { i with derivedFrom := some u', enumeratedValues := f.info.enumeratedValues }).mapInfo
          fun i => { i with derivedFrom := none }) = f.mapInfo fun i => { i with derivedFrom := none } := by
        cases f <;> rfl
      have hev : (f.mapInfo fun i => { i with derivedFrom := none }).info.enumeratedValues =
          f.info.enumeratedValues := by cases f <;> rfl
      simp only [hmap]
      obtain ⟨x, y, hx, hy, h2, cs, h1, inner, hin, hcs⟩ | ⟨⟨e, hx⟩, e', hy⟩ :=
        deriveField_spelled h n (f.mapInfo fun i => { i with derivedFrom := none }) u u' path home hat ht
          (by rw [hev]; exact hes)
      · exact Or.inl ⟨x, y, hx, hy, cs, h1, h2, inner, hin _, hcs⟩
      · exact Or.inr ⟨⟨e, hx⟩, e', hy⟩
  · obtain ⟨es2, h1, h2, inner, hin, hcs⟩ := hab
    obtain ⟨a1, a2⟩ := a
    obtain ⟨b1, b2⟩ := b
    simp only at h1 h2 hin hcs
    subst h1; subst h2
    have hk : (a1.mapInfo fun i => { i with enumeratedValues := es2 }).info.name = a1.info.name ∧
        (a1.mapInfo fun i => { i with enumeratedValues := es2 }).info.enumeratedValues = es2 := by
      cases a1 <;> exact ⟨rfl, rfl⟩
    simp only [hk]
    have hmap : ∀ l, ((a1.mapInfo fun i => { i with enumeratedValues := es2 }).mapInfo
        fun i => { i with enumeratedValues := l }) = a1.mapInfo fun i => { i with enumeratedValues := l } := by
      intro l; cases a1 <;> rfl
    refine (Together.mapM hcs fun x y hxy => expandEv_spelled h n hin hxy).bind fun l l' hl => ?_
    have := pairs_eq hl
    subst this
    rw [hmap]
    exact .refl (fun _ => rfl) _

/-! ## Registers -/

/-- The same register, fields spelled for the place where they will be read. -/
def RResolvedSpelled (N : Str → Prop) (x y : Register × Option RegisterPath) : Prop :=
  y.2 = x.2 ∧ ∃ fs, y.1 = x.1.mapInfo (fun i => { i with fields := fs }) ∧
    ∃ inner, (∀ b, At inner (x.2.getD b)) ∧ FieldsSpelled N inner x.1.info.fields fs

omit h in
theorem derive_fields (r o : Register) (t : Option Str) (fs : Option (List Field)) :
    (r.info.fields = none →
      Register.deriveFrom r (o.mapInfo fun i => { i with derivedFrom := t, fields := fs }) =
        (Register.deriveFrom r o).mapInfo (fun i => { i with fields := fs }) ∧
      (Register.deriveFrom r o).info.fields = o.info.fields) ∧
    (∀ l, r.info.fields = some l →
      Register.deriveFrom r (o.mapInfo fun i => { i with derivedFrom := t, fields := fs }) =
        Register.deriveFrom r o ∧ (Register.deriveFrom r o).info.fields = some l) := by
  unfold Register.deriveFrom MaybeArray.deriveFrom RegisterInfo.deriveFrom
  constructor
  · intro he
    cases r <;> cases o <;> simp only [MaybeArray.info] at he <;>
      simp only [MaybeArray.mapInfo, he, Option.none_or]
    · exact ⟨trivial, rfl⟩
    · split <;> exact ⟨by trivial, rfl⟩
    · exact ⟨trivial, rfl⟩
    · exact ⟨trivial, rfl⟩
  · intro l he
    cases r <;> cases o <;> simp only [MaybeArray.info] at he <;>
      simp only [MaybeArray.mapInfo, he, Option.some_or]
    · exact ⟨trivial, rfl⟩
    · split <;> exact ⟨by trivial, rfl⟩
    · exact ⟨trivial, rfl⟩
    · exact ⟨trivial, rfl⟩

omit h in
theorem mapInfo_fields (r : Register) : r.mapInfo (fun i => { i with fields := r.info.fields }) = r := by
  cases r <;> rfl

theorem deriveRegister_spelled : ∀ (n : Nat) (r : Register) (s s' : Str) (path : BlockPath)
    (home : Option BlockPath), At home path → SameRef BlockRef home (some s) (some s') →
    FieldsSpelled N none r.info.fields r.info.fields →
    Together (RResolvedSpelled N) (deriveRegister ix n r s path) (deriveRegister jx n r s' path)
  | 0, _, _, _, _, _, _, _, _ => .error _ _
  | n + 1, r, s, s', path, home, hat, hs, hown => by
    unfold deriveRegister
    refine (parse_same (parse := RegisterPath.parseStr) (fun _ _ _ _ => blockRef_iff) hat hs).bind fun a b hab => ?_
    obtain ⟨h1, h2⟩ := hab
    simp only [h1, h2]
    split
    · exact .error _ _
    · refine (lookup h.registers _ _ _).bind fun o o' ho => ?_
      obtain ⟨home', t, fs, hat', ht, rfl, inner, hin, hne, hfs⟩ := ho
      rw [register_parts.1]
      cases hd : o.info.derivedFrom with
      | none =>
        rw [hd] at ht
        rw [(sameRef_isNone ht).mp rfl]
        refine .ok ⟨rfl, ?_⟩
        cases he : r.info.fields with
        | none =>
          obtain ⟨hd1, hd2⟩ := (derive_fields r o none fs).1 he
          refine ⟨fs, hd1, inner, fun b => hin, ?_⟩
          simp only [hd2]
          exact hfs
        | some l =>
          obtain ⟨hd1, hd2⟩ := (derive_fields r o none fs).2 l he
          refine ⟨(Register.deriveFrom r o).info.fields, ?_, none, fun b => at_none _, ?_⟩
          · simp only [hd1, mapInfo_fields]
          · simp only [hd2]; rw [he] at hown; exact hown
      | some u =>
        rw [hd] at ht
        obtain ⟨u', rfl⟩ := sameRef_some ht
        have := hne (by rw [hd]; exact fun h => nomatch h)
        subst this
        have hc := fieldsSpelled_none hfs
        subst hc
        cases he : r.info.fields with
        | none =>
          obtain ⟨hd1, hd2⟩ := (derive_fields r o (some u') o.info.fields).1 he
          rw [hd1, ← hd2, mapInfo_fields]
          exact deriveRegister_spelled n _ u u' _ home' hat' ht (by rw [hd2]; exact hfs)
        | some l =>
          obtain ⟨hd1, hd2⟩ := (derive_fields r o (some u') o.info.fields).2 l he
          rw [hd1]
          exact deriveRegister_spelled n _ u u' _ home' hat' ht (by rw [hd2, ← he]; exact hown)

theorem expandRegister_spelled (oc : Bool) (n : Nat) {path : BlockPath} {home : Option BlockPath}
    (hat : At home path) {r r' : Register} (hr : RegisterSpelled N home r r') :
    Together (· = ·) (expandRegisterArray oc ix n path r) (expandRegisterArray oc jx n path r') := by
  obtain ⟨t, fs, ht, rfl, hf⟩ := hr
  unfold expandRegisterArray
  rw [register_parts.1]
  refine Together.bind (R := fun x y => ∃ fs, y.1 = x.1.mapInfo (fun i => { i with fields := fs }) ∧
    y.2 = x.2 ∧ ∃ inner, At inner (x.2.getD (path.newRegister x.1.info.name)) ∧
      FieldsSpelled N inner x.1.info.fields fs) ?_ fun a b hab => ?_
  · cases hd : r.info.derivedFrom with
    | none =>
      rw [hd] at ht
      have := (sameRef_isNone ht).mp rfl
      subst this
      refine .ok ⟨fs, ?_, rfl, _, ?_, hf⟩
      · cases r with
        | single i => cases i; simp only [MaybeArray.info] at hd; subst hd; rfl
        | array i d => cases i; simp only [MaybeArray.info] at hd; subst hd; rfl
      · intro q hq
        split at hq
        · cases home with
          | none => exact nomatch hq
          | some b =>
            have := hat b rfl
            subst this
            injection hq with hq
            exact hq.symm
        · exact nomatch hq
    | some u =>
      rw [hd] at ht
      rw [hd, if_neg (fun h => nomatch h.1)] at hf
      obtain ⟨u', rfl⟩ := sameRef_some ht
      have := fieldsSpelled_none hf
      subst this
      have hmap : ((r.mapInfo fun i => { i with derivedFrom := some u', fields := r.info.fields }).mapInfo
          fun i => { i with derivedFrom := none }) = r.mapInfo fun i => { i with derivedFrom := none } := by
        cases r <;> rfl
      simp only [hmap]
      obtain ⟨x, y, hx, hy, h2, cs, h1, inner, hin, hcs⟩ | ⟨⟨e, hx⟩, e', hy⟩ :=
        deriveRegister_spelled h n (r.mapInfo fun i => { i with derivedFrom := none }) u u' path home hat ht
          (by rw [show (r.mapInfo fun i => { i with derivedFrom := none }).info.fields = r.info.fields by
                cases r <;> rfl]; exact hf)
      · exact Or.inl ⟨x, y, hx, hy, cs, h1, h2, inner, hin _, hcs⟩
      · exact Or.inr ⟨⟨e, hx⟩, e', hy⟩
  · obtain ⟨fs2, h1, h2, inner, hin, hcs⟩ := hab
    obtain ⟨a1, a2⟩ := a
    obtain ⟨b1, b2⟩ := b
    simp only at h1 h2 hin hcs
    subst h1; subst h2
    have hk : (a1.mapInfo fun i => { i with fields := fs2 }).info.name = a1.info.name ∧
        (a1.mapInfo fun i => { i with fields := fs2 }).info.fields = fs2 := by
      cases a1 <;> exact ⟨rfl, rfl⟩
    simp only [hk]
    have hmap : ∀ l, ((a1.mapInfo fun i => { i with fields := fs2 }).mapInfo
        fun i => { i with fields := l }) = a1.mapInfo fun i => { i with fields := l } := by
      intro l; cases a1 <;> rfl
    refine Together.bind (R := (· = ·)) ?_ fun l l' hl => ?_
    · cases hr : a1.info.fields with
      | none =>
        rw [hr] at hcs
        cases fs2 with
        | none => exact .ok rfl
        | some l => exact hcs.elim
      | some l =>
        rw [hr] at hcs
        cases fs2 with
        | none => exact hcs.elim
        | some l' =>
          refine (Together.mapM hcs fun x y hxy => expandField_spelled h oc n hin hxy).bind
            fun l l' hl => ?_
          rw [pairs_eq hl]
          exact .ok rfl
    · subst hl
      rw [hmap]
      exact .refl (fun _ => rfl) _

/-! ## Clusters -/

/-- The same cluster, children spelled for the place where they will be read. -/
def ResolvedSpelled (N : Str → Prop) (x y : Cluster × Option BlockPath) : Prop :=
  y.2 = x.2 ∧ ∃ cs, y.1 = x.1.mapInfo (fun i => { i with children := cs }) ∧
    ∃ inner, (∀ b, At inner (x.2.getD b)) ∧ RcsSpelled N inner x.1.info.children cs

omit h in
theorem derive_children (c o : Cluster) (t : Option Str) (cs : List RegisterCluster) :
    (c.info.children.isEmpty = true →
      Cluster.deriveFrom c (o.mapInfo fun i => { i with derivedFrom := t, children := cs }) =
        (Cluster.deriveFrom c o).mapInfo (fun i => { i with children := cs }) ∧
      (Cluster.deriveFrom c o).info.children = o.info.children) ∧
    (c.info.children.isEmpty = false →
      Cluster.deriveFrom c (o.mapInfo fun i => { i with derivedFrom := t, children := cs }) =
        Cluster.deriveFrom c o ∧ (Cluster.deriveFrom c o).info.children = c.info.children) := by
  unfold Cluster.deriveFrom MaybeArray.deriveFrom ClusterInfo.deriveFrom
  constructor
  · intro he
    cases c <;> cases o <;> simp only [MaybeArray.info] at he <;> simp only [MaybeArray.mapInfo, he, if_true]
    · exact ⟨trivial, rfl⟩
    · split <;> exact ⟨by trivial, rfl⟩
    · exact ⟨trivial, rfl⟩
    · exact ⟨trivial, rfl⟩
  · intro he
    cases c <;> cases o <;> simp only [MaybeArray.info] at he <;>
      simp only [MaybeArray.mapInfo, he, Bool.false_eq_true, if_false]
    · exact ⟨trivial, rfl⟩
    · split <;> exact ⟨by trivial, rfl⟩
    · exact ⟨trivial, rfl⟩
    · exact ⟨trivial, rfl⟩

omit h in
theorem mapInfo_children (c : Cluster) : c.mapInfo (fun i => { i with children := c.info.children }) = c := by
  cases c <;> rfl

theorem deriveCluster_spelled : ∀ (n : Nat) (c : Cluster) (s s' : Str) (path : BlockPath)
    (home : Option BlockPath), At home path → SameRef BlockRef home (some s) (some s') →
    RcsSpelled N none c.info.children c.info.children →
    Together (ResolvedSpelled N) (deriveCluster ix n c s path) (deriveCluster jx n c s' path)
  | 0, _, _, _, _, _, _, _, _ => .error _ _
  | n + 1, c, s, s', path, home, hat, hs, hown => by
    unfold deriveCluster
    refine (parse_same (parse := BlockPath.parseStr) (fun _ _ _ _ => blockRef_iff) hat hs).bind fun a b hab => ?_
    obtain ⟨h1, h2⟩ := hab
    simp only [h1, h2]
    split
    · exact .error _ _
    · refine (lookup h.clusters _ _ _).bind fun o o' ho => ?_
      obtain ⟨home', cs, t, hat', ht, rfl, inner, hin, hne, hcs⟩ := ho
      have href : (o.mapInfo fun i => { i with derivedFrom := t, children := cs }).info.derivedFrom = t := by
        cases o <;> rfl
      rw [href]
      cases hd : o.info.derivedFrom with
      | none =>
        rw [hd] at ht
        rw [(sameRef_isNone ht).mp rfl]
        refine .ok ⟨rfl, ?_⟩
        cases he : c.info.children.isEmpty with
        | true =>
          obtain ⟨hd1, hd2⟩ := (derive_children c o none cs).1 he
          refine ⟨cs, hd1, inner, fun b => hin, ?_⟩
          simp only [hd2]
          exact hcs
        | false =>
          obtain ⟨hd1, hd2⟩ := (derive_children c o none cs).2 he
          refine ⟨(Cluster.deriveFrom c o).info.children, ?_, none, fun b => at_none _, ?_⟩
          · simp only [hd1, mapInfo_children]
          · simp only [hd2]; exact hown
      | some u =>
        rw [hd] at ht
        obtain ⟨u', rfl⟩ := sameRef_some ht
        have := hne (by rw [hd]; exact fun h => nomatch h)
        subst this
        have hc := rcsSpelled_none hcs
        subst hc
        have hat2 := hat'
        simp only [BlockPath.newCluster, List.dropLast_concat] at hat2
        cases he : c.info.children.isEmpty with
        | true =>
          obtain ⟨hd1, hd2⟩ := (derive_children c o (some u') o.info.children).1 he
          rw [hd1, ← hd2, mapInfo_children]
          exact deriveCluster_spelled n _ u u' _ home' hat2 ht (by rw [hd2]; exact hcs)
        | false =>
          obtain ⟨hd1, hd2⟩ := (derive_children c o (some u') o.info.children).2 he
          rw [hd1]
          exact deriveCluster_spelled n _ u u' _ home' hat2 ht (by rw [hd2]; exact hown)

theorem expandRC_spelled (oc : Bool) : ∀ (n : Nat) {path : BlockPath} {home : Option BlockPath}
    {c c' : RegisterCluster}, At home path → RcSpelled N home c c' →
    Together (· = ·) (expandRC oc ix n path c) (expandRC oc jx n path c')
  | 0, _, _, _, _, _, _ => by unfold expandRC; exact .error _ _
  | n + 1, path, home, .register r, .register r', hat, hh => by
    unfold RcSpelled at hh
    unfold expandRC
    exact expandRegister_spelled h oc (n + 1) hat hh
  | _ + 1, _, _, .register _, .cluster .., _, hh => by unfold RcSpelled at hh; exact hh.elim
  | _ + 1, _, _, .cluster .., .register _, _, hh => by unfold RcSpelled at hh; exact hh.elim
  | n + 1, path, home, .cluster hd d cs, .cluster hd' d' cs', hat, hh => by
    unfold RcSpelled at hh
    obtain ⟨rfl, hs, hhd, hc⟩ := hh
    have hname : hd'.name = hd.name := by rw [hhd]
    unfold expandRC
    refine Together.bind (R := fun x y => ∃ cs, y.1 = x.1.mapInfo (fun i => { i with children := cs }) ∧
      y.2 = x.2 ∧ ∃ inner, At inner (x.2.getD (path.newCluster x.1.info.name)) ∧
        RcsSpelled N inner x.1.info.children cs) ?_ fun a b hab => ?_
    · cases hr : hd.derivedFrom with
      | none =>
        rw [hr] at hs hc
        rw [(sameRef_isNone hs).mp rfl]
        refine .ok ⟨cs', ?_, rfl, if none = (none : Option Str) ∧ d' = none then
          home.map fun b => ⟨b.peripheral, b.path ++ [hd.name]⟩ else none, ?_, ?_⟩
        rotate_left 2
        · cases d' <;> exact hc
        · rw [hhd]; cases d' <;> rfl
        · intro q hq
          cases d' with
          | some x => simp at hq
          | none =>
            simp only [and_self, if_true] at hq
            cases home with
            | none => exact nomatch hq
            | some b =>
              have := hat b rfl
              subst this
              injection hq with hq
              exact hq.symm
      | some u =>
        rw [hr] at hs hc
        obtain ⟨u', hu⟩ := sameRef_some hs
        rw [hu] at hs ⊢
        rw [if_neg (fun h => nomatch h.1)] at hc
        have := rcsSpelled_none hc
        subst this
        have hsame : ({ hd' with derivedFrom := none, children := cs' } : ClusterInfo) =
            { hd with derivedFrom := none, children := cs' } := by rw [hhd]
        rw [hsame]
        obtain ⟨x, y, hx, hy, h2, cs, h1, inner, hin, hcs⟩ | ⟨⟨e, hx⟩, e', hy⟩ :=
          deriveCluster_spelled h (n + 1)
            (MaybeArray.mk' ({ hd with derivedFrom := none, children := cs' } : ClusterInfo) d') u u' path home hat hs
            (by cases d' <;> exact hc)
        · exact Or.inl ⟨x, y, hx, hy, cs, h1, h2, inner, hin _, hcs⟩
        · exact Or.inr ⟨⟨e, hx⟩, e', hy⟩
    · obtain ⟨cs2, h1, h2, inner, hin, hcs⟩ := hab
      obtain ⟨a1, a2⟩ := a
      obtain ⟨b1, b2⟩ := b
      simp only at h1 h2 hin hcs
      subst h1; subst h2
      have hk : (a1.mapInfo fun i => { i with children := cs2 }).info.name = a1.info.name ∧
          (a1.mapInfo fun i => { i with children := cs2 }).info.children = cs2 := by
        cases a1 <;> exact ⟨rfl, rfl⟩
      simp only [hk]
      refine (Together.mapM (rcsSpelled_pairs hcs) fun x y hxy => expandRC_spelled oc n hin hxy).bind
        fun l l' hl => ?_
      have := pairs_eq hl
      subst this
      have : ((a1.mapInfo fun i => { i with children := cs2 }).mapInfo
          fun i => { i with children := l.flatten }) = a1.mapInfo fun i => { i with children := l.flatten } := by
        cases a1 <;> rfl
      rw [this]
      exact .refl (fun _ => rfl) _

/-! ## Peripherals -/

/-- The same peripheral, registers spelled for the place where they will be read. -/
def PResolvedSpelled (N : Str → Prop) (x y : Peripheral × Option BlockPath) : Prop :=
  y.2 = x.2 ∧ ∃ rs, y.1 = x.1.mapInfo (fun i => { i with registers := rs }) ∧
    ∃ inner, (∀ b, At inner (x.2.getD b)) ∧
      ChildrenSpelled N inner x.1.info.registers rs

omit h in
theorem derive_registers (p o : Peripheral) (rs : Option (List RegisterCluster)) :
    (p.info.registers = none →
      Peripheral.deriveFrom p (o.mapInfo fun i => { i with registers := rs }) =
        (Peripheral.deriveFrom p o).mapInfo (fun i => { i with registers := rs }) ∧
      (Peripheral.deriveFrom p o).info.registers = o.info.registers) ∧
    (∀ l, p.info.registers = some l →
      Peripheral.deriveFrom p (o.mapInfo fun i => { i with registers := rs }) =
        Peripheral.deriveFrom p o ∧ (Peripheral.deriveFrom p o).info.registers = some l) := by
  unfold Peripheral.deriveFrom MaybeArray.deriveFrom PeripheralInfo.deriveFrom
  constructor
  · intro he
    cases p <;> cases o <;> simp only [MaybeArray.info] at he <;>
      simp only [MaybeArray.mapInfo, he, Option.none_or]
    · exact ⟨trivial, rfl⟩
    · split <;> exact ⟨by trivial, rfl⟩
    · exact ⟨trivial, rfl⟩
    · exact ⟨trivial, rfl⟩
  · intro l he
    cases p <;> cases o <;> simp only [MaybeArray.info] at he <;>
      simp only [MaybeArray.mapInfo, he, Option.some_or]
    · exact ⟨trivial, rfl⟩
    · split <;> exact ⟨by trivial, rfl⟩
    · exact ⟨trivial, rfl⟩
    · exact ⟨trivial, rfl⟩

omit h in
theorem mapInfo_registers (p : Peripheral) :
    p.mapInfo (fun i => { i with registers := p.info.registers }) = p := by
  cases p <;> rfl

theorem derivePeripheral_spelled : ∀ (n : Nat) (p : Peripheral) (s : Str),
    ChildrenSpelled N none p.info.registers p.info.registers →
    Together (PResolvedSpelled N) (derivePeripheral ix n p s) (derivePeripheral jx n p s)
  | 0, _, _, _ => .error _ _
  | n + 1, p, s, hown => by
    unfold derivePeripheral
    split
    · exact .error _ _
    · refine (lookup h.peripherals _ _ _).bind fun o o' ho => ?_
      obtain ⟨rs, rfl, inner, hin, hne, hm⟩ := ho
      rw [peripheral_names.2.2.1]
      cases hd : o.info.derivedFrom with
      | none =>
        refine .ok ⟨rfl, ?_⟩
        cases he : p.info.registers with
        | none =>
          obtain ⟨hd1, hd2⟩ := (derive_registers p o rs).1 he
          refine ⟨rs, hd1, inner, fun b => hin, ?_⟩
          simp only [hd2]
          exact hm
        | some l =>
          obtain ⟨hd1, hd2⟩ := (derive_registers p o rs).2 l he
          refine ⟨(Peripheral.deriveFrom p o).info.registers, ?_, none, fun b => at_none _, ?_⟩
          · simp only [hd1, mapInfo_registers]
          · simp only [hd2]; rw [he] at hown; exact hown
      | some u =>
        have := hne (by rw [hd]; exact fun h => nomatch h)
        subst this
        have hrs : rs = o.info.registers := by
          cases hr : o.info.registers with
          | none =>
            rw [hr] at hm
            cases rs with
            | none => rfl
            | some l => exact hm.elim
          | some l =>
            rw [hr] at hm
            cases rs with
            | none => exact hm.elim
            | some l' => exact congrArg some (rcsSpelled_none hm)
        subst hrs
        rw [mapInfo_registers]
        cases he : p.info.registers with
        | none =>
          obtain ⟨_, hd2⟩ := (derive_registers p o none).1 he
          exact derivePeripheral_spelled n _ u (by rw [hd2]; exact hm)
        | some l =>
          obtain ⟨_, hd2⟩ := (derive_registers p o none).2 l he
          exact derivePeripheral_spelled n _ u (by rw [hd2, ← he]; exact hown)

theorem expandPeripheral_spelled (oc : Bool) (n : Nat) {p p' : Peripheral} (hp : PeripheralSpelled N p p') :
    Together (· = ·) (expandPeripheral oc ix n p) (expandPeripheral oc jx n p') := by
  obtain ⟨rs, rfl, hm⟩ := hp
  unfold expandPeripheral
  rw [peripheral_names.2.2.1]
  refine Together.bind (R := fun x y => ∃ rs, y.1 = x.1.mapInfo (fun i => { i with registers := rs }) ∧
    y.2 = x.2 ∧ ∃ inner, At inner (x.2.getD (BlockPath.new x.1.info.name)) ∧
      ChildrenSpelled N inner x.1.info.registers rs) ?_ fun a b hab => ?_
  · cases hr : p.info.derivedFrom with
    | none =>
      refine .ok ⟨rs, rfl, rfl, _, ?_, hm⟩
      intro q hq
      split at hq
      · injection hq with hq
        exact hq.symm
      · exact nomatch hq
    | some u =>
      rw [hr, if_neg (fun h => nomatch h.1)] at hm
      have hrs : rs = p.info.registers := by
        cases hr : p.info.registers with
        | none =>
          rw [hr] at hm
          cases rs with
          | none => rfl
          | some l => exact hm.elim
        | some l =>
          rw [hr] at hm
          cases rs with
          | none => exact hm.elim
          | some l' => exact congrArg some (rcsSpelled_none hm)
      subst hrs
      rw [mapInfo_registers]
      obtain ⟨x, y, hx, hy, h2, cs, h1, inner, hin, hcs⟩ | ⟨⟨e, hx⟩, e', hy⟩ :=
        derivePeripheral_spelled h n (p.mapInfo fun i => { i with derivedFrom := none }) u
          (by rw [show (p.mapInfo fun i => { i with derivedFrom := none }).info.registers = p.info.registers by
                cases p <;> rfl]; exact hm)
      · exact Or.inl ⟨x, y, hx, hy, cs, h1, h2, inner, hin _, hcs⟩
      · exact Or.inr ⟨⟨e, hx⟩, e', hy⟩
  · obtain ⟨rs2, h1, h2, inner, hin, hcs⟩ := hab
    obtain ⟨a1, a2⟩ := a
    obtain ⟨b1, b2⟩ := b
    simp only at h1 h2 hin hcs
    subst h1; subst h2
    simp only [peripheral_names]
    have hmap : ∀ l, ((a1.mapInfo fun i => { i with registers := rs2 }).mapInfo
        fun i => { i with registers := l }) = a1.mapInfo fun i => { i with registers := l } := by
      intro l; cases a1 <;> rfl
    refine Together.bind (R := (· = ·)) ?_ fun l l' hl => ?_
    · cases hr : a1.info.registers with
      | none =>
        rw [hr] at hcs
        cases rs2 with
        | none => exact .ok rfl
        | some l => exact hcs.elim
      | some l =>
        rw [hr] at hcs
        cases rs2 with
        | none => exact hcs.elim
        | some l' =>
          refine (Together.mapM (rcsSpelled_pairs hcs) fun x y hxy => expandRC_spelled h oc n hin hxy).bind
            fun l l' hl => ?_
          rw [pairs_eq hl]
          exact .ok rfl
    · subst hl
      rw [hmap]
      exact .refl (fun _ => rfl) _

end

theorem expand_spelled (oc : Bool) (n : Nat) {d e : Device} (h : DeviceSpelled N d e) :
    Together (· = ·) (expand oc n d) (expand oc n e) := by
  unfold expand
  refine (create_spelled h).bind fun ix jx hix => ?_
  obtain ⟨ps, rfl, hps⟩ := h
  refine (Together.mapM hps fun p p' hp => expandPeripheral_spelled hix oc n hp).bind fun l l' hl => ?_
  rw [pairs_eq hl]
  exact .ok rfl

end Spelled

/-- **C90.** A field, register or cluster may refer to a neighbour by its name alone or by its full path,
and a group of enumerated values to one in another field by the names from the field on, from the register
on, or by the full path: expansion gives the same device, with and without overflow checks, and follows
equally many references.  `N` is any set of names that contains those of all groups of enumerated values. -/
theorem C90_spelling (N : Str → Prop) (oc : Bool) (fuel : Nat) {d e : Device} (h : DeviceSpelled N d e) (d' : Device) :
    expand oc fuel d = .ok d' ↔ expand oc fuel e = .ok d' :=
  (Spelled.expand_spelled oc fuel h).same d'

/-- Registers, a cluster with registers and a cluster with a reference, in a peripheral from which another
one derives; `r`, `s`, `c`, `f` and `e` are the references of a register, of a register in the cluster, of
a cluster, of a field and of a group of enumerated values. -/
def Sample.spelledDevice (r s c f e : String) : Device := Sample.device
  [.single (Sample.peripheralInfo "A" 0x1000 none (some
     [.register (.single (Sample.registerInfo "R" 0 none (some
        [.single (Sample.fieldInfo "F" 0 none [⟨some "E".toList, none, none, []⟩]),
         .single (Sample.fieldInfo "G" 1 (some f)),
         .single (Sample.fieldInfo "H" 2 none [⟨some "D".toList, none, some e.toList, []⟩])]))),
      .register (.single (Sample.registerInfo "S" 4 (some r))),
      .cluster (Sample.clusterHead "C" 0x10) none
        [.register (.single (Sample.registerInfo "R" 0)),
         .register (.single (Sample.registerInfo "S" 4 (some s)))],
      .cluster (Sample.clusterHead "D" 0x20 (some c)) none []])),
   .single (Sample.peripheralInfo "B" 0x2000 (some "A"))]

theorem Sample.spelled : DeviceSpelled ('.' ∉ ·) (Sample.spelledDevice "R" "A.C.R" "C" "F" "F.E")
    (Sample.spelledDevice "A.R" "R" "A.C" "A.R.F" "A.R.F.E") := by
  refine ⟨_, rfl, .cons ⟨_, rfl, ?_⟩ (.cons ⟨_, rfl, trivial⟩ .nil)⟩
  refine ⟨⟨none, _, Or.inl rfl, rfl,
      .cons ⟨none, _, Or.inl rfl, rfl, .cons ⟨none, Or.inl rfl, rfl, ?_, fun h => absurd rfl h⟩ .nil⟩
        (.cons ⟨_, [], Or.inr ?_, rfl, .nil⟩
          (.cons ⟨none, _, Or.inl rfl, rfl, .cons ⟨_, Or.inr ?_, rfl, ?_, ?_⟩ .nil⟩ .nil))⟩,
    ⟨some "A.R".toList, none, Or.inr ?_, rfl, trivial⟩, ⟨rfl, Or.inl rfl, rfl, ?_⟩,
    ⟨rfl, Or.inr ?_, rfl, rfl⟩, rfl⟩
  · intro n hn
    cases hn
    decide
  · exact ⟨⟨⟨"A".toList, []⟩, "R".toList⟩, _, "A.R.F".toList, ⟨⟨"A".toList, []⟩, "R".toList⟩, "F".toList, rfl, rfl,
      rfl, Or.inl ⟨by decide, rfl, rfl⟩, Or.inr ⟨by decide, by unfold NoDots; decide⟩⟩
  · exact ⟨⟨⟨⟨"A".toList, []⟩, "R".toList⟩, "H".toList⟩, _, "A.R.F.E".toList,
      ⟨⟨⟨"A".toList, []⟩, "R".toList⟩, "F".toList⟩, "E".toList, rfl, rfl, rfl,
      ⟨["F".toList], by decide, by unfold NoDots; decide, Or.inl ⟨rfl, rfl⟩⟩,
      ⟨["A".toList, "R".toList, "F".toList], by decide, by unfold NoDots; decide, Or.inr (Or.inr rfl)⟩⟩
  · intro n hn
    cases hn
    decide
  · intro _ t ht
    obtain ht | ht := ht <;> cases ht <;> decide
  · exact ⟨⟨"A".toList, []⟩, _, _, ⟨"A".toList, []⟩, "R".toList, rfl, rfl, rfl,
      Or.inl ⟨by decide, rfl, rfl⟩, Or.inr ⟨by decide, by unfold NoDots; decide⟩⟩
  · refine ⟨⟨none, none, Or.inl rfl, rfl, trivial⟩, ⟨some "R".toList, none, Or.inr ?_, rfl, trivial⟩, rfl⟩
    exact ⟨⟨"A".toList, ["C".toList]⟩, _, _, ⟨"A".toList, ["C".toList]⟩, "R".toList, rfl, rfl, rfl,
      Or.inr ⟨by decide, by unfold NoDots; decide⟩, Or.inl ⟨by decide, rfl, rfl⟩⟩
  · exact ⟨⟨"A".toList, []⟩, _, _, ⟨"A".toList, []⟩, "C".toList, rfl, rfl, rfl,
      Or.inl ⟨by decide, rfl, rfl⟩, Or.inr ⟨by decide, by unfold NoDots; decide⟩⟩

example : ∃ d', expand true 6 (Sample.spelledDevice "R" "A.C.R" "C" "F" "F.E") = .ok d' ∧
    expand true 6 (Sample.spelledDevice "A.R" "R" "A.C" "A.R.F" "A.R.F.E") = .ok d' := by
  obtain ⟨d', h⟩ := ok_of_isOk (x := expand true 6 (Sample.spelledDevice "R" "A.C.R" "C" "F" "F.E"))
    (by decide +kernel)
  exact ⟨d', h, (C90_spelling _ true 6 Sample.spelled d').mp h⟩

/-- A derives from B, B from C; only B has registers, and S refers to R beside it, by `s`. -/
def Sample.spelledLost (s : String) : Device := Sample.device
  [.single (Sample.peripheralInfo "A" 0x1000 (some "B")),
   .single (Sample.peripheralInfo "B" 0x2000 (some "C") (some
     [.register (.single (Sample.registerInfo "R" 0)),
      .register (.single (Sample.registerInfo "S" 4 (some s)))])),
   .single (Sample.peripheralInfo "C" 0x3000)]

/-- **C90.** In a peripheral that has a reference itself the spelling matters: if another peripheral takes
its registers, the bare name is not found, but the full path is. -/
theorem C90_limit : (∃ d', expand true 6 (Sample.spelledLost "B.R") = .ok d') ∧
    ∀ fuel d', expand true fuel (Sample.spelledLost "R") ≠ .ok d' := by
  constructor
  · exact ok_of_isOk (by decide +kernel)
  · intro fuel d' h
    exact C56_home_lost.2 ⟨d', (C56_expansion _ _).mp ⟨fuel, h⟩⟩

/-- A group of enumerated values with a dot in its name that refers, by `e`, to one in another field. -/
def Sample.dottedName (e : String) : Device := Sample.device
  [.single (Sample.peripheralInfo "P" 0x1000 none (some
     [.register (.single (Sample.registerInfo "R" 0 none (some
        [.single (Sample.fieldInfo "F" 0 none [⟨some "E".toList, none, none, []⟩]),
         .single (Sample.fieldInfo "G" 1 none [⟨some "F.E".toList, none, some e.toList, []⟩])])))]))]

/-- **C90.** A group named like the reference, dots included, takes it for itself, but not the full path. -/
theorem C90_dotted_name : (∃ d', expand true 6 (Sample.dottedName "P.R.F.E") = .ok d') ∧
    expand true 6 (Sample.dottedName "F.E") =
      .error (.err (.selfDerived "enumeratedValues" "P.R.G.F.E".toList)) := by
  constructor
  · exact ok_of_isOk (by decide +kernel)
  · decide +kernel

end Svd
