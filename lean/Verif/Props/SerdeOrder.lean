import Verif.Props.Serde

/-! # The order of entries does not matter -/

namespace Svd

open Spec

/-! ## Entries -/

/-- The same entries up to order, at every level. -/
def SameEntries (es es' : Entries) : Prop := ∃ es'', ReorderedEntries es es'' ∧ es''.Perm es'

/-- A function of a value does not depend on the order of entries. -/
def Respects {β : Type} (f : Val → β) : Prop := ∀ v w, Reordered v w → f v = f w

theorem reordered_hits (k : String) : ∀ {es es' : Entries}, ReorderedEntries es es' →
    ReorderedList (hits k es) (hits k es')
  | [], es', h => by
    rw [ReorderedEntries] at h
    subst h
    simp [hits, ReorderedList]
  | (k', v) :: es, es', h => by
    rw [ReorderedEntries] at h
    obtain ⟨w, r, rfl, h1, h2⟩ := h
    have ih := reordered_hits k h2
    by_cases hk : k' = k
    · simp only [hits, List.filter_cons, hk, beq_self_eq_true, if_true, List.map_cons]
      rw [ReorderedList]
      exact ⟨w, _, rfl, h1, ih⟩
    · have hk' : (k' == k) = false := by simpa using hk
      simpa [hits, List.filter_cons, hk'] using ih

theorem reordered_rest (own : List String) : ∀ {es es' : Entries}, ReorderedEntries es es' →
    ReorderedEntries (rest own es) (rest own es')
  | [], es', h => by
    rw [ReorderedEntries] at h
    subst h
    simp [rest, ReorderedEntries]
  | (k, v) :: es, es', h => by
    rw [ReorderedEntries] at h
    obtain ⟨w, r, rfl, h1, h2⟩ := h
    have ih := reordered_rest own h2
    by_cases hk : (!own.contains k) = true
    · simp only [rest, List.filter_cons, hk, if_true]
      rw [ReorderedEntries]
      exact ⟨w, _, rfl, h1, ih⟩
    · simp only [rest, List.filter_cons, hk]
      simpa [rest] using ih

theorem SameEntries.rest {es es' : Entries} (h : SameEntries es es') (own : List String) :
    SameEntries (rest own es) (rest own es') := by
  obtain ⟨es'', h1, h2⟩ := h
  exact ⟨Svd.rest own es'', reordered_rest own h1, h2.filter _⟩

theorem SameEntries.hits {es es' : Entries} (h : SameEntries es es') (k : String) :
    ∃ l, ReorderedList (hits k es) l ∧ l.Perm (hits k es') := by
  obtain ⟨es'', h1, h2⟩ := h
  exact ⟨Svd.hits k es'', reordered_hits k h1, (h2.filter _).map _⟩

theorem reordered_length : ∀ {l l' : List Val}, ReorderedList l l' → l.length = l'.length
  | [], l', h => by
    rw [ReorderedList] at h
    rw [h]
  | v :: l, l', h => by
    rw [ReorderedList] at h
    obtain ⟨w, r, rfl, _, h2⟩ := h
    rw [List.length_cons, List.length_cons, reordered_length h2]

/-- Either the key is missing in both, or it is there once in both, or more often in both. -/
theorem SameEntries.cases {es es' : Entries} (h : SameEntries es es') (k : String) :
    (Svd.hits k es = [] ∧ Svd.hits k es' = []) ∨
      (∃ v w, Svd.hits k es = [v] ∧ Svd.hits k es' = [w] ∧ Reordered v w) ∨
      (2 ≤ (Svd.hits k es).length ∧ 2 ≤ (Svd.hits k es').length) := by
  obtain ⟨l, h1, h2⟩ := h.hits k
  have hl := reordered_length h1
  have hl' := h2.length_eq
  generalize Svd.hits k es = a at *
  generalize Svd.hits k es' = b at *
  match a, b with
  | [], [] => exact .inl ⟨rfl, rfl⟩
  | [], w :: b => simp only [List.length_nil, List.length_cons] at hl hl'; omega
  | [v], [] => simp only [List.length_nil, List.length_cons] at hl hl'; omega
  | [v], [w] =>
    right; left
    have : l = [w] := List.perm_singleton.mp h2
    subst this
    rw [ReorderedList] at h1
    obtain ⟨w', r, h3, h4, h5⟩ := h1
    injection h3 with h3 h6
    subst h3
    exact ⟨v, w, rfl, rfl, h4⟩
  | [v], w :: w' :: b => simp only [List.length_nil, List.length_cons] at hl hl'; omega
  | v :: v' :: a, [] => simp only [List.length_nil, List.length_cons] at hl hl'; omega
  | v :: v' :: a, [w] => simp only [List.length_nil, List.length_cons] at hl hl'; omega
  | v :: v' :: a, w :: w' :: b => right; right; simp

theorem req_same {α : Type} {es es' : Entries} {de : Val → M α} (h : SameEntries es es') (hd : Respects de)
    (k : String) : reqField de k es = reqField de k es' := by
  unfold reqField
  rcases h.cases k with ⟨h1, h2⟩ | ⟨v, w, h1, h2, h3⟩ | ⟨h1, h2⟩
  · rw [h1, h2]
  · rw [h1, h2]
    exact hd _ _ h3
  · generalize hits k es = a at *
    generalize hits k es' = b at *
    match a, b with
    | _ :: _ :: _, _ :: _ :: _ => rfl

theorem reordered_null {v w : Val} (h : Reordered v w) : v = .null ↔ w = .null := by
  cases v <;> simp only [Reordered] at h
  case arr => obtain ⟨_, rfl, _⟩ := h; simp
  case obj => obtain ⟨_, _, rfl, _⟩ := h; simp
  all_goals subst h; simp

theorem opt_same' {α : Type} {es es' : Entries} {de : Val → M α} (h : SameEntries es es') (hd : Respects de)
    (k : String) : optField de k es = optField de k es' := by
  unfold optField
  rcases h.cases k with ⟨h1, h2⟩ | ⟨v, w, h1, h2, h3⟩ | ⟨h1, h2⟩
  · rw [h1, h2]
  · rw [h1, h2]
    by_cases hv : v = .null
    · rw [hv, (reordered_null h3).mp hv]
    · have hw : w ≠ .null := fun hw => hv ((reordered_null h3).mpr hw)
      have := hd _ _ h3
      cases v <;> cases w <;> simp_all
  · generalize hits k es = a at *
    generalize hits k es' = b at *
    match a, b with
    | v :: _ :: _, w :: _ :: _ => cases v <;> cases w <;> rfl

theorem list_same' {α : Type} {es es' : Entries} {de : Val → M (List α)} (h : SameEntries es es') (hd : Respects de)
    (k : String) : listField de k es = listField de k es' := by
  unfold listField
  rcases h.cases k with ⟨h1, h2⟩ | ⟨v, w, h1, h2, h3⟩ | ⟨h1, h2⟩
  · rw [h1, h2]
  · rw [h1, h2]
    exact hd _ _ h3
  · generalize hits k es = a at *
    generalize hits k es' = b at *
    match a, b with
    | _ :: _ :: _, _ :: _ :: _ => rfl

/-! ## Leaves -/

theorem order_leaf {β : Type} {f : Val → β} (ha : ∀ l l', f (.arr l) = f (.arr l'))
    (ho : ∀ es es', f (.obj es) = f (.obj es')) : Respects f := by
  intro v w h
  cases v <;> simp only [Reordered] at h
  case arr => obtain ⟨l, rfl, _⟩ := h; exact ha _ _
  case obj => obtain ⟨_, _, rfl, _⟩ := h; exact ho _ _
  all_goals rw [h]

theorem order_str : Respects deStr := order_leaf (fun _ _ => rfl) fun _ _ => rfl
theorem order_bool : Respects deBool := order_leaf (fun _ _ => rfl) fun _ _ => rfl
theorem order_int (n : Nat) : Respects (deInt n) := order_leaf (fun _ _ => rfl) fun _ _ => rfl
theorem order_unit {α : Type} (all : List α) (name : α → String) : Respects (deUnit all name) :=
  order_leaf (fun _ _ => rfl) fun _ _ => rfl
theorem order_access : Respects deAccess := order_unit _ _
theorem order_usage : Respects deUsage := order_unit _ _
theorem order_protection : Respects deProtection := order_unit _ _
theorem order_endian : Respects deEndian := order_unit _ _
theorem order_readAction : Respects deReadAction := order_unit _ _
theorem order_modified : Respects deModified := order_unit _ _
theorem order_dataType : Respects deDataType := order_unit _ _
theorem order_blockUsage : Respects deBlockUsage := order_unit _ _

theorem order_list {α : Type} {de : Val → M α} (hd : Respects de) : Respects (deList de) := by
  have h : ∀ l l', ReorderedList l l' → l.mapM de = l'.mapM de := by
    intro l
    induction l with
    | nil =>
      intro l' h
      rw [ReorderedList] at h
      rw [h]
    | cons v l ih =>
      intro l' h
      rw [ReorderedList] at h
      obtain ⟨w, r, rfl, h1, h2⟩ := h
      rw [mapM_cons, mapM_cons, hd _ _ h1, ih _ h2]
  intro v w hv
  cases v <;> simp only [Reordered] at hv
  case arr => obtain ⟨l, rfl, hl⟩ := hv; exact h _ _ hl
  case obj => obtain ⟨_, _, rfl, _⟩ := hv; rfl
  all_goals rw [hv]

theorem order_struct {α : Type} {de : Entries → M α} (h : ∀ es es', SameEntries es es' → de es = de es') :
    Respects (deStruct de) := by
  intro v w hv
  cases v <;> simp only [Reordered] at hv
  case arr => obtain ⟨l, rfl, _⟩ := hv; rfl
  case obj => obtain ⟨es', es'', rfl, h1, h2⟩ := hv; exact h _ _ ⟨es'', h1, h2⟩
  all_goals rw [hv]

/-- A map with one entry stays a map with one entry, and other maps stay other maps. -/
theorem order_one {α : Type} {f : String → Val → M α} (hf : ∀ k v w, Reordered v w → f k v = f k w)
    {g : Val → M α} (hg : ∀ v, g v = match v with | .obj [(k, v)] => f k v | _ => bad) : Respects g := by
  intro v w hv
  rw [hg, hg]
  cases v <;> simp only [Reordered] at hv
  case arr => obtain ⟨l, rfl, _⟩ := hv; rfl
  case obj es =>
    obtain ⟨es', es'', rfl, h1, h2⟩ := hv
    match es with
    | [] =>
      rw [ReorderedEntries] at h1
      subst h1
      rw [List.nil_perm.mp h2]
    | [(k, v)] =>
      rw [ReorderedEntries] at h1
      obtain ⟨w, r, rfl, h3, h4⟩ := h1
      rw [ReorderedEntries] at h4
      subst h4
      rw [← List.singleton_perm.mp h2]
      exact hf _ _ _ h3
    | a :: b :: es =>
      have hl : 2 ≤ es'.length := by
        obtain ⟨_, _⟩ := a
        obtain ⟨_, _⟩ := b
        rw [ReorderedEntries] at h1
        obtain ⟨_, _, rfl, _, h4⟩ := h1
        rw [ReorderedEntries] at h4
        obtain ⟨_, _, rfl, _, _⟩ := h4
        rw [← h2.length_eq]
        simp
      match es', hl with
      | _ :: _ :: _, _ => rfl
  all_goals rw [hv]

theorem order_range : Respects deRange := order_struct fun es es' h => by
  simp only [req_same h (order_int _)]

theorem order_writeConstraint : Respects deWriteConstraint := by
  refine order_one (f := fun k v =>
    if k = "writeAsRead" then do
      let b ← deBool v
      .ok (.writeAsRead b)
    else if k = "useEnumeratedValues" then do
      let b ← deBool v
      .ok (.useEnumeratedValues b)
    else if k = "range" then do
      let r ← deRange v
      .ok (.range r)
    else bad) (fun k v w h => ?_) (fun v => ?_)
  · simp only [order_bool _ _ h, order_range _ _ h]
  · unfold deWriteConstraint
    rfl

theorem order_enumValue : Respects deEnumValue := order_struct fun es es' h => by
  simp only [req_same h order_str, opt_same' h order_str, opt_same' h (order_int _), opt_same' h order_bool]

theorem order_enums : Respects deEnums := order_struct fun es es' h => by
  simp only [opt_same' h order_str, opt_same' h order_usage, list_same' h (order_list order_enumValue)]

theorem order_dimArrayIndex : Respects deDimArrayIndex := order_struct fun es es' h => by
  simp only [opt_same' h order_str, req_same h (order_list order_enumValue)]

theorem order_interrupt : Respects deInterrupt := order_struct fun es es' h => by
  simp only [req_same h order_str, opt_same' h order_str, req_same h (order_int _)]

theorem order_addressBlock : Respects deAddressBlock := order_struct fun es es' h => by
  simp only [req_same h (order_int _), req_same h order_blockUsage, opt_same' h order_protection]

theorem order_cpu : Respects deCpu := order_struct fun es es' h => by
  simp only [req_same h (order_int _), opt_same' h (order_int _), req_same h order_str, req_same h order_endian,
    req_same h order_bool, opt_same' h order_bool]

theorem order_properties {es es' : Entries} (h : SameEntries es es') : deProperties es = deProperties es' := by
  simp only [deProperties, opt_same' h (order_int _), opt_same' h order_access, opt_same' h order_protection]

theorem order_dimIndex : Respects deDimIndex := by
  have h1 : Respects deDimIndexVal := by
    intro v w h
    simp only [deDimIndexVal, order_list order_str _ _ h, order_str _ _ h]
  intro v w h
  have h2 := h1 _ _ h
  by_cases hv : v = .null
  · rw [hv, (reordered_null h).mp hv]
  · have hw : w ≠ .null := fun hw => hv ((reordered_null h).mpr hw)
    cases v <;> cases w <;> simp_all [deDimIndex]

theorem order_dim {es es' : Entries} (h : SameEntries es es') : deDim es = deDim es' := by
  simp only [deDim, req_same h (order_int _), req_same h order_dimIndex, opt_same' h order_str,
    opt_same' h order_dimArrayIndex]

theorem order_array {α : Type} {de : Entries → M α} (hd : ∀ es es', SameEntries es es' → de es = de es') :
    Respects (deArray de) := order_struct fun es es' h => by
  simp only [deDimOpt, order_dim h, hd _ _ (h.rest dimKeys)]

theorem order_bitRange (oc : Bool) {es es' : Entries} (h : SameEntries es es') :
    deBitRange oc es = deBitRange oc es' := by
  simp only [deBitRange, deSerBitRange, req_same h order_str, req_same h (order_int _)]

theorem order_fieldInfo (oc : Bool) {es es' : Entries} (h : SameEntries es es') :
    deFieldInfo oc es = deFieldInfo oc es' := by
  simp only [deFieldInfo, req_same h order_str, opt_same' h order_str, opt_same' h order_access,
    opt_same' h order_modified, opt_same' h order_writeConstraint, opt_same' h order_readAction,
    list_same' h (order_list order_enums), order_bitRange oc (h.rest fieldKeys)]

theorem order_field (oc : Bool) : Respects (deField oc) := order_array fun _ _ h => order_fieldInfo oc h

theorem order_registerInfo (oc : Bool) {es es' : Entries} (h : SameEntries es es') :
    deRegisterInfo oc es = deRegisterInfo oc es' := by
  simp only [deRegisterInfo, req_same h order_str, opt_same' h order_str, req_same h (order_int _),
    opt_same' h order_dataType, opt_same' h order_modified, opt_same' h order_writeConstraint,
    opt_same' h order_readAction, opt_same' h (order_list (order_field oc)),
    order_properties (h.rest registerKeys)]

theorem order_register (oc : Bool) : Respects (deRegister oc) := order_array fun _ _ h => order_registerInfo oc h

theorem order_clusterInfo (m : M (List RegisterCluster)) {es es' : Entries} (h : SameEntries es es') :
    deClusterInfo m es = deClusterInfo m es' := by
  simp only [deClusterInfo, req_same h order_str, opt_same' h order_str, req_same h (order_int _),
    order_properties (h.rest clusterKeys)]

mutual
theorem order_rc (oc : Bool) : ∀ v w, Reordered v w → deRc oc v = deRc oc w
  | .null, w, h => by rw [Reordered] at h; rw [h]
  | .bool _, w, h => by rw [Reordered] at h; rw [h]
  | .num _, w, h => by rw [Reordered] at h; rw [h]
  | .str _, w, h => by rw [Reordered] at h; rw [h]
  | .other, w, h => by rw [Reordered] at h; rw [h]
  | .arr _, w, h => by rw [Reordered] at h; obtain ⟨_, rfl, _⟩ := h; simp only [deRc]
  | .obj [], w, h => by
    rw [Reordered] at h
    obtain ⟨es', es'', rfl, h1, h2⟩ := h
    rw [ReorderedEntries] at h1
    subst h1
    rw [List.nil_perm.mp h2]
  | .obj [(k, v)], w, h => by
    rw [Reordered] at h
    obtain ⟨es', es'', rfl, h1, h2⟩ := h
    rw [ReorderedEntries] at h1
    obtain ⟨w, r, rfl, h3, h4⟩ := h1
    rw [ReorderedEntries] at h4
    subst h4
    rw [← List.singleton_perm.mp h2, deRc, deRc, order_register oc _ _ h3, order_cluster oc v w h3]
  | .obj (a :: b :: es), w, h => by
    rw [Reordered] at h
    obtain ⟨es', es'', rfl, h1, h2⟩ := h
    have hl : 2 ≤ es'.length := by
      obtain ⟨_, _⟩ := a
      obtain ⟨_, _⟩ := b
      rw [ReorderedEntries] at h1
      obtain ⟨_, _, rfl, _, h4⟩ := h1
      rw [ReorderedEntries] at h4
      obtain ⟨_, _, rfl, _, _⟩ := h4
      rw [← h2.length_eq]
      simp
    match es', hl with
    | _ :: _ :: _, _ => simp only [deRc]
theorem order_cluster (oc : Bool) : ∀ v w, Reordered v w → deCluster oc v = deCluster oc w
  | .null, w, h => by rw [Reordered] at h; rw [h]
  | .bool _, w, h => by rw [Reordered] at h; rw [h]
  | .num _, w, h => by rw [Reordered] at h; rw [h]
  | .str _, w, h => by rw [Reordered] at h; rw [h]
  | .other, w, h => by rw [Reordered] at h; rw [h]
  | .arr _, w, h => by rw [Reordered] at h; obtain ⟨_, rfl, _⟩ := h; simp only [deCluster]
  | .obj es, w, h => by
    have h' := h
    rw [Reordered] at h
    obtain ⟨es', es'', rfl, h1, h2⟩ := h
    have hs : SameEntries es es' := ⟨es'', h1, h2⟩
    have hc : (if (hits "children" es).length = 1 then deChildren oc es else bad) =
        (if (hits "children" es').length = 1 then deChildren oc es' else bad) := by
      rcases hs.cases "children" with ⟨h3, h4⟩ | ⟨v, w, h3, h4, h5⟩ | ⟨h3, h4⟩
      · rw [h3, h4]; rfl
      · rw [h3, h4, de_children oc h3, de_children oc h4, order_children oc es v h3 w h5]; rfl
      · rw [if_neg (by omega), if_neg (by omega)]
    rw [deCluster, deCluster, hc, order_array (fun _ _ h => order_clusterInfo _ h) _ _ h']
theorem order_children (oc : Bool) : ∀ (es : List (String × Val)) v, hits "children" es = [v] → ∀ w,
    Reordered v w → deRcList oc v = deRcList oc w
  | [], v, h, w, hw => by cases h
  | (k, v') :: es, v, h, w, hw => by
    by_cases hk : k = "children"
    · have : v' = v := by
        simp [hits, hk] at h
        exact h.1
      rw [← this, order_rcList oc v' w (this ▸ hw)]
    · exact order_children oc es v (by simpa [hits, hk] using h) w hw
theorem order_rcList (oc : Bool) : ∀ v w, Reordered v w → deRcList oc v = deRcList oc w
  | .null, w, h => by rw [Reordered] at h; rw [h]
  | .bool _, w, h => by rw [Reordered] at h; rw [h]
  | .num _, w, h => by rw [Reordered] at h; rw [h]
  | .str _, w, h => by rw [Reordered] at h; rw [h]
  | .other, w, h => by rw [Reordered] at h; rw [h]
  | .obj _, w, h => by rw [Reordered] at h; obtain ⟨_, _, rfl, _⟩ := h; simp only [deRcList]
  | .arr l, w, h => by
    rw [Reordered] at h
    obtain ⟨l', rfl, h1⟩ := h
    rw [deRcList, deRcList, order_rcs oc l l' h1]
theorem order_rcs (oc : Bool) : ∀ l l', ReorderedList l l' → deRcs oc l = deRcs oc l'
  | [], l', h => by rw [ReorderedList] at h; rw [h]
  | v :: l, l', h => by
    rw [ReorderedList] at h
    obtain ⟨w, r, rfl, h1, h2⟩ := h
    rw [deRcs, deRcs, order_rc oc v w h1, order_rcs oc l r h2]
end

theorem order_peripheralInfo (oc : Bool) {es es' : Entries} (h : SameEntries es es') :
    dePeripheralInfo oc es = dePeripheralInfo oc es' := by
  simp only [dePeripheralInfo, req_same h order_str, opt_same' h order_str, req_same h (order_int _),
    opt_same' h (order_list order_addressBlock), list_same' h (order_list order_interrupt),
    opt_same' h (show Respects (deRcList oc) from order_rcList oc), order_properties (h.rest peripheralKeys)]

theorem order_peripheral (oc : Bool) : Respects (dePeripheral oc) :=
  order_array fun _ _ h => order_peripheralInfo oc h

theorem order_device (oc : Bool) : Respects (deDevice oc) := order_struct fun es es' h => by
  simp only [req_same h order_str, opt_same' h order_str, req_same h (order_int _),
    opt_same' h order_cpu, req_same h (order_list (order_peripheral oc)), order_properties (h.rest deviceKeys)]

end Svd
