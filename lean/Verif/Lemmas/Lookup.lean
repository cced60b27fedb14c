import Verif.Model.Encode
import Verif.Model.Parse
import Verif.Props.Numbers
import Verif.Spec.RoundTrip
import Verif.Lemmas.Except

/-!
# Finding the written elements again

`look k cs` is the first child named `k`; the lemmas compute it for the lists the encoder writes.
-/

namespace Svd

open Spec Xml

/-- The first element named `k`. -/
def look (k : String) (cs : List Xml) : Option Xml := cs.find? (hasTag k)

theorem look_nil (k : String) : look k [] = none := rfl

theorem look_append (k : String) (a b : List Xml) : look k (a ++ b) = (look k a).or (look k b) := by
  simp [look, List.find?_append]

theorem look_newNode (k t : String) (s : Str) (cs : List Xml) :
    look k (newNode t s :: cs) = if t = k then some (newNode t s) else look k cs := by
  by_cases h : t = k
  · rw [if_pos h]; exact List.find?_cons_of_pos (by simpa [newNode, hasTag] using h)
  · rw [if_neg h]; exact List.find?_cons_of_neg (by simpa [newNode, hasTag] using h)

theorem look_elem (k t : String) (as : List (String × Str)) (ds cs : List Xml) :
    look k (.elem t as ds :: cs) = if t = k then some (.elem t as ds) else look k cs := by
  by_cases h : t = k
  · rw [if_pos h]; exact List.find?_cons_of_pos (by simpa [hasTag] using h)
  · rw [if_neg h]; exact List.find?_cons_of_neg (by simpa [hasTag] using h)

theorem look_optNode {α : Type} (k t : String) (o : Option α) (f : α → Str) :
    look k (optNode o fun v => newNode t (f v)) =
      if t = k then o.map fun v => newNode t (f v) else none := by
  cases o with
  | none => simp [optNode, look_nil]
  | some v => simp only [optNode, look_newNode, look_nil]; rfl

theorem look_optNode' (k t : String) (o : Option Str) :
    look k (optNode o (newNode t)) = if t = k then o.map (newNode t) else none :=
  look_optNode k t o id

theorem look_optElem {α : Type} (k t : String) (o : Option α) (f : α → Xml)
    (hf : ∀ v k, hasTag k (f v) = (t == k)) :
    look k (optNode o f) = if t = k then o.map f else none := by
  cases o with
  | none => simp [optNode, look_nil]
  | some v =>
    by_cases h : t = k
    · rw [if_pos h]; exact List.find?_cons_of_pos (by rw [hf]; simpa using h)
    · rw [if_neg h]; exact List.find?_cons_of_neg (by rw [hf]; simpa using h)

theorem look_map {α : Type} (k t : String) (l : List α) (f : α → Xml)
    (hf : ∀ v k, hasTag k (f v) = (t == k)) :
    look k (l.map f) = if t = k then (l.map f).head? else none := by
  unfold look
  by_cases h : t = k
  · rw [if_pos h]
    cases l with
    | nil => rfl
    | cons a l => exact List.find?_cons_of_pos (by rw [hf]; simpa using h)
  · rw [if_neg h, List.find?_eq_none]
    intro x hx
    obtain ⟨v, _, rfl⟩ := List.mem_map.mp hx
    rw [hf]; simpa using h

theorem look_enumeratedValue (cc : IdentifierFormat → Str → Str) (cfg : EncConfig) (k : String)
    (l : List EnumeratedValue) : look k (l.map (encodeEnumeratedValue cc cfg)) =
      if "enumeratedValue" = k then (l.map (encodeEnumeratedValue cc cfg)).head? else none :=
  look_map k _ l _ fun _ _ => rfl

theorem look_enumeratedValues (cc : IdentifierFormat → Str → Str) (cfg : EncConfig) (k : String)
    (l : List EnumeratedValues) : look k (l.map (encodeEnumeratedValues cc cfg)) =
      if "enumeratedValues" = k then (l.map (encodeEnumeratedValues cc cfg)).head? else none :=
  look_map k _ l _ fun _ _ => rfl

theorem look_addressBlock (cfg : EncConfig) (k : String)
    (l : List AddressBlock) : look k (l.map (encodeAddressBlock cfg)) =
      if "addressBlock" = k then (l.map (encodeAddressBlock cfg)).head? else none :=
  look_map k _ l _ fun _ _ => rfl

theorem look_interrupt (cc : IdentifierFormat → Str → Str) (cfg : EncConfig) (k : String)
    (l : List Interrupt) : look k (l.map (encodeInterrupt cc cfg)) =
      if "interrupt" = k then (l.map (encodeInterrupt cc cfg)).head? else none :=
  look_map k _ l _ fun _ _ => rfl

theorem look_dimArrayIndex (cc : IdentifierFormat → Str → Str) (cfg : EncConfig) (k : String)
    (o : Option DimArrayIndex) : look k (optNode o (encodeDimArrayIndex cc cfg)) =
      if "dimArrayIndex" = k then o.map (encodeDimArrayIndex cc cfg) else none :=
  look_optElem k _ o _ fun _ _ => rfl

theorem look_writeConstraint (k : String) (o : Option WriteConstraint) :
    look k (optNode o encodeWriteConstraint) =
      if "writeConstraint" = k then o.map encodeWriteConstraint else none :=
  look_optElem k _ o _ fun _ _ => rfl

theorem look_cpu (k : String) (o : Option Cpu) :
    look k (optNode o encodeCpu) = if "cpu" = k then o.map encodeCpu else none :=
  look_optElem k _ o _ fun _ _ => rfl

theorem getChild_elem (t : String) (as : List (String × Str)) (cs : List Xml) (k : String) :
    getChild (.elem t as cs) k = look k cs := rfl

/-! ## Reading what was found -/

theorem textOf_newNode (t : String) (s : Str) : textOf (newNode t s) = some s := rfl

theorem getText_newNode {t : String} {s : Str} (h : Text s) : getText (newNode t s) = .ok s := by
  unfold getText
  rw [textOf_newNode]
  exact congrArg Except.ok (trim_iff.mpr h.2)

theorem textOpt_of {x : Xml} {k : String} {o : Option Str} (hl : getChild x k = o.map (newNode k))
    (h : OptText o) : getChildTextOpt x k = .ok o := by
  unfold getChildTextOpt
  rw [hl]
  cases o with
  | none => rfl
  | some s => simp only [Option.map_some, getText_newNode (h s rfl)]

theorem text_of {x : Xml} {k : String} {s : Str} (hl : getChild x k = some (newNode k s))
    (h : Text s) : getChildText x k = .ok s := by
  unfold getChildText
  rw [textOpt_of (o := some s) hl (by intro _ e; injection e with e; exact e ▸ h)]
  rfl

theorem optional_of {α : Type} {x : Xml} {k : String} {o : Option α} {f : α → Xml} {p : Xml → M α}
    (hl : getChild x k = o.map f) (h : ∀ v, o = some v → p (f v) = .ok v) :
    Xml.optional k x p = .ok o := by
  unfold Xml.optional
  rw [hl]
  cases o with
  | none => rfl
  | some v => simp only [Option.map_some, h v rfl, ok_bind]

theorem optInt_of {w : Nat} {x : Xml} {k : String} {o : Option (BitVec w)} {f : NumberFormat}
    (hl : getChild x k = o.map fun v => newNode k (formatNumber v f)) :
    Xml.optional k x (parseInt w) = .ok o :=
  optional_of hl fun v _ => C01_number_round_trip w k v f

theorem optDec_of {w : Nat} {x : Xml} {k : String} {o : Option (BitVec w)}
    (hl : getChild x k = o.map fun v => newNode k (decString v)) :
    Xml.optional k x (parseInt w) = .ok o :=
  optional_of hl fun v _ => C01_decimal_round_trip w k v

theorem optBool_of {x : Xml} {k : String} {o : Option Bool}
    (hl : getChild x k = o.map fun v => newNode k (boolStr v)) :
    Xml.optional k x parseBool = .ok o :=
  optional_of hl fun v _ => C03_bool_round_trip k v

theorem int_of {w : Nat} {x : Xml} {k : String} {v : BitVec w} {f : NumberFormat}
    (hl : getChild x k = some (newNode k (formatNumber v f))) : getChildInt w x k = .ok v := by
  unfold getChildInt getChildElem
  rw [hl]
  exact C01_number_round_trip w k v f

theorem dec_of {w : Nat} {x : Xml} {k : String} {v : BitVec w}
    (hl : getChild x k = some (newNode k (decString v))) : getChildInt w x k = .ok v := by
  unfold getChildInt getChildElem
  rw [hl]
  exact C01_decimal_round_trip w k v

theorem bool_of {x : Xml} {k : String} {v : Bool}
    (hl : getChild x k = some (newNode k (boolStr v))) : getChildBool x k = .ok v := by
  unfold getChildBool getChildElem
  rw [hl]
  exact C03_bool_round_trip k v

theorem keyword_of {α : Type} {parse : Xml → M α} {parseStr : Str → Option α} {asStr : α → Str}
    {table : List (String × α)} (hk : KeywordType parse parseStr asStr table) {x : Xml} {k : String}
    {o : Option α} (hl : getChild x k = o.map fun v => newNode k (asStr v)) :
    Xml.optional k x parse = .ok o :=
  optional_of hl fun v _ => hk.roundTrip k v

end Svd
