import Verif.Model.Basic

/-! # Which errors can be told apart by their texts -/

namespace Svd.Spec

/-- The names in the error are those the programs use. -/
def NamesKnown : Err → Prop
  | .missingPlaceholder _ t => '`' ∉ t.toList
  | .selfDerived w _ => w ∈ ["peripheral", "cluster", "register", "field", "enumeratedValues"]
  | .notFound w _ => w ∈ ["peripheral", "cluster", "register", "field"]
  | .deserialize => False
  | _ => True

/-- Errors with one text: the tag with a bad name is not told.  In the text of missing enumerated values
the parent field is quoted by `{:?}` of std, about which nothing is assumed. -/
inductive SameText : Err → Err → Prop where
  | refl (e : Err) : SameText e e
  | name (s : Str) (t t' : String) : SameText (.invalidName s t) (.invalidName s t')
  | field (s s' p p' : Str) (cs cs' : List Str) (r r' f f' : Str) (h : (p, cs, r, f) ≠ (p', cs', r', f')) :
      SameText (.enumsNotFound s p cs r f) (.enumsNotFound s' p' cs' r' f')

/-- `{:?}` of strings puts them into quotes, in such a way that the end of a quoted string can be seen. -/
structure Quotes (dbg : Str → Str) : Prop where
  opening : ∀ s, ∃ t, dbg s = '"' :: t
  ending : ∀ s s' r r', dbg s ++ r = dbg s' ++ r' → s = s' ∧ r = r'

end Svd.Spec
