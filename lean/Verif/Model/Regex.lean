import Verif.Model.Types

/-!
# Name checks (svd-rs/src/lib.rs:189-214)

The regular expressions are transcribed into a small regular-expression type; `Regex::is_match` of
an anchored pattern is membership in the language, computed with Brzozowski derivatives.
-/

namespace Svd

/-- Regular expressions over characters (the constructs the two patterns use). -/
inductive Rx where
  | none
  | eps
  | cls (p : Char → Bool)
  | alt (a b : Rx)
  | cat (a b : Rx)
  | star (a : Rx)

namespace Rx

/-- Does the language contain the empty string? -/
def nullable : Rx → Bool
  | none => false
  | eps => true
  | cls _ => false
  | alt a b => a.nullable || b.nullable
  | cat a b => a.nullable && b.nullable
  | star _ => true

/-- Brzozowski derivative. -/
def deriv (c : Char) : Rx → Rx
  | none => none
  | eps => none
  | cls p => if p c then eps else none
  | alt a b => alt (a.deriv c) (b.deriv c)
  | cat a b => if a.nullable then alt (cat (a.deriv c) b) (b.deriv c) else cat (a.deriv c) b
  | star a => cat (a.deriv c) (star a)

/-- Is the whole string in the language (`^...$` with `Regex::is_match`)? -/
def isMatch : Rx → Str → Bool
  | r, [] => r.nullable
  | r, c :: cs => (r.deriv c).isMatch cs

/-- `a?`. -/
def opt (a : Rx) : Rx := alt a eps

/-- A literal string. -/
def lit : Str → Rx
  | [] => eps
  | c :: cs => cat (cls (· == c)) (lit cs)

end Rx

/-- `[_A-Za-z]`. -/
def isIdentStart (c : Char) : Bool := c == '_' || isAsciiUpper c || isAsciiLower c

/-- `[_A-Za-z0-9]`. -/
def isIdentChar (c : Char) : Bool :=
  c == '_' || isAsciiUpper c || isAsciiLower c || ('0'.toNat ≤ c.toNat && c.toNat ≤ '9'.toNat)

/-- svd-rs/src/lib.rs:190 `^[_A-Za-z0-9]*$`. -/
def nameRx : Rx := .star (.cls isIdentChar)

/-- svd-rs/src/lib.rs:200: `^(((%s)|(%s)[_A-Za-z]{1}[_A-Za-z0-9]*)|([_A-Za-z]{1}[_A-Za-z0-9]*(\[%s\])?)|([_A-Za-z]{1}[_A-Za-z0-9]*(%s)?[_A-Za-z0-9]*))$`. -/
def dimableRx : Rx :=
  .alt
    (.alt
      (.alt (.lit "%s".toList)
        (.cat (.lit "%s".toList) (.cat (.cls isIdentStart) (.star (.cls isIdentChar)))))
      (.cat (.cls isIdentStart) (.cat (.star (.cls isIdentChar)) (.opt (.lit "[%s]".toList)))))
    (.cat (.cls isIdentStart) (.cat (.star (.cls isIdentChar))
      (.cat (.opt (.lit "%s".toList)) (.star (.cls isIdentChar)))))

/-- svd-rs/src/lib.rs:189-196 `check_name`. -/
def checkName (name : Str) (tag : String) : M Unit :=
  if nameRx.isMatch name then .ok () else fail (.invalidName name tag)

/-- svd-rs/src/lib.rs:198-207 `check_dimable_name`. -/
def checkDimableName (name : Str) (tag : String) : M Unit :=
  if dimableRx.isMatch name then .ok () else fail (.invalidName name tag)

/-- svd-rs/src/lib.rs:209-214 `check_derived_name`. -/
def checkDerivedName (name : Str) (tag : String) : M Unit :=
  (splitOn '.' name).forM fun x => checkDimableName x tag

end Svd
