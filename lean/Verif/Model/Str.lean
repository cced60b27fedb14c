import Verif.Model.Basic

/-!
# Rust string functions used by the code

These model the Rust standard library on `List Char`; they are part of the trusted base
(`str::split`, `split_once`, `rsplit_once`, `replace`, `contains`, `trim`, `join`, `to_string`,
`parse`, `from_str_radix`).
-/

namespace Svd

/-- `str::split(c)` for a character: always at least one piece. -/
def splitOn (c : Char) : Str → List Str
  | [] => [[]]
  | x :: xs =>
    if x = c then [] :: splitOn c xs
    else match splitOn c xs with
      | [] => [[x]]
      | p :: ps => (x :: p) :: ps

/-- `str::split_once(c)`: split at the first occurrence. -/
def splitOnce (c : Char) : Str → Option (Str × Str)
  | [] => none
  | x :: xs =>
    if x = c then some ([], xs)
    else (splitOnce c xs).map fun (a, b) => (x :: a, b)

/-- `str::rsplit_once(c)`: split at the last occurrence. -/
def rsplitOnce (c : Char) : Str → Option (Str × Str)
  | [] => none
  | x :: xs =>
    match rsplitOnce c xs with
    | some (a, b) => some (x :: a, b)
    | none => if x = c then some ([], xs) else none

/-- `[..].join(sep)` on strings. -/
def joinWith (sep : Str) : List Str → Str
  | [] => []
  | [s] => s
  | s :: t :: r => s ++ sep ++ joinWith sep (t :: r)

/-- `str::contains(pat)` for a string pattern. -/
def containsSub (pat : Str) : Str → Bool
  | [] => pat.isEmpty
  | x :: xs => pat.isPrefixOf (x :: xs) || containsSub pat xs

/-- `str::replace(pat, to)` for a non-empty pattern: non-overlapping occurrences from the left.
`skip` counts the remaining characters of an occurrence being replaced. -/
def replaceAux (pat to : Str) : Nat → Str → Str
  | _, [] => []
  | k + 1, _ :: xs => replaceAux pat to k xs
  | 0, x :: xs =>
    if pat.isPrefixOf (x :: xs) then to ++ replaceAux pat to (pat.length - 1) xs
    else x :: replaceAux pat to 0 xs

/-- `str::replace(pat, to)`, `pat` non-empty (the code only uses "[%s]", "%s" and "x"). -/
def replaceStr (pat to s : Str) : Str := replaceAux pat to 0 s

/-- `char::is_whitespace` (Unicode White_Space). -/
def isWhitespace (c : Char) : Bool :=
  let n := c.toNat
  (9 ≤ n && n ≤ 13) || n == 0x20 || n == 0x85 || n == 0xA0 || n == 0x1680 ||
  (0x2000 ≤ n && n ≤ 0x200A) || n == 0x2028 || n == 0x2029 || n == 0x202F || n == 0x205F ||
  n == 0x3000

/-- `str::trim_end`. -/
def trimEnd : Str → Str
  | [] => []
  | x :: xs =>
    match trimEnd xs with
    | [] => if isWhitespace x then [] else [x]
    | ys => x :: ys

/-- `str::trim`. -/
def trim (s : Str) : Str := trimEnd (s.dropWhile isWhitespace)

/-- `char::is_ascii_lowercase` (of a byte). -/
def isAsciiLower (c : Char) : Bool := 'a'.toNat ≤ c.toNat && c.toNat ≤ 'z'.toNat
/-- `char::is_ascii_uppercase` (of a byte). -/
def isAsciiUpper (c : Char) : Bool := 'A'.toNat ≤ c.toNat && c.toNat ≤ 'Z'.toNat

/-- `str::to_lowercase`, restricted to ASCII letters; other characters are left alone.  The only
use (svd-parser/src/types.rs:23, 53) parses the result as a binary number, and no non-ASCII
character lowercases to text made of `x`, `0`, `1`, `+`, so such a text is an invalid digit either
way. -/
def toLowercase (s : Str) : Str :=
  s.map fun c => if isAsciiUpper c then Char.ofNat (c.toNat + 32) else c

/-- `char::to_digit(radix)` for radix at most 16. -/
def toDigit (radix : Nat) (c : Char) : Option Nat :=
  let n := c.toNat
  let d := if 48 ≤ n && n ≤ 57 then n - 48
           else if 97 ≤ n && n ≤ 102 then n - 87
           else if 65 ≤ n && n ≤ 70 then n - 55
           else radix
  if d < radix then some d else none

/-- The digit loop of `from_str_radix`: multiply, then read the digit, then report overflow of the
multiplication, then add with overflow check. -/
def radixLoop (w radix : Nat) : Nat → Str → Except IntErrorKind Nat
  | acc, [] => .ok acc
  | acc, c :: cs =>
    match toDigit radix c with
    | none => .error .invalidDigit
    | some d =>
      if acc * radix < 2 ^ w then
        if acc * radix + d < 2 ^ w then radixLoop w radix (acc * radix + d) cs
        else .error .posOverflow
      else .error .posOverflow

/-- `uW::from_str_radix(s, radix)`, also `s.parse::<uW>()` for radix 10: an optional `+`, then at
least one digit. -/
def fromStrRadix (w radix : Nat) (s : Str) : Except IntErrorKind (BitVec w) :=
  match s with
  | [] => .error .empty
  | ['+'] => .error .invalidDigit
  | ['-'] => .error .invalidDigit
  | '+' :: ds => (radixLoop w radix 0 ds).map (BitVec.ofNat w)
  | ds => (radixLoop w radix 0 ds).map (BitVec.ofNat w)

/-- `x.to_string()` of an unsigned integer. -/
def decString {w} (x : BitVec w) : Str := Nat.toDigits 10 x.toNat

/-- String order (`Ord for str`: bytewise, which for UTF-8 is by code point), as "at most". -/
def strLe : Str → Str → Bool
  | [], _ => true
  | _ :: _, [] => false
  | a :: as, b :: bs => a.toNat < b.toNat || (a.toNat == b.toNat && strLe as bs)

end Svd
