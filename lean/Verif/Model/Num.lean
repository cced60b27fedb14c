import Verif.Model.Str

/-!
# Numbers and booleans as text
-/

namespace Svd

/-- svd-parser/src/types.rs:13-35 (`u32`) and 43-65 (`u64`), after `get_text`: hexadecimal after
`0x`/`0X`, binary after `#` (case-insensitive don't-care `x`) or `0b` (don't-care `x`), else
decimal.  The two copies in the source differ only in the integer type, so one definition with the
bit count `w` models both. -/
def parseIntText (w : Nat) (text : Str) : Except IntErrorKind (BitVec w) :=
  if "0x".toList.isPrefixOf text || "0X".toList.isPrefixOf text then
    fromStrRadix w 16 (text.drop 2)
  else if "#".toList.isPrefixOf text then
    fromStrRadix w 2 (replaceStr "x".toList "0".toList ((toLowercase text).drop 1))
  else if "0b".toList.isPrefixOf text then
    fromStrRadix w 2 (replaceStr "x".toList "0".toList (text.drop 2))
  else fromStrRadix w 10 text

/-- svd-parser/src/types.rs:75-85 `BoolParse`, after `get_text`; `str::parse::<bool>` accepts
exactly `true` and `false`. -/
def parseBoolText (text : Str) : Option Bool :=
  if text = "0".toList then some false
  else if text = "1".toList then some true
  else if text = "true".toList then some true
  else if text = "false".toList then some false
  else none

/-- svd-encoder/src/config.rs:67-91 `NumberFormat`. -/
inductive NumberFormat where
  | upperHex | upperHex8 | upperHex16 | lowerHex | lowerHex8 | lowerHex16 | dec | bin
  deriving DecidableEq, Repr

/-- An upper-case hexadecimal digit from a lower-case one. -/
def upperHexDigit (c : Char) : Char :=
  if isAsciiLower c then Char.ofNat (c.toNat - 32) else c

/-- `{:x}` digits. -/
def lowerHexDigits (n : Nat) : Str := Nat.toDigits 16 n

/-- `{:X}` digits. -/
def upperHexDigits (n : Nat) : Str := (Nat.toDigits 16 n).map upperHexDigit

/-- Rust's `{:#0W..}`: the prefix, then zeros so that prefix, zeros and digits together have at
least `width` characters. -/
def withPrefix (width : Nat) (pre digits : Str) : Str :=
  pre ++ List.replicate (width - pre.length - digits.length) '0' ++ digits

/-- svd-encoder/src/config.rs:120-151 `format_number`. -/
def formatNumber {w} (value : BitVec w) (f : NumberFormat) : Str :=
  let n := value.toNat
  match f with
  | .upperHex => withPrefix 0 "0x".toList (upperHexDigits n)
  | .upperHex8 => withPrefix 10 "0x".toList (upperHexDigits n)
  | .upperHex16 =>
    if n > 0xFFFFFFFF then withPrefix 18 "0x".toList (upperHexDigits n)
    else withPrefix 10 "0x".toList (upperHexDigits n)
  | .lowerHex => withPrefix 0 "0x".toList (lowerHexDigits n)
  | .lowerHex8 => withPrefix 10 "0x".toList (lowerHexDigits n)
  | .lowerHex16 =>
    if n > 0xFFFFFFFF then withPrefix 18 "0x".toList (lowerHexDigits n)
    else withPrefix 10 "0x".toList (lowerHexDigits n)
  | .dec => Nat.toDigits 10 n
  | .bin => withPrefix 0 "0b".toList (Nat.toDigits 2 n)

end Svd
