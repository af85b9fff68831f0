import Verif.Model.Basic

/-!
# Strings, decimal numbers

Rust `String`/`str` is a list of Unicode scalar values; `as_bytes` is its UTF-8 encoding.
Printing and parsing of integers is standard library code (`Display`, `FromStr`), modelled by its
documented behaviour.
-/

namespace Verif

/-- A Rust string. -/
abbrev Str := List Char

/-- `str::as_bytes` (UTF-8). -/
def Str.utf8 (s : Str) : Bytes := s.flatMap String.utf8EncodeChar

/-- The digit character for `d < 10`. -/
def digitChar (d : Nat) : Char := Char.ofNat (48 + d)

/-- Decimal digits, most significant first; the first argument bounds the number of digits. -/
def decDigitsAux : Nat → Nat → Str
  | 0, _ => []
  | fuel + 1, n => if n < 10 then [digitChar n] else decDigitsAux fuel (n / 10) ++ [digitChar (n % 10)]

/-- `Display` of an unsigned integer. -/
def decDigits (n : Nat) : Str := decDigitsAux (n + 1) n

/-- `Display` of a signed integer. -/
def decInt (i : Int) : Str :=
  if i < 0 then '-' :: decDigits i.natAbs else decDigits i.natAbs

/-- `char::is_digit(10)` / `is_ascii_digit`. -/
def isDigit (c : Char) : Bool := 48 ≤ c.toNat && c.toNat ≤ 57

/-- The number denoted by decimal digits, most significant first, starting from `acc`;
`none` if a character is not a digit. -/
def parseDigits (acc : Nat) : Str → Option Nat
  | [] => some acc
  | c :: cs => if isDigit c then parseDigits (acc * 10 + (c.toNat - 48)) cs else none

/-- The optional leading plus sign accepted by integer `FromStr`. -/
def stripPlus : Str → Str
  | [] => []
  | c :: cs => if c = '+' then cs else c :: cs

/-- Unsigned `FromStr`: an optional `+`, then at least one digit, then an overflow check. -/
def parseUnsigned (max : Nat) (s : Str) : Option Nat :=
  if (stripPlus s).isEmpty then none
  else match parseDigits 0 (stripPlus s) with
    | some n => if n ≤ max then some n else none
    | none => none

/-- Signed `FromStr`: an optional `+` or `-`, then at least one digit, then an overflow check. -/
def parseSigned (min max : Int) (s : Str) : Option Int :=
  match s with
  | [] => none
  | c :: cs =>
    let ds := if c = '-' then cs else stripPlus (c :: cs)
    if ds.isEmpty then none
    else match parseDigits 0 ds with
      | some n =>
        let i : Int := if c = '-' then - (n : Int) else n
        if min ≤ i ∧ i ≤ max then some i else none
      | none => none

end Verif
