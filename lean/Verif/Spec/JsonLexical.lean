import Verif.Spec.JsonText

/-!
# Specification: where a JSON token ends

`SpellingWith` (Verif/Spec/JsonText.lean) says what the text of a token is.  Here is what may follow it. -/

namespace Verif.Spec

open Verif Json

/-- The characters of the Unicode property `White_Space`. -/
def whiteSpace : List Nat :=
  [0x9, 0xa, 0xb, 0xc, 0xd, 0x20, 0x85, 0xa0, 0x1680, 0x2000, 0x2001, 0x2002, 0x2003, 0x2004, 0x2005, 0x2006, 0x2007,
    0x2008, 0x2009, 0x200a, 0x2028, 0x2029, 0x202f, 0x205f, 0x3000]

/-- Letters and digits; `u` knows which characters outside ASCII are. -/
def Alphanumeric (u : Char → Bool) (c : Char) : Prop :=
  (c.toNat < 128 ∧ c.isAlphanum = true) ∨ (128 ≤ c.toNat ∧ u c = true)

/-- A number as the tokenizer takes it: there may be no digit after the decimal point. -/
def LaxNumber (s : Str) : Prop := NumberWith (fun _ => True) s

/-- What may follow the text `p` of the token `k`: after `null`, `true` and `false` no letter or digit, after a number
no character with which a longer number could begin. -/
def Followed (u : Char → Bool) (k : Json.Tok) (p r : Str) : Prop :=
  match k with
  | .null | .true | .false => NotStart (Alphanumeric u) r
  | .number _ => NotStart (fun c => ∃ z, LaxNumber (p ++ c :: z)) r
  | _ => True

/-- The text `s` begins with the token `k`, and `r` follows; `\u` may have fewer than four digits. -/
def Reading (u : Char → Bool) (s : Str) (k : Json.Tok) (r : Str) : Prop :=
  ∃ ws, (∀ c ∈ ws, c.toNat ∈ whiteSpace) ∧
    ((k = .eof ∧ s = ws ∧ r = []) ∨
      ∃ p, s = ws ++ p ++ r ∧ SpellingWith (fun _ => True) (fun n => n ≤ 4) k p ∧ Followed u k p r)

end Verif.Spec
