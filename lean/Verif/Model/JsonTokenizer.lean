import Verif.Model.TypeParser

/-!
# Model of `src/core/json/tokenizer.rs`

The tokenizer state is the current token and the characters not yet consumed (the look-ahead character and
what the iterator still holds).  `Token::String` and `Token::Number` carry the text that `value()` (L356-363)
returns for them; `value()` is not called for other tokens.  After `Err` the state is not modelled here:
every caller in the crate returns the error at once.  `Verif/Model/JsonMachine.lean` has the state.
-/

namespace Verif.Json

/-- Why a function of the JSON code does not return `Ok`: `Result::Err`, or a fault. -/
inductive Stop where
  | err
  | fault (f : Fault)
  deriving DecidableEq, Repr

/-- `Result<α, String>` of a function that may panic; error messages are not modelled. -/
abbrev Parse (α : Type) := Except Stop α

/-- `Err(..)`. -/
def fail {α : Type} : Parse α := .error .err

/-- A panic. -/
def panic {α : Type} : Parse α := .error (.fault .panic)

/-- `Token`, src/core/json/tokenizer.rs L113-127, without `Error`, which occurs only after `Err`. -/
inductive Tok where
  | eof | null | true | false
  | string (s : Str)
  | number (s : Str)
  | beginObject | endObject | beginArray | endArray | comma | colon
  deriving DecidableEq, Repr

/-- `char::is_alphanumeric`: known for ASCII, given by a parameter for other characters. -/
def isAlnum (u : Char → Bool) (c : Char) : Bool :=
  if c.toNat < 128 then
    isDigit c || (65 ≤ c.toNat && c.toNat ≤ 90) || (97 ≤ c.toNat && c.toNat ≤ 122)
  else u c

/-- `char::to_digit(16)`. -/
def hexDigit (c : Char) : Option Nat :=
  if 48 ≤ c.toNat ∧ c.toNat ≤ 57 then some (c.toNat - 48)
  else if 97 ≤ c.toNat ∧ c.toNat ≤ 102 then some (c.toNat - 87)
  else if 65 ≤ c.toNat ∧ c.toNat ≤ 70 then some (c.toNat - 55)
  else none

/-- `char::from_u32(code).unwrap()`. -/
def fromU32 (code : Nat) : Parse Char :=
  if h : code.isValidChar then .ok (Char.ofNatAux code h) else panic

/-- `skip_whitespace`, src/core/json/tokenizer.rs L177-185. -/
def skipWhitespace (s : Str) : Str := s.dropWhile isSpace

/-- The loop of `match_keyword`, src/core/json/tokenizer.rs L194-206. -/
def matchChars : Str → Str → Parse Str
  | [], s => .ok s
  | target :: ts, c :: s => if c = target then matchChars ts s else fail
  | _ :: _, [] => fail

/-- `match_keyword`, src/core/json/tokenizer.rs L193-219. -/
def matchKeyword (u : Char → Bool) (word : Str) (token : Tok) (s : Str) : Parse (Tok × Str) := do
  let s ← matchChars word s
  match s with
  | c :: s => if isAlnum u c then fail else .ok (token, c :: s)
  | [] => .ok (token, [])

/-- The loop for four hexadecimal digits, src/core/json/tokenizer.rs L245-259: a character that is no
digit is neither consumed nor an error. -/
def hexLoop : Nat → Nat → Str → Parse (Nat × Str)
  | 0, code, s => .ok (code, s)
  | _ + 1, _, [] => fail
  | n + 1, code, c :: s => match hexDigit c with
    | some d => hexLoop n (code * 16 + d) s
    | none => hexLoop n code (c :: s)

/-- `string_control_char`, src/core/json/tokenizer.rs L226-267, after the backslash: the character to push
and the remaining input. -/
def stringControlChar : Str → Parse (Char × Str)
  | [] => fail
  | c :: s =>
    if c = '/' then .ok ('/', s)
    else if c = '\\' then .ok ('\\', s)
    else if c = '"' then .ok ('"', s)
    else if c = 'b' then .ok (Char.ofNat 8, s)
    else if c = 'f' then .ok (Char.ofNat 12, s)
    else if c = 'n' then .ok ('\n', s)
    else if c = 'r' then .ok ('\r', s)
    else if c = 't' then .ok ('\t', s)
    else if c = 'u' then do
      let (code, s) ← hexLoop 4 0 s
      let ch ← fromU32 code
      .ok (ch, s)
    else fail

/-- The loop of `match_string`, src/core/json/tokenizer.rs L275-296: the string buffer and the remaining
input.  The number bounds the iterations; the length of the input is enough (C41). -/
def stringLoop : Nat → Str → Str → Parse (Str × Str)
  | 0, _, _ => fail
  | _ + 1, _, [] => fail
  | n + 1, buf, c :: s =>
    if c = '"' then .ok (buf, s)
    else if c = '\\' then do
      let (ch, s) ← stringControlChar s
      stringLoop n (buf ++ [ch]) s
    else if c.toNat ≤ 0x1f then fail
    else stringLoop n (buf ++ [c]) s

/-- `match_string`, src/core/json/tokenizer.rs L269-297, after the quotation mark. -/
def matchString (s : Str) : Parse (Tok × Str) := do
  let (buf, s) ← stringLoop (s.length + 1) [] s
  .ok (.string buf, s)

/-- `digits`, src/core/json/tokenizer.rs L299-307: the digits and what follows. -/
def digits (s : Str) : Str × Str := (s.takeWhile isDigit, s.dropWhile isDigit)

/-- The sign, src/core/json/tokenizer.rs L312-315. -/
def signPart : Str → Str × Str
  | c :: s => if c = '-' then (['-'], s) else ([], c :: s)
  | [] => ([], [])

/-- The integer part, src/core/json/tokenizer.rs L317-325. -/
def intPart : Str → Parse (Str × Str)
  | c :: s =>
    if c = '0' then .ok (['0'], s)
    else if isDigit c then .ok (c :: (digits s).1, (digits s).2)
    else fail
  | [] => fail

/-- The fraction, src/core/json/tokenizer.rs L327-331. -/
def fracPart : Str → Str × Str
  | c :: s => if c = '.' then (c :: (digits s).1, (digits s).2) else ([], c :: s)
  | [] => ([], [])

/-- The sign of the exponent, src/core/json/tokenizer.rs L338-341. -/
def expSign : Str → Str × Str
  | c :: s => if c = '+' ∨ c = '-' then ([c], s) else ([], c :: s)
  | [] => ([], [])

/-- The exponent, src/core/json/tokenizer.rs L333-349. -/
def expPart : Str → Parse (Str × Str)
  | c :: s =>
    if c = 'e' ∨ c = 'E' then
      match (expSign s).2 with
      | d :: r =>
        if isDigit d then .ok (c :: (expSign s).1 ++ (digits (d :: r)).1, (digits (d :: r)).2) else fail
      | [] => fail
    else .ok ([], c :: s)
  | [] => .ok ([], [])

/-- `match_number`, src/core/json/tokenizer.rs L309-354. -/
def matchNumber (s : Str) : Parse (Tok × Str) := do
  let (sign, s) := signPart s
  let (int, s) ← intPart s
  let (frac, s) := fracPart s
  let (exp, s) ← expPart s
  .ok (.number (sign ++ int ++ frac ++ exp), s)

/-- `next` after the white space, src/core/json/tokenizer.rs L371-403. -/
def nextToken (u : Char → Bool) : Str → Parse (Tok × Str)
  | [] => .ok (.eof, [])
  | c :: s =>
    if c = '[' then .ok (.beginArray, s)
    else if c = ']' then .ok (.endArray, s)
    else if c = '{' then .ok (.beginObject, s)
    else if c = '}' then .ok (.endObject, s)
    else if c = ',' then .ok (.comma, s)
    else if c = ':' then .ok (.colon, s)
    else if c = 'n' then matchKeyword u ['n', 'u', 'l', 'l'] .null (c :: s)
    else if c = 't' then matchKeyword u ['t', 'r', 'u', 'e'] .true (c :: s)
    else if c = 'f' then matchKeyword u ['f', 'a', 'l', 's', 'e'] .false (c :: s)
    else if c = '"' then matchString s
    else if c = '-' then matchNumber (c :: s)
    else if isDigit c then matchNumber (c :: s)
    else fail

/-- `Tokenizer::next`, src/core/json/tokenizer.rs L368-404; also `Tokenizer::new` L140-155. -/
def next (u : Char → Bool) (s : Str) : Parse (Tok × Str) := nextToken u (skipWhitespace s)

end Verif.Json
