import Verif.Model.JsonTokenizer

/-!
# Model of the state of `Tokenizer`, src/core/json/tokenizer.rs

`Verif/Model/JsonTokenizer.lean` maps the text that is left to a token with its value and the text left after it.
This model has the state behind it: the current token, the byte positions from which `value` takes the text of a
number, and the buffer for strings, also after `next` has returned `Err`.

The look-ahead character and the iterator are represented by `rest`, the characters from the look-ahead on, and
`pos`, the byte position of the first of them.
-/

namespace Verif.Json

/-- `Token`, src/core/json/tokenizer.rs L113-127. -/
inductive Kind where
  | eof | error | null | true | false | string | number | beginObject | endObject | beginArray | endArray | comma | colon
  deriving DecidableEq, Repr

/-- What a call comes to: `Ok(())`, `Err(..)` or a panic. -/
inductive Ret where
  | ok | err | panic
  deriving DecidableEq, Repr

/-- `Tokenizer`, src/core/json/tokenizer.rs L130-137. -/
structure Machine where
  token : Kind
  input : Str
  pos : Nat
  rest : Str
  start : Nat
  stop : Nat
  buffer : Str
  deriving DecidableEq, Repr

/-- `str::len`: the number of bytes. -/
def byteLen (s : Str) : Nat := (s.map Char.utf8Size).sum

/-- The characters before the byte position `n` and those from it on, if it is the start of a character or the end
of the text. -/
def cutAt : Nat → Str → Option (Str × Str)
  | 0, s => some ([], s)
  | _ + 1, [] => none
  | n + 1, c :: s =>
    if c.utf8Size ≤ n + 1 then
      match cutAt (n + 1 - c.utf8Size) s with
      | some (a, b) => some (c :: a, b)
      | none => none
    else none

/-- `str::get(start..stop)`. -/
def getRange (input : Str) (start stop : Nat) : Option Str :=
  if start ≤ stop then
    match cutAt start input with
    | some (_, s) => (cutAt (stop - start) s).map (·.1)
    | none => none
  else none

namespace Machine

/-- `advance`, src/core/json/tokenizer.rs L157-159. -/
def advance (m : Machine) : Machine :=
  match m.rest with
  | [] => m
  | c :: s => { m with pos := m.pos + c.utf8Size, rest := s }

/-- `current_pos`, src/core/json/tokenizer.rs L161-166. -/
def currentPos (m : Machine) : Nat :=
  match m.rest with
  | [] => byteLen m.input
  | _ :: _ => m.pos

/-- `mark_start`, src/core/json/tokenizer.rs L167-170. -/
def markStart (m : Machine) : Machine := { m with start := m.currentPos, stop := m.currentPos }

/-- `mark_end`, src/core/json/tokenizer.rs L172-175. -/
def markEnd (m : Machine) : Machine := { m with stop := m.currentPos }

/-- The loops of `skip_whitespace`, src/core/json/tokenizer.rs L177-185, and `digits`, L299-307: the position and the
characters that are left. -/
def skipWhile (p : Char → Bool) : Nat → Str → Nat × Str
  | pos, [] => (pos, [])
  | pos, c :: s => if p c then skipWhile p (pos + c.utf8Size) s else (pos, c :: s)

/-- `skip_whitespace`, src/core/json/tokenizer.rs L177-185. -/
def skipWhitespace (m : Machine) : Machine :=
  { m with pos := (skipWhile isSpace m.pos m.rest).1, rest := (skipWhile isSpace m.pos m.rest).2 }

/-- `single_char_token`, src/core/json/tokenizer.rs L187-191. -/
def singleChar (k : Kind) (m : Machine) : Ret × Machine := (.ok, { m with token := k }.advance)

/-- The loop of `match_keyword`, src/core/json/tokenizer.rs L194-206. -/
def keywordLoop : Str → Machine → Ret × Machine
  | [], m => (.ok, m)
  | target :: ts, m =>
    match m.rest with
    | c :: _ => if c = target then keywordLoop ts m.advance else (.err, { m with token := .error })
    | [] => (.err, { m with token := .error })

/-- `match_keyword`, src/core/json/tokenizer.rs L193-219. -/
def matchKeyword (u : Char → Bool) (word : Str) (k : Kind) (m : Machine) : Ret × Machine :=
  match keywordLoop word m with
  | (.ok, m) =>
    match m.rest with
    | c :: _ => if isAlnum u c then (.err, { m with token := .error }) else (.ok, { m with token := k })
    | [] => (.ok, { m with token := k })
  | r => r

/-- `push_string_char`, src/core/json/tokenizer.rs L221-224. -/
def pushChar (ch : Char) (m : Machine) : Ret × Machine := (.ok, { m with buffer := m.buffer ++ [ch] }.advance)

/-- The loop for four hexadecimal digits, src/core/json/tokenizer.rs L245-259; the number is `char_code`. -/
def hexLoop : Nat → Nat → Machine → Ret × Nat × Machine
  | 0, code, m => (.ok, code, m)
  | n + 1, code, m =>
    match m.rest with
    | c :: _ =>
      match hexDigit c with
      | some d => hexLoop n (code * 16 + d) m.advance
      | none => hexLoop n code m
    | [] => (.err, code, m)

/-- The `'u'` branch of `string_control_char`, src/core/json/tokenizer.rs L239-263. -/
def unicodeChar (m : Machine) : Ret × Machine :=
  match hexLoop 4 0 m.advance with
  | (.ok, code, m) =>
    if h : code.isValidChar then (.ok, { m with buffer := m.buffer ++ [Char.ofNatAux code h] }) else (.panic, m)
  | (r, _, m) => (r, m)

/-- `string_control_char`, src/core/json/tokenizer.rs L226-267. -/
def controlChar (m : Machine) : Ret × Machine :=
  match m.advance.rest with
  | [] => (.err, m.advance)
  | c :: _ =>
    if c = '/' then m.advance.pushChar '/'
    else if c = '\\' then m.advance.pushChar '\\'
    else if c = '"' then m.advance.pushChar '"'
    else if c = 'b' then m.advance.pushChar (Char.ofNat 8)
    else if c = 'f' then m.advance.pushChar (Char.ofNat 12)
    else if c = 'n' then m.advance.pushChar '\n'
    else if c = 'r' then m.advance.pushChar '\r'
    else if c = 't' then m.advance.pushChar '\t'
    else if c = 'u' then m.advance.unicodeChar
    else (.err, m.advance)

/-- The error case of `match_string`, src/core/json/tokenizer.rs L291-296. -/
def unclosed (m : Machine) : Ret × Machine := (.err, { m.markEnd with token := .error })

/-- The loop of `match_string`, src/core/json/tokenizer.rs L275-296.  The number bounds the iterations, as in
`stringLoop`. -/
def stringLoop : Nat → Machine → Ret × Machine
  | 0, m => m.unclosed
  | n + 1, m =>
    match m.rest with
    | [] => m.unclosed
    | c :: _ =>
      if c = '"' then (.ok, { m.advance with token := .string })
      else if c = '\\' then
        match m.controlChar with
        | (.ok, m) => stringLoop n m
        | r => r
      else if c.toNat ≤ 0x1f then m.unclosed
      else stringLoop n { m with buffer := m.buffer ++ [c] }.advance

/-- `match_string`, src/core/json/tokenizer.rs L269-297. -/
def matchString (m : Machine) : Ret × Machine :=
  stringLoop (m.markStart.advance.rest.length + 1) { m.markStart.advance with buffer := [] }

/-- `digits`, src/core/json/tokenizer.rs L299-307. -/
def digits (m : Machine) : Machine :=
  { m with pos := (skipWhile isDigit m.pos m.rest).1, rest := (skipWhile isDigit m.pos m.rest).2 }

/-- The sign, src/core/json/tokenizer.rs L312-315. -/
def signPart (m : Machine) : Machine :=
  match m.rest with
  | c :: _ => if c = '-' then m.advance else m
  | [] => m

/-- The integer part, src/core/json/tokenizer.rs L317-325. -/
def intPart (m : Machine) : Ret × Machine :=
  match m.rest with
  | c :: _ =>
    if c = '0' then (.ok, m.advance)
    else if isDigit c then (.ok, m.advance.digits)
    else (.err, m)
  | [] => (.err, m)

/-- The fraction, src/core/json/tokenizer.rs L327-331. -/
def fracPart (m : Machine) : Machine :=
  match m.rest with
  | c :: _ => if c = '.' then m.advance.digits else m
  | [] => m

/-- The sign of the exponent, src/core/json/tokenizer.rs L338-341. -/
def expSign (m : Machine) : Machine :=
  match m.rest with
  | c :: _ => if c = '+' ∨ c = '-' then m.advance else m
  | [] => m

/-- The digits of the exponent, src/core/json/tokenizer.rs L343-346. -/
def expDigits (m : Machine) : Ret × Machine :=
  match m.rest with
  | c :: _ => if isDigit c then (.ok, m.digits) else (.err, m)
  | [] => (.err, m)

/-- The exponent, src/core/json/tokenizer.rs L333-349. -/
def expPart (m : Machine) : Ret × Machine :=
  match m.rest with
  | c :: _ => if c = 'e' ∨ c = 'E' then m.advance.expSign.expDigits else (.ok, m)
  | [] => (.ok, m)

/-- `match_number`, src/core/json/tokenizer.rs L309-354. -/
def matchNumber (m : Machine) : Ret × Machine :=
  match m.markStart.signPart.intPart with
  | (.ok, m) =>
    match m.fracPart.expPart with
    | (.ok, m) => (.ok, { m.markEnd with token := .number })
    | r => r
  | r => r

/-- `value`, src/core/json/tokenizer.rs L356-363; `none` is the panic of `unwrap`. -/
def value (m : Machine) : Option Str :=
  if m.token = .string then some m.buffer else getRange m.input m.start m.stop

/-- `next` after the white space, src/core/json/tokenizer.rs L371-403. -/
def nextToken (u : Char → Bool) (m : Machine) : Ret × Machine :=
  match m.rest with
  | [] => (.ok, { m with token := .eof })
  | c :: _ =>
    if c = '[' then m.singleChar .beginArray
    else if c = ']' then m.singleChar .endArray
    else if c = '{' then m.singleChar .beginObject
    else if c = '}' then m.singleChar .endObject
    else if c = ',' then m.singleChar .comma
    else if c = ':' then m.singleChar .colon
    else if c = 'n' then m.matchKeyword u ['n', 'u', 'l', 'l'] .null
    else if c = 't' then m.matchKeyword u ['t', 'r', 'u', 'e'] .true
    else if c = 'f' then m.matchKeyword u ['f', 'a', 'l', 's', 'e'] .false
    else if c = '"' then m.matchString
    else if c = '-' then m.matchNumber
    else if isDigit c then m.matchNumber
    else (.err, { m with token := .error })

/-- `Tokenizer::next`, src/core/json/tokenizer.rs L368-404. -/
def next (u : Char → Bool) (m : Machine) : Ret × Machine := m.skipWhitespace.nextToken u

/-- The tokenizer that `Tokenizer::new` makes before its call of `next`, src/core/json/tokenizer.rs L140-152. -/
def fresh (input : Str) : Machine := ⟨.eof, input, 0, input, 0, 0, []⟩

/-- `Tokenizer::new`, src/core/json/tokenizer.rs L140-155; the tokenizer is lost unless it returns `Ok`. -/
def new (u : Char → Bool) (input : Str) : Ret × Machine := (fresh input).next u

end Machine

end Verif.Json
