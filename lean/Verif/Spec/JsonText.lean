import Verif.Spec.Json

/-!
# Specification: JSON texts

The lexical part of the JSON grammar (RFC 8259): white space, punctuation, literals, strings and numbers.
-/

namespace Verif.Spec

open Verif Json

/-- No character of `s` in front satisfies `P`. -/
def NotStart (P : Char → Prop) (s : Str) : Prop := ∀ c ∈ s.head?, ¬ P c

/-- Decimal digits only. -/
def Digits (s : Str) : Prop := ∀ c ∈ s, isDigit c = true

/-- An integer part without leading zeros. -/
def IntText (s : Str) : Prop := s = ['0'] ∨ ∃ d ds, s = d :: ds ∧ isDigit d = true ∧ d ≠ '0' ∧ Digits ds

/-- An optional fraction; `n` says how many digits it may have. -/
def FracText (n : Nat → Prop) (s : Str) : Prop := s = [] ∨ ∃ ds, s = '.' :: ds ∧ n ds.length ∧ Digits ds

/-- An optional exponent. -/
def ExpText (s : Str) : Prop :=
  s = [] ∨ ∃ e sg ds, s = e :: sg ++ ds ∧ (e = 'e' ∨ e = 'E') ∧ (sg = [] ∨ sg = ['+'] ∨ sg = ['-']) ∧
    ds ≠ [] ∧ Digits ds

/-- A number, with the fraction limited by `n`. -/
def NumberWith (n : Nat → Prop) (s : Str) : Prop :=
  ∃ sg i f e, s = sg ++ i ++ f ++ e ∧ (sg = [] ∨ sg = ['-']) ∧ IntText i ∧ FracText n f ∧ ExpText e

/-- A JSON number: a decimal point is followed by at least one digit. -/
def NumberText (s : Str) : Prop := NumberWith (fun n => 0 < n) s

/-- `c` is a hexadecimal digit of value `d`. -/
def HexDigit (c : Char) (d : Nat) : Prop :=
  (d < 10 ∧ c = Char.ofNat (48 + d)) ∨
    (10 ≤ d ∧ d < 16 ∧ (c = Char.ofNat (87 + d) ∨ c = Char.ofNat (55 + d)))

/-- `cs` are hexadecimal digits; they extend the number `m` to `n`. -/
inductive HexText : Str → Nat → Nat → Prop
  | nil {m : Nat} : HexText [] m m
  | cons {c : Char} {cs : Str} {d m n : Nat} : HexDigit c d → HexText cs (m * 16 + d) n →
      HexText (c :: cs) m n

/-- The escape sequences of one letter. -/
inductive Escape : Char → Char → Prop
  | slash : Escape '/' '/'
  | backslash : Escape '\\' '\\'
  | quote : Escape '"' '"'
  | b : Escape 'b' (Char.ofNat 8)
  | f : Escape 'f' (Char.ofNat 12)
  | n : Escape 'n' (Char.ofNat 10)
  | r : Escape 'r' (Char.ofNat 13)
  | t : Escape 't' (Char.ofNat 9)

/-- The characters between quotation marks and the string they stand for; `n` says how many digits may
follow `\u`.  A code that is no character (a surrogate) stands for nothing. -/
inductive Body (n : Nat → Prop) : Str → Str → Prop
  | nil : Body n [] []
  | plain {c : Char} {raw s : Str} : c ≠ '"' → c ≠ '\\' → 0x1f < c.toNat → Body n raw s →
      Body n (c :: raw) (c :: s)
  | escape {e c : Char} {raw s : Str} : Escape e c → Body n raw s → Body n ('\\' :: e :: raw) (c :: s)
  | code {hs raw s : Str} {c : Char} : n hs.length → HexText hs 0 c.toNat →
      (hs.length < 4 → NotStart (fun c => ∃ d, HexDigit c d) raw) → Body n raw s →
      Body n ('\\' :: 'u' :: (hs ++ raw)) (c :: s)

/-- The inside of a JSON string. -/
def StrBody : Str → Str → Prop := Body (fun n => n = 4)

/-- The text of a token; `n` and `m` limit the digits of fractions and of `\u`. -/
inductive SpellingWith (n m : Nat → Prop) : Json.Tok → Str → Prop
  | null : SpellingWith n m .null "null".toList
  | true : SpellingWith n m .true "true".toList
  | false : SpellingWith n m .false "false".toList
  | string {raw s : Str} : Body m raw s → SpellingWith n m (.string s) ('"' :: raw ++ ['"'])
  | number {s : Str} : NumberWith n s → SpellingWith n m (.number s) s
  | beginObject : SpellingWith n m .beginObject ['{']
  | endObject : SpellingWith n m .endObject ['}']
  | beginArray : SpellingWith n m .beginArray ['[']
  | endArray : SpellingWith n m .endArray [']']
  | comma : SpellingWith n m .comma [',']
  | colon : SpellingWith n m .colon [':']

/-- The text of a token in JSON. -/
def Spelling : Json.Tok → Str → Prop := SpellingWith (fun n => 0 < n) (fun n => n = 4)

/-- JSON white space. -/
def Blank (s : Str) : Prop := ∀ c ∈ s, c = ' ' ∨ c = '\t' ∨ c = '\n' ∨ c = '\r'

/-- Literals and numbers end at white space, at `,`, `]` or `}`, or at the end of the text. -/
def Ends (k : Json.Tok) (s : Str) : Prop :=
  match k with
  | .null | .true | .false | .number _ =>
    NotStart (fun c => ¬ (c = ' ' ∨ c = '\t' ∨ c = '\n' ∨ c = '\r' ∨ c = ',' ∨ c = ']' ∨ c = '}')) s
  | _ => True

/-- The text consists of the tokens, with white space anywhere around them. -/
inductive Laid : List Json.Tok → Str → Prop
  | nil {s : Str} : Blank s → Laid [] s
  | cons {ws p s : Str} {k : Json.Tok} {ks : List Json.Tok} : Blank ws → Spelling k p → Ends k s →
      Laid ks s → Laid (k :: ks) (ws ++ p ++ s)

/-- The characters the encoder writes so that they can be read back: not NUL, no control character written
with a hexadecimal digit above 9, and nothing from U+8000 to U+FFFF. -/
def Writable (c : Char) : Prop :=
  c.toNat ≠ 0 ∧ c.toNat ∉ [0x0b, 0x0e, 0x0f, 0x1a, 0x1b, 0x1c, 0x1d, 0x1e, 0x1f] ∧
    ¬ (0x8000 ≤ c.toNat ∧ c.toNat ≤ 0xffff)

/-- A primitive value that can be written and read back: integers and booleans always, characters if
`Writable`, floating point numbers if their text is a JSON number that is read as the same value. -/
def PrimOk (F : FloatText) : PrimVal → Prop
  | ⟨.char, c⟩ => Writable c
  | ⟨.f32, v⟩ => NumberText (F.show32 v) ∧ F.parse32 (F.show32 v) = some v
  | ⟨.f64, v⟩ => NumberText (F.show64 v) ∧ F.parse64 (F.show64 v) = some v
  | _ => True

/-- Floating point numbers are written as JSON numbers, or else as `inf`, `-inf` or `NaN`. -/
def OrdinaryFloats (F : FloatText) : Prop :=
  (∀ v, NumberText (F.show32 v) ∨ F.show32 v ∈ ["inf".toList, "-inf".toList, "NaN".toList]) ∧
  (∀ v, NumberText (F.show64 v) ∨ F.show64 v ∈ ["inf".toList, "-inf".toList, "NaN".toList])

/-- A value of the type that can be written and read back. -/
inductive Plain (F : FloatText) : Ty → Val → Prop
  | unit : Plain F .unit .unit
  | prim {v : PrimVal} : PrimOk F v → Plain F (.prim v.kind) (.prim v)
  | str {s : Str} : (∀ c ∈ s, Writable c) → Plain F .string (.str s.utf8)
  | tuple {cs : List Ty} {vs : List Val} : vs.length = cs.length →
      (∀ (i : Nat) (c : Ty) (v : Val), cs[i]? = some c → vs[i]? = some v → Plain F c v) →
      Plain F (.tuple cs) (.seq vs)
  | struct {fs : List (Str × Ty)} {vs : List Val} : fs.length ≤ 63 → (fs.map (·.1)).Nodup →
      (∀ f ∈ fs, ∀ c ∈ f.1, Writable c) → vs.length = fs.length →
      (∀ (i : Nat) (f : Str × Ty) (v : Val), fs[i]? = some f → vs[i]? = some v → Plain F f.2 v) →
      Plain F (.struct fs) (.seq vs)
  | enum {cs : List (Str × Ty)} {i : Nat} {l : Str} {c : Ty} {v : Val} : cs[i]? = some (l, c) →
      (∀ (j : Nat) (d : Str × Ty), i < j → cs[j]? = some d → d.1 ≠ l) → (∀ c ∈ l, Writable c) →
      Plain F c v → Plain F (.enum cs) (.case i v)

/-- Each escape sequence of four hexadecimal digits names a character, not a surrogate. -/
def NoSurrogates (s : Str) : Prop :=
  ∀ a hs b n, s = a ++ '\\' :: 'u' :: (hs ++ b) → hs.length = 4 → HexText hs 0 n → n.isValidChar

/-- A text that begins with a quotation mark, and in the string after it comes an escape sequence of four
hexadecimal digits for a surrogate. -/
def BadString (s : Str) : Prop :=
  ∃ raw t hs z n, s = '"' :: (raw ++ '\\' :: 'u' :: (hs ++ z)) ∧ Body (fun n => n ≤ 4) raw t ∧ hs.length = 4 ∧
    HexText hs 0 n ∧ 0xd800 ≤ n ∧ n ≤ 0xdfff

/-- The text begins with the tokens, in spellings limited by `n` and `m`, with white space before them;
`r` follows. -/
inductive Begins (n m : Nat → Prop) : List Json.Tok → Str → Str → Prop
  | nil {s : Str} : Begins n m [] s s
  | cons {ws p s r : Str} {k : Json.Tok} {ks : List Json.Tok} : (∀ c ∈ ws, isSpace c = true) →
      SpellingWith n m k p → Begins n m ks s r → Begins n m (k :: ks) (ws ++ p ++ s) r

end Verif.Spec
