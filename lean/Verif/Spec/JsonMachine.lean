import Verif.Spec.JsonText
import Verif.Model.JsonMachine

/-!
# Vocabulary for the state of the JSON tokenizer
-/

namespace Verif.Spec

open Json

/-- The kind of a token with its value. -/
inductive HasKind : Json.Tok → Kind → Prop
  | eof : HasKind .eof .eof
  | null : HasKind .null .null
  | true : HasKind .true .true
  | false : HasKind .false .false
  | string {s : Str} : HasKind (.string s) .string
  | number {s : Str} : HasKind (.number s) .number
  | beginObject : HasKind .beginObject .beginObject
  | endObject : HasKind .endObject .endObject
  | beginArray : HasKind .beginArray .beginArray
  | endArray : HasKind .endArray .endArray
  | comma : HasKind .comma .comma
  | colon : HasKind .colon .colon

/-- The text of a token that has one. -/
inductive HasText : Json.Tok → Str → Prop
  | string {s : Str} : HasText (.string s) s
  | number {s : Str} : HasText (.number s) s

/-- A tokenizer for `input` that a caller can have: `new` returned it, and `next` was called any number of times
without a panic, whether it returned `Ok` or `Err`. -/
inductive Reached (u : Char → Bool) (input : Str) : Machine → Prop
  | new {m : Machine} : Machine.new u input = (.ok, m) → Reached u input m
  | next {m m' : Machine} {r : Ret} : Reached u input m → m.next u = (r, m') → r ≠ .panic → Reached u input m'

/-- `m'` comes from `m` by `n` calls of `next`, each of which returned `Ok` or `Err`. -/
inductive Calls (u : Char → Bool) : Nat → Machine → Machine → Prop
  | none {m : Machine} : Calls u 0 m m
  | more {n : Nat} {m m' m'' : Machine} {r : Ret} : m.next u = (r, m') → r ≠ .panic → Calls u n m' m'' →
      Calls u (n + 1) m m''

/-- What follows a backslash is no escape sequence: nothing, another character, or `u` with less than four
hexadecimal digits up to the end of the text. -/
def BadTail (z : Str) : Prop :=
  z = [] ∨ (∃ c w, z = c :: w ∧ c ≠ 'u' ∧ ¬ ∃ x, Escape c x) ∨ ∃ hs n, z = 'u' :: hs ∧ hs.length < 4 ∧ HexText hs 0 n

/-- The text begins with a string that has a malformed escape sequence. -/
def BadEscape (s : Str) : Prop :=
  ∃ raw t z, s = '"' :: (raw ++ '\\' :: z) ∧ Body (fun n => n ≤ 4) raw t ∧ BadTail z

/-- The text begins like a number. -/
def NumberLike (s : Str) : Prop := ∃ c r, s = c :: r ∧ (c = '-' ∨ isDigit c = true)

/-- The characters with which tokens begin. -/
def Opens (c : Char) : Prop :=
  c = '[' ∨ c = ']' ∨ c = '{' ∨ c = '}' ∨ c = ',' ∨ c = ':' ∨ c = 'n' ∨ c = 't' ∨ c = 'f' ∨ c = '"' ∨ c = '-' ∨
    isDigit c = true

end Verif.Spec
