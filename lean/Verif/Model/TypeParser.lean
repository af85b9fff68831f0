import Verif.Model.Types

/-!
# Model of `src/core/types/parser.lalrpop`

LALRPOP generates a lexer and an LALR(1) automaton from the grammar.  The lexer is modelled by the
documented rules of LALRPOP's built-in lexer: white space (`\s*`) is skipped between tokens, the longest
match wins, and of two matches of equal length a literal wins over a regular expression.  The automaton is
modelled by a recursive descent parser; theorem C17 shows that it accepts exactly the token sequences the
grammar derives (the grammar itself is transcribed in `Verif/Spec/TypeGrammar.lean`).
-/

namespace Verif

/-- `char::is_whitespace` and the regular expression class `\s`: the Unicode property `White_Space`. -/
def isSpace (c : Char) : Bool :=
  (9 ≤ c.toNat && c.toNat ≤ 13) || c.toNat == 0x20 || c.toNat == 0x85 || c.toNat == 0xA0 ||
  c.toNat == 0x1680 || (0x2000 ≤ c.toNat && c.toNat ≤ 0x200A) || c.toNat == 0x2028 ||
  c.toNat == 0x2029 || c.toNat == 0x202F || c.toNat == 0x205F || c.toNat == 0x3000

namespace TypeParser

/-- The terminals of the grammar, src/core/types/parser.lalrpop L29-105. -/
inductive Tok where
  | lparen | rparen | lbrace | rbrace | comma | colon
  | prim (p : Prim)
  | string | struct | enum
  | ident (s : Str)
  | int (s : Str)
  deriving DecidableEq, Repr

/-- The literal terminals that look like identifiers, src/core/types/parser.lalrpop L43-56, L61, L74, L87. -/
def keyword (s : Str) : Option Tok :=
  if s = ['b', 'o', 'o', 'l'] then some (.prim .bool)
  else if s = ['c', 'h', 'a', 'r'] then some (.prim .char)
  else if s = ['u', '8'] then some (.prim .u8)
  else if s = ['u', '1', '6'] then some (.prim .u16)
  else if s = ['u', '3', '2'] then some (.prim .u32)
  else if s = ['u', '6', '4'] then some (.prim .u64)
  else if s = ['u', '1', '2', '8'] then some (.prim .u128)
  else if s = ['i', '8'] then some (.prim .i8)
  else if s = ['i', '1', '6'] then some (.prim .i16)
  else if s = ['i', '3', '2'] then some (.prim .i32)
  else if s = ['i', '6', '4'] then some (.prim .i64)
  else if s = ['i', '1', '2', '8'] then some (.prim .i128)
  else if s = ['f', '3', '2'] then some (.prim .f32)
  else if s = ['f', '6', '4'] then some (.prim .f64)
  else if s = ['s', 't', 'r', 'i', 'n', 'g'] then some .string
  else if s = ['s', 't', 'r', 'u', 'c', 't'] then some .struct
  else if s = ['e', 'n', 'u', 'm'] then some .enum
  else none

/-- `[A-Za-z_]`, src/core/types/parser.lalrpop L104. -/
def identStart (c : Char) : Bool :=
  (65 ≤ c.toNat && c.toNat ≤ 90) || (97 ≤ c.toNat && c.toNat ≤ 122) || c.toNat == 95

/-- `[A-Za-z0-9_]`, src/core/types/parser.lalrpop L104. -/
def identChar (c : Char) : Bool := identStart c || isDigit c

/-- The token for a maximal match of the identifier pattern. -/
def wordTok (s : Str) : Tok := (keyword s).getD (.ident s)

/-- What the lexer is in the middle of: nothing, a word or a number (characters in reverse). -/
inductive Mode where
  | idle
  | word (acc : Str)
  | num (acc : Str)

/-- One character between tokens: tokens completed and the new mode; `none` is a lexical error. -/
def startTok (c : Char) : Option (List Tok × Mode) :=
  if isSpace c then some ([], .idle)
  else if c = '(' then some ([.lparen], .idle)
  else if c = ')' then some ([.rparen], .idle)
  else if c = '{' then some ([.lbrace], .idle)
  else if c = '}' then some ([.rbrace], .idle)
  else if c = ',' then some ([.comma], .idle)
  else if c = ':' then some ([.colon], .idle)
  else if identStart c then some ([], .word [c])
  else if isDigit c then some ([], .num [c])
  else none

/-- The token a mode stands for. -/
def Mode.flush : Mode → List Tok
  | .idle => []
  | .word acc => [wordTok acc.reverse]
  | .num acc => [.int acc.reverse]

/-- One character of the input. -/
def stepTok (m : Mode) (c : Char) : Option (List Tok × Mode) :=
  match m with
  | .idle => startTok c
  | .word acc => if identChar c then some ([], .word (c :: acc))
    else (startTok c).map fun r => ([wordTok acc.reverse] ++ r.1, r.2)
  | .num acc => if isDigit c then some ([], .num (c :: acc))
    else (startTok c).map fun r => ([.int acc.reverse] ++ r.1, r.2)

/-- LALRPOP's built-in lexer for this grammar (longest match). -/
def lexFrom (m : Mode) : Str → Option (List Tok)
  | [] => some m.flush
  | c :: cs => match stepTok m c with
    | none => none
    | some (out, m') => (lexFrom m' cs).map (out ++ ·)

/-- The whole input. -/
def lex (s : Str) : Option (List Tok) := lexFrom .idle s

mutual
/-- `Type`, src/core/types/parser.lalrpop L29-36, with `Unit` L38-40, `Primitive` L42-57, `Array`
L60-62.  The number bounds the nesting depth; the number of tokens is enough (C17). -/
def parseType : Nat → List Tok → Option (Ty × List Tok)
  | 0, _ => none
  | n + 1, ts => match ts with
    | .lparen :: .rparen :: r => some (.unit, r)
    | .lparen :: r => (parseTuple n r).map fun x => (.tuple x.1, x.2)
    | .prim p :: r => some (.prim p, r)
    | .string :: r => some (.string, r)
    | .struct :: .lbrace :: r => (parseFields n r).map fun x => (.struct x.1, x.2)
    | .enum :: .lbrace :: r => (parseFields n r).map fun x => (.enum x.1, x.2)
    | _ => none
/-- `TypeList ")"`, src/core/types/parser.lalrpop L64-71. -/
def parseTuple : Nat → List Tok → Option (List Ty × List Tok)
  | 0, _ => none
  | n + 1, ts => match parseType n ts with
    | some (t, .comma :: r) => (parseTuple n r).map fun x => (t :: x.1, x.2)
    | some (t, .rparen :: r) => some ([t], r)
    | _ => none
/-- `FieldList ","? "}"`, src/core/types/parser.lalrpop L73-84, and `CaseList ","? "}"` L86-97, which
have the same form. -/
def parseFields : Nat → List Tok → Option (List (Str × Ty) × List Tok)
  | 0, _ => none
  | n + 1, ts => match ts with
    | .ident l :: .colon :: r => match parseType n r with
      | some (t, .comma :: .rbrace :: r) => some ([(l, t)], r)
      | some (t, .comma :: r) => (parseFields n r).map fun x => ((l, t) :: x.1, x.2)
      | some (t, .rbrace :: r) => some ([(l, t)], r)
      | _ => none
    | _ => none
end

/-- The parser on tokens: all tokens must be consumed. -/
def parseToks (ts : List Tok) : Option Ty :=
  match parseType (ts.length + 1) ts with
  | some (t, []) => some t
  | _ => none

/-- `TypeParser::parse`: `none` is `Err(..)`. -/
def parse (s : Str) : Option Ty := (lex s).bind parseToks

end TypeParser

end Verif
