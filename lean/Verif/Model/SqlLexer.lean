import Verif.Model.TypeParser
/-!
# Lexer of the SQL parser (`src/sql/parser.rs` L7433-7532)

The patterns are those of `__intern_token::new_builder`, in its order.  The loop over them is the `Matcher` of
`lalrpop_util` 0.19 (`lexer.rs`), a dependency: all patterns are tried at the current position, the longest match
wins, of two matches of the same length the later one; the match of the last pattern, white space, is skipped, and
an empty match of it means that no token starts here.

A pattern is matched by the `regex` crate, modelled by its documented behaviour: repetitions are greedy and an
option is taken when it can be.  Lengths are counted in characters; all matches start at the same place, so
comparing them gives the same result as comparing bytes.
-/

namespace Verif.Sql.Parser

/-- A token: index of the pattern, text, and the byte offsets where it starts and ends
(`(usize, Token<'input>, usize)`). -/
structure Token where
  index : Nat
  text : Str
  start : Nat
  stop : Nat
  deriving DecidableEq, Repr

/-- The characters a character of a `(?i)` pattern stands for (`src/sql/parser.rs` L7450-7512): both cases, and for
`s` and `k` the characters that Unicode folds to them, U+017F and U+212A. -/
def caseClass (c : Char) : List Char :=
  if c = '_' then ['_']
  else if c = 's' then ['S', 's', Char.ofNat 0x17F]
  else if c = 'k' then ['K', 'k', Char.ofNat 0x212A]
  else [Char.ofNat (c.toNat - 32), c]

/-- The shapes of the patterns. -/
inductive Pattern where
  /-- a sequence of one character of each class -/
  | word (classes : List (List Char))
  /-- `'[ -\&\(-\~\u{80}-\u{10ffff}]*'` -/
  | string
  /-- `0x[0-9A-Fa-f]+` -/
  | hex
  /-- `[0-9]+(\.[0-9]*)?(E[\+\-]?[0-9]+)?` -/
  | numeric1
  /-- `[A-Z_a-z][0-9A-Z_a-z]*` -/
  | ident
  /-- `\.[0-9]+(E[\+\-]?[0-9]+)?` -/
  | numeric2
  /-- `\s*` -/
  | space

/-- A keyword, given by its lower-case letters. -/
def kw (s : String) : Pattern := .word (s.toList.map caseClass)

/-- A sequence of fixed characters. -/
def sym (s : String) : Pattern := .word (s.toList.map fun c => [c])

/-- `__strs` (`src/sql/parser.rs` L7444-7529). -/
def patterns : List Pattern := [
  .string, .hex, .numeric1, .ident, .numeric2,
  kw "all", kw "and", kw "as", kw "asc", kw "attach", kw "between", kw "by", kw "case", kw "collate",
  kw "cross", kw "current_date", kw "current_time", kw "current_timestamp", kw "date", kw "delete",
  kw "desc", kw "describe", kw "distinct", kw "else", kw "end", kw "except", kw "explain", kw "file",
  kw "from", kw "full", kw "group", kw "having", kw "in", kw "inner", kw "insert", kw "intersect",
  kw "into", kw "is", kw "isnull", kw "join", kw "left", kw "like", kw "limit", kw "natural", kw "not",
  kw "notnull", kw "null", kw "offset", kw "on", kw "or", kw "order", kw "outer", kw "plan",
  kw "query", kw "right", kw "select", kw "set", kw "table", kw "then", kw "time", kw "timestamp",
  kw "union", kw "update", kw "using", kw "values", kw "when", kw "where", kw "with",
  sym "!=", sym "(", sym ")", sym "*", sym "+", sym ",", sym "-", sym ".", sym "/", sym "<", sym "<=",
  sym "=", sym ">", sym ">=", sym "||",
  .space
]

/-- Length of the longest prefix of characters that satisfy `p`. -/
def span (p : Char → Bool) : Str → Nat
  | [] => 0
  | c :: cs => if p c then span p cs + 1 else 0

/-- A sequence of classes at the start of the text. -/
def matchWord : List (List Char) → Str → Bool
  | [], _ => true
  | cl :: cls, c :: cs => cl.contains c && matchWord cls cs
  | _ :: _, [] => false

/-- `[ -\&\(-\~\u{80}-\u{10ffff}]` (`src/sql/parser.rs` L7445). -/
def stringChar (c : Char) : Bool :=
  (32 ≤ c.toNat && c.toNat ≤ 38) || (40 ≤ c.toNat && c.toNat ≤ 126) || 128 ≤ c.toNat

/-- `[0-9A-Fa-f]` (`src/sql/parser.rs` L7446). -/
def hexChar (c : Char) : Bool :=
  isDigit c || (65 ≤ c.toNat && c.toNat ≤ 70) || (97 ≤ c.toNat && c.toNat ≤ 102)

/-- `(E[\+\-]?[0-9]+)?` (`src/sql/parser.rs` L7447, L7449): length of the match. -/
def matchExponent : Str → Nat
  | 'E' :: c :: cs =>
    if c = '+' || c = '-' then (if span isDigit cs = 0 then 0 else span isDigit cs + 2)
    else (if span isDigit (c :: cs) = 0 then 0 else span isDigit (c :: cs) + 1)
  | _ => 0

/-- `(\.[0-9]*)?` (`src/sql/parser.rs` L7447): length of the match. -/
def matchFraction : Str → Nat
  | '.' :: cs => span isDigit cs + 1
  | _ => 0

/-- `Regex::find` of a pattern anchored at the start: the length of the match. -/
def Pattern.find (p : Pattern) (s : Str) : Option Nat :=
  match p with
  | .word cls => if matchWord cls s then some cls.length else none
  | .string => match s with
    | '\'' :: r => match r.drop (span stringChar r) with
      | '\'' :: _ => some (span stringChar r + 2)
      | _ => none
    | _ => none
  | .hex => match s with
    | '0' :: 'x' :: r => if span hexChar r = 0 then none else some (span hexChar r + 2)
    | _ => none
  | .numeric1 =>
    let n := span isDigit s
    if n = 0 then none
    else
      let f := matchFraction (s.drop n)
      some (n + f + matchExponent (s.drop (n + f)))
  | .ident => match s with
    | c :: r => if TypeParser.identStart c then some (span TypeParser.identChar r + 1) else none
    | [] => none
  | .numeric2 => match s with
    | '.' :: r =>
      let n := span isDigit r
      if n = 0 then none else some (n + 1 + matchExponent (r.drop n))
    | _ => none
  | .space => some (span isSpace s)

/-- The loop over the matching patterns in `Matcher::next`: length and index of the match that wins. -/
def longest (s : Str) : List Pattern → Nat → Nat × Nat → Nat × Nat
  | [], _, best => best
  | p :: ps, i, best => match p.find s with
    | some n => longest s ps (i + 1) (if best.1 ≤ n then (n, i) else best)
    | none => longest s ps (i + 1) best

/-- The index of the pattern for white space, the only one that is skipped. -/
def skipIndex : Nat := 83

/-- `Matcher` as an iterator: the tokens it yields, and the offset where no token starts if it ends with
`InvalidToken`.  Every round of the loop consumes at least one character; the number bounds the rounds. -/
def lexFrom : Nat → Nat → Str → List Token × Option Nat
  | 0, _, _ => ([], none)
  | fuel + 1, off, s =>
    if s.isEmpty then ([], none)
    else
      let m := longest s patterns 0 (0, 0)
      let off' := off + (Str.utf8 (s.take m.1)).length
      if m.2 = skipIndex then
        if m.1 = 0 then ([], some off) else lexFrom fuel off' (s.drop m.1)
      else
        let r := lexFrom fuel off' (s.drop m.1)
        (⟨m.2, s.take m.1, off, off'⟩ :: r.1, r.2)

/-- The tokens of a text (`self.builder.matcher(input)`, `src/sql/parser.rs` L1979). -/
def lex (s : Str) : List Token × Option Nat := lexFrom (s.length + 1) 0 s

end Verif.Sql.Parser
