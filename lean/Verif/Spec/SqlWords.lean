import Verif.Spec.SqlGrammar
import Verif.Model.SqlLexer
/-!
# The words of SQL texts (`src/sql/parser.lalrpop` L29-134)

The patterns of the words as regular expressions with the usual meaning (a set of texts), and the division of a text
into words: the longest word, and of the kinds of word it can be the last in the list.
-/

namespace Verif.Sql.Lexing
open Grammar

/-- Regular expressions. -/
inductive Re where
  /-- one character of one of the ranges -/
  | one (ranges : List (Char × Char))
  | seq (a b : Re)
  | maybe (a : Re)
  | many (a : Re)

/-- Character in one of the ranges. -/
def InRanges (c : Char) (rs : List (Char × Char)) : Prop := ∃ r ∈ rs, r.1 ≤ c ∧ c ≤ r.2

/-- The texts of a regular expression. -/
inductive Re.Matches : Re → Str → Prop where
  | one {c rs} : InRanges c rs → Matches (.one rs) [c]
  | seq {a b s t} : Matches a s → Matches b t → Matches (.seq a b) (s ++ t)
  | absent {a} : Matches (.maybe a) []
  | present {a s} : Matches a s → Matches (.maybe a) s
  | nil {a} : Matches (.many a) []
  | cons {a s t} : Matches a s → Matches (.many a) t → Matches (.many a) (s ++ t)

/-- `a+` -/
def Re.some (a : Re) : Re := .seq a (.many a)

/-- One of the characters of a string. -/
def chars (s : String) : Re := .one (s.toList.map fun c => (c, c))

/-- One character of each of the strings. -/
def word : List String → Re
  | [] => .many (.one [])
  | [s] => chars s
  | s :: ss => .seq (chars s) (word ss)

/-- `[0-9]` -/
def digit : Re := .one [('0', '9')]

/-- `(E[\+\-]?[0-9]+)?` -/
def exponent : Re := .maybe (.seq (chars "E") (.seq (.maybe (chars "+-")) digit.some))

/-- `'[ -\&\(-\~\u{80}-\u{10ffff}]*'` (`src/sql/parser.rs` L7445) -/
def string : Re :=
  .seq (chars "'") (.seq (.many (.one [(' ', '&'), ('(', '~'), ('\u0080', Char.ofNat 0x10ffff)])) (chars "'"))

/-- `0x[0-9A-Fa-f]+` (`src/sql/parser.rs` L7446) -/
def hex : Re := .seq (chars "0") (.seq (chars "x") (Re.one [('0', '9'), ('A', 'F'), ('a', 'f')]).some)

/-- `[0-9]+(\.[0-9]*)?(E[\+\-]?[0-9]+)?` (`src/sql/parser.rs` L7447) -/
def numeric1 : Re := .seq digit.some (.seq (.maybe (.seq (chars ".") (.many digit))) exponent)

/-- `[A-Z_a-z][0-9A-Z_a-z]*` (`src/sql/parser.rs` L7448) -/
def ident : Re :=
  .seq (.one [('A', 'Z'), ('_', '_'), ('a', 'z')]) (.many (.one [('0', '9'), ('A', 'Z'), ('_', '_'), ('a', 'z')]))

/-- `\.[0-9]+(E[\+\-]?[0-9]+)?` (`src/sql/parser.rs` L7449) -/
def numeric2 : Re := .seq (chars ".") (.seq digit.some exponent)

/-- `\s*` (`src/sql/parser.rs` L7528): the characters with the Unicode property `White_Space`. -/
def spaces : Re := .many (.one [('\t', '\r'), (' ', ' '), ('\u0085', '\u0085'), ('\u00a0', '\u00a0'),
  ('\u1680', '\u1680'), ('\u2000', '\u200a'), ('\u2028', '\u2028'), ('\u2029', '\u2029'),
  ('\u202f', '\u202f'), ('\u205f', '\u205f'), ('\u3000', '\u3000')])

/-- The kinds of words with their patterns (`src/sql/parser.rs` L7444-7529); white space has no kind. -/
def patterns : List (Option Kind × Re) := [
  (some .STRING_LIT, string),
  (some .HEX_LIT, hex),
  (some .NUMERIC_LIT_1, numeric1),
  (some .ID, ident),
  (some .NUMERIC_LIT_2, numeric2),
  (some .ALL, word ["Aa", "Ll", "Ll"]),
  (some .AND, word ["Aa", "Nn", "Dd"]),
  (some .AS, word ["Aa", "Ss\u017f"]),
  (some .ASC, word ["Aa", "Ss\u017f", "Cc"]),
  (some .ATTACH, word ["Aa", "Tt", "Tt", "Aa", "Cc", "Hh"]),
  (some .BETWEEN, word ["Bb", "Ee", "Tt", "Ww", "Ee", "Ee", "Nn"]),
  (some .BY, word ["Bb", "Yy"]),
  (some .CASE, word ["Cc", "Aa", "Ss\u017f", "Ee"]),
  (some .COLLATE, word ["Cc", "Oo", "Ll", "Ll", "Aa", "Tt", "Ee"]),
  (some .CROSS, word ["Cc", "Rr", "Oo", "Ss\u017f", "Ss\u017f"]),
  (some .CURRENT_DATE, word ["Cc", "Uu", "Rr", "Rr", "Ee", "Nn", "Tt", "_", "Dd", "Aa", "Tt", "Ee"]),
  (some .CURRENT_TIME, word ["Cc", "Uu", "Rr", "Rr", "Ee", "Nn", "Tt", "_", "Tt", "Ii", "Mm", "Ee"]),
  (some .CURRENT_TIMESTAMP, word ["Cc", "Uu", "Rr", "Rr", "Ee", "Nn", "Tt", "_", "Tt", "Ii", "Mm", "Ee", "Ss\u017f", "Tt", "Aa", "Mm", "Pp"]),
  (some .DATE, word ["Dd", "Aa", "Tt", "Ee"]),
  (some .DELETE, word ["Dd", "Ee", "Ll", "Ee", "Tt", "Ee"]),
  (some .DESC, word ["Dd", "Ee", "Ss\u017f", "Cc"]),
  (some .DESCRIBE, word ["Dd", "Ee", "Ss\u017f", "Cc", "Rr", "Ii", "Bb", "Ee"]),
  (some .DISTINCT, word ["Dd", "Ii", "Ss\u017f", "Tt", "Ii", "Nn", "Cc", "Tt"]),
  (some .ELSE, word ["Ee", "Ll", "Ss\u017f", "Ee"]),
  (some .END, word ["Ee", "Nn", "Dd"]),
  (some .EXCEPT, word ["Ee", "Xx", "Cc", "Ee", "Pp", "Tt"]),
  (some .EXPLAIN, word ["Ee", "Xx", "Pp", "Ll", "Aa", "Ii", "Nn"]),
  (some .FILE, word ["Ff", "Ii", "Ll", "Ee"]),
  (some .FROM, word ["Ff", "Rr", "Oo", "Mm"]),
  (some .FULL, word ["Ff", "Uu", "Ll", "Ll"]),
  (some .GROUP, word ["Gg", "Rr", "Oo", "Uu", "Pp"]),
  (some .HAVING, word ["Hh", "Aa", "Vv", "Ii", "Nn", "Gg"]),
  (some .IN, word ["Ii", "Nn"]),
  (some .INNER, word ["Ii", "Nn", "Nn", "Ee", "Rr"]),
  (some .INSERT, word ["Ii", "Nn", "Ss\u017f", "Ee", "Rr", "Tt"]),
  (some .INTERSECT, word ["Ii", "Nn", "Tt", "Ee", "Rr", "Ss\u017f", "Ee", "Cc", "Tt"]),
  (some .INTO, word ["Ii", "Nn", "Tt", "Oo"]),
  (some .IS, word ["Ii", "Ss\u017f"]),
  (some .ISNULL, word ["Ii", "Ss\u017f", "Nn", "Uu", "Ll", "Ll"]),
  (some .JOIN, word ["Jj", "Oo", "Ii", "Nn"]),
  (some .LEFT, word ["Ll", "Ee", "Ff", "Tt"]),
  (some .LIKE, word ["Ll", "Ii", "Kk\u212a", "Ee"]),
  (some .LIMIT, word ["Ll", "Ii", "Mm", "Ii", "Tt"]),
  (some .NATURAL, word ["Nn", "Aa", "Tt", "Uu", "Rr", "Aa", "Ll"]),
  (some .NOT, word ["Nn", "Oo", "Tt"]),
  (some .NOTNULL, word ["Nn", "Oo", "Tt", "Nn", "Uu", "Ll", "Ll"]),
  (some .NULL, word ["Nn", "Uu", "Ll", "Ll"]),
  (some .OFFSET, word ["Oo", "Ff", "Ff", "Ss\u017f", "Ee", "Tt"]),
  (some .ON, word ["Oo", "Nn"]),
  (some .OR, word ["Oo", "Rr"]),
  (some .ORDER, word ["Oo", "Rr", "Dd", "Ee", "Rr"]),
  (some .OUTER, word ["Oo", "Uu", "Tt", "Ee", "Rr"]),
  (some .PLAN, word ["Pp", "Ll", "Aa", "Nn"]),
  (some .QUERY, word ["Qq", "Uu", "Ee", "Rr", "Yy"]),
  (some .RIGHT, word ["Rr", "Ii", "Gg", "Hh", "Tt"]),
  (some .SELECT, word ["Ss\u017f", "Ee", "Ll", "Ee", "Cc", "Tt"]),
  (some .SET, word ["Ss\u017f", "Ee", "Tt"]),
  (some .TABLE, word ["Tt", "Aa", "Bb", "Ll", "Ee"]),
  (some .THEN, word ["Tt", "Hh", "Ee", "Nn"]),
  (some .TIME, word ["Tt", "Ii", "Mm", "Ee"]),
  (some .TIMESTAMP, word ["Tt", "Ii", "Mm", "Ee", "Ss\u017f", "Tt", "Aa", "Mm", "Pp"]),
  (some .UNION, word ["Uu", "Nn", "Ii", "Oo", "Nn"]),
  (some .UPDATE, word ["Uu", "Pp", "Dd", "Aa", "Tt", "Ee"]),
  (some .USING, word ["Uu", "Ss\u017f", "Ii", "Nn", "Gg"]),
  (some .VALUES, word ["Vv", "Aa", "Ll", "Uu", "Ee", "Ss\u017f"]),
  (some .WHEN, word ["Ww", "Hh", "Ee", "Nn"]),
  (some .WHERE, word ["Ww", "Hh", "Ee", "Rr", "Ee"]),
  (some .WITH, word ["Ww", "Ii", "Tt", "Hh"]),
  (some .ne, word ["!", "="]),
  (some .lpar, word ["("]),
  (some .rpar, word [")"]),
  (some .star, word ["*"]),
  (some .plus, word ["+"]),
  (some .comma, word [","]),
  (some .minus, word ["-"]),
  (some .dot, word ["."]),
  (some .slash, word ["/"]),
  (some .lt, word ["<"]),
  (some .le, word ["<", "="]),
  (some .eq, word ["="]),
  (some .gt, word [">"]),
  (some .ge, word [">", "="]),
  (some .bars, word ["|", "|"]),
  (none, spaces)
]

/-- At the beginning of `s` the word `t` of pattern number `i` wins: no pattern has a longer word there, and no later
pattern has the word. -/
structure Wins (s t : Str) (i : Nat) : Prop where
  isPrefix : t <+: s
  isWord : ∃ k r, patterns[i]? = some (k, r) ∧ r.Matches t
  best : ∀ j k r u, patterns[j]? = some (k, r) → u <+: s → r.Matches u → u.length < t.length ∨ (u = t ∧ j ≤ i)

/-- Number of bytes of a text. -/
def bytes (t : Str) : Nat := (Str.utf8 t).length

/-- The words of a text that starts at a byte offset; after them, if there is a place where no word starts, its offset. -/
inductive Tokens : Nat → Str → List Parser.Token → Option Nat → Prop where
  | done {off} : Tokens off [] [] none
  | skip {off t r i toks inv} : Wins (t ++ r) t i → (∃ re, patterns[i]? = some (none, re)) → t ≠ [] →
      Tokens (off + bytes t) r toks inv → Tokens off (t ++ r) toks inv
  | token {off t r i k re toks inv} : Wins (t ++ r) t i → patterns[i]? = some (some k, re) →
      Tokens (off + bytes t) r toks inv →
      Tokens off (t ++ r) (⟨i, t, off, off + bytes t⟩ :: toks) inv
  | stuck {off c r i} : Wins (c :: r) [] i → Tokens off (c :: r) [] (some off)

/-- The word of a token. -/
def wordOf (t : Parser.Token) : Lexeme := (((patterns[t.index]?).bind (·.1)).getD .ne, t.text)

/-- A text that is one word. -/
def IsWord (w : Lexeme) : Prop := ∃ i re, patterns[i]? = some (some w.1, re) ∧ Wins w.2 w.2 i

/-- White space. -/
def Blank (g : Str) : Prop := spaces.Matches g

/-- Words written one after the other, with any white space before and after them and at least one character of it
between them. -/
inductive Laid : List Lexeme → Str → Prop where
  | none {g} : Blank g → Laid [] g
  | last {g w g'} : Blank g → IsWord w → Blank g' → Laid [w] (g ++ (w.2 ++ g'))
  | more {g w c s v ws} : Blank g → IsWord w → Blank [c] → Laid (v :: ws) s → Laid (w :: v :: ws) (g ++ (w.2 ++ c :: s))

end Verif.Sql.Lexing
