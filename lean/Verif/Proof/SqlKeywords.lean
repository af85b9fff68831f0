import Verif.Proof.SqlLayout
import Verif.Spec.SqlWriting
/-!
# Keywords and signs as they are written are words
-/

namespace Verif.Sql.Writing
open Grammar Lexing Parser

/-- Kinds with a fixed spelling. -/
def fixed : Kind → Bool
  | .ID | .STRING_LIT | .NUMERIC_LIT_1 | .NUMERIC_LIT_2 | .HEX_LIT => false
  | _ => true

/-- Number of the pattern and of the bytes of a keyword. -/
def kwLex (k : Kind) : Bool :=
  match Parser.lex (spelling k).toList with
  | ([⟨i, t, _, _⟩], none) => decide (t = (spelling k).toList) && decide ((Lexing.patterns[i]?).bind (·.1) = some k)
  | _ => false

theorem isWord_kwLex {k : Kind} (h : kwLex k = true) : IsWord (kw k) := by
  unfold kwLex at h
  split at h
  · rename_i i t m n he
    rw [Bool.and_eq_true, decide_eq_true_eq, decide_eq_true_eq] at h
    obtain ⟨h1, h2⟩ := h
    subst h1
    exact isWord_lex he h2
  · cases h

def fixedKinds : List Kind :=
  [.ALL, .AND, .AS, .ASC, .ATTACH, .BETWEEN, .BY, .CASE, .COLLATE, .CROSS, .CURRENT_DATE, .CURRENT_TIME,
   .CURRENT_TIMESTAMP, .DATE, .DELETE, .DESC, .DESCRIBE, .DISTINCT, .ELSE, .END, .EXCEPT, .EXPLAIN, .FILE, .FROM,
   .FULL, .GROUP, .HAVING, .IN, .INNER, .INSERT, .INTERSECT, .INTO, .IS, .ISNULL, .JOIN, .LEFT, .LIKE, .LIMIT,
   .NATURAL, .NOT, .NOTNULL, .NULL, .OFFSET, .ON, .OR, .ORDER, .OUTER, .PLAN, .QUERY, .RIGHT, .SELECT, .SET, .TABLE,
   .THEN, .TIME, .TIMESTAMP, .UNION, .UPDATE, .USING, .VALUES, .WHEN, .WHERE, .WITH, .ne, .lpar, .rpar, .star, .plus,
   .comma, .minus, .dot, .slash, .lt, .le, .eq, .gt, .ge, .bars]

theorem mem_fixedKinds {k : Kind} (h : fixed k = true) : k ∈ fixedKinds := by
  revert h
  cases k <;> decide

theorem fixedKinds_lex : (fixedKinds.all kwLex) = true := by decide +kernel

theorem isWord_kw {k : Kind} (h : fixed k = true) : IsWord (kw k) :=
  isWord_kwLex (List.all_eq_true.mp fixedKinds_lex k (mem_fixedKinds h))

end Verif.Sql.Writing
