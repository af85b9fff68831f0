import Verif.Proof.SqlParts
import Verif.Props.SqlStack
/-! # The number of calls that validation makes -/

namespace Verif.Props
open Verif Sql Parser Grammar Lexing Writing

/-- C125. Counting the calls does not change the outcome. -/
theorem C125_outcome (up : Char → List Char) (ctx : SetContext Name) (x : SqlStatement Name) :
    (x.validateTypeC (nameOps up) ctx).result = x.validateType (nameOps up) ctx :=
  (sqlStatement_cost ctx x).1

/-- C125. There are at most as many calls as the statement has parts; so no part is looked at twice. -/
theorem C125_parts (up : Char → List Char) (ctx : SetContext Name) (x : SqlStatement Name) :
    (x.validateTypeC (nameOps up) ctx).calls ≤ x.parts :=
  (sqlStatement_cost ctx x).2

/-- C125. At most two calls for each word of the text, and three; and there are at most as many words as characters. -/
theorem C125_text (up : Char → List Char) (ctx : SetContext Name) (s : Str) (x : SqlStatement Name)
    (hx : parse s = some (.ok (.ok x))) :
    (x.validateTypeC (nameOps up) ctx).calls ≤ 2 * (lex s).1.length + 3 ∧ (lex s).1.length ≤ s.length := by
  obtain ⟨toks, h1, h2⟩ := (C88_accepts_grammar s x).mp hx
  obtain ⟨e, _⟩ := (lex_tokens s).unique h1
  have h3 := gr_partsOf h2
  have h4 := C125_parts up ctx x
  rw [List.length_map, ← e] at h3
  exact ⟨Nat.le_trans h4 h3, (lex_tokens s).length_le⟩

/-- A text of fifteen words: its statement has sixteen parts, and sixteen calls are made. -/
def sampleQueryText : Str := "SELECT id FROM users WHERE name = 'x' AND id < 2 ORDER BY 1".toList

def sampleQuery : SqlStatement Name :=
  .statement (.select (.mk []
    (.query .all (.list [.expr (.ident [Name.ofString "id"]) none]) [.named [Name.ofString "users"] none]
      (some (.binary .and
        (.comparison .equal (.ident [Name.ofString "name"]) (.literal (.string ['x'])))
        (.comparison .lessThan (.ident [Name.ofString "id"]) (.literal (.numeric ['2'])))))
      none)
    [.mk (.literal (.numeric ['1'])) none .ascending] none))

set_option maxRecDepth 100000 in
example : (lex sampleQueryText).1.length = 15 ∧ parse sampleQueryText = some (.ok (.ok sampleQuery)) :=
  ⟨by rfl, by rfl⟩

set_option maxRecDepth 100000 in
example : sampleQuery.validateTypeC (nameOps asciiUp) sampleCtx = ⟨.ok (), 16⟩ ∧ sampleQuery.parts = 16 :=
  ⟨by rfl, by rfl⟩

theorem negations_calls (ops : NameOps Name) (sc : ScalarContext Name) :
    ∀ k, inferExprC ops sc (negations k) = ⟨.ok (.scalar .numeric false), k + 1⟩
  | 0 => by rw [negations, inferExprC]; rfl
  | k + 1 => by
    rw [negations, inferExprC, negations_calls ops sc k]
    rfl

theorem negations_parts : ∀ k, (negations k).parts = k + 1
  | 0 => by rw [negations, Expr.parts]
  | k + 1 => by rw [negations, Expr.parts, negations_parts k]

/-- The bound by the parts is reached: with `k` signs there are `k + 6` calls. -/
example (k : Nat) : (selectOne (negations k)).validateTypeC (nameOps asciiUp) sampleCtx = ⟨.ok (), k + 6⟩ ∧
    (selectOne (negations k)).parts = k + 6 := by
  constructor
  · simp only [selectOne, SqlStatement.validateTypeC, Statement.validateTypeC, inferSelectC, addCommonC, inferSetExprC,
      inferFromC, checkPredicateC, checkGroupByC, inferColumnsC, inferColumnListC, checkOrderC, checkLimitC,
      negations_calls]
    simp [bind, pure, Counted.andThen, call, free]
  · simp [selectOne, SqlStatement.parts, Statement.parts, Select.parts, ctesParts, SetExpr.parts, ResultColumns.parts,
      columnsParts, tablesParts, exprParts, groupParts, termsParts, limitParts, negations_parts]

end Verif.Props
