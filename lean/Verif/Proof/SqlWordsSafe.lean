import Verif.Spec.SqlRespelt
import Verif.Spec.SqlSafe
import Verif.Spec.SqlSound
/-!
# Statements without panics, from their words

Statements in which no `(` is followed by `)` and no THEN by `(` or `+` are safe.
-/

namespace Verif.Sql

def When.result {N : Type} : When N → Expr N
  | .mk _ b => b

end Verif.Sql

namespace Verif.Sql.Grammar

theorem Calm.tail {x : Lexeme} {w : List Lexeme} (h : Calm (x :: w)) : Calm w :=
  fun a k t k' t' b e => h (x :: a) k t k' t' b (by rw [e]; rfl)

theorem Calm.left {v w : List Lexeme} (h : Calm (v ++ w)) : Calm v :=
  fun a k t k' t' b e => h a k t k' t' (b ++ w) (by rw [e]; simp)

theorem Calm.right {v w : List Lexeme} (h : Calm (v ++ w)) : Calm w :=
  fun a k t k' t' b e => h (v ++ a) k t k' t' b (by rw [e]; simp)

theorem Calm.empty_list {w : List Lexeme} {t t'} (h : Calm ((.lpar, t) :: (.rpar, t') :: w)) : False :=
  (h [] _ _ _ _ _ rfl).1 ⟨rfl, rfl⟩

theorem Calm.then_tuple {w : List Lexeme} {t k t'} (h : Calm ((.THEN, t) :: (k, t') :: w))
    (hk : k = .lpar ∨ k = .plus) : False :=
  (h [] _ _ _ _ _ rfl).2 ⟨rfl, hk⟩

theorem allSafe_append {a b : List (Expr Name)} : Expr.AllSafe (a ++ b) ↔ Expr.AllSafe a ∧ Expr.AllSafe b := by
  induction a with
  | nil => simp [Expr.AllSafe]
  | cons x a ih => simp [Expr.AllSafe, ih, and_assoc]

theorem rowsSafe_append {a b : List (List (Expr Name))} :
    Expr.RowsSafe (a ++ b) ↔ Expr.RowsSafe a ∧ Expr.RowsSafe b := by
  induction a with
  | nil => simp [Expr.RowsSafe]
  | cons x a ih => simp [Expr.RowsSafe, ih, and_assoc]

theorem ctesSafe_append {a b : List (Cte Name)} : Cte.AllSafe (a ++ b) ↔ Cte.AllSafe a ∧ Cte.AllSafe b := by
  induction a with
  | nil => simp [Cte.AllSafe]
  | cons x a ih => cases x; simp [Cte.AllSafe, ih, and_assoc]

theorem termsSafe_append {a b : List (OrderTerm Name)} :
    OrderTerm.AllSafe (a ++ b) ↔ OrderTerm.AllSafe a ∧ OrderTerm.AllSafe b := by
  induction a with
  | nil => simp [OrderTerm.AllSafe]
  | cons x a ih => cases x; simp [OrderTerm.AllSafe, ih, and_assoc]

theorem tablesSafe_append {a b : List (TableExpr Name)} :
    TableExpr.AllSafe (a ++ b) ↔ TableExpr.AllSafe a ∧ TableExpr.AllSafe b := by
  induction a with
  | nil => simp [TableExpr.AllSafe]
  | cons x a ih => simp [TableExpr.AllSafe, ih, and_assoc]

theorem columnsSafe_append {a b : List (ResultColumn Name)} :
    ResultColumn.AllSafe (a ++ b) ↔ ResultColumn.AllSafe a ∧ ResultColumn.AllSafe b := by
  induction a with
  | nil => simp [ResultColumn.AllSafe]
  | cons x a ih => cases x <;> simp [ResultColumn.AllSafe, ih, and_assoc]

theorem whensSafe_append {a b : List (When Name)} : When.AllSafe (a ++ b) ↔ When.AllSafe a ∧ When.AllSafe b := by
  induction a with
  | nil => simp [When.AllSafe]
  | cons x a ih => cases x; simp [When.AllSafe, ih, and_assoc]

theorem goodBranches_of {l : List (When Name)} (h : l ≠ []) (h' : ∀ x ∈ l, ¬ x.result.IsTuple) : GoodBranches l := by
  match l with
  | [] => exact absurd rfl h
  | [.mk g b] => exact fun es he => h' _ (List.mem_singleton.mpr rfl) ⟨es, he⟩
  | _ :: _ :: _ => simp [GoodBranches]

/-- What is known of the value of calm words. -/
def SafeOf : (s : Nt) → List Lexeme → Ty s → Prop
  | .sqlStatement, _, v => v.Safe
  | .statement, _, v => v.Safe
  | .insertStatement, _, v => v.source.Safe
  | .columnNameList, _, _ => True
  | .deleteStatement, _, v => Expr.OptionSafe v.wher
  | .updateStatement, _, v => (∀ a ∈ v.assignments, a.expr.Safe) ∧ Expr.OptionSafe v.wher
  | .assignments, _, v => ∀ a ∈ v, a.expr.Safe
  | .assignment, _, v => v.expr.Safe
  | .selectStatement, _, v => v.Safe
  | .tableExpressions, _, v => Cte.AllSafe v
  | .commonTableExpressionList, _, v => Cte.AllSafe v
  | .commonTableExpression, _, v => Cte.AllSafe [v]
  | .selectCoreList, _, v => v.Safe
  | .compoundOperator, _, _ => True
  | .selectCore, _, v => v.Safe
  | .selectMode, _, _ => True
  | .tupleList, _, v => v ≠ [] ∧ Expr.RowsSafe v
  | .tuple, _, v => v ≠ [] ∧ Expr.AllSafe v
  | .resultColumns, _, v => v.Safe
  | .resultColumnList, _, v => ResultColumn.AllSafe v
  | .resultColumn, _, v => ResultColumn.AllSafe [v]
  | .qualifiedIdentifier, _, _ => True
  | .fromClause, _, v => TableExpr.AllSafe v
  | .tableExpressionList, _, v => TableExpr.AllSafe v
  | .tableExpression, _, v => v.Safe
  | .tableOrSubQuery, _, v => v.Safe
  | .tableAlias, _, _ => True
  | .joinOperator, _, _ => True
  | .joinType, _, _ => True
  | .joinConstraint, _, _ => True
  | .identifierList, _, _ => True
  | .whereClause, _, v => v.Safe
  | .groupByClause, _, v => GroupBy.OptionSafe (some v)
  | .orderByClause, _, v => OrderTerm.AllSafe v
  | .orderingTermList, _, v => OrderTerm.AllSafe v
  | .orderingTerm, _, v => OrderTerm.AllSafe [v]
  | .orderingCollation, _, _ => True
  | .orderingDirection, _, _ => True
  | .limitClause, _, v => Limit.OptionSafe (some v)
  | .attachStatement, _, _ => True
  | .describeStatement, _, _ => True
  | .schemaName, _, _ => True
  | .expressionList, _, v => v ≠ [] ∧ Expr.AllSafe v
  | .primaryExpression, w, v => v.Safe ∧ (v.IsTuple → ∃ k t r, w = (k, t) :: r ∧ (k = .lpar ∨ k = .plus))
  | .unaryExpression, w, v => v.Safe ∧ (v.IsTuple → ∃ k t r, w = (k, t) :: r ∧ (k = .lpar ∨ k = .plus))
  | .multiplicativeExpression, w, v => v.Safe ∧ (v.IsTuple → ∃ k t r, w = (k, t) :: r ∧ (k = .lpar ∨ k = .plus))
  | .additiveExpression, w, v => v.Safe ∧ (v.IsTuple → ∃ k t r, w = (k, t) :: r ∧ (k = .lpar ∨ k = .plus))
  | .comparativeExpression, w, v => v.Safe ∧ (v.IsTuple → ∃ k t r, w = (k, t) :: r ∧ (k = .lpar ∨ k = .plus))
  | .complexExpression, w, v => v.Safe ∧ (v.IsTuple → ∃ k t r, w = (k, t) :: r ∧ (k = .lpar ∨ k = .plus))
  | .caseExpression, w, v => v.Safe ∧ (v.IsTuple → ∃ k t r, w = (k, t) :: r ∧ (k = .lpar ∨ k = .plus))
  | .whenClauses, _, v => v ≠ [] ∧ When.AllSafe v ∧ ∀ x ∈ v, ¬ x.result.IsTuple
  | .whenClause, _, v => When.AllSafe [v] ∧ ¬ v.result.IsTuple
  | .elseClause, _, v => v.Safe
  | .notExpression, w, v => v.Safe ∧ (v.IsTuple → ∃ k t r, w = (k, t) :: r ∧ (k = .lpar ∨ k = .plus))
  | .andExpression, w, v => v.Safe ∧ (v.IsTuple → ∃ k t r, w = (k, t) :: r ∧ (k = .lpar ∨ k = .plus))
  | .orExpression, w, v => v.Safe ∧ (v.IsTuple → ∃ k t r, w = (k, t) :: r ∧ (k = .lpar ∨ k = .plus))
  | .expression, w, v => v.Safe ∧ (v.IsTuple → ∃ k t r, w = (k, t) :: r ∧ (k = .lpar ∨ k = .plus))
  | .literalValue, _, _ => True
  | .identifier, _, _ => True
  | .numericLiteral, _, _ => True
  | .stringLiteral, _, _ => True
  | .tok _, _, _ => True
  | .opt _, _, none => True
  | .opt s, w, some v => SafeOf s w v

theorem optSafe_order {w : List Lexeme} {o : Option (List (OrderTerm Name))} (h : SafeOf (.opt .orderByClause) w o) :
    OrderTerm.AllSafe (o.getD []) := by
  cases o
  · trivial
  · exact h

theorem optSafe_limit {w : List Lexeme} {o : Option (Limit Name)} (h : SafeOf (.opt .limitClause) w o) :
    Limit.OptionSafe o := by
  cases o
  · trivial
  · exact h

theorem optSafe_where {w : List Lexeme} {o : Option (Expr Name)} (h : SafeOf (.opt .whereClause) w o) :
    Expr.OptionSafe o := by
  cases o
  · trivial
  · exact h

theorem optSafe_group {w : List Lexeme} {o : Option (GroupBy Name)} (h : SafeOf (.opt .groupByClause) w o) :
    GroupBy.OptionSafe o := by
  cases o
  · trivial
  · exact h

set_option linter.unusedSimpArgs false in
theorem gr_safe {s : Nt} {w : List Lexeme} {v : Ty s} (h : Gr s w v) : Calm w → SafeOf s w v := by
  induction h with
  | tok => intro _; trivial
  | optNone => intro _; trivial
  | optSome _ ih => exact ih
  | @sqlStatement_1 _ vs _ ih0 =>
    intro hw
    have h0 := ih0 hw
    simp_all [SafeOf, SqlStatement.Safe, Statement.Safe, Select.Safe, Cte.AllSafe, Expr.Safe, Expr.AllSafe, Expr.OptionSafe, Expr.RowsSafe, When.AllSafe, When.result, SetSpec.Safe, SetExpr.Safe, TableExpr.Safe, TableExpr.AllSafe, ResultColumns.Safe, ResultColumn.AllSafe, GroupBy.OptionSafe, OrderTerm.AllSafe, Limit.OptionSafe, allSafe_append, rowsSafe_append, whensSafe_append, ctesSafe_append, tablesSafe_append, termsSafe_append, columnsSafe_append]
  | @sqlStatement_2 _ t0 vs _ ih1 =>
    intro hw
    have h1 := ih1 hw.tail
    simp_all [SafeOf, SqlStatement.Safe, Statement.Safe, Select.Safe, Cte.AllSafe, Expr.Safe, Expr.AllSafe, Expr.OptionSafe, Expr.RowsSafe, When.AllSafe, When.result, SetSpec.Safe, SetExpr.Safe, TableExpr.Safe, TableExpr.AllSafe, ResultColumns.Safe, ResultColumn.AllSafe, GroupBy.OptionSafe, OrderTerm.AllSafe, Limit.OptionSafe, allSafe_append, rowsSafe_append, whensSafe_append, ctesSafe_append, tablesSafe_append, termsSafe_append, columnsSafe_append]
  | @sqlStatement_3 _ t0 t1 t2 vs _ ih3 =>
    intro hw
    have h3 := ih3 hw.tail.tail.tail
    simp_all [SafeOf, SqlStatement.Safe, Statement.Safe, Select.Safe, Cte.AllSafe, Expr.Safe, Expr.AllSafe, Expr.OptionSafe, Expr.RowsSafe, When.AllSafe, When.result, SetSpec.Safe, SetExpr.Safe, TableExpr.Safe, TableExpr.AllSafe, ResultColumns.Safe, ResultColumn.AllSafe, GroupBy.OptionSafe, OrderTerm.AllSafe, Limit.OptionSafe, allSafe_append, rowsSafe_append, whensSafe_append, ctesSafe_append, tablesSafe_append, termsSafe_append, columnsSafe_append]
  | @sqlStatement_4 _ vs _ ih0 =>
    intro hw
    have h0 := ih0 hw
    simp_all [SafeOf, SqlStatement.Safe, Statement.Safe, Select.Safe, Cte.AllSafe, Expr.Safe, Expr.AllSafe, Expr.OptionSafe, Expr.RowsSafe, When.AllSafe, When.result, SetSpec.Safe, SetExpr.Safe, TableExpr.Safe, TableExpr.AllSafe, ResultColumns.Safe, ResultColumn.AllSafe, GroupBy.OptionSafe, OrderTerm.AllSafe, Limit.OptionSafe, allSafe_append, rowsSafe_append, whensSafe_append, ctesSafe_append, tablesSafe_append, termsSafe_append, columnsSafe_append]
  | @sqlStatement_5 _ vs _ ih0 =>
    intro hw
    have h0 := ih0 hw
    simp_all [SafeOf, SqlStatement.Safe, Statement.Safe, Select.Safe, Cte.AllSafe, Expr.Safe, Expr.AllSafe, Expr.OptionSafe, Expr.RowsSafe, When.AllSafe, When.result, SetSpec.Safe, SetExpr.Safe, TableExpr.Safe, TableExpr.AllSafe, ResultColumns.Safe, ResultColumn.AllSafe, GroupBy.OptionSafe, OrderTerm.AllSafe, Limit.OptionSafe, allSafe_append, rowsSafe_append, whensSafe_append, ctesSafe_append, tablesSafe_append, termsSafe_append, columnsSafe_append]
  | @statement_1 _ vs _ ih0 =>
    intro hw
    have h0 := ih0 hw
    simp_all [SafeOf, SqlStatement.Safe, Statement.Safe, Select.Safe, Cte.AllSafe, Expr.Safe, Expr.AllSafe, Expr.OptionSafe, Expr.RowsSafe, When.AllSafe, When.result, SetSpec.Safe, SetExpr.Safe, TableExpr.Safe, TableExpr.AllSafe, ResultColumns.Safe, ResultColumn.AllSafe, GroupBy.OptionSafe, OrderTerm.AllSafe, Limit.OptionSafe, allSafe_append, rowsSafe_append, whensSafe_append, ctesSafe_append, tablesSafe_append, termsSafe_append, columnsSafe_append]
  | @statement_2 _ vs _ ih0 =>
    intro hw
    have h0 := ih0 hw
    simp_all [SafeOf, SqlStatement.Safe, Statement.Safe, Select.Safe, Cte.AllSafe, Expr.Safe, Expr.AllSafe, Expr.OptionSafe, Expr.RowsSafe, When.AllSafe, When.result, SetSpec.Safe, SetExpr.Safe, TableExpr.Safe, TableExpr.AllSafe, ResultColumns.Safe, ResultColumn.AllSafe, GroupBy.OptionSafe, OrderTerm.AllSafe, Limit.OptionSafe, allSafe_append, rowsSafe_append, whensSafe_append, ctesSafe_append, tablesSafe_append, termsSafe_append, columnsSafe_append]
  | @statement_3 _ vs _ ih0 =>
    intro hw
    have h0 := ih0 hw
    simp_all [SafeOf, SqlStatement.Safe, Statement.Safe, Select.Safe, Cte.AllSafe, Expr.Safe, Expr.AllSafe, Expr.OptionSafe, Expr.RowsSafe, When.AllSafe, When.result, SetSpec.Safe, SetExpr.Safe, TableExpr.Safe, TableExpr.AllSafe, ResultColumns.Safe, ResultColumn.AllSafe, GroupBy.OptionSafe, OrderTerm.AllSafe, Limit.OptionSafe, allSafe_append, rowsSafe_append, whensSafe_append, ctesSafe_append, tablesSafe_append, termsSafe_append, columnsSafe_append]
  | @statement_4 _ vs _ ih0 =>
    intro hw
    have h0 := ih0 hw
    simp_all [SafeOf, SqlStatement.Safe, Statement.Safe, Select.Safe, Cte.AllSafe, Expr.Safe, Expr.AllSafe, Expr.OptionSafe, Expr.RowsSafe, When.AllSafe, When.result, SetSpec.Safe, SetExpr.Safe, TableExpr.Safe, TableExpr.AllSafe, ResultColumns.Safe, ResultColumn.AllSafe, GroupBy.OptionSafe, OrderTerm.AllSafe, Limit.OptionSafe, allSafe_append, rowsSafe_append, whensSafe_append, ctesSafe_append, tablesSafe_append, termsSafe_append, columnsSafe_append]
  | @insertStatement_1 _ _ _ _ t1 t2 vc vn vl vq _ _ _ _ ih0 ih3 ih4 ih5 =>
    intro hw
    have h0 := ih0 hw.left
    have h3 := ih3 hw.right.tail.tail.left
    have h4 := ih4 hw.right.tail.tail.right.left
    have h5 := ih5 hw.right.tail.tail.right.right
    exact h5
  | @columnNameList_1 _ t0 t2 vl _ ih1 =>
    exact fun _ => trivial
  | @deleteStatement_1 _ _ _ t1 t2 vc vn vp _ _ _ ih0 ih3 ih4 =>
    intro hw
    have h0 := ih0 hw.left
    have h3 := ih3 hw.right.tail.tail.left
    have h4 := ih4 hw.right.tail.tail.right
    exact optSafe_where h4
  | @updateStatement_1 _ _ _ _ t1 t3 vc vn va vp _ _ _ _ ih0 ih2 ih4 ih5 =>
    intro hw
    have h0 := ih0 hw.left
    have h2 := ih2 hw.right.tail.left
    have h4 := ih4 hw.right.tail.right.tail.left
    have h5 := ih5 hw.right.tail.right.tail.right
    exact ⟨h4, optSafe_where h5⟩
  | @assignments_1 _ va _ ih0 =>
    intro hw
    have h0 := ih0 hw
    simp_all [SafeOf, SqlStatement.Safe, Statement.Safe, Select.Safe, Cte.AllSafe, Expr.Safe, Expr.AllSafe, Expr.OptionSafe, Expr.RowsSafe, When.AllSafe, When.result, SetSpec.Safe, SetExpr.Safe, TableExpr.Safe, TableExpr.AllSafe, ResultColumns.Safe, ResultColumn.AllSafe, GroupBy.OptionSafe, OrderTerm.AllSafe, Limit.OptionSafe, allSafe_append, rowsSafe_append, whensSafe_append, ctesSafe_append, tablesSafe_append, termsSafe_append, columnsSafe_append]
  | @assignments_2 _ _ t1 vl va _ _ ih0 ih2 =>
    intro hw
    have h0 := ih0 hw.left
    have h2 := ih2 hw.right.tail
    intro a ha
    rcases List.mem_append.mp ha with ha | ha
    · exact h0 a ha
    · rw [List.mem_singleton.mp ha]
      exact h2
  | @assignment_1 _ _ t1 vl ve _ _ ih0 ih2 =>
    intro hw
    have h0 := ih0 hw.left
    have h2 := ih2 hw.right.tail
    simp_all [SafeOf, SqlStatement.Safe, Statement.Safe, Select.Safe, Cte.AllSafe, Expr.Safe, Expr.AllSafe, Expr.OptionSafe, Expr.RowsSafe, When.AllSafe, When.result, SetSpec.Safe, SetExpr.Safe, TableExpr.Safe, TableExpr.AllSafe, ResultColumns.Safe, ResultColumn.AllSafe, GroupBy.OptionSafe, OrderTerm.AllSafe, Limit.OptionSafe, allSafe_append, rowsSafe_append, whensSafe_append, ctesSafe_append, tablesSafe_append, termsSafe_append, columnsSafe_append]
  | @selectStatement_1 _ _ _ _ vc vq vo vl _ _ _ _ ih0 ih1 ih2 ih3 =>
    intro hw
    have h0 := ih0 hw.left
    have h1 := ih1 hw.right.left
    have h2 := ih2 hw.right.right.left
    have h3 := ih3 hw.right.right.right
    exact ⟨h0, h1, optSafe_order h2, optSafe_limit h3⟩
  | @selectStatement_2 _ _ _ vq vo vl _ _ _ ih0 ih1 ih2 =>
    intro hw
    have h0 := ih0 hw.left
    have h1 := ih1 hw.right.left
    have h2 := ih2 hw.right.right
    exact ⟨trivial, h0, optSafe_order h1, optSafe_limit h2⟩
  | @tableExpressions_1 _ t0 vl _ ih1 =>
    intro hw
    have h1 := ih1 hw.tail
    simp_all [SafeOf, SqlStatement.Safe, Statement.Safe, Select.Safe, Cte.AllSafe, Expr.Safe, Expr.AllSafe, Expr.OptionSafe, Expr.RowsSafe, When.AllSafe, When.result, SetSpec.Safe, SetExpr.Safe, TableExpr.Safe, TableExpr.AllSafe, ResultColumns.Safe, ResultColumn.AllSafe, GroupBy.OptionSafe, OrderTerm.AllSafe, Limit.OptionSafe, allSafe_append, rowsSafe_append, whensSafe_append, ctesSafe_append, tablesSafe_append, termsSafe_append, columnsSafe_append]
  | @commonTableExpressionList_1 _ vc _ ih0 =>
    intro hw
    have h0 := ih0 hw
    simp_all [SafeOf, SqlStatement.Safe, Statement.Safe, Select.Safe, Cte.AllSafe, Expr.Safe, Expr.AllSafe, Expr.OptionSafe, Expr.RowsSafe, When.AllSafe, When.result, SetSpec.Safe, SetExpr.Safe, TableExpr.Safe, TableExpr.AllSafe, ResultColumns.Safe, ResultColumn.AllSafe, GroupBy.OptionSafe, OrderTerm.AllSafe, Limit.OptionSafe, allSafe_append, rowsSafe_append, whensSafe_append, ctesSafe_append, tablesSafe_append, termsSafe_append, columnsSafe_append]
  | @commonTableExpressionList_2 _ _ t1 vl vc _ _ ih0 ih2 =>
    intro hw
    have h0 := ih0 hw.left
    have h2 := ih2 hw.right.tail
    simp_all [SafeOf, SqlStatement.Safe, Statement.Safe, Select.Safe, Cte.AllSafe, Expr.Safe, Expr.AllSafe, Expr.OptionSafe, Expr.RowsSafe, When.AllSafe, When.result, SetSpec.Safe, SetExpr.Safe, TableExpr.Safe, TableExpr.AllSafe, ResultColumns.Safe, ResultColumn.AllSafe, GroupBy.OptionSafe, OrderTerm.AllSafe, Limit.OptionSafe, allSafe_append, rowsSafe_append, whensSafe_append, ctesSafe_append, tablesSafe_append, termsSafe_append, columnsSafe_append]
  | @commonTableExpression_1 _ _ t1 t2 t4 vn vq _ _ ih0 ih3 =>
    intro hw
    have h0 := ih0 hw.left
    have h3 := ih3 hw.right.tail.tail.left
    simp_all [SafeOf, SqlStatement.Safe, Statement.Safe, Select.Safe, Cte.AllSafe, Expr.Safe, Expr.AllSafe, Expr.OptionSafe, Expr.RowsSafe, When.AllSafe, When.result, SetSpec.Safe, SetExpr.Safe, TableExpr.Safe, TableExpr.AllSafe, ResultColumns.Safe, ResultColumn.AllSafe, GroupBy.OptionSafe, OrderTerm.AllSafe, Limit.OptionSafe, allSafe_append, rowsSafe_append, whensSafe_append, ctesSafe_append, tablesSafe_append, termsSafe_append, columnsSafe_append]
  | @commonTableExpression_2 _ _ _ t1 t3 t4 t5 t7 vn vl vq _ _ _ ih0 ih2 ih6 =>
    intro hw
    have h0 := ih0 hw.left
    have h2 := ih2 hw.right.tail.left
    have h6 := ih6 hw.right.tail.right.tail.tail.tail.left
    simp_all [SafeOf, SqlStatement.Safe, Statement.Safe, Select.Safe, Cte.AllSafe, Expr.Safe, Expr.AllSafe, Expr.OptionSafe, Expr.RowsSafe, When.AllSafe, When.result, SetSpec.Safe, SetExpr.Safe, TableExpr.Safe, TableExpr.AllSafe, ResultColumns.Safe, ResultColumn.AllSafe, GroupBy.OptionSafe, OrderTerm.AllSafe, Limit.OptionSafe, allSafe_append, rowsSafe_append, whensSafe_append, ctesSafe_append, tablesSafe_append, termsSafe_append, columnsSafe_append]
  | @selectCoreList_1 _ vq _ ih0 =>
    intro hw
    have h0 := ih0 hw
    simp_all [SafeOf, SqlStatement.Safe, Statement.Safe, Select.Safe, Cte.AllSafe, Expr.Safe, Expr.AllSafe, Expr.OptionSafe, Expr.RowsSafe, When.AllSafe, When.result, SetSpec.Safe, SetExpr.Safe, TableExpr.Safe, TableExpr.AllSafe, ResultColumns.Safe, ResultColumn.AllSafe, GroupBy.OptionSafe, OrderTerm.AllSafe, Limit.OptionSafe, allSafe_append, rowsSafe_append, whensSafe_append, ctesSafe_append, tablesSafe_append, termsSafe_append, columnsSafe_append]
  | @selectCoreList_2 _ _ _ vl vr vo _ _ _ ih0 ih1 ih2 =>
    intro hw
    have h0 := ih0 hw.left
    have h1 := ih1 hw.right.left
    have h2 := ih2 hw.right.right
    simp_all [SafeOf, SqlStatement.Safe, Statement.Safe, Select.Safe, Cte.AllSafe, Expr.Safe, Expr.AllSafe, Expr.OptionSafe, Expr.RowsSafe, When.AllSafe, When.result, SetSpec.Safe, SetExpr.Safe, TableExpr.Safe, TableExpr.AllSafe, ResultColumns.Safe, ResultColumn.AllSafe, GroupBy.OptionSafe, OrderTerm.AllSafe, Limit.OptionSafe, allSafe_append, rowsSafe_append, whensSafe_append, ctesSafe_append, tablesSafe_append, termsSafe_append, columnsSafe_append]
  | @compoundOperator_1 t0 =>
    exact fun _ => trivial
  | @compoundOperator_2 t0 t1 =>
    exact fun _ => trivial
  | @compoundOperator_3 t0 =>
    exact fun _ => trivial
  | @compoundOperator_4 t0 =>
    exact fun _ => trivial
  | @selectCore_1 _ _ _ _ t0 vm vc vp vg _ _ _ _ ih1 ih2 ih3 ih4 =>
    intro hw
    have h1 := ih1 hw.tail.left
    have h2 := ih2 hw.tail.right.left
    have h3 := ih3 hw.tail.right.right.left
    have h4 := ih4 hw.tail.right.right.right
    exact ⟨h2, trivial, optSafe_where h3, optSafe_group h4⟩
  | @selectCore_2 _ _ _ _ _ t0 vm vc vf vp vg _ _ _ _ _ ih1 ih2 ih3 ih4 ih5 =>
    intro hw
    have h1 := ih1 hw.tail.left
    have h2 := ih2 hw.tail.right.left
    have h3 := ih3 hw.tail.right.right.left
    have h4 := ih4 hw.tail.right.right.right.left
    have h5 := ih5 hw.tail.right.right.right.right
    exact ⟨h2, h3, optSafe_where h4, optSafe_group h5⟩
  | @selectCore_3 _ t0 vt _ ih1 =>
    intro hw
    have h1 := ih1 hw.tail
    simp_all [SafeOf, SqlStatement.Safe, Statement.Safe, Select.Safe, Cte.AllSafe, Expr.Safe, Expr.AllSafe, Expr.OptionSafe, Expr.RowsSafe, When.AllSafe, When.result, SetSpec.Safe, SetExpr.Safe, TableExpr.Safe, TableExpr.AllSafe, ResultColumns.Safe, ResultColumn.AllSafe, GroupBy.OptionSafe, OrderTerm.AllSafe, Limit.OptionSafe, allSafe_append, rowsSafe_append, whensSafe_append, ctesSafe_append, tablesSafe_append, termsSafe_append, columnsSafe_append]
  | @selectMode_1 _ vo0 _ ih0 =>
    exact fun _ => trivial
  | @selectMode_2 t0 =>
    exact fun _ => trivial
  | @tupleList_1 _ vt _ ih0 =>
    intro hw
    have h0 := ih0 hw
    simp_all [SafeOf, SqlStatement.Safe, Statement.Safe, Select.Safe, Cte.AllSafe, Expr.Safe, Expr.AllSafe, Expr.OptionSafe, Expr.RowsSafe, When.AllSafe, When.result, SetSpec.Safe, SetExpr.Safe, TableExpr.Safe, TableExpr.AllSafe, ResultColumns.Safe, ResultColumn.AllSafe, GroupBy.OptionSafe, OrderTerm.AllSafe, Limit.OptionSafe, allSafe_append, rowsSafe_append, whensSafe_append, ctesSafe_append, tablesSafe_append, termsSafe_append, columnsSafe_append]
  | @tupleList_2 _ _ t1 vl vt _ _ ih0 ih2 =>
    intro hw
    have h0 := ih0 hw.left
    have h2 := ih2 hw.right.tail
    simp_all [SafeOf, SqlStatement.Safe, Statement.Safe, Select.Safe, Cte.AllSafe, Expr.Safe, Expr.AllSafe, Expr.OptionSafe, Expr.RowsSafe, When.AllSafe, When.result, SetSpec.Safe, SetExpr.Safe, TableExpr.Safe, TableExpr.AllSafe, ResultColumns.Safe, ResultColumn.AllSafe, GroupBy.OptionSafe, OrderTerm.AllSafe, Limit.OptionSafe, allSafe_append, rowsSafe_append, whensSafe_append, ctesSafe_append, tablesSafe_append, termsSafe_append, columnsSafe_append]
  | @tuple_1 _ t0 t2 vl _ ih1 =>
    intro hw
    have h1 := ih1 hw.tail.left
    simp_all [SafeOf, SqlStatement.Safe, Statement.Safe, Select.Safe, Cte.AllSafe, Expr.Safe, Expr.AllSafe, Expr.OptionSafe, Expr.RowsSafe, When.AllSafe, When.result, SetSpec.Safe, SetExpr.Safe, TableExpr.Safe, TableExpr.AllSafe, ResultColumns.Safe, ResultColumn.AllSafe, GroupBy.OptionSafe, OrderTerm.AllSafe, Limit.OptionSafe, allSafe_append, rowsSafe_append, whensSafe_append, ctesSafe_append, tablesSafe_append, termsSafe_append, columnsSafe_append]
  | @resultColumns_1 t0 =>
    intro hw
    simp_all [SafeOf, SqlStatement.Safe, Statement.Safe, Select.Safe, Cte.AllSafe, Expr.Safe, Expr.AllSafe, Expr.OptionSafe, Expr.RowsSafe, When.AllSafe, When.result, SetSpec.Safe, SetExpr.Safe, TableExpr.Safe, TableExpr.AllSafe, ResultColumns.Safe, ResultColumn.AllSafe, GroupBy.OptionSafe, OrderTerm.AllSafe, Limit.OptionSafe, allSafe_append, rowsSafe_append, whensSafe_append, ctesSafe_append, tablesSafe_append, termsSafe_append, columnsSafe_append]
  | @resultColumns_2 _ vl _ ih0 =>
    intro hw
    have h0 := ih0 hw
    simp_all [SafeOf, SqlStatement.Safe, Statement.Safe, Select.Safe, Cte.AllSafe, Expr.Safe, Expr.AllSafe, Expr.OptionSafe, Expr.RowsSafe, When.AllSafe, When.result, SetSpec.Safe, SetExpr.Safe, TableExpr.Safe, TableExpr.AllSafe, ResultColumns.Safe, ResultColumn.AllSafe, GroupBy.OptionSafe, OrderTerm.AllSafe, Limit.OptionSafe, allSafe_append, rowsSafe_append, whensSafe_append, ctesSafe_append, tablesSafe_append, termsSafe_append, columnsSafe_append]
  | @resultColumnList_1 _ vc _ ih0 =>
    intro hw
    have h0 := ih0 hw
    simp_all [SafeOf, SqlStatement.Safe, Statement.Safe, Select.Safe, Cte.AllSafe, Expr.Safe, Expr.AllSafe, Expr.OptionSafe, Expr.RowsSafe, When.AllSafe, When.result, SetSpec.Safe, SetExpr.Safe, TableExpr.Safe, TableExpr.AllSafe, ResultColumns.Safe, ResultColumn.AllSafe, GroupBy.OptionSafe, OrderTerm.AllSafe, Limit.OptionSafe, allSafe_append, rowsSafe_append, whensSafe_append, ctesSafe_append, tablesSafe_append, termsSafe_append, columnsSafe_append]
  | @resultColumnList_2 _ _ t1 vl vc _ _ ih0 ih2 =>
    intro hw
    have h0 := ih0 hw.left
    have h2 := ih2 hw.right.tail
    simp_all [SafeOf, SqlStatement.Safe, Statement.Safe, Select.Safe, Cte.AllSafe, Expr.Safe, Expr.AllSafe, Expr.OptionSafe, Expr.RowsSafe, When.AllSafe, When.result, SetSpec.Safe, SetExpr.Safe, TableExpr.Safe, TableExpr.AllSafe, ResultColumns.Safe, ResultColumn.AllSafe, GroupBy.OptionSafe, OrderTerm.AllSafe, Limit.OptionSafe, allSafe_append, rowsSafe_append, whensSafe_append, ctesSafe_append, tablesSafe_append, termsSafe_append, columnsSafe_append]
  | @resultColumn_1 _ ve _ ih0 =>
    intro hw
    have h0 := ih0 hw
    simp_all [SafeOf, SqlStatement.Safe, Statement.Safe, Select.Safe, Cte.AllSafe, Expr.Safe, Expr.AllSafe, Expr.OptionSafe, Expr.RowsSafe, When.AllSafe, When.result, SetSpec.Safe, SetExpr.Safe, TableExpr.Safe, TableExpr.AllSafe, ResultColumns.Safe, ResultColumn.AllSafe, GroupBy.OptionSafe, OrderTerm.AllSafe, Limit.OptionSafe, allSafe_append, rowsSafe_append, whensSafe_append, ctesSafe_append, tablesSafe_append, termsSafe_append, columnsSafe_append]
  | @resultColumn_2 _ _ _ ve vo1 vn _ _ _ ih0 ih1 ih2 =>
    intro hw
    have h0 := ih0 hw.left
    have h1 := ih1 hw.right.left
    have h2 := ih2 hw.right.right
    simp_all [SafeOf, SqlStatement.Safe, Statement.Safe, Select.Safe, Cte.AllSafe, Expr.Safe, Expr.AllSafe, Expr.OptionSafe, Expr.RowsSafe, When.AllSafe, When.result, SetSpec.Safe, SetExpr.Safe, TableExpr.Safe, TableExpr.AllSafe, ResultColumns.Safe, ResultColumn.AllSafe, GroupBy.OptionSafe, OrderTerm.AllSafe, Limit.OptionSafe, allSafe_append, rowsSafe_append, whensSafe_append, ctesSafe_append, tablesSafe_append, termsSafe_append, columnsSafe_append]
  | @resultColumn_3 _ t1 t2 vn _ ih0 =>
    intro hw
    have h0 := ih0 hw.left
    simp_all [SafeOf, SqlStatement.Safe, Statement.Safe, Select.Safe, Cte.AllSafe, Expr.Safe, Expr.AllSafe, Expr.OptionSafe, Expr.RowsSafe, When.AllSafe, When.result, SetSpec.Safe, SetExpr.Safe, TableExpr.Safe, TableExpr.AllSafe, ResultColumns.Safe, ResultColumn.AllSafe, GroupBy.OptionSafe, OrderTerm.AllSafe, Limit.OptionSafe, allSafe_append, rowsSafe_append, whensSafe_append, ctesSafe_append, tablesSafe_append, termsSafe_append, columnsSafe_append]
  | @qualifiedIdentifier_1 _ va _ ih0 =>
    exact fun _ => trivial
  | @qualifiedIdentifier_2 _ _ t1 va vb _ _ ih0 ih2 =>
    exact fun _ => trivial
  | @qualifiedIdentifier_3 _ _ _ t1 t3 va vb vc _ _ _ ih0 ih2 ih4 =>
    exact fun _ => trivial
  | @fromClause_1 _ t0 vl _ ih1 =>
    intro hw
    have h1 := ih1 hw.tail
    simp_all [SafeOf, SqlStatement.Safe, Statement.Safe, Select.Safe, Cte.AllSafe, Expr.Safe, Expr.AllSafe, Expr.OptionSafe, Expr.RowsSafe, When.AllSafe, When.result, SetSpec.Safe, SetExpr.Safe, TableExpr.Safe, TableExpr.AllSafe, ResultColumns.Safe, ResultColumn.AllSafe, GroupBy.OptionSafe, OrderTerm.AllSafe, Limit.OptionSafe, allSafe_append, rowsSafe_append, whensSafe_append, ctesSafe_append, tablesSafe_append, termsSafe_append, columnsSafe_append]
  | @tableExpressionList_1 _ vt _ ih0 =>
    intro hw
    have h0 := ih0 hw
    simp_all [SafeOf, SqlStatement.Safe, Statement.Safe, Select.Safe, Cte.AllSafe, Expr.Safe, Expr.AllSafe, Expr.OptionSafe, Expr.RowsSafe, When.AllSafe, When.result, SetSpec.Safe, SetExpr.Safe, TableExpr.Safe, TableExpr.AllSafe, ResultColumns.Safe, ResultColumn.AllSafe, GroupBy.OptionSafe, OrderTerm.AllSafe, Limit.OptionSafe, allSafe_append, rowsSafe_append, whensSafe_append, ctesSafe_append, tablesSafe_append, termsSafe_append, columnsSafe_append]
  | @tableExpressionList_2 _ _ t1 vl vt _ _ ih0 ih2 =>
    intro hw
    have h0 := ih0 hw.left
    have h2 := ih2 hw.right.tail
    simp_all [SafeOf, SqlStatement.Safe, Statement.Safe, Select.Safe, Cte.AllSafe, Expr.Safe, Expr.AllSafe, Expr.OptionSafe, Expr.RowsSafe, When.AllSafe, When.result, SetSpec.Safe, SetExpr.Safe, TableExpr.Safe, TableExpr.AllSafe, ResultColumns.Safe, ResultColumn.AllSafe, GroupBy.OptionSafe, OrderTerm.AllSafe, Limit.OptionSafe, allSafe_append, rowsSafe_append, whensSafe_append, ctesSafe_append, tablesSafe_append, termsSafe_append, columnsSafe_append]
  | @tableExpression_1 _ vt _ ih0 =>
    intro hw
    have h0 := ih0 hw
    simp_all [SafeOf, SqlStatement.Safe, Statement.Safe, Select.Safe, Cte.AllSafe, Expr.Safe, Expr.AllSafe, Expr.OptionSafe, Expr.RowsSafe, When.AllSafe, When.result, SetSpec.Safe, SetExpr.Safe, TableExpr.Safe, TableExpr.AllSafe, ResultColumns.Safe, ResultColumn.AllSafe, GroupBy.OptionSafe, OrderTerm.AllSafe, Limit.OptionSafe, allSafe_append, rowsSafe_append, whensSafe_append, ctesSafe_append, tablesSafe_append, termsSafe_append, columnsSafe_append]
  | @tableExpression_2 _ _ _ _ vl vr vo vc _ _ _ _ ih0 ih1 ih2 ih3 =>
    intro hw
    have h0 := ih0 hw.left
    have h1 := ih1 hw.right.left
    have h2 := ih2 hw.right.right.left
    have h3 := ih3 hw.right.right.right
    simp_all [SafeOf, SqlStatement.Safe, Statement.Safe, Select.Safe, Cte.AllSafe, Expr.Safe, Expr.AllSafe, Expr.OptionSafe, Expr.RowsSafe, When.AllSafe, When.result, SetSpec.Safe, SetExpr.Safe, TableExpr.Safe, TableExpr.AllSafe, ResultColumns.Safe, ResultColumn.AllSafe, GroupBy.OptionSafe, OrderTerm.AllSafe, Limit.OptionSafe, allSafe_append, rowsSafe_append, whensSafe_append, ctesSafe_append, tablesSafe_append, termsSafe_append, columnsSafe_append]
  | @tableOrSubQuery_1 _ _ vn va _ _ ih0 ih1 =>
    intro hw
    have h0 := ih0 hw.left
    have h1 := ih1 hw.right
    simp_all [SafeOf, SqlStatement.Safe, Statement.Safe, Select.Safe, Cte.AllSafe, Expr.Safe, Expr.AllSafe, Expr.OptionSafe, Expr.RowsSafe, When.AllSafe, When.result, SetSpec.Safe, SetExpr.Safe, TableExpr.Safe, TableExpr.AllSafe, ResultColumns.Safe, ResultColumn.AllSafe, GroupBy.OptionSafe, OrderTerm.AllSafe, Limit.OptionSafe, allSafe_append, rowsSafe_append, whensSafe_append, ctesSafe_append, tablesSafe_append, termsSafe_append, columnsSafe_append]
  | @tableOrSubQuery_2 _ _ t0 t2 vq va _ _ ih1 ih3 =>
    intro hw
    have h1 := ih1 hw.tail.left
    have h3 := ih3 hw.tail.right.tail
    simp_all [SafeOf, SqlStatement.Safe, Statement.Safe, Select.Safe, Cte.AllSafe, Expr.Safe, Expr.AllSafe, Expr.OptionSafe, Expr.RowsSafe, When.AllSafe, When.result, SetSpec.Safe, SetExpr.Safe, TableExpr.Safe, TableExpr.AllSafe, ResultColumns.Safe, ResultColumn.AllSafe, GroupBy.OptionSafe, OrderTerm.AllSafe, Limit.OptionSafe, allSafe_append, rowsSafe_append, whensSafe_append, ctesSafe_append, tablesSafe_append, termsSafe_append, columnsSafe_append]
  | @tableOrSubQuery_3 _ t0 t2 vt _ ih1 =>
    intro hw
    have h1 := ih1 hw.tail.left
    simp_all [SafeOf, SqlStatement.Safe, Statement.Safe, Select.Safe, Cte.AllSafe, Expr.Safe, Expr.AllSafe, Expr.OptionSafe, Expr.RowsSafe, When.AllSafe, When.result, SetSpec.Safe, SetExpr.Safe, TableExpr.Safe, TableExpr.AllSafe, ResultColumns.Safe, ResultColumn.AllSafe, GroupBy.OptionSafe, OrderTerm.AllSafe, Limit.OptionSafe, allSafe_append, rowsSafe_append, whensSafe_append, ctesSafe_append, tablesSafe_append, termsSafe_append, columnsSafe_append]
  | @tableAlias_1 _ _ vo0 vn _ _ ih0 ih1 =>
    exact fun _ => trivial
  | @joinOperator_1 _ t1 vj _ ih0 =>
    exact fun _ => trivial
  | @joinOperator_2 _ t0 t2 vj _ ih1 =>
    exact fun _ => trivial
  | @joinOperator_3 t0 t1 =>
    exact fun _ => trivial
  | @joinType_1 _ t0 vo1 _ ih1 =>
    exact fun _ => trivial
  | @joinType_2 _ t0 vo1 _ ih1 =>
    exact fun _ => trivial
  | @joinType_3 _ t0 vo1 _ ih1 =>
    exact fun _ => trivial
  | @joinType_4 t0 =>
    exact fun _ => trivial
  | @joinConstraint_1 _ t0 ve _ ih1 =>
    exact fun _ => trivial
  | @joinConstraint_2 _ t0 t1 t3 vl _ ih2 =>
    exact fun _ => trivial
  | @identifierList_1 _ vn _ ih0 =>
    exact fun _ => trivial
  | @identifierList_2 _ _ t1 vl vn _ _ ih0 ih2 =>
    exact fun _ => trivial
  | @whereClause_1 _ t0 ve _ ih1 =>
    intro hw
    have h1 := ih1 hw.tail
    exact h1.1
  | @groupByClause_1 _ t0 t1 vl _ ih2 =>
    intro hw
    have h2 := ih2 hw.tail.tail
    simp_all [SafeOf, SqlStatement.Safe, Statement.Safe, Select.Safe, Cte.AllSafe, Expr.Safe, Expr.AllSafe, Expr.OptionSafe, Expr.RowsSafe, When.AllSafe, When.result, SetSpec.Safe, SetExpr.Safe, TableExpr.Safe, TableExpr.AllSafe, ResultColumns.Safe, ResultColumn.AllSafe, GroupBy.OptionSafe, OrderTerm.AllSafe, Limit.OptionSafe, allSafe_append, rowsSafe_append, whensSafe_append, ctesSafe_append, tablesSafe_append, termsSafe_append, columnsSafe_append]
  | @groupByClause_2 _ _ t0 t1 t3 vl ve _ _ ih2 ih4 =>
    intro hw
    have h2 := ih2 hw.tail.tail.left
    have h4 := ih4 hw.tail.tail.right.tail
    simp_all [SafeOf, SqlStatement.Safe, Statement.Safe, Select.Safe, Cte.AllSafe, Expr.Safe, Expr.AllSafe, Expr.OptionSafe, Expr.RowsSafe, When.AllSafe, When.result, SetSpec.Safe, SetExpr.Safe, TableExpr.Safe, TableExpr.AllSafe, ResultColumns.Safe, ResultColumn.AllSafe, GroupBy.OptionSafe, OrderTerm.AllSafe, Limit.OptionSafe, allSafe_append, rowsSafe_append, whensSafe_append, ctesSafe_append, tablesSafe_append, termsSafe_append, columnsSafe_append]
  | @orderByClause_1 _ t0 t1 vl _ ih2 =>
    intro hw
    have h2 := ih2 hw.tail.tail
    simp_all [SafeOf, SqlStatement.Safe, Statement.Safe, Select.Safe, Cte.AllSafe, Expr.Safe, Expr.AllSafe, Expr.OptionSafe, Expr.RowsSafe, When.AllSafe, When.result, SetSpec.Safe, SetExpr.Safe, TableExpr.Safe, TableExpr.AllSafe, ResultColumns.Safe, ResultColumn.AllSafe, GroupBy.OptionSafe, OrderTerm.AllSafe, Limit.OptionSafe, allSafe_append, rowsSafe_append, whensSafe_append, ctesSafe_append, tablesSafe_append, termsSafe_append, columnsSafe_append]
  | @orderingTermList_1 _ vt _ ih0 =>
    intro hw
    have h0 := ih0 hw
    simp_all [SafeOf, SqlStatement.Safe, Statement.Safe, Select.Safe, Cte.AllSafe, Expr.Safe, Expr.AllSafe, Expr.OptionSafe, Expr.RowsSafe, When.AllSafe, When.result, SetSpec.Safe, SetExpr.Safe, TableExpr.Safe, TableExpr.AllSafe, ResultColumns.Safe, ResultColumn.AllSafe, GroupBy.OptionSafe, OrderTerm.AllSafe, Limit.OptionSafe, allSafe_append, rowsSafe_append, whensSafe_append, ctesSafe_append, tablesSafe_append, termsSafe_append, columnsSafe_append]
  | @orderingTermList_2 _ _ t1 vl vt _ _ ih0 ih2 =>
    intro hw
    have h0 := ih0 hw.left
    have h2 := ih2 hw.right.tail
    simp_all [SafeOf, SqlStatement.Safe, Statement.Safe, Select.Safe, Cte.AllSafe, Expr.Safe, Expr.AllSafe, Expr.OptionSafe, Expr.RowsSafe, When.AllSafe, When.result, SetSpec.Safe, SetExpr.Safe, TableExpr.Safe, TableExpr.AllSafe, ResultColumns.Safe, ResultColumn.AllSafe, GroupBy.OptionSafe, OrderTerm.AllSafe, Limit.OptionSafe, allSafe_append, rowsSafe_append, whensSafe_append, ctesSafe_append, tablesSafe_append, termsSafe_append, columnsSafe_append]
  | @orderingTerm_1 _ _ _ ve vc vd _ _ _ ih0 ih1 ih2 =>
    intro hw
    have h0 := ih0 hw.left
    have h1 := ih1 hw.right.left
    have h2 := ih2 hw.right.right
    simp_all [SafeOf, SqlStatement.Safe, Statement.Safe, Select.Safe, Cte.AllSafe, Expr.Safe, Expr.AllSafe, Expr.OptionSafe, Expr.RowsSafe, When.AllSafe, When.result, SetSpec.Safe, SetExpr.Safe, TableExpr.Safe, TableExpr.AllSafe, ResultColumns.Safe, ResultColumn.AllSafe, GroupBy.OptionSafe, OrderTerm.AllSafe, Limit.OptionSafe, allSafe_append, rowsSafe_append, whensSafe_append, ctesSafe_append, tablesSafe_append, termsSafe_append, columnsSafe_append]
  | @orderingCollation_1 _ t0 vn _ ih1 =>
    exact fun _ => trivial
  | @orderingDirection_1 _ vo0 _ ih0 =>
    exact fun _ => trivial
  | @orderingDirection_2 t0 =>
    exact fun _ => trivial
  | @limitClause_1 _ t0 vn _ ih1 =>
    intro hw
    have h1 := ih1 hw.tail
    simp_all [SafeOf, SqlStatement.Safe, Statement.Safe, Select.Safe, Cte.AllSafe, Expr.Safe, Expr.AllSafe, Expr.OptionSafe, Expr.RowsSafe, When.AllSafe, When.result, SetSpec.Safe, SetExpr.Safe, TableExpr.Safe, TableExpr.AllSafe, ResultColumns.Safe, ResultColumn.AllSafe, GroupBy.OptionSafe, OrderTerm.AllSafe, Limit.OptionSafe, allSafe_append, rowsSafe_append, whensSafe_append, ctesSafe_append, tablesSafe_append, termsSafe_append, columnsSafe_append]
  | @limitClause_2 _ _ t0 t2 vn vo _ _ ih1 ih3 =>
    intro hw
    have h1 := ih1 hw.tail.left
    have h3 := ih3 hw.tail.right.tail
    simp_all [SafeOf, SqlStatement.Safe, Statement.Safe, Select.Safe, Cte.AllSafe, Expr.Safe, Expr.AllSafe, Expr.OptionSafe, Expr.RowsSafe, When.AllSafe, When.result, SetSpec.Safe, SetExpr.Safe, TableExpr.Safe, TableExpr.AllSafe, ResultColumns.Safe, ResultColumn.AllSafe, GroupBy.OptionSafe, OrderTerm.AllSafe, Limit.OptionSafe, allSafe_append, rowsSafe_append, whensSafe_append, ctesSafe_append, tablesSafe_append, termsSafe_append, columnsSafe_append]
  | @limitClause_3 _ _ t0 t2 vn vo _ _ ih1 ih3 =>
    intro hw
    have h1 := ih1 hw.tail.left
    have h3 := ih3 hw.tail.right.tail
    simp_all [SafeOf, SqlStatement.Safe, Statement.Safe, Select.Safe, Cte.AllSafe, Expr.Safe, Expr.AllSafe, Expr.OptionSafe, Expr.RowsSafe, When.AllSafe, When.result, SetSpec.Safe, SetExpr.Safe, TableExpr.Safe, TableExpr.AllSafe, ResultColumns.Safe, ResultColumn.AllSafe, GroupBy.OptionSafe, OrderTerm.AllSafe, Limit.OptionSafe, allSafe_append, rowsSafe_append, whensSafe_append, ctesSafe_append, tablesSafe_append, termsSafe_append, columnsSafe_append]
  | @attachStatement_1 _ _ _ t0 t1 t3 vp vs vn _ _ _ ih2 ih4 ih5 =>
    exact fun _ => trivial
  | @describeStatement_1 _ _ t0 vs vn _ _ ih1 ih2 =>
    exact fun _ => trivial
  | @schemaName_1 _ t1 vn _ ih0 =>
    exact fun _ => trivial
  | @expressionList_1 _ ve _ ih0 =>
    intro hw
    have h0 := ih0 hw
    simp_all [SafeOf, SqlStatement.Safe, Statement.Safe, Select.Safe, Cte.AllSafe, Expr.Safe, Expr.AllSafe, Expr.OptionSafe, Expr.RowsSafe, When.AllSafe, When.result, SetSpec.Safe, SetExpr.Safe, TableExpr.Safe, TableExpr.AllSafe, ResultColumns.Safe, ResultColumn.AllSafe, GroupBy.OptionSafe, OrderTerm.AllSafe, Limit.OptionSafe, allSafe_append, rowsSafe_append, whensSafe_append, ctesSafe_append, tablesSafe_append, termsSafe_append, columnsSafe_append]
  | @expressionList_2 _ _ t1 vl ve _ _ ih0 ih2 =>
    intro hw
    have h0 := ih0 hw.left
    have h2 := ih2 hw.right.tail
    simp_all [SafeOf, SqlStatement.Safe, Statement.Safe, Select.Safe, Cte.AllSafe, Expr.Safe, Expr.AllSafe, Expr.OptionSafe, Expr.RowsSafe, When.AllSafe, When.result, SetSpec.Safe, SetExpr.Safe, TableExpr.Safe, TableExpr.AllSafe, ResultColumns.Safe, ResultColumn.AllSafe, GroupBy.OptionSafe, OrderTerm.AllSafe, Limit.OptionSafe, allSafe_append, rowsSafe_append, whensSafe_append, ctesSafe_append, tablesSafe_append, termsSafe_append, columnsSafe_append]
  | @primaryExpression_1 _ t0 t2 ve _ ih1 =>
    intro hw
    have h1 := ih1 hw.tail.left
    exact ⟨h1.2.1, fun _ => ⟨_, _, _, rfl, .inl rfl⟩⟩
  | @primaryExpression_2 _ t0 t2 ves _ hc ih1 =>
    intro hw
    have h1 := ih1 hw.tail.left
    exact ⟨h1.2, fun _ => ⟨_, _, _, rfl, .inl rfl⟩⟩
  | @primaryExpression_3 _ t0 t2 vq _ ih1 =>
    intro hw
    have h1 := ih1 hw.tail.left
    refine ⟨?_, fun hb => ?_⟩
    · simp_all [SafeOf, SqlStatement.Safe, Statement.Safe, Select.Safe, Cte.AllSafe, Expr.Safe, Expr.AllSafe, Expr.OptionSafe, Expr.RowsSafe, When.AllSafe, When.result, SetSpec.Safe, SetExpr.Safe, TableExpr.Safe, TableExpr.AllSafe, ResultColumns.Safe, ResultColumn.AllSafe, GroupBy.OptionSafe, OrderTerm.AllSafe, Limit.OptionSafe, allSafe_append, rowsSafe_append, whensSafe_append, ctesSafe_append, tablesSafe_append, termsSafe_append, columnsSafe_append]
    · obtain ⟨_, hb⟩ := hb
      cases hb
  | @primaryExpression_4 _ vl _ ih0 =>
    intro hw
    have h0 := ih0 hw
    refine ⟨?_, fun hb => ?_⟩
    · simp_all [SafeOf, SqlStatement.Safe, Statement.Safe, Select.Safe, Cte.AllSafe, Expr.Safe, Expr.AllSafe, Expr.OptionSafe, Expr.RowsSafe, When.AllSafe, When.result, SetSpec.Safe, SetExpr.Safe, TableExpr.Safe, TableExpr.AllSafe, ResultColumns.Safe, ResultColumn.AllSafe, GroupBy.OptionSafe, OrderTerm.AllSafe, Limit.OptionSafe, allSafe_append, rowsSafe_append, whensSafe_append, ctesSafe_append, tablesSafe_append, termsSafe_append, columnsSafe_append]
    · obtain ⟨_, hb⟩ := hb
      cases hb
  | @primaryExpression_5 _ vn _ ih0 =>
    intro hw
    have h0 := ih0 hw
    refine ⟨?_, fun hb => ?_⟩
    · simp_all [SafeOf, SqlStatement.Safe, Statement.Safe, Select.Safe, Cte.AllSafe, Expr.Safe, Expr.AllSafe, Expr.OptionSafe, Expr.RowsSafe, When.AllSafe, When.result, SetSpec.Safe, SetExpr.Safe, TableExpr.Safe, TableExpr.AllSafe, ResultColumns.Safe, ResultColumn.AllSafe, GroupBy.OptionSafe, OrderTerm.AllSafe, Limit.OptionSafe, allSafe_append, rowsSafe_append, whensSafe_append, ctesSafe_append, tablesSafe_append, termsSafe_append, columnsSafe_append]
    · obtain ⟨_, hb⟩ := hb
      cases hb
  | @unaryExpression_1 _ ve _ ih0 =>
    intro hw
    have h0 := ih0 hw
    exact h0
  | @unaryExpression_2 _ t0 ve _ ih1 =>
    intro hw
    have h1 := ih1 hw.tail
    exact ⟨h1.1, fun _ => ⟨_, _, _, rfl, .inr rfl⟩⟩
  | @unaryExpression_3 _ t0 ve _ ih1 =>
    intro hw
    have h1 := ih1 hw.tail
    refine ⟨?_, fun hb => ?_⟩
    · simp_all [SafeOf, SqlStatement.Safe, Statement.Safe, Select.Safe, Cte.AllSafe, Expr.Safe, Expr.AllSafe, Expr.OptionSafe, Expr.RowsSafe, When.AllSafe, When.result, SetSpec.Safe, SetExpr.Safe, TableExpr.Safe, TableExpr.AllSafe, ResultColumns.Safe, ResultColumn.AllSafe, GroupBy.OptionSafe, OrderTerm.AllSafe, Limit.OptionSafe, allSafe_append, rowsSafe_append, whensSafe_append, ctesSafe_append, tablesSafe_append, termsSafe_append, columnsSafe_append]
    · obtain ⟨_, hb⟩ := hb
      cases hb
  | @multiplicativeExpression_1 _ ve _ ih0 =>
    intro hw
    have h0 := ih0 hw
    exact h0
  | @multiplicativeExpression_2 _ _ t1 vl vr _ _ ih0 ih2 =>
    intro hw
    have h0 := ih0 hw.left
    have h2 := ih2 hw.right.tail
    refine ⟨?_, fun hb => ?_⟩
    · simp_all [SafeOf, SqlStatement.Safe, Statement.Safe, Select.Safe, Cte.AllSafe, Expr.Safe, Expr.AllSafe, Expr.OptionSafe, Expr.RowsSafe, When.AllSafe, When.result, SetSpec.Safe, SetExpr.Safe, TableExpr.Safe, TableExpr.AllSafe, ResultColumns.Safe, ResultColumn.AllSafe, GroupBy.OptionSafe, OrderTerm.AllSafe, Limit.OptionSafe, allSafe_append, rowsSafe_append, whensSafe_append, ctesSafe_append, tablesSafe_append, termsSafe_append, columnsSafe_append]
    · obtain ⟨_, hb⟩ := hb
      cases hb
  | @multiplicativeExpression_3 _ _ t1 vl vr _ _ ih0 ih2 =>
    intro hw
    have h0 := ih0 hw.left
    have h2 := ih2 hw.right.tail
    refine ⟨?_, fun hb => ?_⟩
    · simp_all [SafeOf, SqlStatement.Safe, Statement.Safe, Select.Safe, Cte.AllSafe, Expr.Safe, Expr.AllSafe, Expr.OptionSafe, Expr.RowsSafe, When.AllSafe, When.result, SetSpec.Safe, SetExpr.Safe, TableExpr.Safe, TableExpr.AllSafe, ResultColumns.Safe, ResultColumn.AllSafe, GroupBy.OptionSafe, OrderTerm.AllSafe, Limit.OptionSafe, allSafe_append, rowsSafe_append, whensSafe_append, ctesSafe_append, tablesSafe_append, termsSafe_append, columnsSafe_append]
    · obtain ⟨_, hb⟩ := hb
      cases hb
  | @additiveExpression_1 _ ve _ ih0 =>
    intro hw
    have h0 := ih0 hw
    exact h0
  | @additiveExpression_2 _ _ t1 vl vr _ _ ih0 ih2 =>
    intro hw
    have h0 := ih0 hw.left
    have h2 := ih2 hw.right.tail
    refine ⟨?_, fun hb => ?_⟩
    · simp_all [SafeOf, SqlStatement.Safe, Statement.Safe, Select.Safe, Cte.AllSafe, Expr.Safe, Expr.AllSafe, Expr.OptionSafe, Expr.RowsSafe, When.AllSafe, When.result, SetSpec.Safe, SetExpr.Safe, TableExpr.Safe, TableExpr.AllSafe, ResultColumns.Safe, ResultColumn.AllSafe, GroupBy.OptionSafe, OrderTerm.AllSafe, Limit.OptionSafe, allSafe_append, rowsSafe_append, whensSafe_append, ctesSafe_append, tablesSafe_append, termsSafe_append, columnsSafe_append]
    · obtain ⟨_, hb⟩ := hb
      cases hb
  | @additiveExpression_3 _ _ t1 vl vr _ _ ih0 ih2 =>
    intro hw
    have h0 := ih0 hw.left
    have h2 := ih2 hw.right.tail
    refine ⟨?_, fun hb => ?_⟩
    · simp_all [SafeOf, SqlStatement.Safe, Statement.Safe, Select.Safe, Cte.AllSafe, Expr.Safe, Expr.AllSafe, Expr.OptionSafe, Expr.RowsSafe, When.AllSafe, When.result, SetSpec.Safe, SetExpr.Safe, TableExpr.Safe, TableExpr.AllSafe, ResultColumns.Safe, ResultColumn.AllSafe, GroupBy.OptionSafe, OrderTerm.AllSafe, Limit.OptionSafe, allSafe_append, rowsSafe_append, whensSafe_append, ctesSafe_append, tablesSafe_append, termsSafe_append, columnsSafe_append]
    · obtain ⟨_, hb⟩ := hb
      cases hb
  | @additiveExpression_4 _ _ t1 vl vr _ _ ih0 ih2 =>
    intro hw
    have h0 := ih0 hw.left
    have h2 := ih2 hw.right.tail
    refine ⟨?_, fun hb => ?_⟩
    · simp_all [SafeOf, SqlStatement.Safe, Statement.Safe, Select.Safe, Cte.AllSafe, Expr.Safe, Expr.AllSafe, Expr.OptionSafe, Expr.RowsSafe, When.AllSafe, When.result, SetSpec.Safe, SetExpr.Safe, TableExpr.Safe, TableExpr.AllSafe, ResultColumns.Safe, ResultColumn.AllSafe, GroupBy.OptionSafe, OrderTerm.AllSafe, Limit.OptionSafe, allSafe_append, rowsSafe_append, whensSafe_append, ctesSafe_append, tablesSafe_append, termsSafe_append, columnsSafe_append]
    · obtain ⟨_, hb⟩ := hb
      cases hb
  | @comparativeExpression_1 _ ve _ ih0 =>
    intro hw
    have h0 := ih0 hw
    exact h0
  | @comparativeExpression_2 _ _ t1 vl vr _ _ ih0 ih2 =>
    intro hw
    have h0 := ih0 hw.left
    have h2 := ih2 hw.right.tail
    refine ⟨?_, fun hb => ?_⟩
    · simp_all [SafeOf, SqlStatement.Safe, Statement.Safe, Select.Safe, Cte.AllSafe, Expr.Safe, Expr.AllSafe, Expr.OptionSafe, Expr.RowsSafe, When.AllSafe, When.result, SetSpec.Safe, SetExpr.Safe, TableExpr.Safe, TableExpr.AllSafe, ResultColumns.Safe, ResultColumn.AllSafe, GroupBy.OptionSafe, OrderTerm.AllSafe, Limit.OptionSafe, allSafe_append, rowsSafe_append, whensSafe_append, ctesSafe_append, tablesSafe_append, termsSafe_append, columnsSafe_append]
    · obtain ⟨_, hb⟩ := hb
      cases hb
  | @comparativeExpression_3 _ _ t1 vl vr _ _ ih0 ih2 =>
    intro hw
    have h0 := ih0 hw.left
    have h2 := ih2 hw.right.tail
    refine ⟨?_, fun hb => ?_⟩
    · simp_all [SafeOf, SqlStatement.Safe, Statement.Safe, Select.Safe, Cte.AllSafe, Expr.Safe, Expr.AllSafe, Expr.OptionSafe, Expr.RowsSafe, When.AllSafe, When.result, SetSpec.Safe, SetExpr.Safe, TableExpr.Safe, TableExpr.AllSafe, ResultColumns.Safe, ResultColumn.AllSafe, GroupBy.OptionSafe, OrderTerm.AllSafe, Limit.OptionSafe, allSafe_append, rowsSafe_append, whensSafe_append, ctesSafe_append, tablesSafe_append, termsSafe_append, columnsSafe_append]
    · obtain ⟨_, hb⟩ := hb
      cases hb
  | @comparativeExpression_4 _ _ t1 vl vr _ _ ih0 ih2 =>
    intro hw
    have h0 := ih0 hw.left
    have h2 := ih2 hw.right.tail
    refine ⟨?_, fun hb => ?_⟩
    · simp_all [SafeOf, SqlStatement.Safe, Statement.Safe, Select.Safe, Cte.AllSafe, Expr.Safe, Expr.AllSafe, Expr.OptionSafe, Expr.RowsSafe, When.AllSafe, When.result, SetSpec.Safe, SetExpr.Safe, TableExpr.Safe, TableExpr.AllSafe, ResultColumns.Safe, ResultColumn.AllSafe, GroupBy.OptionSafe, OrderTerm.AllSafe, Limit.OptionSafe, allSafe_append, rowsSafe_append, whensSafe_append, ctesSafe_append, tablesSafe_append, termsSafe_append, columnsSafe_append]
    · obtain ⟨_, hb⟩ := hb
      cases hb
  | @comparativeExpression_5 _ _ t1 vl vr _ _ ih0 ih2 =>
    intro hw
    have h0 := ih0 hw.left
    have h2 := ih2 hw.right.tail
    refine ⟨?_, fun hb => ?_⟩
    · simp_all [SafeOf, SqlStatement.Safe, Statement.Safe, Select.Safe, Cte.AllSafe, Expr.Safe, Expr.AllSafe, Expr.OptionSafe, Expr.RowsSafe, When.AllSafe, When.result, SetSpec.Safe, SetExpr.Safe, TableExpr.Safe, TableExpr.AllSafe, ResultColumns.Safe, ResultColumn.AllSafe, GroupBy.OptionSafe, OrderTerm.AllSafe, Limit.OptionSafe, allSafe_append, rowsSafe_append, whensSafe_append, ctesSafe_append, tablesSafe_append, termsSafe_append, columnsSafe_append]
    · obtain ⟨_, hb⟩ := hb
      cases hb
  | @comparativeExpression_6 _ _ t1 vl vr _ _ ih0 ih2 =>
    intro hw
    have h0 := ih0 hw.left
    have h2 := ih2 hw.right.tail
    refine ⟨?_, fun hb => ?_⟩
    · simp_all [SafeOf, SqlStatement.Safe, Statement.Safe, Select.Safe, Cte.AllSafe, Expr.Safe, Expr.AllSafe, Expr.OptionSafe, Expr.RowsSafe, When.AllSafe, When.result, SetSpec.Safe, SetExpr.Safe, TableExpr.Safe, TableExpr.AllSafe, ResultColumns.Safe, ResultColumn.AllSafe, GroupBy.OptionSafe, OrderTerm.AllSafe, Limit.OptionSafe, allSafe_append, rowsSafe_append, whensSafe_append, ctesSafe_append, tablesSafe_append, termsSafe_append, columnsSafe_append]
    · obtain ⟨_, hb⟩ := hb
      cases hb
  | @comparativeExpression_7 _ _ t1 vl vr _ _ ih0 ih2 =>
    intro hw
    have h0 := ih0 hw.left
    have h2 := ih2 hw.right.tail
    refine ⟨?_, fun hb => ?_⟩
    · simp_all [SafeOf, SqlStatement.Safe, Statement.Safe, Select.Safe, Cte.AllSafe, Expr.Safe, Expr.AllSafe, Expr.OptionSafe, Expr.RowsSafe, When.AllSafe, When.result, SetSpec.Safe, SetExpr.Safe, TableExpr.Safe, TableExpr.AllSafe, ResultColumns.Safe, ResultColumn.AllSafe, GroupBy.OptionSafe, OrderTerm.AllSafe, Limit.OptionSafe, allSafe_append, rowsSafe_append, whensSafe_append, ctesSafe_append, tablesSafe_append, termsSafe_append, columnsSafe_append]
    · obtain ⟨_, hb⟩ := hb
      cases hb
  | @comparativeExpression_8 _ t1 t2 ve _ ih0 =>
    intro hw
    have h0 := ih0 hw.left
    refine ⟨?_, fun hb => ?_⟩
    · simp_all [SafeOf, SqlStatement.Safe, Statement.Safe, Select.Safe, Cte.AllSafe, Expr.Safe, Expr.AllSafe, Expr.OptionSafe, Expr.RowsSafe, When.AllSafe, When.result, SetSpec.Safe, SetExpr.Safe, TableExpr.Safe, TableExpr.AllSafe, ResultColumns.Safe, ResultColumn.AllSafe, GroupBy.OptionSafe, OrderTerm.AllSafe, Limit.OptionSafe, allSafe_append, rowsSafe_append, whensSafe_append, ctesSafe_append, tablesSafe_append, termsSafe_append, columnsSafe_append]
    · obtain ⟨_, hb⟩ := hb
      cases hb
  | @comparativeExpression_9 _ t1 t2 t3 ve _ ih0 =>
    intro hw
    have h0 := ih0 hw.left
    refine ⟨?_, fun hb => ?_⟩
    · simp_all [SafeOf, SqlStatement.Safe, Statement.Safe, Select.Safe, Cte.AllSafe, Expr.Safe, Expr.AllSafe, Expr.OptionSafe, Expr.RowsSafe, When.AllSafe, When.result, SetSpec.Safe, SetExpr.Safe, TableExpr.Safe, TableExpr.AllSafe, ResultColumns.Safe, ResultColumn.AllSafe, GroupBy.OptionSafe, OrderTerm.AllSafe, Limit.OptionSafe, allSafe_append, rowsSafe_append, whensSafe_append, ctesSafe_append, tablesSafe_append, termsSafe_append, columnsSafe_append]
    · obtain ⟨_, hb⟩ := hb
      cases hb
  | @comparativeExpression_10 _ _ t1 vl vr _ _ ih0 ih2 =>
    intro hw
    have h0 := ih0 hw.left
    have h2 := ih2 hw.right.tail
    refine ⟨?_, fun hb => ?_⟩
    · simp_all [SafeOf, SqlStatement.Safe, Statement.Safe, Select.Safe, Cte.AllSafe, Expr.Safe, Expr.AllSafe, Expr.OptionSafe, Expr.RowsSafe, When.AllSafe, When.result, SetSpec.Safe, SetExpr.Safe, TableExpr.Safe, TableExpr.AllSafe, ResultColumns.Safe, ResultColumn.AllSafe, GroupBy.OptionSafe, OrderTerm.AllSafe, Limit.OptionSafe, allSafe_append, rowsSafe_append, whensSafe_append, ctesSafe_append, tablesSafe_append, termsSafe_append, columnsSafe_append]
    · obtain ⟨_, hb⟩ := hb
      cases hb
  | @comparativeExpression_11 _ t1 ve _ ih0 =>
    intro hw
    have h0 := ih0 hw.left
    refine ⟨?_, fun hb => ?_⟩
    · simp_all [SafeOf, SqlStatement.Safe, Statement.Safe, Select.Safe, Cte.AllSafe, Expr.Safe, Expr.AllSafe, Expr.OptionSafe, Expr.RowsSafe, When.AllSafe, When.result, SetSpec.Safe, SetExpr.Safe, TableExpr.Safe, TableExpr.AllSafe, ResultColumns.Safe, ResultColumn.AllSafe, GroupBy.OptionSafe, OrderTerm.AllSafe, Limit.OptionSafe, allSafe_append, rowsSafe_append, whensSafe_append, ctesSafe_append, tablesSafe_append, termsSafe_append, columnsSafe_append]
    · obtain ⟨_, hb⟩ := hb
      cases hb
  | @comparativeExpression_12 _ t1 ve _ ih0 =>
    intro hw
    have h0 := ih0 hw.left
    refine ⟨?_, fun hb => ?_⟩
    · simp_all [SafeOf, SqlStatement.Safe, Statement.Safe, Select.Safe, Cte.AllSafe, Expr.Safe, Expr.AllSafe, Expr.OptionSafe, Expr.RowsSafe, When.AllSafe, When.result, SetSpec.Safe, SetExpr.Safe, TableExpr.Safe, TableExpr.AllSafe, ResultColumns.Safe, ResultColumn.AllSafe, GroupBy.OptionSafe, OrderTerm.AllSafe, Limit.OptionSafe, allSafe_append, rowsSafe_append, whensSafe_append, ctesSafe_append, tablesSafe_append, termsSafe_append, columnsSafe_append]
    · obtain ⟨_, hb⟩ := hb
      cases hb
  | @comparativeExpression_13 _ t1 t2 ve _ ih0 =>
    intro hw
    have h0 := ih0 hw.left
    refine ⟨?_, fun hb => ?_⟩
    · simp_all [SafeOf, SqlStatement.Safe, Statement.Safe, Select.Safe, Cte.AllSafe, Expr.Safe, Expr.AllSafe, Expr.OptionSafe, Expr.RowsSafe, When.AllSafe, When.result, SetSpec.Safe, SetExpr.Safe, TableExpr.Safe, TableExpr.AllSafe, ResultColumns.Safe, ResultColumn.AllSafe, GroupBy.OptionSafe, OrderTerm.AllSafe, Limit.OptionSafe, allSafe_append, rowsSafe_append, whensSafe_append, ctesSafe_append, tablesSafe_append, termsSafe_append, columnsSafe_append]
    · obtain ⟨_, hb⟩ := hb
      cases hb
  | @comparativeExpression_14 _ t1 t2 t3 ve _ ih0 =>
    intro hw
    exact absurd hw.right.tail.empty_list (fun h => h)
  | @comparativeExpression_15 _ t1 t2 t3 t4 ve _ ih0 =>
    intro hw
    exact absurd hw.right.tail.tail.empty_list (fun h => h)
  | @comparativeExpression_16 _ _ t1 t2 t4 ve vl _ _ ih0 ih3 =>
    intro hw
    have h0 := ih0 hw.left
    have h3 := ih3 hw.right.tail.tail.left
    refine ⟨?_, fun hb => ?_⟩
    · simp_all [SafeOf, SqlStatement.Safe, Statement.Safe, Select.Safe, Cte.AllSafe, Expr.Safe, Expr.AllSafe, Expr.OptionSafe, Expr.RowsSafe, When.AllSafe, When.result, SetSpec.Safe, SetExpr.Safe, TableExpr.Safe, TableExpr.AllSafe, ResultColumns.Safe, ResultColumn.AllSafe, GroupBy.OptionSafe, OrderTerm.AllSafe, Limit.OptionSafe, allSafe_append, rowsSafe_append, whensSafe_append, ctesSafe_append, tablesSafe_append, termsSafe_append, columnsSafe_append]
    · obtain ⟨_, hb⟩ := hb
      cases hb
  | @comparativeExpression_17 _ _ t1 t2 t3 t5 ve vl _ _ ih0 ih4 =>
    intro hw
    have h0 := ih0 hw.left
    have h4 := ih4 hw.right.tail.tail.tail.left
    refine ⟨?_, fun hb => ?_⟩
    · simp_all [SafeOf, SqlStatement.Safe, Statement.Safe, Select.Safe, Cte.AllSafe, Expr.Safe, Expr.AllSafe, Expr.OptionSafe, Expr.RowsSafe, When.AllSafe, When.result, SetSpec.Safe, SetExpr.Safe, TableExpr.Safe, TableExpr.AllSafe, ResultColumns.Safe, ResultColumn.AllSafe, GroupBy.OptionSafe, OrderTerm.AllSafe, Limit.OptionSafe, allSafe_append, rowsSafe_append, whensSafe_append, ctesSafe_append, tablesSafe_append, termsSafe_append, columnsSafe_append]
    · obtain ⟨_, hb⟩ := hb
      cases hb
  | @comparativeExpression_18 _ _ t1 t2 t4 ve vq _ _ ih0 ih3 =>
    intro hw
    have h0 := ih0 hw.left
    have h3 := ih3 hw.right.tail.tail.left
    refine ⟨?_, fun hb => ?_⟩
    · simp_all [SafeOf, SqlStatement.Safe, Statement.Safe, Select.Safe, Cte.AllSafe, Expr.Safe, Expr.AllSafe, Expr.OptionSafe, Expr.RowsSafe, When.AllSafe, When.result, SetSpec.Safe, SetExpr.Safe, TableExpr.Safe, TableExpr.AllSafe, ResultColumns.Safe, ResultColumn.AllSafe, GroupBy.OptionSafe, OrderTerm.AllSafe, Limit.OptionSafe, allSafe_append, rowsSafe_append, whensSafe_append, ctesSafe_append, tablesSafe_append, termsSafe_append, columnsSafe_append]
    · obtain ⟨_, hb⟩ := hb
      cases hb
  | @comparativeExpression_19 _ _ t1 t2 t3 t5 ve vq _ _ ih0 ih4 =>
    intro hw
    have h0 := ih0 hw.left
    have h4 := ih4 hw.right.tail.tail.tail.left
    refine ⟨?_, fun hb => ?_⟩
    · simp_all [SafeOf, SqlStatement.Safe, Statement.Safe, Select.Safe, Cte.AllSafe, Expr.Safe, Expr.AllSafe, Expr.OptionSafe, Expr.RowsSafe, When.AllSafe, When.result, SetSpec.Safe, SetExpr.Safe, TableExpr.Safe, TableExpr.AllSafe, ResultColumns.Safe, ResultColumn.AllSafe, GroupBy.OptionSafe, OrderTerm.AllSafe, Limit.OptionSafe, allSafe_append, rowsSafe_append, whensSafe_append, ctesSafe_append, tablesSafe_append, termsSafe_append, columnsSafe_append]
    · obtain ⟨_, hb⟩ := hb
      cases hb
  | @comparativeExpression_20 _ _ t1 ve vn _ _ ih0 ih2 =>
    intro hw
    have h0 := ih0 hw.left
    have h2 := ih2 hw.right.tail
    refine ⟨?_, fun hb => ?_⟩
    · simp_all [SafeOf, SqlStatement.Safe, Statement.Safe, Select.Safe, Cte.AllSafe, Expr.Safe, Expr.AllSafe, Expr.OptionSafe, Expr.RowsSafe, When.AllSafe, When.result, SetSpec.Safe, SetExpr.Safe, TableExpr.Safe, TableExpr.AllSafe, ResultColumns.Safe, ResultColumn.AllSafe, GroupBy.OptionSafe, OrderTerm.AllSafe, Limit.OptionSafe, allSafe_append, rowsSafe_append, whensSafe_append, ctesSafe_append, tablesSafe_append, termsSafe_append, columnsSafe_append]
    · obtain ⟨_, hb⟩ := hb
      cases hb
  | @comparativeExpression_21 _ _ t1 t2 ve vn _ _ ih0 ih3 =>
    intro hw
    have h0 := ih0 hw.left
    have h3 := ih3 hw.right.tail.tail
    refine ⟨?_, fun hb => ?_⟩
    · simp_all [SafeOf, SqlStatement.Safe, Statement.Safe, Select.Safe, Cte.AllSafe, Expr.Safe, Expr.AllSafe, Expr.OptionSafe, Expr.RowsSafe, When.AllSafe, When.result, SetSpec.Safe, SetExpr.Safe, TableExpr.Safe, TableExpr.AllSafe, ResultColumns.Safe, ResultColumn.AllSafe, GroupBy.OptionSafe, OrderTerm.AllSafe, Limit.OptionSafe, allSafe_append, rowsSafe_append, whensSafe_append, ctesSafe_append, tablesSafe_append, termsSafe_append, columnsSafe_append]
    · obtain ⟨_, hb⟩ := hb
      cases hb
  | @comparativeExpression_22 _ _ _ t1 t3 ve vl vu _ _ _ ih0 ih2 ih4 =>
    intro hw
    have h0 := ih0 hw.left
    have h2 := ih2 hw.right.tail.left
    have h4 := ih4 hw.right.tail.right.tail
    refine ⟨?_, fun hb => ?_⟩
    · simp_all [SafeOf, SqlStatement.Safe, Statement.Safe, Select.Safe, Cte.AllSafe, Expr.Safe, Expr.AllSafe, Expr.OptionSafe, Expr.RowsSafe, When.AllSafe, When.result, SetSpec.Safe, SetExpr.Safe, TableExpr.Safe, TableExpr.AllSafe, ResultColumns.Safe, ResultColumn.AllSafe, GroupBy.OptionSafe, OrderTerm.AllSafe, Limit.OptionSafe, allSafe_append, rowsSafe_append, whensSafe_append, ctesSafe_append, tablesSafe_append, termsSafe_append, columnsSafe_append]
    · obtain ⟨_, hb⟩ := hb
      cases hb
  | @comparativeExpression_23 _ _ _ t1 t2 t4 ve vl vu _ _ _ ih0 ih3 ih5 =>
    intro hw
    have h0 := ih0 hw.left
    have h3 := ih3 hw.right.tail.tail.left
    have h5 := ih5 hw.right.tail.tail.right.tail
    refine ⟨?_, fun hb => ?_⟩
    · simp_all [SafeOf, SqlStatement.Safe, Statement.Safe, Select.Safe, Cte.AllSafe, Expr.Safe, Expr.AllSafe, Expr.OptionSafe, Expr.RowsSafe, When.AllSafe, When.result, SetSpec.Safe, SetExpr.Safe, TableExpr.Safe, TableExpr.AllSafe, ResultColumns.Safe, ResultColumn.AllSafe, GroupBy.OptionSafe, OrderTerm.AllSafe, Limit.OptionSafe, allSafe_append, rowsSafe_append, whensSafe_append, ctesSafe_append, tablesSafe_append, termsSafe_append, columnsSafe_append]
    · obtain ⟨_, hb⟩ := hb
      cases hb
  | @complexExpression_1 _ ve _ ih0 =>
    intro hw
    have h0 := ih0 hw
    exact h0
  | @complexExpression_2 _ ve _ ih0 =>
    intro hw
    have h0 := ih0 hw
    exact h0
  | @caseExpression_1 _ _ _ t0 t4 ve vo vl _ _ _ ih1 ih2 ih3 =>
    intro hw
    have h1 := ih1 hw.tail.left
    have h2 := ih2 hw.tail.right.left
    have h3 := ih3 hw.tail.right.right.left
    refine ⟨?_, fun hb => ?_⟩
    · refine ⟨?_, goodBranches_of h2.1 h2.2.2, h2.2.1, ?_⟩
      · cases ve
        · trivial
        · exact h1.1
      · cases vo
        · trivial
        · exact h3
    · obtain ⟨_, hb⟩ := hb
      cases hb
  | @whenClauses_1 _ vx _ ih0 =>
    intro hw
    have h0 := ih0 hw
    simp_all [SafeOf, SqlStatement.Safe, Statement.Safe, Select.Safe, Cte.AllSafe, Expr.Safe, Expr.AllSafe, Expr.OptionSafe, Expr.RowsSafe, When.AllSafe, When.result, SetSpec.Safe, SetExpr.Safe, TableExpr.Safe, TableExpr.AllSafe, ResultColumns.Safe, ResultColumn.AllSafe, GroupBy.OptionSafe, OrderTerm.AllSafe, Limit.OptionSafe, allSafe_append, rowsSafe_append, whensSafe_append, ctesSafe_append, tablesSafe_append, termsSafe_append, columnsSafe_append]
  | @whenClauses_2 _ _ vl vx _ _ ih0 ih1 =>
    intro hw
    have h0 := ih0 hw.left
    have h1 := ih1 hw.right
    refine ⟨by simp, whensSafe_append.mpr ⟨h0.2.1, h1.1⟩, fun x hx => ?_⟩
    rcases List.mem_append.mp hx with hx | hx
    · exact h0.2.2 x hx
    · rw [List.mem_singleton.mp hx]
      exact h1.2
  | @whenClause_1 _ _ t0 t2 vg vb _ _ ih1 ih3 =>
    intro hw
    have h1 := ih1 hw.tail.left
    have h3 := ih3 hw.tail.right.tail
    refine ⟨⟨h1.1, h3.1, trivial⟩, fun hb => ?_⟩
    obtain ⟨k, t, r, rfl, hk⟩ := h3.2 hb
    exact hw.tail.right.then_tuple hk
  | @elseClause_1 _ t0 ve _ ih1 =>
    intro hw
    have h1 := ih1 hw.tail
    exact h1.1
  | @notExpression_1 _ ve _ ih0 =>
    intro hw
    have h0 := ih0 hw
    exact h0
  | @notExpression_2 _ t0 ve _ ih1 =>
    intro hw
    have h1 := ih1 hw.tail
    refine ⟨?_, fun hb => ?_⟩
    · simp_all [SafeOf, SqlStatement.Safe, Statement.Safe, Select.Safe, Cte.AllSafe, Expr.Safe, Expr.AllSafe, Expr.OptionSafe, Expr.RowsSafe, When.AllSafe, When.result, SetSpec.Safe, SetExpr.Safe, TableExpr.Safe, TableExpr.AllSafe, ResultColumns.Safe, ResultColumn.AllSafe, GroupBy.OptionSafe, OrderTerm.AllSafe, Limit.OptionSafe, allSafe_append, rowsSafe_append, whensSafe_append, ctesSafe_append, tablesSafe_append, termsSafe_append, columnsSafe_append]
    · obtain ⟨_, hb⟩ := hb
      cases hb
  | @andExpression_1 _ ve _ ih0 =>
    intro hw
    have h0 := ih0 hw
    exact h0
  | @andExpression_2 _ _ t1 vl vr _ _ ih0 ih2 =>
    intro hw
    have h0 := ih0 hw.left
    have h2 := ih2 hw.right.tail
    refine ⟨?_, fun hb => ?_⟩
    · simp_all [SafeOf, SqlStatement.Safe, Statement.Safe, Select.Safe, Cte.AllSafe, Expr.Safe, Expr.AllSafe, Expr.OptionSafe, Expr.RowsSafe, When.AllSafe, When.result, SetSpec.Safe, SetExpr.Safe, TableExpr.Safe, TableExpr.AllSafe, ResultColumns.Safe, ResultColumn.AllSafe, GroupBy.OptionSafe, OrderTerm.AllSafe, Limit.OptionSafe, allSafe_append, rowsSafe_append, whensSafe_append, ctesSafe_append, tablesSafe_append, termsSafe_append, columnsSafe_append]
    · obtain ⟨_, hb⟩ := hb
      cases hb
  | @orExpression_1 _ ve _ ih0 =>
    intro hw
    have h0 := ih0 hw
    exact h0
  | @orExpression_2 _ _ t1 vl vr _ _ ih0 ih2 =>
    intro hw
    have h0 := ih0 hw.left
    have h2 := ih2 hw.right.tail
    refine ⟨?_, fun hb => ?_⟩
    · simp_all [SafeOf, SqlStatement.Safe, Statement.Safe, Select.Safe, Cte.AllSafe, Expr.Safe, Expr.AllSafe, Expr.OptionSafe, Expr.RowsSafe, When.AllSafe, When.result, SetSpec.Safe, SetExpr.Safe, TableExpr.Safe, TableExpr.AllSafe, ResultColumns.Safe, ResultColumn.AllSafe, GroupBy.OptionSafe, OrderTerm.AllSafe, Limit.OptionSafe, allSafe_append, rowsSafe_append, whensSafe_append, ctesSafe_append, tablesSafe_append, termsSafe_append, columnsSafe_append]
    · obtain ⟨_, hb⟩ := hb
      cases hb
  | @expression_1 _ ve _ ih0 =>
    intro hw
    have h0 := ih0 hw
    exact h0
  | @literalValue_1 _ vs _ ih0 =>
    exact fun _ => trivial
  | @literalValue_2 _ vs _ ih0 =>
    exact fun _ => trivial
  | @literalValue_3 t0 =>
    exact fun _ => trivial
  | @literalValue_4 t0 =>
    exact fun _ => trivial
  | @literalValue_5 t0 =>
    exact fun _ => trivial
  | @literalValue_6 t0 =>
    exact fun _ => trivial
  | @literalValue_7 _ t0 vs _ ih1 =>
    exact fun _ => trivial
  | @literalValue_8 _ t0 vs _ ih1 =>
    exact fun _ => trivial
  | @literalValue_9 _ t0 vs _ ih1 =>
    exact fun _ => trivial
  | @identifier_1 t0 =>
    exact fun _ => trivial
  | @numericLiteral_1 t0 =>
    exact fun _ => trivial
  | @numericLiteral_2 t0 =>
    exact fun _ => trivial
  | @numericLiteral_3 t0 =>
    exact fun _ => trivial
  | @stringLiteral_1 t0 =>
    exact fun _ => trivial

end Verif.Sql.Grammar
