import Verif.Proof.SqlStack
import Verif.Spec.SqlGrammar
/-! # The nesting of a statement is at most two for each of its words, and three -/

namespace Verif.Sql
open Grammar

theorem exprsNesting_append {a b : List (Expr N)} :
    exprsNesting (a ++ b) = max (exprsNesting a) (exprsNesting b) := by
  induction a with
  | nil => simp [exprsNesting]
  | cons x a ih => simp [exprsNesting, ih, Nat.max_assoc]

theorem rowsNesting_append {a b : List (List (Expr N))} :
    rowsNesting (a ++ b) = max (rowsNesting a) (rowsNesting b) := by
  induction a with
  | nil => simp [rowsNesting]
  | cons x a ih => simp [rowsNesting, ih, Nat.max_assoc]

theorem ctesNesting_append {a b : List (Cte N)} : ctesNesting (a ++ b) = max (ctesNesting a) (ctesNesting b) := by
  induction a with
  | nil => simp [ctesNesting]
  | cons x a ih => cases x; simp [ctesNesting, ih, Nat.max_assoc]

theorem termsNesting_append {a b : List (OrderTerm N)} :
    termsNesting (a ++ b) = max (termsNesting a) (termsNesting b) := by
  induction a with
  | nil => simp [termsNesting]
  | cons x a ih => cases x; simp [termsNesting, ih, Nat.max_assoc]

theorem tablesNesting_append {a b : List (TableExpr N)} :
    tablesNesting (a ++ b) = max (tablesNesting a) (tablesNesting b) := by
  induction a with
  | nil => simp [tablesNesting]
  | cons x a ih => simp [tablesNesting, ih, Nat.max_assoc]

theorem columnsNesting_append {a b : List (ResultColumn N)} :
    columnsNesting (a ++ b) = max (columnsNesting a) (columnsNesting b) := by
  induction a with
  | nil => simp [columnsNesting]
  | cons x a ih => cases x <;> simp [columnsNesting, ih, Nat.max_assoc]

theorem whensNesting_append {a b : List (When N)} :
    whensNesting (a ++ b) = max (whensNesting a) (whensNesting b) := by
  induction a with
  | nil => simp [whensNesting]
  | cons x a ih => cases x; simp [whensNesting, ih, Nat.max_assoc]

theorem assignmentsNesting_append {a b : List (Assignment N)} :
    assignmentsNesting (a ++ b) = max (assignmentsNesting a) (assignmentsNesting b) := by
  induction a with
  | nil => simp [assignmentsNesting]
  | cons x a ih => cases x; simp [assignmentsNesting, ih, Nat.max_assoc]

/-- The nesting of the value of `k` words. -/
def NestOf : (s : Nt) → Grammar.Ty s → Nat → Prop
  | .sqlStatement, v, k => v.nesting ≤ 2 * k + 3
  | .statement, v, k => v.nesting ≤ 2 * k + 2
  | .insertStatement, v, k => v.source.nesting ≤ 2 * k
  | .deleteStatement, v, k => exprNesting v.wher ≤ 2 * k
  | .updateStatement, v, k => max (assignmentsNesting v.assignments) (exprNesting v.wher) ≤ 2 * k
  | .assignments, v, k => assignmentsNesting v ≤ 2 * k
  | .assignment, v, k => v.expr.nesting ≤ 2 * k
  | .selectStatement, v, k => v.nesting ≤ 2 * k + 1
  | .tableExpressions, v, k => ctesNesting v ≤ 2 * k
  | .commonTableExpressionList, v, k => ctesNesting v ≤ 2 * k
  | .commonTableExpression, v, k => ctesNesting [v] ≤ 2 * k
  | .selectCoreList, v, k => v.nesting ≤ 2 * k
  | .selectCore, v, k => v.nesting ≤ 2 * k
  | .tupleList, v, k => rowsNesting v ≤ 2 * k
  | .tuple, v, k => exprsNesting v ≤ 2 * k
  | .resultColumns, v, k => v.nesting ≤ 2 * k + 1
  | .resultColumnList, v, k => columnsNesting v ≤ 2 * k
  | .resultColumn, v, k => columnsNesting [v] ≤ 2 * k
  | .fromClause, v, k => tablesNesting v ≤ 2 * k
  | .tableExpressionList, v, k => tablesNesting v ≤ 2 * k
  | .tableExpression, v, k => v.nesting ≤ 2 * k
  | .tableOrSubQuery, v, k => v.nesting ≤ 2 * k
  | .whereClause, v, k => v.nesting ≤ 2 * k
  | .groupByClause, v, k => groupNesting (some v) ≤ 2 * k
  | .orderByClause, v, k => termsNesting v ≤ 2 * k
  | .orderingTermList, v, k => termsNesting v ≤ 2 * k + 1
  | .orderingTerm, v, k => termsNesting [v] ≤ 2 * k + 1
  | .limitClause, v, k => limitNesting (some v) ≤ 2 * k
  | .expressionList, v, k => exprsNesting v ≤ 2 * k
  | .primaryExpression, v, k => v.nesting ≤ 2 * k
  | .unaryExpression, v, k => v.nesting ≤ 2 * k
  | .multiplicativeExpression, v, k => v.nesting ≤ 2 * k
  | .additiveExpression, v, k => v.nesting ≤ 2 * k
  | .comparativeExpression, v, k => v.nesting ≤ 2 * k
  | .complexExpression, v, k => v.nesting ≤ 2 * k
  | .caseExpression, v, k => v.nesting ≤ 2 * k
  | .whenClauses, v, k => whensNesting v ≤ 2 * k
  | .whenClause, v, k => whensNesting [v] ≤ 2 * k
  | .elseClause, v, k => v.nesting ≤ 2 * k
  | .notExpression, v, k => v.nesting ≤ 2 * k
  | .andExpression, v, k => v.nesting ≤ 2 * k
  | .orExpression, v, k => v.nesting ≤ 2 * k
  | .expression, v, k => v.nesting ≤ 2 * k
  | .opt _, none, _ => True
  | .opt s, some v, k => NestOf s v k
  | .qualifiedIdentifier, _, k => 1 ≤ k
  | .literalValue, _, k => 1 ≤ k
  | .identifier, _, k => 1 ≤ k
  | .numericLiteral, _, k => 1 ≤ k
  | .stringLiteral, _, k => 1 ≤ k
  | .compoundOperator, _, k => 1 ≤ k
  | .joinOperator, _, k => 1 ≤ k
  | _, _, _ => True

theorem nestOf_whereClause {o : Option (Expr Name)} {k : Nat} :
    NestOf (.opt .whereClause) o k ↔ exprNesting o ≤ 2 * k := by
  cases o with
  | none => rw [NestOf, exprNesting]; exact ⟨fun _ => Nat.zero_le _, fun _ => trivial⟩
  | some v => rw [NestOf, NestOf, exprNesting]

theorem nestOf_elseClause {o : Option (Expr Name)} {k : Nat} :
    NestOf (.opt .elseClause) o k ↔ exprNesting o ≤ 2 * k := by
  cases o with
  | none => rw [NestOf, exprNesting]; exact ⟨fun _ => Nat.zero_le _, fun _ => trivial⟩
  | some v => rw [NestOf, NestOf, exprNesting]

theorem nestOf_expression {o : Option (Expr Name)} {k : Nat} :
    NestOf (.opt .expression) o k ↔ exprNesting o ≤ 2 * k := by
  cases o with
  | none => rw [NestOf, exprNesting]; exact ⟨fun _ => Nat.zero_le _, fun _ => trivial⟩
  | some v => rw [NestOf, NestOf, exprNesting]

theorem nestOf_orderByClause {o : Option (List (OrderTerm Name))} {k : Nat} :
    NestOf (.opt .orderByClause) o k ↔ termsNesting (o.getD []) ≤ 2 * k := by
  cases o with
  | none => rw [NestOf, Option.getD_none, termsNesting]; exact ⟨fun _ => Nat.zero_le _, fun _ => trivial⟩
  | some v => rw [NestOf, NestOf]; rfl

theorem nestOf_limitClause {o : Option (Limit Name)} {k : Nat} :
    NestOf (.opt .limitClause) o k ↔ limitNesting o ≤ 2 * k := by
  cases o with
  | none => rw [NestOf, limitNesting]; exact ⟨fun _ => Nat.zero_le _, fun _ => trivial⟩
  | some v => rw [NestOf, NestOf]

theorem nestOf_groupByClause {o : Option (GroupBy Name)} {k : Nat} :
    NestOf (.opt .groupByClause) o k ↔ groupNesting o ≤ 2 * k := by
  cases o with
  | none => rw [NestOf, groupNesting]; exact ⟨fun _ => Nat.zero_le _, fun _ => trivial⟩
  | some v => rw [NestOf, NestOf]

theorem gr_nestOf {s : Nt} {w : List Lexeme} {v : Grammar.Ty s} (h : Gr s w v) : NestOf s v w.length := by
  induction h <;>
    simp_all only [NestOf, List.length_cons, List.length_append, List.length_nil, SqlStatement.nesting,
      Statement.nesting, Select.nesting, SetExpr.nesting, TableExpr.nesting, ResultColumns.nesting, Expr.nesting,
      SetSpec.nesting, exprNesting, exprsNesting,
      rowsNesting, whensNesting, ctesNesting, termsNesting, limitNesting, tablesNesting, columnsNesting, groupNesting,
      assignmentsNesting, exprsNesting_append, rowsNesting_append, whensNesting_append, ctesNesting_append,
      termsNesting_append, tablesNesting_append, columnsNesting_append, assignmentsNesting_append,
      nestOf_whereClause, nestOf_elseClause, nestOf_expression, nestOf_orderByClause, nestOf_limitClause,
      nestOf_groupByClause] <;> try omega

end Verif.Sql
