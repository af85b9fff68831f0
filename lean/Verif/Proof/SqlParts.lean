import Verif.Proof.SqlCalls
import Verif.Proof.SqlWords
/-! # A statement has at most two parts for each of its words, and three -/

namespace Verif.Sql
open Grammar

theorem exprsParts_append {a b : List (Expr N)} :
    exprsParts (a ++ b) = exprsParts a + exprsParts b := by
  induction a with
  | nil => simp [exprsParts]
  | cons x a ih => simp [exprsParts, ih, Nat.add_assoc]

theorem rowsParts_append {a b : List (List (Expr N))} :
    rowsParts (a ++ b) = rowsParts a + rowsParts b := by
  induction a with
  | nil => simp [rowsParts]
  | cons x a ih => simp [rowsParts, ih, Nat.add_assoc]

theorem ctesParts_append {a b : List (Cte N)} : ctesParts (a ++ b) = ctesParts a + ctesParts b := by
  induction a with
  | nil => simp [ctesParts]
  | cons x a ih => cases x; simp [ctesParts, ih, Nat.add_assoc]

theorem termsParts_append {a b : List (OrderTerm N)} :
    termsParts (a ++ b) = termsParts a + termsParts b := by
  induction a with
  | nil => simp [termsParts]
  | cons x a ih => cases x; simp [termsParts, ih, Nat.add_assoc]

theorem tablesParts_append {a b : List (TableExpr N)} :
    tablesParts (a ++ b) = tablesParts a + tablesParts b := by
  induction a with
  | nil => simp [tablesParts]
  | cons x a ih => simp [tablesParts, ih, Nat.add_assoc]

theorem columnsParts_append {a b : List (ResultColumn N)} :
    columnsParts (a ++ b) = columnsParts a + columnsParts b := by
  induction a with
  | nil => simp [columnsParts]
  | cons x a ih => cases x <;> simp [columnsParts, ih, Nat.add_assoc]

theorem whensParts_append {a b : List (When N)} :
    whensParts (a ++ b) = whensParts a + whensParts b := by
  induction a with
  | nil => simp [whensParts]
  | cons x a ih => cases x; simp [whensParts, ih, Nat.add_assoc]

theorem assignmentsParts_append {a b : List (Assignment N)} :
    assignmentsParts (a ++ b) = assignmentsParts a + assignmentsParts b := by
  induction a with
  | nil => simp [assignmentsParts]
  | cons x a ih => cases x; simp [assignmentsParts, ih, Nat.add_assoc]

/-- The number of parts of the value of `k` words. -/
def PartsOf : (s : Nt) → Grammar.Ty s → Nat → Prop
  | .sqlStatement, v, k => v.parts ≤ 2 * k + 3
  | .statement, v, k => v.parts ≤ 2 * k + 2
  | .insertStatement, v, k => v.source.parts ≤ 2 * k
  | .deleteStatement, v, k => exprParts v.wher ≤ 2 * k
  | .updateStatement, v, k => assignmentsParts v.assignments + exprParts v.wher ≤ 2 * k
  | .assignments, v, k => assignmentsParts v ≤ 2 * k
  | .assignment, v, k => v.expr.parts ≤ 2 * k
  | .selectStatement, v, k => v.parts ≤ 2 * k + 1
  | .tableExpressions, v, k => ctesParts v ≤ 2 * k
  | .commonTableExpressionList, v, k => ctesParts v ≤ 2 * k
  | .commonTableExpression, v, k => ctesParts [v] ≤ 2 * k
  | .selectCoreList, v, k => v.parts ≤ 2 * k
  | .selectCore, v, k => v.parts ≤ 2 * k
  | .tupleList, v, k => rowsParts v ≤ 2 * k
  | .tuple, v, k => exprsParts v ≤ 2 * k
  | .resultColumns, v, k => v.parts ≤ 2 * k + 1
  | .resultColumnList, v, k => columnsParts v ≤ 2 * k
  | .resultColumn, v, k => columnsParts [v] ≤ 2 * k
  | .fromClause, v, k => tablesParts v ≤ 2 * k
  | .tableExpressionList, v, k => tablesParts v ≤ 2 * k
  | .tableExpression, v, k => v.parts + 1 ≤ 2 * k
  | .tableOrSubQuery, v, k => v.parts + 1 ≤ 2 * k
  | .whereClause, v, k => v.parts ≤ 2 * k
  | .groupByClause, v, k => groupParts (some v) ≤ 2 * k
  | .orderByClause, v, k => termsParts v ≤ 2 * k
  | .orderingTermList, v, k => termsParts v ≤ 2 * k
  | .orderingTerm, v, k => termsParts [v] ≤ 2 * k
  | .limitClause, v, k => limitParts (some v) ≤ 2 * k
  | .expressionList, v, k => exprsParts v ≤ 2 * k
  | .primaryExpression, v, k => v.parts + 1 ≤ 2 * k
  | .unaryExpression, v, k => v.parts + 1 ≤ 2 * k
  | .multiplicativeExpression, v, k => v.parts + 1 ≤ 2 * k
  | .additiveExpression, v, k => v.parts + 1 ≤ 2 * k
  | .comparativeExpression, v, k => v.parts + 1 ≤ 2 * k
  | .complexExpression, v, k => v.parts + 1 ≤ 2 * k
  | .caseExpression, v, k => v.parts + 1 ≤ 2 * k
  | .whenClauses, v, k => whensParts v ≤ 2 * k
  | .whenClause, v, k => whensParts [v] ≤ 2 * k
  | .elseClause, v, k => v.parts ≤ 2 * k
  | .notExpression, v, k => v.parts + 1 ≤ 2 * k
  | .andExpression, v, k => v.parts + 1 ≤ 2 * k
  | .orExpression, v, k => v.parts + 1 ≤ 2 * k
  | .expression, v, k => v.parts + 1 ≤ 2 * k
  | .opt _, none, _ => True
  | .opt s, some v, k => PartsOf s v k
  | .qualifiedIdentifier, _, k => 1 ≤ k
  | .literalValue, _, k => 1 ≤ k
  | .identifier, _, k => 1 ≤ k
  | .numericLiteral, _, k => 1 ≤ k
  | .stringLiteral, _, k => 1 ≤ k
  | .compoundOperator, _, k => 1 ≤ k
  | .joinOperator, _, k => 1 ≤ k
  | _, _, _ => True

theorem partsOf_whereClause {o : Option (Expr Name)} {k : Nat} :
    PartsOf (.opt .whereClause) o k ↔ exprParts o ≤ 2 * k := by
  cases o with
  | none => rw [PartsOf, exprParts]; exact ⟨fun _ => Nat.zero_le _, fun _ => trivial⟩
  | some v => rw [PartsOf, PartsOf, exprParts]

theorem partsOf_elseClause {o : Option (Expr Name)} {k : Nat} :
    PartsOf (.opt .elseClause) o k ↔ exprParts o ≤ 2 * k := by
  cases o with
  | none => rw [PartsOf, exprParts]; exact ⟨fun _ => Nat.zero_le _, fun _ => trivial⟩
  | some v => rw [PartsOf, PartsOf, exprParts]

/-- One for an expression that is there. -/
def present : Option (Expr Name) → Nat
  | none => 0
  | some _ => 1

theorem partsOf_expression {o : Option (Expr Name)} {k : Nat} :
    PartsOf (.opt .expression) o k ↔ exprParts o + present o ≤ 2 * k := by
  cases o with
  | none => rw [PartsOf, exprParts]; exact ⟨fun _ => Nat.zero_le _, fun _ => trivial⟩
  | some v => rw [PartsOf, PartsOf, exprParts, present]

theorem partsOf_orderByClause {o : Option (List (OrderTerm Name))} {k : Nat} :
    PartsOf (.opt .orderByClause) o k ↔ termsParts (o.getD []) ≤ 2 * k := by
  cases o with
  | none => rw [PartsOf, Option.getD_none, termsParts]; exact ⟨fun _ => Nat.zero_le _, fun _ => trivial⟩
  | some v => rw [PartsOf, PartsOf]; rfl

theorem partsOf_limitClause {o : Option (Limit Name)} {k : Nat} :
    PartsOf (.opt .limitClause) o k ↔ limitParts o ≤ 2 * k := by
  cases o with
  | none => rw [PartsOf, limitParts]; exact ⟨fun _ => Nat.zero_le _, fun _ => trivial⟩
  | some v => rw [PartsOf, PartsOf]

theorem partsOf_groupByClause {o : Option (GroupBy Name)} {k : Nat} :
    PartsOf (.opt .groupByClause) o k ↔ groupParts o ≤ 2 * k := by
  cases o with
  | none => rw [PartsOf, groupParts]; exact ⟨fun _ => Nat.zero_le _, fun _ => trivial⟩
  | some v => rw [PartsOf, PartsOf]

theorem gr_partsOf {s : Nt} {w : List Lexeme} {v : Grammar.Ty s} (h : Gr s w v) : PartsOf s v w.length := by
  induction h <;>
    simp_all only [PartsOf, List.length_cons, List.length_append, List.length_nil, SqlStatement.parts,
      Statement.parts, Select.parts, SetExpr.parts, TableExpr.parts, ResultColumns.parts, Expr.parts,
      SetSpec.parts, exprParts, exprsParts,
      rowsParts, whensParts, ctesParts, termsParts, limitParts, tablesParts, columnsParts, groupParts,
      assignmentsParts, exprsParts_append, rowsParts_append, whensParts_append, ctesParts_append,
      termsParts_append, tablesParts_append, columnsParts_append, assignmentsParts_append,
      partsOf_whereClause, partsOf_elseClause, partsOf_expression, partsOf_orderByClause, partsOf_limitClause,
      partsOf_groupByClause] <;> try omega

/-- There are at most as many words as characters. -/
theorem Lexing.Tokens.length_le {off s toks inv} (h : Lexing.Tokens off s toks inv) : toks.length ≤ s.length := by
  induction h with
  | done => exact Nat.le_refl _
  | skip _ _ _ _ ih => rw [List.length_append]; omega
  | @token off t r i k re toks inv hw hk _ ih =>
    have h0 : t ≠ [] := by
      rintro rfl
      rcases hw.best 83 none Lexing.spaces [] Lexing.kind_none List.nil_prefix .nil with h | ⟨_, h⟩
      · simp at h
      · have := hw.lt
        rw [show i = 83 by omega, Lexing.kind_none] at hk
        cases hk
    have := List.length_pos_iff.mpr h0
    rw [List.length_append, List.length_cons]
    omega
  | stuck _ => exact Nat.zero_le _

end Verif.Sql
