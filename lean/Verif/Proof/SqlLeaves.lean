import Verif.Proof.SqlWriting
import Verif.Spec.SqlLeaves
/-!
# The names, numbers and strings of words are those of the value
-/

namespace Verif.Sql.Writing
open Grammar Lexing

theorem leaves_append (a b : List Lexeme) : leaves (a ++ b) = leaves a ++ leaves b := by
  simp [leaves]

theorem leaves_cons (k : Kind) (t : Str) (w : List Lexeme) :
    leaves ((k, t) :: w) = if isLeaf k then t :: leaves w else leaves w := by
  simp only [leaves, List.filter_cons]
  split <;> simp

theorem leaves_nil : leaves [] = [] := rfl

theorem leaves_kw {k : Kind} (h : isLeaf k = false) (w : List Lexeme) : leaves (kw k :: w) = leaves w := by
  rw [kw, leaves_cons, h]; rfl

theorem leaves_name (n : Name) (w : List Lexeme) : leaves (name n :: w) = n.string :: leaves w := by
  rw [name, leaves_cons]; rfl

theorem leaves_string (s : Str) (w : List Lexeme) :
    leaves (string s :: w) = ('\'' :: (s ++ ['\''])) :: leaves w := by
  rw [string, leaves_cons]; rfl

theorem leaves_number (s : Str) (w : List Lexeme) : leaves (number s :: w) = s :: leaves w := by
  unfold number
  split <;> (rw [leaves_cons]; rfl)

theorem leaves_atLevel (p : Nat) (e : Expr Name) (w : List Lexeme) : leaves (atLevel p e w) = leaves w := by
  unfold atLevel
  split
  · rw [leaves_kw rfl, leaves_append, leaves_kw rfl, leaves_nil, List.append_nil]
  · rfl

theorem leaves_tableOperand (t : TableExpr Name) (w : List Lexeme) : leaves (tableOperand t w) = leaves w := by
  unfold tableOperand
  split
  · rw [leaves_kw rfl, leaves_append, leaves_kw rfl, leaves_nil, List.append_nil]
  · rfl

theorem leaves_names (ns : List Name) : leaves (names ns) = ns.map (·.string) := by
  induction ns with
  | nil => rfl
  | cons n ns ih => cases ns with
    | nil => rw [names, leaves_name]; rfl
    | cons m ns => rw [names, leaves_name, leaves_kw rfl, ih]; rfl

theorem leaves_qualified (ns : List Name) : leaves (qualified ns) = ns.map (·.string) := by
  induction ns with
  | nil => rfl
  | cons n ns ih => cases ns with
    | nil => rw [qualified, leaves_name]; rfl
    | cons m ns => rw [qualified, leaves_name, leaves_kw rfl, ih]; rfl

theorem leaves_mode (m : SelectMode) : leaves (mode m) = [] := by cases m <;> rfl
theorem leaves_setOperator (m : SetOperator) : leaves (setOperator m) = [] := by cases m <;> rfl
theorem leaves_joinOperator (m : JoinOperator) : leaves (joinOperator m) = [] := by
  cases m with
  | join t => cases t <;> rfl
  | natural t => cases t <;> rfl
  | cross => rfl
theorem leaves_direction (m : OrderingDirection) : leaves (direction m) = [] := by cases m <;> rfl

theorem leaves_alias (o : Option Name) : leaves (alias o) = o.toList.map (·.string) := by
  cases o
  · rfl
  · rw [alias, leaves_kw rfl, leaves_name]; rfl

theorem leaves_collation (o : Option Name) : leaves (collation o) = o.toList.map (·.string) := by
  cases o
  · rfl
  · rw [collation, leaves_kw rfl, leaves_name]; rfl

theorem leaves_columnNames (o : Option (List Name)) : leaves (columnNames o) = (o.getD []).map (·.string) := by
  cases o
  · rfl
  · rw [columnNames, leaves_kw rfl, leaves_append, leaves_names, leaves_kw rfl]; simp [leaves]

theorem leaves_binary (op : BinaryOperator) (w : List Lexeme) : leaves (kw (binaryOperator op) :: w) = leaves w := by
  cases op <;> exact leaves_kw rfl w

theorem leaves_comparison (op : ComparisonOperator) (w : List Lexeme) :
    leaves (kw (comparisonOperator op) :: w) = leaves w := by
  cases op <;> exact leaves_kw rfl w

theorem leaves_exprsTail (es : List (Expr Name)) : leaves (exprsTail es) = es.flatMap fun e => leaves (expr e) := by
  induction es with
  | nil => simp [exprsTail, leaves]
  | cons e es ih => rw [exprsTail, leaves_kw rfl, leaves_append, ih]; rfl

theorem leaves_exprs (es : List (Expr Name)) : leaves (exprs es) = es.flatMap fun e => leaves (expr e) := by
  cases es with
  | nil => simp [exprs, leaves]
  | cons e es => rw [exprs, leaves_append, leaves_exprsTail]; rfl

theorem leaves_whens (ws : List (When Name)) : leaves (whenClauses ws) =
    ws.flatMap fun x => match x with | .mk g b => leaves (expr g) ++ leaves (expr b) := by
  induction ws with
  | nil => simp [whenClauses, leaves]
  | cons x ws ih =>
    cases x
    rw [whenClauses, leaves_kw rfl, leaves_append, leaves_kw rfl, leaves_append, ih]; simp

theorem leaves_exprOption (o : Option (Expr Name)) :
    leaves (exprOption o) = o.toList.flatMap fun e => leaves (expr e) := by
  cases o
  · rw [exprOption]; rfl
  · rw [exprOption]; simp

theorem leaves_clause {k : Kind} (h : isLeaf k = false) (o : Option (Expr Name)) :
    leaves (clause k o) = o.toList.flatMap fun e => leaves (expr e) := by
  cases o
  · rw [clause]; rfl
  · rw [clause, leaves_kw h]; simp

theorem leaves_where (o : Option (Expr Name)) :
    leaves (clause .WHERE o) = o.toList.flatMap fun e => leaves (expr e) := leaves_clause rfl o
theorem leaves_else (o : Option (Expr Name)) :
    leaves (clause .ELSE o) = o.toList.flatMap fun e => leaves (expr e) := leaves_clause rfl o
theorem leaves_having (o : Option (Expr Name)) :
    leaves (clause .HAVING o) = o.toList.flatMap fun e => leaves (expr e) := leaves_clause rfl o
theorem leaves_offset (o : Option (Expr Name)) :
    leaves (clause .OFFSET o) = o.toList.flatMap fun e => leaves (expr e) := leaves_clause rfl o

/-- The leaves of a common table expression. -/
def cteLeaves : Cte Name → List Str
  | .mk n cs q => n.string :: ((cs.getD []).map (·.string) ++ leaves (select q))

theorem leaves_ctesTail (cs : List (Cte Name)) : leaves (ctesTail cs) = cs.flatMap cteLeaves := by
  induction cs with
  | nil => simp [ctesTail, leaves]
  | cons c cs ih =>
    cases c
    rw [ctesTail, leaves_kw rfl, leaves_name, leaves_append, leaves_columnNames, leaves_kw rfl, leaves_kw rfl,
      leaves_append, leaves_kw rfl, ih]
    simp [cteLeaves]

theorem leaves_withClause (cs : List (Cte Name)) : leaves (withClause cs) = cs.flatMap cteLeaves := by
  cases cs with
  | nil => simp [withClause, leaves]
  | cons c cs =>
    cases c
    rw [withClause, leaves_kw rfl, leaves_name, leaves_append, leaves_columnNames, leaves_kw rfl, leaves_kw rfl,
      leaves_append, leaves_kw rfl, leaves_ctesTail]
    simp [cteLeaves]

/-- The leaves of a term of ORDER BY. -/
def termLeaves : OrderTerm Name → List Str
  | .mk e c _ => leaves (expr e) ++ c.toList.map (·.string)

theorem leaves_termsTail (ts : List (OrderTerm Name)) : leaves (termsTail ts) = ts.flatMap termLeaves := by
  induction ts with
  | nil => simp [termsTail, leaves]
  | cons c cs ih =>
    cases c
    rw [termsTail, leaves_kw rfl, leaves_append, leaves_append, leaves_append, leaves_collation, leaves_direction, ih]
    simp [termLeaves]

theorem leaves_orderClause (ts : List (OrderTerm Name)) : leaves (orderClause ts) = ts.flatMap termLeaves := by
  cases ts with
  | nil => simp [orderClause, leaves]
  | cons c cs =>
    cases c
    rw [orderClause, leaves_kw rfl, leaves_kw rfl, leaves_append, leaves_append, leaves_append, leaves_collation,
      leaves_direction, leaves_termsTail]
    simp [termLeaves]

theorem leaves_tuplesTail (ts : List (List (Expr Name))) :
    leaves (tuplesTail ts) = ts.flatMap fun r => leaves (exprs r) := by
  induction ts with
  | nil => simp [tuplesTail, leaves]
  | cons c cs ih => rw [tuplesTail, leaves_kw rfl, leaves_kw rfl, leaves_append, leaves_kw rfl, ih]; simp

theorem leaves_tuples (ts : List (List (Expr Name))) : leaves (tuples ts) = ts.flatMap fun r => leaves (exprs r) := by
  cases ts with
  | nil => simp [tuples, leaves]
  | cons c cs => rw [tuples, leaves_kw rfl, leaves_append, leaves_kw rfl, leaves_tuplesTail]; simp

theorem leaves_tablesTail (ts : List (TableExpr Name)) :
    leaves (tablesTail ts) = ts.flatMap fun t => leaves (table t) := by
  induction ts with
  | nil => simp [tablesTail, leaves]
  | cons c cs ih => rw [tablesTail, leaves_kw rfl, leaves_append, ih]; simp

theorem leaves_fromClause (ts : List (TableExpr Name)) :
    leaves (fromClause ts) = ts.flatMap fun t => leaves (table t) := by
  cases ts with
  | nil => simp [fromClause, leaves]
  | cons c cs => rw [fromClause, leaves_kw rfl, leaves_append, leaves_tablesTail]; simp

/-- The leaves of a column of a result. -/
def columnLeaves : ResultColumn Name → List Str
  | .allFrom n => [n.string]
  | .expr e r => leaves (expr e) ++ r.toList.map (·.string)

theorem leaves_columnsTail (cs : List (ResultColumn Name)) : leaves (columnsTail cs) = cs.flatMap columnLeaves := by
  induction cs with
  | nil => simp [columnsTail, leaves]
  | cons c cs ih => cases c with
    | allFrom n =>
      rw [columnsTail, leaves_kw rfl, leaves_name, leaves_kw rfl, leaves_kw rfl, ih]; simp [columnLeaves]
    | expr e r =>
      rw [columnsTail, leaves_kw rfl, leaves_append, leaves_append, leaves_alias, ih]; simp [columnLeaves]

theorem leaves_columns (cs : List (ResultColumn Name)) : leaves (columns cs) = cs.flatMap columnLeaves := by
  cases cs with
  | nil => simp [columns, leaves]
  | cons c cs => cases c with
    | allFrom n => rw [columns, leaves_name, leaves_kw rfl, leaves_kw rfl, leaves_columnsTail]; simp [columnLeaves]
    | expr e r => rw [columns, leaves_append, leaves_append, leaves_alias, leaves_columnsTail]; simp [columnLeaves]

theorem leaves_assignments (cs : List (Assignment Name)) :
    leaves (assignments cs) = cs.flatMap fun a => leaves (assignment a) := by
  induction cs with
  | nil => rfl
  | cons c cs ih => cases cs with
    | nil => rw [assignments]; simp
    | cons d cs => rw [assignments, leaves_append, leaves_kw rfl, ih]; rfl

/-- The leaves of a value. -/
def LeavesOf : (s : Nt) → Grammar.Ty s → List Str
  | .sqlStatement, _ => []
  | .statement, _ => []
  | .insertStatement, _ => []
  | .columnNameList, v => leaves (names v)
  | .deleteStatement, _ => []
  | .updateStatement, _ => []
  | .assignments, v => v.flatMap fun a => leaves (assignment a)
  | .assignment, v => leaves (assignment v)
  | .selectStatement, v => leaves (select v)
  | .tableExpressions, v => v.flatMap cteLeaves
  | .commonTableExpressionList, v => v.flatMap cteLeaves
  | .commonTableExpression, v => cteLeaves v
  | .selectCoreList, v => leaves (setExpr v)
  | .compoundOperator, _ => []
  | .selectCore, v => leaves (setExpr v)
  | .selectMode, _ => []
  | .tupleList, v => v.flatMap fun r => leaves (exprs r)
  | .tuple, v => leaves (exprs v)
  | .resultColumns, v => leaves (resultColumns v)
  | .resultColumnList, v => leaves (columns v)
  | .resultColumn, v => leaves (columns [v])
  | .qualifiedIdentifier, v => leaves (names v)
  | .fromClause, v => leaves (fromClause v)
  | .tableExpressionList, v => leaves (fromClause v)
  | .tableExpression, v => leaves (table v)
  | .tableOrSubQuery, v => leaves (table v)
  | .tableAlias, v => [v.string]
  | .joinOperator, _ => []
  | .joinType, _ => []
  | .joinConstraint, v => leaves (constraint v)
  | .identifierList, v => leaves (names v)
  | .whereClause, v => leaves (expr v)
  | .groupByClause, v => leaves (groupClause (some v))
  | .orderByClause, v => leaves (orderClause v)
  | .orderingTermList, v => leaves (orderClause v)
  | .orderingTerm, v => leaves (orderClause [v])
  | .orderingCollation, v => [v.string]
  | .orderingDirection, _ => []
  | .limitClause, v => leaves (limit (some v))
  | .attachStatement, v => leaves (words (.attach v))
  | .describeStatement, v => leaves (words (.describe v))
  | .schemaName, v => [v.string]
  | .expressionList, v => leaves (exprs v)
  | .primaryExpression, v => leaves (expr v)
  | .unaryExpression, v => leaves (expr v)
  | .multiplicativeExpression, v => leaves (expr v)
  | .additiveExpression, v => leaves (expr v)
  | .comparativeExpression, v => leaves (expr v)
  | .complexExpression, v => leaves (expr v)
  | .caseExpression, v => leaves (expr v)
  | .whenClauses, v => leaves (whenClauses v)
  | .whenClause, v => leaves (whenClauses [v])
  | .elseClause, v => leaves (expr v)
  | .notExpression, v => leaves (expr v)
  | .andExpression, v => leaves (expr v)
  | .orExpression, v => leaves (expr v)
  | .expression, v => leaves (expr v)
  | .literalValue, v => leaves (literal v)
  | .identifier, v => [v.string]
  | .numericLiteral, v => [v]
  | .stringLiteral, v => ['\'' :: (v ++ ['\''])]
  | .tok k, v => if isLeaf k then [v] else []
  | .opt _, none => []
  | .opt s, some v => LeavesOf s v

/-- Categories that keep all their leaves. -/
def Keeps : Nt → Bool
  | .sqlStatement | .statement | .insertStatement | .deleteStatement | .updateStatement => false
  | .opt s => Keeps s
  | _ => true

theorem leavesOf_where (o : Option (Expr Name)) :
    LeavesOf (.opt .whereClause) o = o.toList.flatMap fun e => leaves (expr e) := by
  cases o <;> simp [LeavesOf]
theorem leavesOf_else (o : Option (Expr Name)) :
    LeavesOf (.opt .elseClause) o = o.toList.flatMap fun e => leaves (expr e) := by
  cases o <;> simp [LeavesOf]
theorem leavesOf_expression (o : Option (Expr Name)) :
    LeavesOf (.opt .expression) o = o.toList.flatMap fun e => leaves (expr e) := by
  cases o <;> simp [LeavesOf]
theorem leavesOf_names (o : Option (List Name)) :
    LeavesOf (.opt .columnNameList) o = (o.getD []).map (·.string) := by
  cases o <;> simp [LeavesOf, leaves_names]
theorem leavesOf_alias (o : Option Name) : LeavesOf (.opt .tableAlias) o = o.toList.map (·.string) := by
  cases o <;> simp [LeavesOf]
theorem leavesOf_collation (o : Option Name) : LeavesOf (.opt .orderingCollation) o = o.toList.map (·.string) := by
  cases o <;> simp [LeavesOf]
theorem leavesOf_schema (o : Option Name) : LeavesOf (.opt .schemaName) o = o.toList.map (·.string) := by
  cases o <;> simp [LeavesOf]
theorem leavesOf_order (o : Option (List (OrderTerm Name))) :
    LeavesOf (.opt .orderByClause) o = (o.getD []).flatMap termLeaves := by
  cases o <;> simp [LeavesOf, leaves_orderClause]
theorem leavesOf_limit (o : Option (Limit Name)) : LeavesOf (.opt .limitClause) o = leaves (limit o) := by
  cases o with
  | none => rw [limit]; rfl
  | some v => simp only [LeavesOf]
theorem leavesOf_group (o : Option (GroupBy Name)) : LeavesOf (.opt .groupByClause) o = leaves (groupClause o) := by
  cases o with
  | none => rw [groupClause]; rfl
  | some v => simp only [LeavesOf]
theorem leavesOf_joinType (o : Option JoinType) : LeavesOf (.opt .joinType) o = [] := by
  cases o <;> simp [LeavesOf]
theorem leavesOf_tok {k : Kind} (h : isLeaf k = false) (o : Option Str) : LeavesOf (.opt (.tok k)) o = [] := by
  cases o <;> simp [LeavesOf, h]

theorem leavesOf_all (o : Option Str) : LeavesOf (.opt (.tok .ALL)) o = [] := leavesOf_tok rfl o
theorem leavesOf_as (o : Option Str) : LeavesOf (.opt (.tok .AS)) o = [] := leavesOf_tok rfl o
theorem leavesOf_outer (o : Option Str) : LeavesOf (.opt (.tok .OUTER)) o = [] := leavesOf_tok rfl o
theorem leavesOf_asc (o : Option Str) : LeavesOf (.opt (.tok .ASC)) o = [] := leavesOf_tok rfl o

set_option linter.unusedSimpArgs false in
theorem gr_leaves {s : Nt} {w : List Lexeme} {v : Grammar.Ty s} (h : Gr s w v) :
    Keeps s = true → leaves w = LeavesOf s v := by
  induction h with
  | tok => intro _; simp [leaves_cons, leaves_nil, LeavesOf]
  | optNone => intro _; rfl
  | optSome _ ih => exact ih
  | sqlStatement_1 => exact fun h => (by cases h)
  | sqlStatement_2 => exact fun h => (by cases h)
  | sqlStatement_3 => exact fun h => (by cases h)
  | sqlStatement_4 => exact fun h => (by cases h)
  | sqlStatement_5 => exact fun h => (by cases h)
  | statement_1 => exact fun h => (by cases h)
  | statement_2 => exact fun h => (by cases h)
  | statement_3 => exact fun h => (by cases h)
  | statement_4 => exact fun h => (by cases h)
  | insertStatement_1 => exact fun h => (by cases h)
  | columnNameList_1 _ ih1 =>
    intro _
    have h1 := ih1 rfl
    clear ih1
    simp +decide [h1, LeavesOf, leaves_append, leaves_cons, leaves_nil, isLeaf, leaves_name, leaves_string, leaves_number, leaves_atLevel, leaves_tableOperand, leaves_names, leaves_qualified, leaves_mode, leaves_setOperator, leaves_joinOperator, leaves_direction, leaves_alias, leaves_collation, leaves_columnNames, leaves_binary, leaves_comparison, leaves_exprs, leaves_whens, leaves_exprOption, leaves_where, leaves_else, leaves_having, leaves_offset, kw, leaves_withClause, leaves_orderClause, leaves_tuples, leaves_fromClause, leaves_columns, leaves_assignments, cteLeaves, termLeaves, columnLeaves, leavesOf_where, leavesOf_else, leavesOf_expression, leavesOf_names, leavesOf_alias, leavesOf_collation, leavesOf_schema, leavesOf_order, leavesOf_limit, leavesOf_group, leavesOf_joinType, leavesOf_all, leavesOf_as, leavesOf_outer, leavesOf_asc, assignment, select, setExpr, resultColumns, table, constraint, groupClause, limit, words, literal, expr, setSpec]
  | deleteStatement_1 => exact fun h => (by cases h)
  | updateStatement_1 => exact fun h => (by cases h)
  | assignments_1 _ ih0 =>
    intro _
    have h0 := ih0 rfl
    clear ih0
    simp +decide [h0, LeavesOf, leaves_append, leaves_cons, leaves_nil, isLeaf, leaves_name, leaves_string, leaves_number, leaves_atLevel, leaves_tableOperand, leaves_names, leaves_qualified, leaves_mode, leaves_setOperator, leaves_joinOperator, leaves_direction, leaves_alias, leaves_collation, leaves_columnNames, leaves_binary, leaves_comparison, leaves_exprs, leaves_whens, leaves_exprOption, leaves_where, leaves_else, leaves_having, leaves_offset, kw, leaves_withClause, leaves_orderClause, leaves_tuples, leaves_fromClause, leaves_columns, leaves_assignments, cteLeaves, termLeaves, columnLeaves, leavesOf_where, leavesOf_else, leavesOf_expression, leavesOf_names, leavesOf_alias, leavesOf_collation, leavesOf_schema, leavesOf_order, leavesOf_limit, leavesOf_group, leavesOf_joinType, leavesOf_all, leavesOf_as, leavesOf_outer, leavesOf_asc, assignment, select, setExpr, resultColumns, table, constraint, groupClause, limit, words, literal, expr, setSpec]
  | assignments_2 _ _ ih0 ih2 =>
    intro _
    have h0 := ih0 rfl
    have h2 := ih2 rfl
    clear ih0 ih2
    simp +decide [h0, h2, LeavesOf, leaves_append, leaves_cons, leaves_nil, isLeaf, leaves_name, leaves_string, leaves_number, leaves_atLevel, leaves_tableOperand, leaves_names, leaves_qualified, leaves_mode, leaves_setOperator, leaves_joinOperator, leaves_direction, leaves_alias, leaves_collation, leaves_columnNames, leaves_binary, leaves_comparison, leaves_exprs, leaves_whens, leaves_exprOption, leaves_where, leaves_else, leaves_having, leaves_offset, kw, leaves_withClause, leaves_orderClause, leaves_tuples, leaves_fromClause, leaves_columns, leaves_assignments, cteLeaves, termLeaves, columnLeaves, leavesOf_where, leavesOf_else, leavesOf_expression, leavesOf_names, leavesOf_alias, leavesOf_collation, leavesOf_schema, leavesOf_order, leavesOf_limit, leavesOf_group, leavesOf_joinType, leavesOf_all, leavesOf_as, leavesOf_outer, leavesOf_asc, assignment, select, setExpr, resultColumns, table, constraint, groupClause, limit, words, literal, expr, setSpec]
  | assignment_1 _ _ ih0 ih2 =>
    intro _
    have h0 := ih0 rfl
    have h2 := ih2 rfl
    clear ih0 ih2
    simp +decide [h0, h2, LeavesOf, leaves_append, leaves_cons, leaves_nil, isLeaf, leaves_name, leaves_string, leaves_number, leaves_atLevel, leaves_tableOperand, leaves_names, leaves_qualified, leaves_mode, leaves_setOperator, leaves_joinOperator, leaves_direction, leaves_alias, leaves_collation, leaves_columnNames, leaves_binary, leaves_comparison, leaves_exprs, leaves_whens, leaves_exprOption, leaves_where, leaves_else, leaves_having, leaves_offset, kw, leaves_withClause, leaves_orderClause, leaves_tuples, leaves_fromClause, leaves_columns, leaves_assignments, cteLeaves, termLeaves, columnLeaves, leavesOf_where, leavesOf_else, leavesOf_expression, leavesOf_names, leavesOf_alias, leavesOf_collation, leavesOf_schema, leavesOf_order, leavesOf_limit, leavesOf_group, leavesOf_joinType, leavesOf_all, leavesOf_as, leavesOf_outer, leavesOf_asc, assignment, select, setExpr, resultColumns, table, constraint, groupClause, limit, words, literal, expr, setSpec]
  | selectStatement_1 _ _ _ _ ih0 ih1 ih2 ih3 =>
    intro _
    have h0 := ih0 rfl
    have h1 := ih1 rfl
    have h2 := ih2 rfl
    have h3 := ih3 rfl
    clear ih0 ih1 ih2 ih3
    simp +decide [h0, h1, h2, h3, LeavesOf, leaves_append, leaves_cons, leaves_nil, isLeaf, leaves_name, leaves_string, leaves_number, leaves_atLevel, leaves_tableOperand, leaves_names, leaves_qualified, leaves_mode, leaves_setOperator, leaves_joinOperator, leaves_direction, leaves_alias, leaves_collation, leaves_columnNames, leaves_binary, leaves_comparison, leaves_exprs, leaves_whens, leaves_exprOption, leaves_where, leaves_else, leaves_having, leaves_offset, kw, leaves_withClause, leaves_orderClause, leaves_tuples, leaves_fromClause, leaves_columns, leaves_assignments, cteLeaves, termLeaves, columnLeaves, leavesOf_where, leavesOf_else, leavesOf_expression, leavesOf_names, leavesOf_alias, leavesOf_collation, leavesOf_schema, leavesOf_order, leavesOf_limit, leavesOf_group, leavesOf_joinType, leavesOf_all, leavesOf_as, leavesOf_outer, leavesOf_asc, assignment, select, setExpr, resultColumns, table, constraint, groupClause, limit, words, literal, expr, setSpec]
  | selectStatement_2 _ _ _ ih0 ih1 ih2 =>
    intro _
    have h0 := ih0 rfl
    have h1 := ih1 rfl
    have h2 := ih2 rfl
    clear ih0 ih1 ih2
    simp +decide [h0, h1, h2, LeavesOf, leaves_append, leaves_cons, leaves_nil, isLeaf, leaves_name, leaves_string, leaves_number, leaves_atLevel, leaves_tableOperand, leaves_names, leaves_qualified, leaves_mode, leaves_setOperator, leaves_joinOperator, leaves_direction, leaves_alias, leaves_collation, leaves_columnNames, leaves_binary, leaves_comparison, leaves_exprs, leaves_whens, leaves_exprOption, leaves_where, leaves_else, leaves_having, leaves_offset, kw, leaves_withClause, leaves_orderClause, leaves_tuples, leaves_fromClause, leaves_columns, leaves_assignments, cteLeaves, termLeaves, columnLeaves, leavesOf_where, leavesOf_else, leavesOf_expression, leavesOf_names, leavesOf_alias, leavesOf_collation, leavesOf_schema, leavesOf_order, leavesOf_limit, leavesOf_group, leavesOf_joinType, leavesOf_all, leavesOf_as, leavesOf_outer, leavesOf_asc, assignment, select, setExpr, resultColumns, table, constraint, groupClause, limit, words, literal, expr, setSpec]
  | tableExpressions_1 _ ih1 =>
    intro _
    have h1 := ih1 rfl
    clear ih1
    simp +decide [h1, LeavesOf, leaves_append, leaves_cons, leaves_nil, isLeaf, leaves_name, leaves_string, leaves_number, leaves_atLevel, leaves_tableOperand, leaves_names, leaves_qualified, leaves_mode, leaves_setOperator, leaves_joinOperator, leaves_direction, leaves_alias, leaves_collation, leaves_columnNames, leaves_binary, leaves_comparison, leaves_exprs, leaves_whens, leaves_exprOption, leaves_where, leaves_else, leaves_having, leaves_offset, kw, leaves_withClause, leaves_orderClause, leaves_tuples, leaves_fromClause, leaves_columns, leaves_assignments, cteLeaves, termLeaves, columnLeaves, leavesOf_where, leavesOf_else, leavesOf_expression, leavesOf_names, leavesOf_alias, leavesOf_collation, leavesOf_schema, leavesOf_order, leavesOf_limit, leavesOf_group, leavesOf_joinType, leavesOf_all, leavesOf_as, leavesOf_outer, leavesOf_asc, assignment, select, setExpr, resultColumns, table, constraint, groupClause, limit, words, literal, expr, setSpec]
  | commonTableExpressionList_1 _ ih0 =>
    intro _
    have h0 := ih0 rfl
    clear ih0
    simp +decide [h0, LeavesOf, leaves_append, leaves_cons, leaves_nil, isLeaf, leaves_name, leaves_string, leaves_number, leaves_atLevel, leaves_tableOperand, leaves_names, leaves_qualified, leaves_mode, leaves_setOperator, leaves_joinOperator, leaves_direction, leaves_alias, leaves_collation, leaves_columnNames, leaves_binary, leaves_comparison, leaves_exprs, leaves_whens, leaves_exprOption, leaves_where, leaves_else, leaves_having, leaves_offset, kw, leaves_withClause, leaves_orderClause, leaves_tuples, leaves_fromClause, leaves_columns, leaves_assignments, cteLeaves, termLeaves, columnLeaves, leavesOf_where, leavesOf_else, leavesOf_expression, leavesOf_names, leavesOf_alias, leavesOf_collation, leavesOf_schema, leavesOf_order, leavesOf_limit, leavesOf_group, leavesOf_joinType, leavesOf_all, leavesOf_as, leavesOf_outer, leavesOf_asc, assignment, select, setExpr, resultColumns, table, constraint, groupClause, limit, words, literal, expr, setSpec]
  | commonTableExpressionList_2 _ _ ih0 ih2 =>
    intro _
    have h0 := ih0 rfl
    have h2 := ih2 rfl
    clear ih0 ih2
    simp +decide [h0, h2, LeavesOf, leaves_append, leaves_cons, leaves_nil, isLeaf, leaves_name, leaves_string, leaves_number, leaves_atLevel, leaves_tableOperand, leaves_names, leaves_qualified, leaves_mode, leaves_setOperator, leaves_joinOperator, leaves_direction, leaves_alias, leaves_collation, leaves_columnNames, leaves_binary, leaves_comparison, leaves_exprs, leaves_whens, leaves_exprOption, leaves_where, leaves_else, leaves_having, leaves_offset, kw, leaves_withClause, leaves_orderClause, leaves_tuples, leaves_fromClause, leaves_columns, leaves_assignments, cteLeaves, termLeaves, columnLeaves, leavesOf_where, leavesOf_else, leavesOf_expression, leavesOf_names, leavesOf_alias, leavesOf_collation, leavesOf_schema, leavesOf_order, leavesOf_limit, leavesOf_group, leavesOf_joinType, leavesOf_all, leavesOf_as, leavesOf_outer, leavesOf_asc, assignment, select, setExpr, resultColumns, table, constraint, groupClause, limit, words, literal, expr, setSpec]
  | commonTableExpression_1 _ _ ih0 ih3 =>
    intro _
    have h0 := ih0 rfl
    have h3 := ih3 rfl
    clear ih0 ih3
    simp +decide [h0, h3, LeavesOf, leaves_append, leaves_cons, leaves_nil, isLeaf, leaves_name, leaves_string, leaves_number, leaves_atLevel, leaves_tableOperand, leaves_names, leaves_qualified, leaves_mode, leaves_setOperator, leaves_joinOperator, leaves_direction, leaves_alias, leaves_collation, leaves_columnNames, leaves_binary, leaves_comparison, leaves_exprs, leaves_whens, leaves_exprOption, leaves_where, leaves_else, leaves_having, leaves_offset, kw, leaves_withClause, leaves_orderClause, leaves_tuples, leaves_fromClause, leaves_columns, leaves_assignments, cteLeaves, termLeaves, columnLeaves, leavesOf_where, leavesOf_else, leavesOf_expression, leavesOf_names, leavesOf_alias, leavesOf_collation, leavesOf_schema, leavesOf_order, leavesOf_limit, leavesOf_group, leavesOf_joinType, leavesOf_all, leavesOf_as, leavesOf_outer, leavesOf_asc, assignment, select, setExpr, resultColumns, table, constraint, groupClause, limit, words, literal, expr, setSpec]
  | commonTableExpression_2 _ _ _ ih0 ih2 ih6 =>
    intro _
    have h0 := ih0 rfl
    have h2 := ih2 rfl
    have h6 := ih6 rfl
    clear ih0 ih2 ih6
    simp +decide [h0, h2, h6, LeavesOf, leaves_append, leaves_cons, leaves_nil, isLeaf, leaves_name, leaves_string, leaves_number, leaves_atLevel, leaves_tableOperand, leaves_names, leaves_qualified, leaves_mode, leaves_setOperator, leaves_joinOperator, leaves_direction, leaves_alias, leaves_collation, leaves_columnNames, leaves_binary, leaves_comparison, leaves_exprs, leaves_whens, leaves_exprOption, leaves_where, leaves_else, leaves_having, leaves_offset, kw, leaves_withClause, leaves_orderClause, leaves_tuples, leaves_fromClause, leaves_columns, leaves_assignments, cteLeaves, termLeaves, columnLeaves, leavesOf_where, leavesOf_else, leavesOf_expression, leavesOf_names, leavesOf_alias, leavesOf_collation, leavesOf_schema, leavesOf_order, leavesOf_limit, leavesOf_group, leavesOf_joinType, leavesOf_all, leavesOf_as, leavesOf_outer, leavesOf_asc, assignment, select, setExpr, resultColumns, table, constraint, groupClause, limit, words, literal, expr, setSpec]
  | selectCoreList_1 _ ih0 =>
    intro _
    have h0 := ih0 rfl
    exact h0
  | selectCoreList_2 _ _ _ ih0 ih1 ih2 =>
    intro _
    have h0 := ih0 rfl
    have h1 := ih1 rfl
    have h2 := ih2 rfl
    clear ih0 ih1 ih2
    simp +decide [h0, h1, h2, LeavesOf, leaves_append, leaves_cons, leaves_nil, isLeaf, leaves_name, leaves_string, leaves_number, leaves_atLevel, leaves_tableOperand, leaves_names, leaves_qualified, leaves_mode, leaves_setOperator, leaves_joinOperator, leaves_direction, leaves_alias, leaves_collation, leaves_columnNames, leaves_binary, leaves_comparison, leaves_exprs, leaves_whens, leaves_exprOption, leaves_where, leaves_else, leaves_having, leaves_offset, kw, leaves_withClause, leaves_orderClause, leaves_tuples, leaves_fromClause, leaves_columns, leaves_assignments, cteLeaves, termLeaves, columnLeaves, leavesOf_where, leavesOf_else, leavesOf_expression, leavesOf_names, leavesOf_alias, leavesOf_collation, leavesOf_schema, leavesOf_order, leavesOf_limit, leavesOf_group, leavesOf_joinType, leavesOf_all, leavesOf_as, leavesOf_outer, leavesOf_asc, assignment, select, setExpr, resultColumns, table, constraint, groupClause, limit, words, literal, expr, setSpec]
  | compoundOperator_1 =>
    intro _
    simp +decide [LeavesOf, leaves_append, leaves_cons, leaves_nil, isLeaf, leaves_name, leaves_string, leaves_number, leaves_atLevel, leaves_tableOperand, leaves_names, leaves_qualified, leaves_mode, leaves_setOperator, leaves_joinOperator, leaves_direction, leaves_alias, leaves_collation, leaves_columnNames, leaves_binary, leaves_comparison, leaves_exprs, leaves_whens, leaves_exprOption, leaves_where, leaves_else, leaves_having, leaves_offset, kw, leaves_withClause, leaves_orderClause, leaves_tuples, leaves_fromClause, leaves_columns, leaves_assignments, cteLeaves, termLeaves, columnLeaves, leavesOf_where, leavesOf_else, leavesOf_expression, leavesOf_names, leavesOf_alias, leavesOf_collation, leavesOf_schema, leavesOf_order, leavesOf_limit, leavesOf_group, leavesOf_joinType, leavesOf_all, leavesOf_as, leavesOf_outer, leavesOf_asc, assignment, select, setExpr, resultColumns, table, constraint, groupClause, limit, words, literal, expr, setSpec]
  | compoundOperator_2 =>
    intro _
    simp +decide [LeavesOf, leaves_append, leaves_cons, leaves_nil, isLeaf, leaves_name, leaves_string, leaves_number, leaves_atLevel, leaves_tableOperand, leaves_names, leaves_qualified, leaves_mode, leaves_setOperator, leaves_joinOperator, leaves_direction, leaves_alias, leaves_collation, leaves_columnNames, leaves_binary, leaves_comparison, leaves_exprs, leaves_whens, leaves_exprOption, leaves_where, leaves_else, leaves_having, leaves_offset, kw, leaves_withClause, leaves_orderClause, leaves_tuples, leaves_fromClause, leaves_columns, leaves_assignments, cteLeaves, termLeaves, columnLeaves, leavesOf_where, leavesOf_else, leavesOf_expression, leavesOf_names, leavesOf_alias, leavesOf_collation, leavesOf_schema, leavesOf_order, leavesOf_limit, leavesOf_group, leavesOf_joinType, leavesOf_all, leavesOf_as, leavesOf_outer, leavesOf_asc, assignment, select, setExpr, resultColumns, table, constraint, groupClause, limit, words, literal, expr, setSpec]
  | compoundOperator_3 =>
    intro _
    simp +decide [LeavesOf, leaves_append, leaves_cons, leaves_nil, isLeaf, leaves_name, leaves_string, leaves_number, leaves_atLevel, leaves_tableOperand, leaves_names, leaves_qualified, leaves_mode, leaves_setOperator, leaves_joinOperator, leaves_direction, leaves_alias, leaves_collation, leaves_columnNames, leaves_binary, leaves_comparison, leaves_exprs, leaves_whens, leaves_exprOption, leaves_where, leaves_else, leaves_having, leaves_offset, kw, leaves_withClause, leaves_orderClause, leaves_tuples, leaves_fromClause, leaves_columns, leaves_assignments, cteLeaves, termLeaves, columnLeaves, leavesOf_where, leavesOf_else, leavesOf_expression, leavesOf_names, leavesOf_alias, leavesOf_collation, leavesOf_schema, leavesOf_order, leavesOf_limit, leavesOf_group, leavesOf_joinType, leavesOf_all, leavesOf_as, leavesOf_outer, leavesOf_asc, assignment, select, setExpr, resultColumns, table, constraint, groupClause, limit, words, literal, expr, setSpec]
  | compoundOperator_4 =>
    intro _
    simp +decide [LeavesOf, leaves_append, leaves_cons, leaves_nil, isLeaf, leaves_name, leaves_string, leaves_number, leaves_atLevel, leaves_tableOperand, leaves_names, leaves_qualified, leaves_mode, leaves_setOperator, leaves_joinOperator, leaves_direction, leaves_alias, leaves_collation, leaves_columnNames, leaves_binary, leaves_comparison, leaves_exprs, leaves_whens, leaves_exprOption, leaves_where, leaves_else, leaves_having, leaves_offset, kw, leaves_withClause, leaves_orderClause, leaves_tuples, leaves_fromClause, leaves_columns, leaves_assignments, cteLeaves, termLeaves, columnLeaves, leavesOf_where, leavesOf_else, leavesOf_expression, leavesOf_names, leavesOf_alias, leavesOf_collation, leavesOf_schema, leavesOf_order, leavesOf_limit, leavesOf_group, leavesOf_joinType, leavesOf_all, leavesOf_as, leavesOf_outer, leavesOf_asc, assignment, select, setExpr, resultColumns, table, constraint, groupClause, limit, words, literal, expr, setSpec]
  | selectCore_1 _ _ _ _ ih1 ih2 ih3 ih4 =>
    intro _
    have h1 := ih1 rfl
    have h2 := ih2 rfl
    have h3 := ih3 rfl
    have h4 := ih4 rfl
    clear ih1 ih2 ih3 ih4
    simp +decide [h1, h2, h3, h4, LeavesOf, leaves_append, leaves_cons, leaves_nil, isLeaf, leaves_name, leaves_string, leaves_number, leaves_atLevel, leaves_tableOperand, leaves_names, leaves_qualified, leaves_mode, leaves_setOperator, leaves_joinOperator, leaves_direction, leaves_alias, leaves_collation, leaves_columnNames, leaves_binary, leaves_comparison, leaves_exprs, leaves_whens, leaves_exprOption, leaves_where, leaves_else, leaves_having, leaves_offset, kw, leaves_withClause, leaves_orderClause, leaves_tuples, leaves_fromClause, leaves_columns, leaves_assignments, cteLeaves, termLeaves, columnLeaves, leavesOf_where, leavesOf_else, leavesOf_expression, leavesOf_names, leavesOf_alias, leavesOf_collation, leavesOf_schema, leavesOf_order, leavesOf_limit, leavesOf_group, leavesOf_joinType, leavesOf_all, leavesOf_as, leavesOf_outer, leavesOf_asc, assignment, select, setExpr, resultColumns, table, constraint, groupClause, limit, words, literal, expr, setSpec]
  | selectCore_2 _ _ _ _ _ ih1 ih2 ih3 ih4 ih5 =>
    intro _
    have h1 := ih1 rfl
    have h2 := ih2 rfl
    have h3 := ih3 rfl
    have h4 := ih4 rfl
    have h5 := ih5 rfl
    clear ih1 ih2 ih3 ih4 ih5
    simp +decide [h1, h2, h3, h4, h5, LeavesOf, leaves_append, leaves_cons, leaves_nil, isLeaf, leaves_name, leaves_string, leaves_number, leaves_atLevel, leaves_tableOperand, leaves_names, leaves_qualified, leaves_mode, leaves_setOperator, leaves_joinOperator, leaves_direction, leaves_alias, leaves_collation, leaves_columnNames, leaves_binary, leaves_comparison, leaves_exprs, leaves_whens, leaves_exprOption, leaves_where, leaves_else, leaves_having, leaves_offset, kw, leaves_withClause, leaves_orderClause, leaves_tuples, leaves_fromClause, leaves_columns, leaves_assignments, cteLeaves, termLeaves, columnLeaves, leavesOf_where, leavesOf_else, leavesOf_expression, leavesOf_names, leavesOf_alias, leavesOf_collation, leavesOf_schema, leavesOf_order, leavesOf_limit, leavesOf_group, leavesOf_joinType, leavesOf_all, leavesOf_as, leavesOf_outer, leavesOf_asc, assignment, select, setExpr, resultColumns, table, constraint, groupClause, limit, words, literal, expr, setSpec]
  | selectCore_3 _ ih1 =>
    intro _
    have h1 := ih1 rfl
    clear ih1
    simp +decide [h1, LeavesOf, leaves_append, leaves_cons, leaves_nil, isLeaf, leaves_name, leaves_string, leaves_number, leaves_atLevel, leaves_tableOperand, leaves_names, leaves_qualified, leaves_mode, leaves_setOperator, leaves_joinOperator, leaves_direction, leaves_alias, leaves_collation, leaves_columnNames, leaves_binary, leaves_comparison, leaves_exprs, leaves_whens, leaves_exprOption, leaves_where, leaves_else, leaves_having, leaves_offset, kw, leaves_withClause, leaves_orderClause, leaves_tuples, leaves_fromClause, leaves_columns, leaves_assignments, cteLeaves, termLeaves, columnLeaves, leavesOf_where, leavesOf_else, leavesOf_expression, leavesOf_names, leavesOf_alias, leavesOf_collation, leavesOf_schema, leavesOf_order, leavesOf_limit, leavesOf_group, leavesOf_joinType, leavesOf_all, leavesOf_as, leavesOf_outer, leavesOf_asc, assignment, select, setExpr, resultColumns, table, constraint, groupClause, limit, words, literal, expr, setSpec]
  | selectMode_1 _ ih0 =>
    intro _
    have h0 := ih0 rfl
    clear ih0
    simp +decide [h0, LeavesOf, leaves_append, leaves_cons, leaves_nil, isLeaf, leaves_name, leaves_string, leaves_number, leaves_atLevel, leaves_tableOperand, leaves_names, leaves_qualified, leaves_mode, leaves_setOperator, leaves_joinOperator, leaves_direction, leaves_alias, leaves_collation, leaves_columnNames, leaves_binary, leaves_comparison, leaves_exprs, leaves_whens, leaves_exprOption, leaves_where, leaves_else, leaves_having, leaves_offset, kw, leaves_withClause, leaves_orderClause, leaves_tuples, leaves_fromClause, leaves_columns, leaves_assignments, cteLeaves, termLeaves, columnLeaves, leavesOf_where, leavesOf_else, leavesOf_expression, leavesOf_names, leavesOf_alias, leavesOf_collation, leavesOf_schema, leavesOf_order, leavesOf_limit, leavesOf_group, leavesOf_joinType, leavesOf_all, leavesOf_as, leavesOf_outer, leavesOf_asc, assignment, select, setExpr, resultColumns, table, constraint, groupClause, limit, words, literal, expr, setSpec]
  | selectMode_2 =>
    intro _
    simp +decide [LeavesOf, leaves_append, leaves_cons, leaves_nil, isLeaf, leaves_name, leaves_string, leaves_number, leaves_atLevel, leaves_tableOperand, leaves_names, leaves_qualified, leaves_mode, leaves_setOperator, leaves_joinOperator, leaves_direction, leaves_alias, leaves_collation, leaves_columnNames, leaves_binary, leaves_comparison, leaves_exprs, leaves_whens, leaves_exprOption, leaves_where, leaves_else, leaves_having, leaves_offset, kw, leaves_withClause, leaves_orderClause, leaves_tuples, leaves_fromClause, leaves_columns, leaves_assignments, cteLeaves, termLeaves, columnLeaves, leavesOf_where, leavesOf_else, leavesOf_expression, leavesOf_names, leavesOf_alias, leavesOf_collation, leavesOf_schema, leavesOf_order, leavesOf_limit, leavesOf_group, leavesOf_joinType, leavesOf_all, leavesOf_as, leavesOf_outer, leavesOf_asc, assignment, select, setExpr, resultColumns, table, constraint, groupClause, limit, words, literal, expr, setSpec]
  | tupleList_1 _ ih0 =>
    intro _
    have h0 := ih0 rfl
    clear ih0
    simp +decide [h0, LeavesOf, leaves_append, leaves_cons, leaves_nil, isLeaf, leaves_name, leaves_string, leaves_number, leaves_atLevel, leaves_tableOperand, leaves_names, leaves_qualified, leaves_mode, leaves_setOperator, leaves_joinOperator, leaves_direction, leaves_alias, leaves_collation, leaves_columnNames, leaves_binary, leaves_comparison, leaves_exprs, leaves_whens, leaves_exprOption, leaves_where, leaves_else, leaves_having, leaves_offset, kw, leaves_withClause, leaves_orderClause, leaves_tuples, leaves_fromClause, leaves_columns, leaves_assignments, cteLeaves, termLeaves, columnLeaves, leavesOf_where, leavesOf_else, leavesOf_expression, leavesOf_names, leavesOf_alias, leavesOf_collation, leavesOf_schema, leavesOf_order, leavesOf_limit, leavesOf_group, leavesOf_joinType, leavesOf_all, leavesOf_as, leavesOf_outer, leavesOf_asc, assignment, select, setExpr, resultColumns, table, constraint, groupClause, limit, words, literal, expr, setSpec]
  | tupleList_2 _ _ ih0 ih2 =>
    intro _
    have h0 := ih0 rfl
    have h2 := ih2 rfl
    clear ih0 ih2
    simp +decide [h0, h2, LeavesOf, leaves_append, leaves_cons, leaves_nil, isLeaf, leaves_name, leaves_string, leaves_number, leaves_atLevel, leaves_tableOperand, leaves_names, leaves_qualified, leaves_mode, leaves_setOperator, leaves_joinOperator, leaves_direction, leaves_alias, leaves_collation, leaves_columnNames, leaves_binary, leaves_comparison, leaves_exprs, leaves_whens, leaves_exprOption, leaves_where, leaves_else, leaves_having, leaves_offset, kw, leaves_withClause, leaves_orderClause, leaves_tuples, leaves_fromClause, leaves_columns, leaves_assignments, cteLeaves, termLeaves, columnLeaves, leavesOf_where, leavesOf_else, leavesOf_expression, leavesOf_names, leavesOf_alias, leavesOf_collation, leavesOf_schema, leavesOf_order, leavesOf_limit, leavesOf_group, leavesOf_joinType, leavesOf_all, leavesOf_as, leavesOf_outer, leavesOf_asc, assignment, select, setExpr, resultColumns, table, constraint, groupClause, limit, words, literal, expr, setSpec]
  | tuple_1 _ ih1 =>
    intro _
    have h1 := ih1 rfl
    clear ih1
    simp +decide [h1, LeavesOf, leaves_append, leaves_cons, leaves_nil, isLeaf, leaves_name, leaves_string, leaves_number, leaves_atLevel, leaves_tableOperand, leaves_names, leaves_qualified, leaves_mode, leaves_setOperator, leaves_joinOperator, leaves_direction, leaves_alias, leaves_collation, leaves_columnNames, leaves_binary, leaves_comparison, leaves_exprs, leaves_whens, leaves_exprOption, leaves_where, leaves_else, leaves_having, leaves_offset, kw, leaves_withClause, leaves_orderClause, leaves_tuples, leaves_fromClause, leaves_columns, leaves_assignments, cteLeaves, termLeaves, columnLeaves, leavesOf_where, leavesOf_else, leavesOf_expression, leavesOf_names, leavesOf_alias, leavesOf_collation, leavesOf_schema, leavesOf_order, leavesOf_limit, leavesOf_group, leavesOf_joinType, leavesOf_all, leavesOf_as, leavesOf_outer, leavesOf_asc, assignment, select, setExpr, resultColumns, table, constraint, groupClause, limit, words, literal, expr, setSpec]
  | resultColumns_1 =>
    intro _
    simp +decide [LeavesOf, leaves_append, leaves_cons, leaves_nil, isLeaf, leaves_name, leaves_string, leaves_number, leaves_atLevel, leaves_tableOperand, leaves_names, leaves_qualified, leaves_mode, leaves_setOperator, leaves_joinOperator, leaves_direction, leaves_alias, leaves_collation, leaves_columnNames, leaves_binary, leaves_comparison, leaves_exprs, leaves_whens, leaves_exprOption, leaves_where, leaves_else, leaves_having, leaves_offset, kw, leaves_withClause, leaves_orderClause, leaves_tuples, leaves_fromClause, leaves_columns, leaves_assignments, cteLeaves, termLeaves, columnLeaves, leavesOf_where, leavesOf_else, leavesOf_expression, leavesOf_names, leavesOf_alias, leavesOf_collation, leavesOf_schema, leavesOf_order, leavesOf_limit, leavesOf_group, leavesOf_joinType, leavesOf_all, leavesOf_as, leavesOf_outer, leavesOf_asc, assignment, select, setExpr, resultColumns, table, constraint, groupClause, limit, words, literal, expr, setSpec]
  | resultColumns_2 _ ih0 =>
    intro _
    have h0 := ih0 rfl
    clear ih0
    simp +decide [h0, LeavesOf, leaves_append, leaves_cons, leaves_nil, isLeaf, leaves_name, leaves_string, leaves_number, leaves_atLevel, leaves_tableOperand, leaves_names, leaves_qualified, leaves_mode, leaves_setOperator, leaves_joinOperator, leaves_direction, leaves_alias, leaves_collation, leaves_columnNames, leaves_binary, leaves_comparison, leaves_exprs, leaves_whens, leaves_exprOption, leaves_where, leaves_else, leaves_having, leaves_offset, kw, leaves_withClause, leaves_orderClause, leaves_tuples, leaves_fromClause, leaves_columns, leaves_assignments, cteLeaves, termLeaves, columnLeaves, leavesOf_where, leavesOf_else, leavesOf_expression, leavesOf_names, leavesOf_alias, leavesOf_collation, leavesOf_schema, leavesOf_order, leavesOf_limit, leavesOf_group, leavesOf_joinType, leavesOf_all, leavesOf_as, leavesOf_outer, leavesOf_asc, assignment, select, setExpr, resultColumns, table, constraint, groupClause, limit, words, literal, expr, setSpec]
  | resultColumnList_1 _ ih0 =>
    intro _
    have h0 := ih0 rfl
    clear ih0
    simp +decide [h0, LeavesOf, leaves_append, leaves_cons, leaves_nil, isLeaf, leaves_name, leaves_string, leaves_number, leaves_atLevel, leaves_tableOperand, leaves_names, leaves_qualified, leaves_mode, leaves_setOperator, leaves_joinOperator, leaves_direction, leaves_alias, leaves_collation, leaves_columnNames, leaves_binary, leaves_comparison, leaves_exprs, leaves_whens, leaves_exprOption, leaves_where, leaves_else, leaves_having, leaves_offset, kw, leaves_withClause, leaves_orderClause, leaves_tuples, leaves_fromClause, leaves_columns, leaves_assignments, cteLeaves, termLeaves, columnLeaves, leavesOf_where, leavesOf_else, leavesOf_expression, leavesOf_names, leavesOf_alias, leavesOf_collation, leavesOf_schema, leavesOf_order, leavesOf_limit, leavesOf_group, leavesOf_joinType, leavesOf_all, leavesOf_as, leavesOf_outer, leavesOf_asc, assignment, select, setExpr, resultColumns, table, constraint, groupClause, limit, words, literal, expr, setSpec]
  | resultColumnList_2 _ _ ih0 ih2 =>
    intro _
    have h0 := ih0 rfl
    have h2 := ih2 rfl
    clear ih0 ih2
    simp +decide [h0, h2, LeavesOf, leaves_append, leaves_cons, leaves_nil, isLeaf, leaves_name, leaves_string, leaves_number, leaves_atLevel, leaves_tableOperand, leaves_names, leaves_qualified, leaves_mode, leaves_setOperator, leaves_joinOperator, leaves_direction, leaves_alias, leaves_collation, leaves_columnNames, leaves_binary, leaves_comparison, leaves_exprs, leaves_whens, leaves_exprOption, leaves_where, leaves_else, leaves_having, leaves_offset, kw, leaves_withClause, leaves_orderClause, leaves_tuples, leaves_fromClause, leaves_columns, leaves_assignments, cteLeaves, termLeaves, columnLeaves, leavesOf_where, leavesOf_else, leavesOf_expression, leavesOf_names, leavesOf_alias, leavesOf_collation, leavesOf_schema, leavesOf_order, leavesOf_limit, leavesOf_group, leavesOf_joinType, leavesOf_all, leavesOf_as, leavesOf_outer, leavesOf_asc, assignment, select, setExpr, resultColumns, table, constraint, groupClause, limit, words, literal, expr, setSpec]
  | resultColumn_1 _ ih0 =>
    intro _
    have h0 := ih0 rfl
    clear ih0
    simp +decide [h0, LeavesOf, leaves_append, leaves_cons, leaves_nil, isLeaf, leaves_name, leaves_string, leaves_number, leaves_atLevel, leaves_tableOperand, leaves_names, leaves_qualified, leaves_mode, leaves_setOperator, leaves_joinOperator, leaves_direction, leaves_alias, leaves_collation, leaves_columnNames, leaves_binary, leaves_comparison, leaves_exprs, leaves_whens, leaves_exprOption, leaves_where, leaves_else, leaves_having, leaves_offset, kw, leaves_withClause, leaves_orderClause, leaves_tuples, leaves_fromClause, leaves_columns, leaves_assignments, cteLeaves, termLeaves, columnLeaves, leavesOf_where, leavesOf_else, leavesOf_expression, leavesOf_names, leavesOf_alias, leavesOf_collation, leavesOf_schema, leavesOf_order, leavesOf_limit, leavesOf_group, leavesOf_joinType, leavesOf_all, leavesOf_as, leavesOf_outer, leavesOf_asc, assignment, select, setExpr, resultColumns, table, constraint, groupClause, limit, words, literal, expr, setSpec]
  | resultColumn_2 _ _ _ ih0 ih1 ih2 =>
    intro _
    have h0 := ih0 rfl
    have h1 := ih1 rfl
    have h2 := ih2 rfl
    clear ih0 ih1 ih2
    simp +decide [h0, h1, h2, LeavesOf, leaves_append, leaves_cons, leaves_nil, isLeaf, leaves_name, leaves_string, leaves_number, leaves_atLevel, leaves_tableOperand, leaves_names, leaves_qualified, leaves_mode, leaves_setOperator, leaves_joinOperator, leaves_direction, leaves_alias, leaves_collation, leaves_columnNames, leaves_binary, leaves_comparison, leaves_exprs, leaves_whens, leaves_exprOption, leaves_where, leaves_else, leaves_having, leaves_offset, kw, leaves_withClause, leaves_orderClause, leaves_tuples, leaves_fromClause, leaves_columns, leaves_assignments, cteLeaves, termLeaves, columnLeaves, leavesOf_where, leavesOf_else, leavesOf_expression, leavesOf_names, leavesOf_alias, leavesOf_collation, leavesOf_schema, leavesOf_order, leavesOf_limit, leavesOf_group, leavesOf_joinType, leavesOf_all, leavesOf_as, leavesOf_outer, leavesOf_asc, assignment, select, setExpr, resultColumns, table, constraint, groupClause, limit, words, literal, expr, setSpec]
  | resultColumn_3 _ ih0 =>
    intro _
    have h0 := ih0 rfl
    clear ih0
    simp +decide [h0, LeavesOf, leaves_append, leaves_cons, leaves_nil, isLeaf, leaves_name, leaves_string, leaves_number, leaves_atLevel, leaves_tableOperand, leaves_names, leaves_qualified, leaves_mode, leaves_setOperator, leaves_joinOperator, leaves_direction, leaves_alias, leaves_collation, leaves_columnNames, leaves_binary, leaves_comparison, leaves_exprs, leaves_whens, leaves_exprOption, leaves_where, leaves_else, leaves_having, leaves_offset, kw, leaves_withClause, leaves_orderClause, leaves_tuples, leaves_fromClause, leaves_columns, leaves_assignments, cteLeaves, termLeaves, columnLeaves, leavesOf_where, leavesOf_else, leavesOf_expression, leavesOf_names, leavesOf_alias, leavesOf_collation, leavesOf_schema, leavesOf_order, leavesOf_limit, leavesOf_group, leavesOf_joinType, leavesOf_all, leavesOf_as, leavesOf_outer, leavesOf_asc, assignment, select, setExpr, resultColumns, table, constraint, groupClause, limit, words, literal, expr, setSpec]
  | qualifiedIdentifier_1 _ ih0 =>
    intro _
    have h0 := ih0 rfl
    clear ih0
    simp +decide [h0, LeavesOf, leaves_append, leaves_cons, leaves_nil, isLeaf, leaves_name, leaves_string, leaves_number, leaves_atLevel, leaves_tableOperand, leaves_names, leaves_qualified, leaves_mode, leaves_setOperator, leaves_joinOperator, leaves_direction, leaves_alias, leaves_collation, leaves_columnNames, leaves_binary, leaves_comparison, leaves_exprs, leaves_whens, leaves_exprOption, leaves_where, leaves_else, leaves_having, leaves_offset, kw, leaves_withClause, leaves_orderClause, leaves_tuples, leaves_fromClause, leaves_columns, leaves_assignments, cteLeaves, termLeaves, columnLeaves, leavesOf_where, leavesOf_else, leavesOf_expression, leavesOf_names, leavesOf_alias, leavesOf_collation, leavesOf_schema, leavesOf_order, leavesOf_limit, leavesOf_group, leavesOf_joinType, leavesOf_all, leavesOf_as, leavesOf_outer, leavesOf_asc, assignment, select, setExpr, resultColumns, table, constraint, groupClause, limit, words, literal, expr, setSpec]
  | qualifiedIdentifier_2 _ _ ih0 ih2 =>
    intro _
    have h0 := ih0 rfl
    have h2 := ih2 rfl
    clear ih0 ih2
    simp +decide [h0, h2, LeavesOf, leaves_append, leaves_cons, leaves_nil, isLeaf, leaves_name, leaves_string, leaves_number, leaves_atLevel, leaves_tableOperand, leaves_names, leaves_qualified, leaves_mode, leaves_setOperator, leaves_joinOperator, leaves_direction, leaves_alias, leaves_collation, leaves_columnNames, leaves_binary, leaves_comparison, leaves_exprs, leaves_whens, leaves_exprOption, leaves_where, leaves_else, leaves_having, leaves_offset, kw, leaves_withClause, leaves_orderClause, leaves_tuples, leaves_fromClause, leaves_columns, leaves_assignments, cteLeaves, termLeaves, columnLeaves, leavesOf_where, leavesOf_else, leavesOf_expression, leavesOf_names, leavesOf_alias, leavesOf_collation, leavesOf_schema, leavesOf_order, leavesOf_limit, leavesOf_group, leavesOf_joinType, leavesOf_all, leavesOf_as, leavesOf_outer, leavesOf_asc, assignment, select, setExpr, resultColumns, table, constraint, groupClause, limit, words, literal, expr, setSpec]
  | qualifiedIdentifier_3 _ _ _ ih0 ih2 ih4 =>
    intro _
    have h0 := ih0 rfl
    have h2 := ih2 rfl
    have h4 := ih4 rfl
    clear ih0 ih2 ih4
    simp +decide [h0, h2, h4, LeavesOf, leaves_append, leaves_cons, leaves_nil, isLeaf, leaves_name, leaves_string, leaves_number, leaves_atLevel, leaves_tableOperand, leaves_names, leaves_qualified, leaves_mode, leaves_setOperator, leaves_joinOperator, leaves_direction, leaves_alias, leaves_collation, leaves_columnNames, leaves_binary, leaves_comparison, leaves_exprs, leaves_whens, leaves_exprOption, leaves_where, leaves_else, leaves_having, leaves_offset, kw, leaves_withClause, leaves_orderClause, leaves_tuples, leaves_fromClause, leaves_columns, leaves_assignments, cteLeaves, termLeaves, columnLeaves, leavesOf_where, leavesOf_else, leavesOf_expression, leavesOf_names, leavesOf_alias, leavesOf_collation, leavesOf_schema, leavesOf_order, leavesOf_limit, leavesOf_group, leavesOf_joinType, leavesOf_all, leavesOf_as, leavesOf_outer, leavesOf_asc, assignment, select, setExpr, resultColumns, table, constraint, groupClause, limit, words, literal, expr, setSpec]
  | fromClause_1 _ ih1 =>
    intro _
    have h1 := ih1 rfl
    clear ih1
    simp +decide [h1, LeavesOf, leaves_append, leaves_cons, leaves_nil, isLeaf, leaves_name, leaves_string, leaves_number, leaves_atLevel, leaves_tableOperand, leaves_names, leaves_qualified, leaves_mode, leaves_setOperator, leaves_joinOperator, leaves_direction, leaves_alias, leaves_collation, leaves_columnNames, leaves_binary, leaves_comparison, leaves_exprs, leaves_whens, leaves_exprOption, leaves_where, leaves_else, leaves_having, leaves_offset, kw, leaves_withClause, leaves_orderClause, leaves_tuples, leaves_fromClause, leaves_columns, leaves_assignments, cteLeaves, termLeaves, columnLeaves, leavesOf_where, leavesOf_else, leavesOf_expression, leavesOf_names, leavesOf_alias, leavesOf_collation, leavesOf_schema, leavesOf_order, leavesOf_limit, leavesOf_group, leavesOf_joinType, leavesOf_all, leavesOf_as, leavesOf_outer, leavesOf_asc, assignment, select, setExpr, resultColumns, table, constraint, groupClause, limit, words, literal, expr, setSpec]
  | tableExpressionList_1 _ ih0 =>
    intro _
    have h0 := ih0 rfl
    clear ih0
    simp +decide [h0, LeavesOf, leaves_append, leaves_cons, leaves_nil, isLeaf, leaves_name, leaves_string, leaves_number, leaves_atLevel, leaves_tableOperand, leaves_names, leaves_qualified, leaves_mode, leaves_setOperator, leaves_joinOperator, leaves_direction, leaves_alias, leaves_collation, leaves_columnNames, leaves_binary, leaves_comparison, leaves_exprs, leaves_whens, leaves_exprOption, leaves_where, leaves_else, leaves_having, leaves_offset, kw, leaves_withClause, leaves_orderClause, leaves_tuples, leaves_fromClause, leaves_columns, leaves_assignments, cteLeaves, termLeaves, columnLeaves, leavesOf_where, leavesOf_else, leavesOf_expression, leavesOf_names, leavesOf_alias, leavesOf_collation, leavesOf_schema, leavesOf_order, leavesOf_limit, leavesOf_group, leavesOf_joinType, leavesOf_all, leavesOf_as, leavesOf_outer, leavesOf_asc, assignment, select, setExpr, resultColumns, table, constraint, groupClause, limit, words, literal, expr, setSpec]
  | tableExpressionList_2 _ _ ih0 ih2 =>
    intro _
    have h0 := ih0 rfl
    have h2 := ih2 rfl
    clear ih0 ih2
    simp +decide [h0, h2, LeavesOf, leaves_append, leaves_cons, leaves_nil, isLeaf, leaves_name, leaves_string, leaves_number, leaves_atLevel, leaves_tableOperand, leaves_names, leaves_qualified, leaves_mode, leaves_setOperator, leaves_joinOperator, leaves_direction, leaves_alias, leaves_collation, leaves_columnNames, leaves_binary, leaves_comparison, leaves_exprs, leaves_whens, leaves_exprOption, leaves_where, leaves_else, leaves_having, leaves_offset, kw, leaves_withClause, leaves_orderClause, leaves_tuples, leaves_fromClause, leaves_columns, leaves_assignments, cteLeaves, termLeaves, columnLeaves, leavesOf_where, leavesOf_else, leavesOf_expression, leavesOf_names, leavesOf_alias, leavesOf_collation, leavesOf_schema, leavesOf_order, leavesOf_limit, leavesOf_group, leavesOf_joinType, leavesOf_all, leavesOf_as, leavesOf_outer, leavesOf_asc, assignment, select, setExpr, resultColumns, table, constraint, groupClause, limit, words, literal, expr, setSpec]
  | tableExpression_1 _ ih0 =>
    intro _
    have h0 := ih0 rfl
    exact h0
  | tableExpression_2 _ _ _ _ ih0 ih1 ih2 ih3 =>
    intro _
    have h0 := ih0 rfl
    have h1 := ih1 rfl
    have h2 := ih2 rfl
    have h3 := ih3 rfl
    clear ih0 ih1 ih2 ih3
    simp +decide [h0, h1, h2, h3, LeavesOf, leaves_append, leaves_cons, leaves_nil, isLeaf, leaves_name, leaves_string, leaves_number, leaves_atLevel, leaves_tableOperand, leaves_names, leaves_qualified, leaves_mode, leaves_setOperator, leaves_joinOperator, leaves_direction, leaves_alias, leaves_collation, leaves_columnNames, leaves_binary, leaves_comparison, leaves_exprs, leaves_whens, leaves_exprOption, leaves_where, leaves_else, leaves_having, leaves_offset, kw, leaves_withClause, leaves_orderClause, leaves_tuples, leaves_fromClause, leaves_columns, leaves_assignments, cteLeaves, termLeaves, columnLeaves, leavesOf_where, leavesOf_else, leavesOf_expression, leavesOf_names, leavesOf_alias, leavesOf_collation, leavesOf_schema, leavesOf_order, leavesOf_limit, leavesOf_group, leavesOf_joinType, leavesOf_all, leavesOf_as, leavesOf_outer, leavesOf_asc, assignment, select, setExpr, resultColumns, table, constraint, groupClause, limit, words, literal, expr, setSpec]
  | tableOrSubQuery_1 _ _ ih0 ih1 =>
    intro _
    have h0 := ih0 rfl
    have h1 := ih1 rfl
    clear ih0 ih1
    simp +decide [h0, h1, LeavesOf, leaves_append, leaves_cons, leaves_nil, isLeaf, leaves_name, leaves_string, leaves_number, leaves_atLevel, leaves_tableOperand, leaves_names, leaves_qualified, leaves_mode, leaves_setOperator, leaves_joinOperator, leaves_direction, leaves_alias, leaves_collation, leaves_columnNames, leaves_binary, leaves_comparison, leaves_exprs, leaves_whens, leaves_exprOption, leaves_where, leaves_else, leaves_having, leaves_offset, kw, leaves_withClause, leaves_orderClause, leaves_tuples, leaves_fromClause, leaves_columns, leaves_assignments, cteLeaves, termLeaves, columnLeaves, leavesOf_where, leavesOf_else, leavesOf_expression, leavesOf_names, leavesOf_alias, leavesOf_collation, leavesOf_schema, leavesOf_order, leavesOf_limit, leavesOf_group, leavesOf_joinType, leavesOf_all, leavesOf_as, leavesOf_outer, leavesOf_asc, assignment, select, setExpr, resultColumns, table, constraint, groupClause, limit, words, literal, expr, setSpec]
  | tableOrSubQuery_2 _ _ ih1 ih3 =>
    intro _
    have h1 := ih1 rfl
    have h3 := ih3 rfl
    clear ih1 ih3
    simp +decide [h1, h3, LeavesOf, leaves_append, leaves_cons, leaves_nil, isLeaf, leaves_name, leaves_string, leaves_number, leaves_atLevel, leaves_tableOperand, leaves_names, leaves_qualified, leaves_mode, leaves_setOperator, leaves_joinOperator, leaves_direction, leaves_alias, leaves_collation, leaves_columnNames, leaves_binary, leaves_comparison, leaves_exprs, leaves_whens, leaves_exprOption, leaves_where, leaves_else, leaves_having, leaves_offset, kw, leaves_withClause, leaves_orderClause, leaves_tuples, leaves_fromClause, leaves_columns, leaves_assignments, cteLeaves, termLeaves, columnLeaves, leavesOf_where, leavesOf_else, leavesOf_expression, leavesOf_names, leavesOf_alias, leavesOf_collation, leavesOf_schema, leavesOf_order, leavesOf_limit, leavesOf_group, leavesOf_joinType, leavesOf_all, leavesOf_as, leavesOf_outer, leavesOf_asc, assignment, select, setExpr, resultColumns, table, constraint, groupClause, limit, words, literal, expr, setSpec]
  | tableOrSubQuery_3 _ ih1 =>
    intro _
    have h1 := ih1 rfl
    clear ih1
    simp +decide [h1, LeavesOf, leaves_append, leaves_cons, leaves_nil, isLeaf, leaves_name, leaves_string, leaves_number, leaves_atLevel, leaves_tableOperand, leaves_names, leaves_qualified, leaves_mode, leaves_setOperator, leaves_joinOperator, leaves_direction, leaves_alias, leaves_collation, leaves_columnNames, leaves_binary, leaves_comparison, leaves_exprs, leaves_whens, leaves_exprOption, leaves_where, leaves_else, leaves_having, leaves_offset, kw, leaves_withClause, leaves_orderClause, leaves_tuples, leaves_fromClause, leaves_columns, leaves_assignments, cteLeaves, termLeaves, columnLeaves, leavesOf_where, leavesOf_else, leavesOf_expression, leavesOf_names, leavesOf_alias, leavesOf_collation, leavesOf_schema, leavesOf_order, leavesOf_limit, leavesOf_group, leavesOf_joinType, leavesOf_all, leavesOf_as, leavesOf_outer, leavesOf_asc, assignment, select, setExpr, resultColumns, table, constraint, groupClause, limit, words, literal, expr, setSpec]
  | tableAlias_1 _ _ ih0 ih1 =>
    intro _
    have h0 := ih0 rfl
    have h1 := ih1 rfl
    clear ih0 ih1
    simp +decide [h0, h1, LeavesOf, leaves_append, leaves_cons, leaves_nil, isLeaf, leaves_name, leaves_string, leaves_number, leaves_atLevel, leaves_tableOperand, leaves_names, leaves_qualified, leaves_mode, leaves_setOperator, leaves_joinOperator, leaves_direction, leaves_alias, leaves_collation, leaves_columnNames, leaves_binary, leaves_comparison, leaves_exprs, leaves_whens, leaves_exprOption, leaves_where, leaves_else, leaves_having, leaves_offset, kw, leaves_withClause, leaves_orderClause, leaves_tuples, leaves_fromClause, leaves_columns, leaves_assignments, cteLeaves, termLeaves, columnLeaves, leavesOf_where, leavesOf_else, leavesOf_expression, leavesOf_names, leavesOf_alias, leavesOf_collation, leavesOf_schema, leavesOf_order, leavesOf_limit, leavesOf_group, leavesOf_joinType, leavesOf_all, leavesOf_as, leavesOf_outer, leavesOf_asc, assignment, select, setExpr, resultColumns, table, constraint, groupClause, limit, words, literal, expr, setSpec]
  | joinOperator_1 _ ih0 =>
    intro _
    have h0 := ih0 rfl
    clear ih0
    simp +decide [h0, LeavesOf, leaves_append, leaves_cons, leaves_nil, isLeaf, leaves_name, leaves_string, leaves_number, leaves_atLevel, leaves_tableOperand, leaves_names, leaves_qualified, leaves_mode, leaves_setOperator, leaves_joinOperator, leaves_direction, leaves_alias, leaves_collation, leaves_columnNames, leaves_binary, leaves_comparison, leaves_exprs, leaves_whens, leaves_exprOption, leaves_where, leaves_else, leaves_having, leaves_offset, kw, leaves_withClause, leaves_orderClause, leaves_tuples, leaves_fromClause, leaves_columns, leaves_assignments, cteLeaves, termLeaves, columnLeaves, leavesOf_where, leavesOf_else, leavesOf_expression, leavesOf_names, leavesOf_alias, leavesOf_collation, leavesOf_schema, leavesOf_order, leavesOf_limit, leavesOf_group, leavesOf_joinType, leavesOf_all, leavesOf_as, leavesOf_outer, leavesOf_asc, assignment, select, setExpr, resultColumns, table, constraint, groupClause, limit, words, literal, expr, setSpec]
  | joinOperator_2 _ ih1 =>
    intro _
    have h1 := ih1 rfl
    clear ih1
    simp +decide [h1, LeavesOf, leaves_append, leaves_cons, leaves_nil, isLeaf, leaves_name, leaves_string, leaves_number, leaves_atLevel, leaves_tableOperand, leaves_names, leaves_qualified, leaves_mode, leaves_setOperator, leaves_joinOperator, leaves_direction, leaves_alias, leaves_collation, leaves_columnNames, leaves_binary, leaves_comparison, leaves_exprs, leaves_whens, leaves_exprOption, leaves_where, leaves_else, leaves_having, leaves_offset, kw, leaves_withClause, leaves_orderClause, leaves_tuples, leaves_fromClause, leaves_columns, leaves_assignments, cteLeaves, termLeaves, columnLeaves, leavesOf_where, leavesOf_else, leavesOf_expression, leavesOf_names, leavesOf_alias, leavesOf_collation, leavesOf_schema, leavesOf_order, leavesOf_limit, leavesOf_group, leavesOf_joinType, leavesOf_all, leavesOf_as, leavesOf_outer, leavesOf_asc, assignment, select, setExpr, resultColumns, table, constraint, groupClause, limit, words, literal, expr, setSpec]
  | joinOperator_3 =>
    intro _
    simp +decide [LeavesOf, leaves_append, leaves_cons, leaves_nil, isLeaf, leaves_name, leaves_string, leaves_number, leaves_atLevel, leaves_tableOperand, leaves_names, leaves_qualified, leaves_mode, leaves_setOperator, leaves_joinOperator, leaves_direction, leaves_alias, leaves_collation, leaves_columnNames, leaves_binary, leaves_comparison, leaves_exprs, leaves_whens, leaves_exprOption, leaves_where, leaves_else, leaves_having, leaves_offset, kw, leaves_withClause, leaves_orderClause, leaves_tuples, leaves_fromClause, leaves_columns, leaves_assignments, cteLeaves, termLeaves, columnLeaves, leavesOf_where, leavesOf_else, leavesOf_expression, leavesOf_names, leavesOf_alias, leavesOf_collation, leavesOf_schema, leavesOf_order, leavesOf_limit, leavesOf_group, leavesOf_joinType, leavesOf_all, leavesOf_as, leavesOf_outer, leavesOf_asc, assignment, select, setExpr, resultColumns, table, constraint, groupClause, limit, words, literal, expr, setSpec]
  | joinType_1 _ ih1 =>
    intro _
    have h1 := ih1 rfl
    clear ih1
    simp +decide [h1, LeavesOf, leaves_append, leaves_cons, leaves_nil, isLeaf, leaves_name, leaves_string, leaves_number, leaves_atLevel, leaves_tableOperand, leaves_names, leaves_qualified, leaves_mode, leaves_setOperator, leaves_joinOperator, leaves_direction, leaves_alias, leaves_collation, leaves_columnNames, leaves_binary, leaves_comparison, leaves_exprs, leaves_whens, leaves_exprOption, leaves_where, leaves_else, leaves_having, leaves_offset, kw, leaves_withClause, leaves_orderClause, leaves_tuples, leaves_fromClause, leaves_columns, leaves_assignments, cteLeaves, termLeaves, columnLeaves, leavesOf_where, leavesOf_else, leavesOf_expression, leavesOf_names, leavesOf_alias, leavesOf_collation, leavesOf_schema, leavesOf_order, leavesOf_limit, leavesOf_group, leavesOf_joinType, leavesOf_all, leavesOf_as, leavesOf_outer, leavesOf_asc, assignment, select, setExpr, resultColumns, table, constraint, groupClause, limit, words, literal, expr, setSpec]
  | joinType_2 _ ih1 =>
    intro _
    have h1 := ih1 rfl
    clear ih1
    simp +decide [h1, LeavesOf, leaves_append, leaves_cons, leaves_nil, isLeaf, leaves_name, leaves_string, leaves_number, leaves_atLevel, leaves_tableOperand, leaves_names, leaves_qualified, leaves_mode, leaves_setOperator, leaves_joinOperator, leaves_direction, leaves_alias, leaves_collation, leaves_columnNames, leaves_binary, leaves_comparison, leaves_exprs, leaves_whens, leaves_exprOption, leaves_where, leaves_else, leaves_having, leaves_offset, kw, leaves_withClause, leaves_orderClause, leaves_tuples, leaves_fromClause, leaves_columns, leaves_assignments, cteLeaves, termLeaves, columnLeaves, leavesOf_where, leavesOf_else, leavesOf_expression, leavesOf_names, leavesOf_alias, leavesOf_collation, leavesOf_schema, leavesOf_order, leavesOf_limit, leavesOf_group, leavesOf_joinType, leavesOf_all, leavesOf_as, leavesOf_outer, leavesOf_asc, assignment, select, setExpr, resultColumns, table, constraint, groupClause, limit, words, literal, expr, setSpec]
  | joinType_3 _ ih1 =>
    intro _
    have h1 := ih1 rfl
    clear ih1
    simp +decide [h1, LeavesOf, leaves_append, leaves_cons, leaves_nil, isLeaf, leaves_name, leaves_string, leaves_number, leaves_atLevel, leaves_tableOperand, leaves_names, leaves_qualified, leaves_mode, leaves_setOperator, leaves_joinOperator, leaves_direction, leaves_alias, leaves_collation, leaves_columnNames, leaves_binary, leaves_comparison, leaves_exprs, leaves_whens, leaves_exprOption, leaves_where, leaves_else, leaves_having, leaves_offset, kw, leaves_withClause, leaves_orderClause, leaves_tuples, leaves_fromClause, leaves_columns, leaves_assignments, cteLeaves, termLeaves, columnLeaves, leavesOf_where, leavesOf_else, leavesOf_expression, leavesOf_names, leavesOf_alias, leavesOf_collation, leavesOf_schema, leavesOf_order, leavesOf_limit, leavesOf_group, leavesOf_joinType, leavesOf_all, leavesOf_as, leavesOf_outer, leavesOf_asc, assignment, select, setExpr, resultColumns, table, constraint, groupClause, limit, words, literal, expr, setSpec]
  | joinType_4 =>
    intro _
    simp +decide [LeavesOf, leaves_append, leaves_cons, leaves_nil, isLeaf, leaves_name, leaves_string, leaves_number, leaves_atLevel, leaves_tableOperand, leaves_names, leaves_qualified, leaves_mode, leaves_setOperator, leaves_joinOperator, leaves_direction, leaves_alias, leaves_collation, leaves_columnNames, leaves_binary, leaves_comparison, leaves_exprs, leaves_whens, leaves_exprOption, leaves_where, leaves_else, leaves_having, leaves_offset, kw, leaves_withClause, leaves_orderClause, leaves_tuples, leaves_fromClause, leaves_columns, leaves_assignments, cteLeaves, termLeaves, columnLeaves, leavesOf_where, leavesOf_else, leavesOf_expression, leavesOf_names, leavesOf_alias, leavesOf_collation, leavesOf_schema, leavesOf_order, leavesOf_limit, leavesOf_group, leavesOf_joinType, leavesOf_all, leavesOf_as, leavesOf_outer, leavesOf_asc, assignment, select, setExpr, resultColumns, table, constraint, groupClause, limit, words, literal, expr, setSpec]
  | joinConstraint_1 _ ih1 =>
    intro _
    have h1 := ih1 rfl
    clear ih1
    simp +decide [h1, LeavesOf, leaves_append, leaves_cons, leaves_nil, isLeaf, leaves_name, leaves_string, leaves_number, leaves_atLevel, leaves_tableOperand, leaves_names, leaves_qualified, leaves_mode, leaves_setOperator, leaves_joinOperator, leaves_direction, leaves_alias, leaves_collation, leaves_columnNames, leaves_binary, leaves_comparison, leaves_exprs, leaves_whens, leaves_exprOption, leaves_where, leaves_else, leaves_having, leaves_offset, kw, leaves_withClause, leaves_orderClause, leaves_tuples, leaves_fromClause, leaves_columns, leaves_assignments, cteLeaves, termLeaves, columnLeaves, leavesOf_where, leavesOf_else, leavesOf_expression, leavesOf_names, leavesOf_alias, leavesOf_collation, leavesOf_schema, leavesOf_order, leavesOf_limit, leavesOf_group, leavesOf_joinType, leavesOf_all, leavesOf_as, leavesOf_outer, leavesOf_asc, assignment, select, setExpr, resultColumns, table, constraint, groupClause, limit, words, literal, expr, setSpec]
  | joinConstraint_2 _ ih2 =>
    intro _
    have h2 := ih2 rfl
    clear ih2
    simp +decide [h2, LeavesOf, leaves_append, leaves_cons, leaves_nil, isLeaf, leaves_name, leaves_string, leaves_number, leaves_atLevel, leaves_tableOperand, leaves_names, leaves_qualified, leaves_mode, leaves_setOperator, leaves_joinOperator, leaves_direction, leaves_alias, leaves_collation, leaves_columnNames, leaves_binary, leaves_comparison, leaves_exprs, leaves_whens, leaves_exprOption, leaves_where, leaves_else, leaves_having, leaves_offset, kw, leaves_withClause, leaves_orderClause, leaves_tuples, leaves_fromClause, leaves_columns, leaves_assignments, cteLeaves, termLeaves, columnLeaves, leavesOf_where, leavesOf_else, leavesOf_expression, leavesOf_names, leavesOf_alias, leavesOf_collation, leavesOf_schema, leavesOf_order, leavesOf_limit, leavesOf_group, leavesOf_joinType, leavesOf_all, leavesOf_as, leavesOf_outer, leavesOf_asc, assignment, select, setExpr, resultColumns, table, constraint, groupClause, limit, words, literal, expr, setSpec]
  | identifierList_1 _ ih0 =>
    intro _
    have h0 := ih0 rfl
    clear ih0
    simp +decide [h0, LeavesOf, leaves_append, leaves_cons, leaves_nil, isLeaf, leaves_name, leaves_string, leaves_number, leaves_atLevel, leaves_tableOperand, leaves_names, leaves_qualified, leaves_mode, leaves_setOperator, leaves_joinOperator, leaves_direction, leaves_alias, leaves_collation, leaves_columnNames, leaves_binary, leaves_comparison, leaves_exprs, leaves_whens, leaves_exprOption, leaves_where, leaves_else, leaves_having, leaves_offset, kw, leaves_withClause, leaves_orderClause, leaves_tuples, leaves_fromClause, leaves_columns, leaves_assignments, cteLeaves, termLeaves, columnLeaves, leavesOf_where, leavesOf_else, leavesOf_expression, leavesOf_names, leavesOf_alias, leavesOf_collation, leavesOf_schema, leavesOf_order, leavesOf_limit, leavesOf_group, leavesOf_joinType, leavesOf_all, leavesOf_as, leavesOf_outer, leavesOf_asc, assignment, select, setExpr, resultColumns, table, constraint, groupClause, limit, words, literal, expr, setSpec]
  | identifierList_2 _ _ ih0 ih2 =>
    intro _
    have h0 := ih0 rfl
    have h2 := ih2 rfl
    clear ih0 ih2
    simp +decide [h0, h2, LeavesOf, leaves_append, leaves_cons, leaves_nil, isLeaf, leaves_name, leaves_string, leaves_number, leaves_atLevel, leaves_tableOperand, leaves_names, leaves_qualified, leaves_mode, leaves_setOperator, leaves_joinOperator, leaves_direction, leaves_alias, leaves_collation, leaves_columnNames, leaves_binary, leaves_comparison, leaves_exprs, leaves_whens, leaves_exprOption, leaves_where, leaves_else, leaves_having, leaves_offset, kw, leaves_withClause, leaves_orderClause, leaves_tuples, leaves_fromClause, leaves_columns, leaves_assignments, cteLeaves, termLeaves, columnLeaves, leavesOf_where, leavesOf_else, leavesOf_expression, leavesOf_names, leavesOf_alias, leavesOf_collation, leavesOf_schema, leavesOf_order, leavesOf_limit, leavesOf_group, leavesOf_joinType, leavesOf_all, leavesOf_as, leavesOf_outer, leavesOf_asc, assignment, select, setExpr, resultColumns, table, constraint, groupClause, limit, words, literal, expr, setSpec]
  | whereClause_1 _ ih1 =>
    intro _
    have h1 := ih1 rfl
    clear ih1
    simp +decide [h1, LeavesOf, leaves_append, leaves_cons, leaves_nil, isLeaf, leaves_name, leaves_string, leaves_number, leaves_atLevel, leaves_tableOperand, leaves_names, leaves_qualified, leaves_mode, leaves_setOperator, leaves_joinOperator, leaves_direction, leaves_alias, leaves_collation, leaves_columnNames, leaves_binary, leaves_comparison, leaves_exprs, leaves_whens, leaves_exprOption, leaves_where, leaves_else, leaves_having, leaves_offset, kw, leaves_withClause, leaves_orderClause, leaves_tuples, leaves_fromClause, leaves_columns, leaves_assignments, cteLeaves, termLeaves, columnLeaves, leavesOf_where, leavesOf_else, leavesOf_expression, leavesOf_names, leavesOf_alias, leavesOf_collation, leavesOf_schema, leavesOf_order, leavesOf_limit, leavesOf_group, leavesOf_joinType, leavesOf_all, leavesOf_as, leavesOf_outer, leavesOf_asc, assignment, select, setExpr, resultColumns, table, constraint, groupClause, limit, words, literal, expr, setSpec]
  | groupByClause_1 _ ih2 =>
    intro _
    have h2 := ih2 rfl
    clear ih2
    simp +decide [h2, LeavesOf, leaves_append, leaves_cons, leaves_nil, isLeaf, leaves_name, leaves_string, leaves_number, leaves_atLevel, leaves_tableOperand, leaves_names, leaves_qualified, leaves_mode, leaves_setOperator, leaves_joinOperator, leaves_direction, leaves_alias, leaves_collation, leaves_columnNames, leaves_binary, leaves_comparison, leaves_exprs, leaves_whens, leaves_exprOption, leaves_where, leaves_else, leaves_having, leaves_offset, kw, leaves_withClause, leaves_orderClause, leaves_tuples, leaves_fromClause, leaves_columns, leaves_assignments, cteLeaves, termLeaves, columnLeaves, leavesOf_where, leavesOf_else, leavesOf_expression, leavesOf_names, leavesOf_alias, leavesOf_collation, leavesOf_schema, leavesOf_order, leavesOf_limit, leavesOf_group, leavesOf_joinType, leavesOf_all, leavesOf_as, leavesOf_outer, leavesOf_asc, assignment, select, setExpr, resultColumns, table, constraint, groupClause, limit, words, literal, expr, setSpec]
  | groupByClause_2 _ _ ih2 ih4 =>
    intro _
    have h2 := ih2 rfl
    have h4 := ih4 rfl
    clear ih2 ih4
    simp +decide [h2, h4, LeavesOf, leaves_append, leaves_cons, leaves_nil, isLeaf, leaves_name, leaves_string, leaves_number, leaves_atLevel, leaves_tableOperand, leaves_names, leaves_qualified, leaves_mode, leaves_setOperator, leaves_joinOperator, leaves_direction, leaves_alias, leaves_collation, leaves_columnNames, leaves_binary, leaves_comparison, leaves_exprs, leaves_whens, leaves_exprOption, leaves_where, leaves_else, leaves_having, leaves_offset, kw, leaves_withClause, leaves_orderClause, leaves_tuples, leaves_fromClause, leaves_columns, leaves_assignments, cteLeaves, termLeaves, columnLeaves, leavesOf_where, leavesOf_else, leavesOf_expression, leavesOf_names, leavesOf_alias, leavesOf_collation, leavesOf_schema, leavesOf_order, leavesOf_limit, leavesOf_group, leavesOf_joinType, leavesOf_all, leavesOf_as, leavesOf_outer, leavesOf_asc, assignment, select, setExpr, resultColumns, table, constraint, groupClause, limit, words, literal, expr, setSpec]
  | orderByClause_1 _ ih2 =>
    intro _
    have h2 := ih2 rfl
    clear ih2
    simp +decide [h2, LeavesOf, leaves_append, leaves_cons, leaves_nil, isLeaf, leaves_name, leaves_string, leaves_number, leaves_atLevel, leaves_tableOperand, leaves_names, leaves_qualified, leaves_mode, leaves_setOperator, leaves_joinOperator, leaves_direction, leaves_alias, leaves_collation, leaves_columnNames, leaves_binary, leaves_comparison, leaves_exprs, leaves_whens, leaves_exprOption, leaves_where, leaves_else, leaves_having, leaves_offset, kw, leaves_withClause, leaves_orderClause, leaves_tuples, leaves_fromClause, leaves_columns, leaves_assignments, cteLeaves, termLeaves, columnLeaves, leavesOf_where, leavesOf_else, leavesOf_expression, leavesOf_names, leavesOf_alias, leavesOf_collation, leavesOf_schema, leavesOf_order, leavesOf_limit, leavesOf_group, leavesOf_joinType, leavesOf_all, leavesOf_as, leavesOf_outer, leavesOf_asc, assignment, select, setExpr, resultColumns, table, constraint, groupClause, limit, words, literal, expr, setSpec]
  | orderingTermList_1 _ ih0 =>
    intro _
    have h0 := ih0 rfl
    clear ih0
    simp +decide [h0, LeavesOf, leaves_append, leaves_cons, leaves_nil, isLeaf, leaves_name, leaves_string, leaves_number, leaves_atLevel, leaves_tableOperand, leaves_names, leaves_qualified, leaves_mode, leaves_setOperator, leaves_joinOperator, leaves_direction, leaves_alias, leaves_collation, leaves_columnNames, leaves_binary, leaves_comparison, leaves_exprs, leaves_whens, leaves_exprOption, leaves_where, leaves_else, leaves_having, leaves_offset, kw, leaves_withClause, leaves_orderClause, leaves_tuples, leaves_fromClause, leaves_columns, leaves_assignments, cteLeaves, termLeaves, columnLeaves, leavesOf_where, leavesOf_else, leavesOf_expression, leavesOf_names, leavesOf_alias, leavesOf_collation, leavesOf_schema, leavesOf_order, leavesOf_limit, leavesOf_group, leavesOf_joinType, leavesOf_all, leavesOf_as, leavesOf_outer, leavesOf_asc, assignment, select, setExpr, resultColumns, table, constraint, groupClause, limit, words, literal, expr, setSpec]
  | orderingTermList_2 _ _ ih0 ih2 =>
    intro _
    have h0 := ih0 rfl
    have h2 := ih2 rfl
    clear ih0 ih2
    simp +decide [h0, h2, LeavesOf, leaves_append, leaves_cons, leaves_nil, isLeaf, leaves_name, leaves_string, leaves_number, leaves_atLevel, leaves_tableOperand, leaves_names, leaves_qualified, leaves_mode, leaves_setOperator, leaves_joinOperator, leaves_direction, leaves_alias, leaves_collation, leaves_columnNames, leaves_binary, leaves_comparison, leaves_exprs, leaves_whens, leaves_exprOption, leaves_where, leaves_else, leaves_having, leaves_offset, kw, leaves_withClause, leaves_orderClause, leaves_tuples, leaves_fromClause, leaves_columns, leaves_assignments, cteLeaves, termLeaves, columnLeaves, leavesOf_where, leavesOf_else, leavesOf_expression, leavesOf_names, leavesOf_alias, leavesOf_collation, leavesOf_schema, leavesOf_order, leavesOf_limit, leavesOf_group, leavesOf_joinType, leavesOf_all, leavesOf_as, leavesOf_outer, leavesOf_asc, assignment, select, setExpr, resultColumns, table, constraint, groupClause, limit, words, literal, expr, setSpec]
  | orderingTerm_1 _ _ _ ih0 ih1 ih2 =>
    intro _
    have h0 := ih0 rfl
    have h1 := ih1 rfl
    have h2 := ih2 rfl
    clear ih0 ih1 ih2
    simp +decide [h0, h1, h2, LeavesOf, leaves_append, leaves_cons, leaves_nil, isLeaf, leaves_name, leaves_string, leaves_number, leaves_atLevel, leaves_tableOperand, leaves_names, leaves_qualified, leaves_mode, leaves_setOperator, leaves_joinOperator, leaves_direction, leaves_alias, leaves_collation, leaves_columnNames, leaves_binary, leaves_comparison, leaves_exprs, leaves_whens, leaves_exprOption, leaves_where, leaves_else, leaves_having, leaves_offset, kw, leaves_withClause, leaves_orderClause, leaves_tuples, leaves_fromClause, leaves_columns, leaves_assignments, cteLeaves, termLeaves, columnLeaves, leavesOf_where, leavesOf_else, leavesOf_expression, leavesOf_names, leavesOf_alias, leavesOf_collation, leavesOf_schema, leavesOf_order, leavesOf_limit, leavesOf_group, leavesOf_joinType, leavesOf_all, leavesOf_as, leavesOf_outer, leavesOf_asc, assignment, select, setExpr, resultColumns, table, constraint, groupClause, limit, words, literal, expr, setSpec]
  | orderingCollation_1 _ ih1 =>
    intro _
    have h1 := ih1 rfl
    clear ih1
    simp +decide [h1, LeavesOf, leaves_append, leaves_cons, leaves_nil, isLeaf, leaves_name, leaves_string, leaves_number, leaves_atLevel, leaves_tableOperand, leaves_names, leaves_qualified, leaves_mode, leaves_setOperator, leaves_joinOperator, leaves_direction, leaves_alias, leaves_collation, leaves_columnNames, leaves_binary, leaves_comparison, leaves_exprs, leaves_whens, leaves_exprOption, leaves_where, leaves_else, leaves_having, leaves_offset, kw, leaves_withClause, leaves_orderClause, leaves_tuples, leaves_fromClause, leaves_columns, leaves_assignments, cteLeaves, termLeaves, columnLeaves, leavesOf_where, leavesOf_else, leavesOf_expression, leavesOf_names, leavesOf_alias, leavesOf_collation, leavesOf_schema, leavesOf_order, leavesOf_limit, leavesOf_group, leavesOf_joinType, leavesOf_all, leavesOf_as, leavesOf_outer, leavesOf_asc, assignment, select, setExpr, resultColumns, table, constraint, groupClause, limit, words, literal, expr, setSpec]
  | orderingDirection_1 _ ih0 =>
    intro _
    have h0 := ih0 rfl
    clear ih0
    simp +decide [h0, LeavesOf, leaves_append, leaves_cons, leaves_nil, isLeaf, leaves_name, leaves_string, leaves_number, leaves_atLevel, leaves_tableOperand, leaves_names, leaves_qualified, leaves_mode, leaves_setOperator, leaves_joinOperator, leaves_direction, leaves_alias, leaves_collation, leaves_columnNames, leaves_binary, leaves_comparison, leaves_exprs, leaves_whens, leaves_exprOption, leaves_where, leaves_else, leaves_having, leaves_offset, kw, leaves_withClause, leaves_orderClause, leaves_tuples, leaves_fromClause, leaves_columns, leaves_assignments, cteLeaves, termLeaves, columnLeaves, leavesOf_where, leavesOf_else, leavesOf_expression, leavesOf_names, leavesOf_alias, leavesOf_collation, leavesOf_schema, leavesOf_order, leavesOf_limit, leavesOf_group, leavesOf_joinType, leavesOf_all, leavesOf_as, leavesOf_outer, leavesOf_asc, assignment, select, setExpr, resultColumns, table, constraint, groupClause, limit, words, literal, expr, setSpec]
  | orderingDirection_2 =>
    intro _
    simp +decide [LeavesOf, leaves_append, leaves_cons, leaves_nil, isLeaf, leaves_name, leaves_string, leaves_number, leaves_atLevel, leaves_tableOperand, leaves_names, leaves_qualified, leaves_mode, leaves_setOperator, leaves_joinOperator, leaves_direction, leaves_alias, leaves_collation, leaves_columnNames, leaves_binary, leaves_comparison, leaves_exprs, leaves_whens, leaves_exprOption, leaves_where, leaves_else, leaves_having, leaves_offset, kw, leaves_withClause, leaves_orderClause, leaves_tuples, leaves_fromClause, leaves_columns, leaves_assignments, cteLeaves, termLeaves, columnLeaves, leavesOf_where, leavesOf_else, leavesOf_expression, leavesOf_names, leavesOf_alias, leavesOf_collation, leavesOf_schema, leavesOf_order, leavesOf_limit, leavesOf_group, leavesOf_joinType, leavesOf_all, leavesOf_as, leavesOf_outer, leavesOf_asc, assignment, select, setExpr, resultColumns, table, constraint, groupClause, limit, words, literal, expr, setSpec]
  | limitClause_1 _ ih1 =>
    intro _
    have h1 := ih1 rfl
    clear ih1
    simp +decide [h1, LeavesOf, leaves_append, leaves_cons, leaves_nil, isLeaf, leaves_name, leaves_string, leaves_number, leaves_atLevel, leaves_tableOperand, leaves_names, leaves_qualified, leaves_mode, leaves_setOperator, leaves_joinOperator, leaves_direction, leaves_alias, leaves_collation, leaves_columnNames, leaves_binary, leaves_comparison, leaves_exprs, leaves_whens, leaves_exprOption, leaves_where, leaves_else, leaves_having, leaves_offset, kw, leaves_withClause, leaves_orderClause, leaves_tuples, leaves_fromClause, leaves_columns, leaves_assignments, cteLeaves, termLeaves, columnLeaves, leavesOf_where, leavesOf_else, leavesOf_expression, leavesOf_names, leavesOf_alias, leavesOf_collation, leavesOf_schema, leavesOf_order, leavesOf_limit, leavesOf_group, leavesOf_joinType, leavesOf_all, leavesOf_as, leavesOf_outer, leavesOf_asc, assignment, select, setExpr, resultColumns, table, constraint, groupClause, limit, words, literal, expr, setSpec]
  | limitClause_2 _ _ ih1 ih3 =>
    intro _
    have h1 := ih1 rfl
    have h3 := ih3 rfl
    clear ih1 ih3
    simp +decide [h1, h3, LeavesOf, leaves_append, leaves_cons, leaves_nil, isLeaf, leaves_name, leaves_string, leaves_number, leaves_atLevel, leaves_tableOperand, leaves_names, leaves_qualified, leaves_mode, leaves_setOperator, leaves_joinOperator, leaves_direction, leaves_alias, leaves_collation, leaves_columnNames, leaves_binary, leaves_comparison, leaves_exprs, leaves_whens, leaves_exprOption, leaves_where, leaves_else, leaves_having, leaves_offset, kw, leaves_withClause, leaves_orderClause, leaves_tuples, leaves_fromClause, leaves_columns, leaves_assignments, cteLeaves, termLeaves, columnLeaves, leavesOf_where, leavesOf_else, leavesOf_expression, leavesOf_names, leavesOf_alias, leavesOf_collation, leavesOf_schema, leavesOf_order, leavesOf_limit, leavesOf_group, leavesOf_joinType, leavesOf_all, leavesOf_as, leavesOf_outer, leavesOf_asc, assignment, select, setExpr, resultColumns, table, constraint, groupClause, limit, words, literal, expr, setSpec]
  | limitClause_3 _ _ ih1 ih3 =>
    intro _
    have h1 := ih1 rfl
    have h3 := ih3 rfl
    clear ih1 ih3
    simp +decide [h1, h3, LeavesOf, leaves_append, leaves_cons, leaves_nil, isLeaf, leaves_name, leaves_string, leaves_number, leaves_atLevel, leaves_tableOperand, leaves_names, leaves_qualified, leaves_mode, leaves_setOperator, leaves_joinOperator, leaves_direction, leaves_alias, leaves_collation, leaves_columnNames, leaves_binary, leaves_comparison, leaves_exprs, leaves_whens, leaves_exprOption, leaves_where, leaves_else, leaves_having, leaves_offset, kw, leaves_withClause, leaves_orderClause, leaves_tuples, leaves_fromClause, leaves_columns, leaves_assignments, cteLeaves, termLeaves, columnLeaves, leavesOf_where, leavesOf_else, leavesOf_expression, leavesOf_names, leavesOf_alias, leavesOf_collation, leavesOf_schema, leavesOf_order, leavesOf_limit, leavesOf_group, leavesOf_joinType, leavesOf_all, leavesOf_as, leavesOf_outer, leavesOf_asc, assignment, select, setExpr, resultColumns, table, constraint, groupClause, limit, words, literal, expr, setSpec]
  | attachStatement_1 _ _ _ ih2 ih4 ih5 =>
    intro _
    have h2 := ih2 rfl
    have h4 := ih4 rfl
    have h5 := ih5 rfl
    clear ih2 ih4 ih5
    simp +decide [h2, h4, h5, LeavesOf, leaves_append, leaves_cons, leaves_nil, isLeaf, leaves_name, leaves_string, leaves_number, leaves_atLevel, leaves_tableOperand, leaves_names, leaves_qualified, leaves_mode, leaves_setOperator, leaves_joinOperator, leaves_direction, leaves_alias, leaves_collation, leaves_columnNames, leaves_binary, leaves_comparison, leaves_exprs, leaves_whens, leaves_exprOption, leaves_where, leaves_else, leaves_having, leaves_offset, kw, leaves_withClause, leaves_orderClause, leaves_tuples, leaves_fromClause, leaves_columns, leaves_assignments, cteLeaves, termLeaves, columnLeaves, leavesOf_where, leavesOf_else, leavesOf_expression, leavesOf_names, leavesOf_alias, leavesOf_collation, leavesOf_schema, leavesOf_order, leavesOf_limit, leavesOf_group, leavesOf_joinType, leavesOf_all, leavesOf_as, leavesOf_outer, leavesOf_asc, assignment, select, setExpr, resultColumns, table, constraint, groupClause, limit, words, literal, expr, setSpec]
  | describeStatement_1 _ _ ih1 ih2 =>
    intro _
    have h1 := ih1 rfl
    have h2 := ih2 rfl
    clear ih1 ih2
    simp +decide [h1, h2, LeavesOf, leaves_append, leaves_cons, leaves_nil, isLeaf, leaves_name, leaves_string, leaves_number, leaves_atLevel, leaves_tableOperand, leaves_names, leaves_qualified, leaves_mode, leaves_setOperator, leaves_joinOperator, leaves_direction, leaves_alias, leaves_collation, leaves_columnNames, leaves_binary, leaves_comparison, leaves_exprs, leaves_whens, leaves_exprOption, leaves_where, leaves_else, leaves_having, leaves_offset, kw, leaves_withClause, leaves_orderClause, leaves_tuples, leaves_fromClause, leaves_columns, leaves_assignments, cteLeaves, termLeaves, columnLeaves, leavesOf_where, leavesOf_else, leavesOf_expression, leavesOf_names, leavesOf_alias, leavesOf_collation, leavesOf_schema, leavesOf_order, leavesOf_limit, leavesOf_group, leavesOf_joinType, leavesOf_all, leavesOf_as, leavesOf_outer, leavesOf_asc, assignment, select, setExpr, resultColumns, table, constraint, groupClause, limit, words, literal, expr, setSpec]
  | schemaName_1 _ ih0 =>
    intro _
    have h0 := ih0 rfl
    clear ih0
    simp +decide [h0, LeavesOf, leaves_append, leaves_cons, leaves_nil, isLeaf, leaves_name, leaves_string, leaves_number, leaves_atLevel, leaves_tableOperand, leaves_names, leaves_qualified, leaves_mode, leaves_setOperator, leaves_joinOperator, leaves_direction, leaves_alias, leaves_collation, leaves_columnNames, leaves_binary, leaves_comparison, leaves_exprs, leaves_whens, leaves_exprOption, leaves_where, leaves_else, leaves_having, leaves_offset, kw, leaves_withClause, leaves_orderClause, leaves_tuples, leaves_fromClause, leaves_columns, leaves_assignments, cteLeaves, termLeaves, columnLeaves, leavesOf_where, leavesOf_else, leavesOf_expression, leavesOf_names, leavesOf_alias, leavesOf_collation, leavesOf_schema, leavesOf_order, leavesOf_limit, leavesOf_group, leavesOf_joinType, leavesOf_all, leavesOf_as, leavesOf_outer, leavesOf_asc, assignment, select, setExpr, resultColumns, table, constraint, groupClause, limit, words, literal, expr, setSpec]
  | expressionList_1 _ ih0 =>
    intro _
    have h0 := ih0 rfl
    clear ih0
    simp +decide [h0, LeavesOf, leaves_append, leaves_cons, leaves_nil, isLeaf, leaves_name, leaves_string, leaves_number, leaves_atLevel, leaves_tableOperand, leaves_names, leaves_qualified, leaves_mode, leaves_setOperator, leaves_joinOperator, leaves_direction, leaves_alias, leaves_collation, leaves_columnNames, leaves_binary, leaves_comparison, leaves_exprs, leaves_whens, leaves_exprOption, leaves_where, leaves_else, leaves_having, leaves_offset, kw, leaves_withClause, leaves_orderClause, leaves_tuples, leaves_fromClause, leaves_columns, leaves_assignments, cteLeaves, termLeaves, columnLeaves, leavesOf_where, leavesOf_else, leavesOf_expression, leavesOf_names, leavesOf_alias, leavesOf_collation, leavesOf_schema, leavesOf_order, leavesOf_limit, leavesOf_group, leavesOf_joinType, leavesOf_all, leavesOf_as, leavesOf_outer, leavesOf_asc, assignment, select, setExpr, resultColumns, table, constraint, groupClause, limit, words, literal, expr, setSpec]
  | expressionList_2 _ _ ih0 ih2 =>
    intro _
    have h0 := ih0 rfl
    have h2 := ih2 rfl
    clear ih0 ih2
    simp +decide [h0, h2, LeavesOf, leaves_append, leaves_cons, leaves_nil, isLeaf, leaves_name, leaves_string, leaves_number, leaves_atLevel, leaves_tableOperand, leaves_names, leaves_qualified, leaves_mode, leaves_setOperator, leaves_joinOperator, leaves_direction, leaves_alias, leaves_collation, leaves_columnNames, leaves_binary, leaves_comparison, leaves_exprs, leaves_whens, leaves_exprOption, leaves_where, leaves_else, leaves_having, leaves_offset, kw, leaves_withClause, leaves_orderClause, leaves_tuples, leaves_fromClause, leaves_columns, leaves_assignments, cteLeaves, termLeaves, columnLeaves, leavesOf_where, leavesOf_else, leavesOf_expression, leavesOf_names, leavesOf_alias, leavesOf_collation, leavesOf_schema, leavesOf_order, leavesOf_limit, leavesOf_group, leavesOf_joinType, leavesOf_all, leavesOf_as, leavesOf_outer, leavesOf_asc, assignment, select, setExpr, resultColumns, table, constraint, groupClause, limit, words, literal, expr, setSpec]
  | primaryExpression_1 _ ih1 =>
    intro _
    have h1 := ih1 rfl
    clear ih1
    simp +decide [h1, LeavesOf, leaves_append, leaves_cons, leaves_nil, isLeaf, leaves_name, leaves_string, leaves_number, leaves_atLevel, leaves_tableOperand, leaves_names, leaves_qualified, leaves_mode, leaves_setOperator, leaves_joinOperator, leaves_direction, leaves_alias, leaves_collation, leaves_columnNames, leaves_binary, leaves_comparison, leaves_exprs, leaves_whens, leaves_exprOption, leaves_where, leaves_else, leaves_having, leaves_offset, kw, leaves_withClause, leaves_orderClause, leaves_tuples, leaves_fromClause, leaves_columns, leaves_assignments, cteLeaves, termLeaves, columnLeaves, leavesOf_where, leavesOf_else, leavesOf_expression, leavesOf_names, leavesOf_alias, leavesOf_collation, leavesOf_schema, leavesOf_order, leavesOf_limit, leavesOf_group, leavesOf_joinType, leavesOf_all, leavesOf_as, leavesOf_outer, leavesOf_asc, assignment, select, setExpr, resultColumns, table, constraint, groupClause, limit, words, literal, expr, setSpec]
  | primaryExpression_2 _ _ ih1 =>
    intro _
    have h1 := ih1 rfl
    clear ih1
    simp +decide [h1, LeavesOf, leaves_append, leaves_cons, leaves_nil, isLeaf, leaves_name, leaves_string, leaves_number, leaves_atLevel, leaves_tableOperand, leaves_names, leaves_qualified, leaves_mode, leaves_setOperator, leaves_joinOperator, leaves_direction, leaves_alias, leaves_collation, leaves_columnNames, leaves_binary, leaves_comparison, leaves_exprs, leaves_whens, leaves_exprOption, leaves_where, leaves_else, leaves_having, leaves_offset, kw, leaves_withClause, leaves_orderClause, leaves_tuples, leaves_fromClause, leaves_columns, leaves_assignments, cteLeaves, termLeaves, columnLeaves, leavesOf_where, leavesOf_else, leavesOf_expression, leavesOf_names, leavesOf_alias, leavesOf_collation, leavesOf_schema, leavesOf_order, leavesOf_limit, leavesOf_group, leavesOf_joinType, leavesOf_all, leavesOf_as, leavesOf_outer, leavesOf_asc, assignment, select, setExpr, resultColumns, table, constraint, groupClause, limit, words, literal, expr, setSpec]
  | primaryExpression_3 _ ih1 =>
    intro _
    have h1 := ih1 rfl
    clear ih1
    simp +decide [h1, LeavesOf, leaves_append, leaves_cons, leaves_nil, isLeaf, leaves_name, leaves_string, leaves_number, leaves_atLevel, leaves_tableOperand, leaves_names, leaves_qualified, leaves_mode, leaves_setOperator, leaves_joinOperator, leaves_direction, leaves_alias, leaves_collation, leaves_columnNames, leaves_binary, leaves_comparison, leaves_exprs, leaves_whens, leaves_exprOption, leaves_where, leaves_else, leaves_having, leaves_offset, kw, leaves_withClause, leaves_orderClause, leaves_tuples, leaves_fromClause, leaves_columns, leaves_assignments, cteLeaves, termLeaves, columnLeaves, leavesOf_where, leavesOf_else, leavesOf_expression, leavesOf_names, leavesOf_alias, leavesOf_collation, leavesOf_schema, leavesOf_order, leavesOf_limit, leavesOf_group, leavesOf_joinType, leavesOf_all, leavesOf_as, leavesOf_outer, leavesOf_asc, assignment, select, setExpr, resultColumns, table, constraint, groupClause, limit, words, literal, expr, setSpec]
  | primaryExpression_4 _ ih0 =>
    intro _
    have h0 := ih0 rfl
    clear ih0
    simp +decide [h0, LeavesOf, leaves_append, leaves_cons, leaves_nil, isLeaf, leaves_name, leaves_string, leaves_number, leaves_atLevel, leaves_tableOperand, leaves_names, leaves_qualified, leaves_mode, leaves_setOperator, leaves_joinOperator, leaves_direction, leaves_alias, leaves_collation, leaves_columnNames, leaves_binary, leaves_comparison, leaves_exprs, leaves_whens, leaves_exprOption, leaves_where, leaves_else, leaves_having, leaves_offset, kw, leaves_withClause, leaves_orderClause, leaves_tuples, leaves_fromClause, leaves_columns, leaves_assignments, cteLeaves, termLeaves, columnLeaves, leavesOf_where, leavesOf_else, leavesOf_expression, leavesOf_names, leavesOf_alias, leavesOf_collation, leavesOf_schema, leavesOf_order, leavesOf_limit, leavesOf_group, leavesOf_joinType, leavesOf_all, leavesOf_as, leavesOf_outer, leavesOf_asc, assignment, select, setExpr, resultColumns, table, constraint, groupClause, limit, words, literal, expr, setSpec]
  | primaryExpression_5 _ ih0 =>
    intro _
    have h0 := ih0 rfl
    clear ih0
    simp +decide [h0, LeavesOf, leaves_append, leaves_cons, leaves_nil, isLeaf, leaves_name, leaves_string, leaves_number, leaves_atLevel, leaves_tableOperand, leaves_names, leaves_qualified, leaves_mode, leaves_setOperator, leaves_joinOperator, leaves_direction, leaves_alias, leaves_collation, leaves_columnNames, leaves_binary, leaves_comparison, leaves_exprs, leaves_whens, leaves_exprOption, leaves_where, leaves_else, leaves_having, leaves_offset, kw, leaves_withClause, leaves_orderClause, leaves_tuples, leaves_fromClause, leaves_columns, leaves_assignments, cteLeaves, termLeaves, columnLeaves, leavesOf_where, leavesOf_else, leavesOf_expression, leavesOf_names, leavesOf_alias, leavesOf_collation, leavesOf_schema, leavesOf_order, leavesOf_limit, leavesOf_group, leavesOf_joinType, leavesOf_all, leavesOf_as, leavesOf_outer, leavesOf_asc, assignment, select, setExpr, resultColumns, table, constraint, groupClause, limit, words, literal, expr, setSpec]
  | unaryExpression_1 _ ih0 =>
    intro _
    have h0 := ih0 rfl
    exact h0
  | unaryExpression_2 _ ih1 =>
    intro _
    have h1 := ih1 rfl
    clear ih1
    simp +decide [h1, LeavesOf, leaves_append, leaves_cons, leaves_nil, isLeaf, leaves_name, leaves_string, leaves_number, leaves_atLevel, leaves_tableOperand, leaves_names, leaves_qualified, leaves_mode, leaves_setOperator, leaves_joinOperator, leaves_direction, leaves_alias, leaves_collation, leaves_columnNames, leaves_binary, leaves_comparison, leaves_exprs, leaves_whens, leaves_exprOption, leaves_where, leaves_else, leaves_having, leaves_offset, kw, leaves_withClause, leaves_orderClause, leaves_tuples, leaves_fromClause, leaves_columns, leaves_assignments, cteLeaves, termLeaves, columnLeaves, leavesOf_where, leavesOf_else, leavesOf_expression, leavesOf_names, leavesOf_alias, leavesOf_collation, leavesOf_schema, leavesOf_order, leavesOf_limit, leavesOf_group, leavesOf_joinType, leavesOf_all, leavesOf_as, leavesOf_outer, leavesOf_asc, assignment, select, setExpr, resultColumns, table, constraint, groupClause, limit, words, literal, expr, setSpec]
  | unaryExpression_3 _ ih1 =>
    intro _
    have h1 := ih1 rfl
    clear ih1
    simp +decide [h1, LeavesOf, leaves_append, leaves_cons, leaves_nil, isLeaf, leaves_name, leaves_string, leaves_number, leaves_atLevel, leaves_tableOperand, leaves_names, leaves_qualified, leaves_mode, leaves_setOperator, leaves_joinOperator, leaves_direction, leaves_alias, leaves_collation, leaves_columnNames, leaves_binary, leaves_comparison, leaves_exprs, leaves_whens, leaves_exprOption, leaves_where, leaves_else, leaves_having, leaves_offset, kw, leaves_withClause, leaves_orderClause, leaves_tuples, leaves_fromClause, leaves_columns, leaves_assignments, cteLeaves, termLeaves, columnLeaves, leavesOf_where, leavesOf_else, leavesOf_expression, leavesOf_names, leavesOf_alias, leavesOf_collation, leavesOf_schema, leavesOf_order, leavesOf_limit, leavesOf_group, leavesOf_joinType, leavesOf_all, leavesOf_as, leavesOf_outer, leavesOf_asc, assignment, select, setExpr, resultColumns, table, constraint, groupClause, limit, words, literal, expr, setSpec]
  | multiplicativeExpression_1 _ ih0 =>
    intro _
    have h0 := ih0 rfl
    exact h0
  | multiplicativeExpression_2 _ _ ih0 ih2 =>
    intro _
    have h0 := ih0 rfl
    have h2 := ih2 rfl
    clear ih0 ih2
    simp +decide [h0, h2, LeavesOf, leaves_append, leaves_cons, leaves_nil, isLeaf, leaves_name, leaves_string, leaves_number, leaves_atLevel, leaves_tableOperand, leaves_names, leaves_qualified, leaves_mode, leaves_setOperator, leaves_joinOperator, leaves_direction, leaves_alias, leaves_collation, leaves_columnNames, leaves_binary, leaves_comparison, leaves_exprs, leaves_whens, leaves_exprOption, leaves_where, leaves_else, leaves_having, leaves_offset, kw, leaves_withClause, leaves_orderClause, leaves_tuples, leaves_fromClause, leaves_columns, leaves_assignments, cteLeaves, termLeaves, columnLeaves, leavesOf_where, leavesOf_else, leavesOf_expression, leavesOf_names, leavesOf_alias, leavesOf_collation, leavesOf_schema, leavesOf_order, leavesOf_limit, leavesOf_group, leavesOf_joinType, leavesOf_all, leavesOf_as, leavesOf_outer, leavesOf_asc, assignment, select, setExpr, resultColumns, table, constraint, groupClause, limit, words, literal, expr, setSpec]
  | multiplicativeExpression_3 _ _ ih0 ih2 =>
    intro _
    have h0 := ih0 rfl
    have h2 := ih2 rfl
    clear ih0 ih2
    simp +decide [h0, h2, LeavesOf, leaves_append, leaves_cons, leaves_nil, isLeaf, leaves_name, leaves_string, leaves_number, leaves_atLevel, leaves_tableOperand, leaves_names, leaves_qualified, leaves_mode, leaves_setOperator, leaves_joinOperator, leaves_direction, leaves_alias, leaves_collation, leaves_columnNames, leaves_binary, leaves_comparison, leaves_exprs, leaves_whens, leaves_exprOption, leaves_where, leaves_else, leaves_having, leaves_offset, kw, leaves_withClause, leaves_orderClause, leaves_tuples, leaves_fromClause, leaves_columns, leaves_assignments, cteLeaves, termLeaves, columnLeaves, leavesOf_where, leavesOf_else, leavesOf_expression, leavesOf_names, leavesOf_alias, leavesOf_collation, leavesOf_schema, leavesOf_order, leavesOf_limit, leavesOf_group, leavesOf_joinType, leavesOf_all, leavesOf_as, leavesOf_outer, leavesOf_asc, assignment, select, setExpr, resultColumns, table, constraint, groupClause, limit, words, literal, expr, setSpec]
  | additiveExpression_1 _ ih0 =>
    intro _
    have h0 := ih0 rfl
    exact h0
  | additiveExpression_2 _ _ ih0 ih2 =>
    intro _
    have h0 := ih0 rfl
    have h2 := ih2 rfl
    clear ih0 ih2
    simp +decide [h0, h2, LeavesOf, leaves_append, leaves_cons, leaves_nil, isLeaf, leaves_name, leaves_string, leaves_number, leaves_atLevel, leaves_tableOperand, leaves_names, leaves_qualified, leaves_mode, leaves_setOperator, leaves_joinOperator, leaves_direction, leaves_alias, leaves_collation, leaves_columnNames, leaves_binary, leaves_comparison, leaves_exprs, leaves_whens, leaves_exprOption, leaves_where, leaves_else, leaves_having, leaves_offset, kw, leaves_withClause, leaves_orderClause, leaves_tuples, leaves_fromClause, leaves_columns, leaves_assignments, cteLeaves, termLeaves, columnLeaves, leavesOf_where, leavesOf_else, leavesOf_expression, leavesOf_names, leavesOf_alias, leavesOf_collation, leavesOf_schema, leavesOf_order, leavesOf_limit, leavesOf_group, leavesOf_joinType, leavesOf_all, leavesOf_as, leavesOf_outer, leavesOf_asc, assignment, select, setExpr, resultColumns, table, constraint, groupClause, limit, words, literal, expr, setSpec]
  | additiveExpression_3 _ _ ih0 ih2 =>
    intro _
    have h0 := ih0 rfl
    have h2 := ih2 rfl
    clear ih0 ih2
    simp +decide [h0, h2, LeavesOf, leaves_append, leaves_cons, leaves_nil, isLeaf, leaves_name, leaves_string, leaves_number, leaves_atLevel, leaves_tableOperand, leaves_names, leaves_qualified, leaves_mode, leaves_setOperator, leaves_joinOperator, leaves_direction, leaves_alias, leaves_collation, leaves_columnNames, leaves_binary, leaves_comparison, leaves_exprs, leaves_whens, leaves_exprOption, leaves_where, leaves_else, leaves_having, leaves_offset, kw, leaves_withClause, leaves_orderClause, leaves_tuples, leaves_fromClause, leaves_columns, leaves_assignments, cteLeaves, termLeaves, columnLeaves, leavesOf_where, leavesOf_else, leavesOf_expression, leavesOf_names, leavesOf_alias, leavesOf_collation, leavesOf_schema, leavesOf_order, leavesOf_limit, leavesOf_group, leavesOf_joinType, leavesOf_all, leavesOf_as, leavesOf_outer, leavesOf_asc, assignment, select, setExpr, resultColumns, table, constraint, groupClause, limit, words, literal, expr, setSpec]
  | additiveExpression_4 _ _ ih0 ih2 =>
    intro _
    have h0 := ih0 rfl
    have h2 := ih2 rfl
    clear ih0 ih2
    simp +decide [h0, h2, LeavesOf, leaves_append, leaves_cons, leaves_nil, isLeaf, leaves_name, leaves_string, leaves_number, leaves_atLevel, leaves_tableOperand, leaves_names, leaves_qualified, leaves_mode, leaves_setOperator, leaves_joinOperator, leaves_direction, leaves_alias, leaves_collation, leaves_columnNames, leaves_binary, leaves_comparison, leaves_exprs, leaves_whens, leaves_exprOption, leaves_where, leaves_else, leaves_having, leaves_offset, kw, leaves_withClause, leaves_orderClause, leaves_tuples, leaves_fromClause, leaves_columns, leaves_assignments, cteLeaves, termLeaves, columnLeaves, leavesOf_where, leavesOf_else, leavesOf_expression, leavesOf_names, leavesOf_alias, leavesOf_collation, leavesOf_schema, leavesOf_order, leavesOf_limit, leavesOf_group, leavesOf_joinType, leavesOf_all, leavesOf_as, leavesOf_outer, leavesOf_asc, assignment, select, setExpr, resultColumns, table, constraint, groupClause, limit, words, literal, expr, setSpec]
  | comparativeExpression_1 _ ih0 =>
    intro _
    have h0 := ih0 rfl
    exact h0
  | comparativeExpression_2 _ _ ih0 ih2 =>
    intro _
    have h0 := ih0 rfl
    have h2 := ih2 rfl
    clear ih0 ih2
    simp +decide [h0, h2, LeavesOf, leaves_append, leaves_cons, leaves_nil, isLeaf, leaves_name, leaves_string, leaves_number, leaves_atLevel, leaves_tableOperand, leaves_names, leaves_qualified, leaves_mode, leaves_setOperator, leaves_joinOperator, leaves_direction, leaves_alias, leaves_collation, leaves_columnNames, leaves_binary, leaves_comparison, leaves_exprs, leaves_whens, leaves_exprOption, leaves_where, leaves_else, leaves_having, leaves_offset, kw, leaves_withClause, leaves_orderClause, leaves_tuples, leaves_fromClause, leaves_columns, leaves_assignments, cteLeaves, termLeaves, columnLeaves, leavesOf_where, leavesOf_else, leavesOf_expression, leavesOf_names, leavesOf_alias, leavesOf_collation, leavesOf_schema, leavesOf_order, leavesOf_limit, leavesOf_group, leavesOf_joinType, leavesOf_all, leavesOf_as, leavesOf_outer, leavesOf_asc, assignment, select, setExpr, resultColumns, table, constraint, groupClause, limit, words, literal, expr, setSpec]
  | comparativeExpression_3 _ _ ih0 ih2 =>
    intro _
    have h0 := ih0 rfl
    have h2 := ih2 rfl
    clear ih0 ih2
    simp +decide [h0, h2, LeavesOf, leaves_append, leaves_cons, leaves_nil, isLeaf, leaves_name, leaves_string, leaves_number, leaves_atLevel, leaves_tableOperand, leaves_names, leaves_qualified, leaves_mode, leaves_setOperator, leaves_joinOperator, leaves_direction, leaves_alias, leaves_collation, leaves_columnNames, leaves_binary, leaves_comparison, leaves_exprs, leaves_whens, leaves_exprOption, leaves_where, leaves_else, leaves_having, leaves_offset, kw, leaves_withClause, leaves_orderClause, leaves_tuples, leaves_fromClause, leaves_columns, leaves_assignments, cteLeaves, termLeaves, columnLeaves, leavesOf_where, leavesOf_else, leavesOf_expression, leavesOf_names, leavesOf_alias, leavesOf_collation, leavesOf_schema, leavesOf_order, leavesOf_limit, leavesOf_group, leavesOf_joinType, leavesOf_all, leavesOf_as, leavesOf_outer, leavesOf_asc, assignment, select, setExpr, resultColumns, table, constraint, groupClause, limit, words, literal, expr, setSpec]
  | comparativeExpression_4 _ _ ih0 ih2 =>
    intro _
    have h0 := ih0 rfl
    have h2 := ih2 rfl
    clear ih0 ih2
    simp +decide [h0, h2, LeavesOf, leaves_append, leaves_cons, leaves_nil, isLeaf, leaves_name, leaves_string, leaves_number, leaves_atLevel, leaves_tableOperand, leaves_names, leaves_qualified, leaves_mode, leaves_setOperator, leaves_joinOperator, leaves_direction, leaves_alias, leaves_collation, leaves_columnNames, leaves_binary, leaves_comparison, leaves_exprs, leaves_whens, leaves_exprOption, leaves_where, leaves_else, leaves_having, leaves_offset, kw, leaves_withClause, leaves_orderClause, leaves_tuples, leaves_fromClause, leaves_columns, leaves_assignments, cteLeaves, termLeaves, columnLeaves, leavesOf_where, leavesOf_else, leavesOf_expression, leavesOf_names, leavesOf_alias, leavesOf_collation, leavesOf_schema, leavesOf_order, leavesOf_limit, leavesOf_group, leavesOf_joinType, leavesOf_all, leavesOf_as, leavesOf_outer, leavesOf_asc, assignment, select, setExpr, resultColumns, table, constraint, groupClause, limit, words, literal, expr, setSpec]
  | comparativeExpression_5 _ _ ih0 ih2 =>
    intro _
    have h0 := ih0 rfl
    have h2 := ih2 rfl
    clear ih0 ih2
    simp +decide [h0, h2, LeavesOf, leaves_append, leaves_cons, leaves_nil, isLeaf, leaves_name, leaves_string, leaves_number, leaves_atLevel, leaves_tableOperand, leaves_names, leaves_qualified, leaves_mode, leaves_setOperator, leaves_joinOperator, leaves_direction, leaves_alias, leaves_collation, leaves_columnNames, leaves_binary, leaves_comparison, leaves_exprs, leaves_whens, leaves_exprOption, leaves_where, leaves_else, leaves_having, leaves_offset, kw, leaves_withClause, leaves_orderClause, leaves_tuples, leaves_fromClause, leaves_columns, leaves_assignments, cteLeaves, termLeaves, columnLeaves, leavesOf_where, leavesOf_else, leavesOf_expression, leavesOf_names, leavesOf_alias, leavesOf_collation, leavesOf_schema, leavesOf_order, leavesOf_limit, leavesOf_group, leavesOf_joinType, leavesOf_all, leavesOf_as, leavesOf_outer, leavesOf_asc, assignment, select, setExpr, resultColumns, table, constraint, groupClause, limit, words, literal, expr, setSpec]
  | comparativeExpression_6 _ _ ih0 ih2 =>
    intro _
    have h0 := ih0 rfl
    have h2 := ih2 rfl
    clear ih0 ih2
    simp +decide [h0, h2, LeavesOf, leaves_append, leaves_cons, leaves_nil, isLeaf, leaves_name, leaves_string, leaves_number, leaves_atLevel, leaves_tableOperand, leaves_names, leaves_qualified, leaves_mode, leaves_setOperator, leaves_joinOperator, leaves_direction, leaves_alias, leaves_collation, leaves_columnNames, leaves_binary, leaves_comparison, leaves_exprs, leaves_whens, leaves_exprOption, leaves_where, leaves_else, leaves_having, leaves_offset, kw, leaves_withClause, leaves_orderClause, leaves_tuples, leaves_fromClause, leaves_columns, leaves_assignments, cteLeaves, termLeaves, columnLeaves, leavesOf_where, leavesOf_else, leavesOf_expression, leavesOf_names, leavesOf_alias, leavesOf_collation, leavesOf_schema, leavesOf_order, leavesOf_limit, leavesOf_group, leavesOf_joinType, leavesOf_all, leavesOf_as, leavesOf_outer, leavesOf_asc, assignment, select, setExpr, resultColumns, table, constraint, groupClause, limit, words, literal, expr, setSpec]
  | comparativeExpression_7 _ _ ih0 ih2 =>
    intro _
    have h0 := ih0 rfl
    have h2 := ih2 rfl
    clear ih0 ih2
    simp +decide [h0, h2, LeavesOf, leaves_append, leaves_cons, leaves_nil, isLeaf, leaves_name, leaves_string, leaves_number, leaves_atLevel, leaves_tableOperand, leaves_names, leaves_qualified, leaves_mode, leaves_setOperator, leaves_joinOperator, leaves_direction, leaves_alias, leaves_collation, leaves_columnNames, leaves_binary, leaves_comparison, leaves_exprs, leaves_whens, leaves_exprOption, leaves_where, leaves_else, leaves_having, leaves_offset, kw, leaves_withClause, leaves_orderClause, leaves_tuples, leaves_fromClause, leaves_columns, leaves_assignments, cteLeaves, termLeaves, columnLeaves, leavesOf_where, leavesOf_else, leavesOf_expression, leavesOf_names, leavesOf_alias, leavesOf_collation, leavesOf_schema, leavesOf_order, leavesOf_limit, leavesOf_group, leavesOf_joinType, leavesOf_all, leavesOf_as, leavesOf_outer, leavesOf_asc, assignment, select, setExpr, resultColumns, table, constraint, groupClause, limit, words, literal, expr, setSpec]
  | comparativeExpression_8 _ ih0 =>
    intro _
    have h0 := ih0 rfl
    clear ih0
    simp +decide [h0, LeavesOf, leaves_append, leaves_cons, leaves_nil, isLeaf, leaves_name, leaves_string, leaves_number, leaves_atLevel, leaves_tableOperand, leaves_names, leaves_qualified, leaves_mode, leaves_setOperator, leaves_joinOperator, leaves_direction, leaves_alias, leaves_collation, leaves_columnNames, leaves_binary, leaves_comparison, leaves_exprs, leaves_whens, leaves_exprOption, leaves_where, leaves_else, leaves_having, leaves_offset, kw, leaves_withClause, leaves_orderClause, leaves_tuples, leaves_fromClause, leaves_columns, leaves_assignments, cteLeaves, termLeaves, columnLeaves, leavesOf_where, leavesOf_else, leavesOf_expression, leavesOf_names, leavesOf_alias, leavesOf_collation, leavesOf_schema, leavesOf_order, leavesOf_limit, leavesOf_group, leavesOf_joinType, leavesOf_all, leavesOf_as, leavesOf_outer, leavesOf_asc, assignment, select, setExpr, resultColumns, table, constraint, groupClause, limit, words, literal, expr, setSpec]
  | comparativeExpression_9 _ ih0 =>
    intro _
    have h0 := ih0 rfl
    clear ih0
    simp +decide [h0, LeavesOf, leaves_append, leaves_cons, leaves_nil, isLeaf, leaves_name, leaves_string, leaves_number, leaves_atLevel, leaves_tableOperand, leaves_names, leaves_qualified, leaves_mode, leaves_setOperator, leaves_joinOperator, leaves_direction, leaves_alias, leaves_collation, leaves_columnNames, leaves_binary, leaves_comparison, leaves_exprs, leaves_whens, leaves_exprOption, leaves_where, leaves_else, leaves_having, leaves_offset, kw, leaves_withClause, leaves_orderClause, leaves_tuples, leaves_fromClause, leaves_columns, leaves_assignments, cteLeaves, termLeaves, columnLeaves, leavesOf_where, leavesOf_else, leavesOf_expression, leavesOf_names, leavesOf_alias, leavesOf_collation, leavesOf_schema, leavesOf_order, leavesOf_limit, leavesOf_group, leavesOf_joinType, leavesOf_all, leavesOf_as, leavesOf_outer, leavesOf_asc, assignment, select, setExpr, resultColumns, table, constraint, groupClause, limit, words, literal, expr, setSpec]
  | comparativeExpression_10 _ _ ih0 ih2 =>
    intro _
    have h0 := ih0 rfl
    have h2 := ih2 rfl
    clear ih0 ih2
    simp +decide [h0, h2, LeavesOf, leaves_append, leaves_cons, leaves_nil, isLeaf, leaves_name, leaves_string, leaves_number, leaves_atLevel, leaves_tableOperand, leaves_names, leaves_qualified, leaves_mode, leaves_setOperator, leaves_joinOperator, leaves_direction, leaves_alias, leaves_collation, leaves_columnNames, leaves_binary, leaves_comparison, leaves_exprs, leaves_whens, leaves_exprOption, leaves_where, leaves_else, leaves_having, leaves_offset, kw, leaves_withClause, leaves_orderClause, leaves_tuples, leaves_fromClause, leaves_columns, leaves_assignments, cteLeaves, termLeaves, columnLeaves, leavesOf_where, leavesOf_else, leavesOf_expression, leavesOf_names, leavesOf_alias, leavesOf_collation, leavesOf_schema, leavesOf_order, leavesOf_limit, leavesOf_group, leavesOf_joinType, leavesOf_all, leavesOf_as, leavesOf_outer, leavesOf_asc, assignment, select, setExpr, resultColumns, table, constraint, groupClause, limit, words, literal, expr, setSpec]
  | comparativeExpression_11 _ ih0 =>
    intro _
    have h0 := ih0 rfl
    clear ih0
    simp +decide [h0, LeavesOf, leaves_append, leaves_cons, leaves_nil, isLeaf, leaves_name, leaves_string, leaves_number, leaves_atLevel, leaves_tableOperand, leaves_names, leaves_qualified, leaves_mode, leaves_setOperator, leaves_joinOperator, leaves_direction, leaves_alias, leaves_collation, leaves_columnNames, leaves_binary, leaves_comparison, leaves_exprs, leaves_whens, leaves_exprOption, leaves_where, leaves_else, leaves_having, leaves_offset, kw, leaves_withClause, leaves_orderClause, leaves_tuples, leaves_fromClause, leaves_columns, leaves_assignments, cteLeaves, termLeaves, columnLeaves, leavesOf_where, leavesOf_else, leavesOf_expression, leavesOf_names, leavesOf_alias, leavesOf_collation, leavesOf_schema, leavesOf_order, leavesOf_limit, leavesOf_group, leavesOf_joinType, leavesOf_all, leavesOf_as, leavesOf_outer, leavesOf_asc, assignment, select, setExpr, resultColumns, table, constraint, groupClause, limit, words, literal, expr, setSpec]
  | comparativeExpression_12 _ ih0 =>
    intro _
    have h0 := ih0 rfl
    clear ih0
    simp +decide [h0, LeavesOf, leaves_append, leaves_cons, leaves_nil, isLeaf, leaves_name, leaves_string, leaves_number, leaves_atLevel, leaves_tableOperand, leaves_names, leaves_qualified, leaves_mode, leaves_setOperator, leaves_joinOperator, leaves_direction, leaves_alias, leaves_collation, leaves_columnNames, leaves_binary, leaves_comparison, leaves_exprs, leaves_whens, leaves_exprOption, leaves_where, leaves_else, leaves_having, leaves_offset, kw, leaves_withClause, leaves_orderClause, leaves_tuples, leaves_fromClause, leaves_columns, leaves_assignments, cteLeaves, termLeaves, columnLeaves, leavesOf_where, leavesOf_else, leavesOf_expression, leavesOf_names, leavesOf_alias, leavesOf_collation, leavesOf_schema, leavesOf_order, leavesOf_limit, leavesOf_group, leavesOf_joinType, leavesOf_all, leavesOf_as, leavesOf_outer, leavesOf_asc, assignment, select, setExpr, resultColumns, table, constraint, groupClause, limit, words, literal, expr, setSpec]
  | comparativeExpression_13 _ ih0 =>
    intro _
    have h0 := ih0 rfl
    clear ih0
    simp +decide [h0, LeavesOf, leaves_append, leaves_cons, leaves_nil, isLeaf, leaves_name, leaves_string, leaves_number, leaves_atLevel, leaves_tableOperand, leaves_names, leaves_qualified, leaves_mode, leaves_setOperator, leaves_joinOperator, leaves_direction, leaves_alias, leaves_collation, leaves_columnNames, leaves_binary, leaves_comparison, leaves_exprs, leaves_whens, leaves_exprOption, leaves_where, leaves_else, leaves_having, leaves_offset, kw, leaves_withClause, leaves_orderClause, leaves_tuples, leaves_fromClause, leaves_columns, leaves_assignments, cteLeaves, termLeaves, columnLeaves, leavesOf_where, leavesOf_else, leavesOf_expression, leavesOf_names, leavesOf_alias, leavesOf_collation, leavesOf_schema, leavesOf_order, leavesOf_limit, leavesOf_group, leavesOf_joinType, leavesOf_all, leavesOf_as, leavesOf_outer, leavesOf_asc, assignment, select, setExpr, resultColumns, table, constraint, groupClause, limit, words, literal, expr, setSpec]
  | comparativeExpression_14 _ ih0 =>
    intro _
    have h0 := ih0 rfl
    clear ih0
    simp +decide [h0, LeavesOf, leaves_append, leaves_cons, leaves_nil, isLeaf, leaves_name, leaves_string, leaves_number, leaves_atLevel, leaves_tableOperand, leaves_names, leaves_qualified, leaves_mode, leaves_setOperator, leaves_joinOperator, leaves_direction, leaves_alias, leaves_collation, leaves_columnNames, leaves_binary, leaves_comparison, leaves_exprs, leaves_whens, leaves_exprOption, leaves_where, leaves_else, leaves_having, leaves_offset, kw, leaves_withClause, leaves_orderClause, leaves_tuples, leaves_fromClause, leaves_columns, leaves_assignments, cteLeaves, termLeaves, columnLeaves, leavesOf_where, leavesOf_else, leavesOf_expression, leavesOf_names, leavesOf_alias, leavesOf_collation, leavesOf_schema, leavesOf_order, leavesOf_limit, leavesOf_group, leavesOf_joinType, leavesOf_all, leavesOf_as, leavesOf_outer, leavesOf_asc, assignment, select, setExpr, resultColumns, table, constraint, groupClause, limit, words, literal, expr, setSpec]
  | comparativeExpression_15 _ ih0 =>
    intro _
    have h0 := ih0 rfl
    clear ih0
    simp +decide [h0, LeavesOf, leaves_append, leaves_cons, leaves_nil, isLeaf, leaves_name, leaves_string, leaves_number, leaves_atLevel, leaves_tableOperand, leaves_names, leaves_qualified, leaves_mode, leaves_setOperator, leaves_joinOperator, leaves_direction, leaves_alias, leaves_collation, leaves_columnNames, leaves_binary, leaves_comparison, leaves_exprs, leaves_whens, leaves_exprOption, leaves_where, leaves_else, leaves_having, leaves_offset, kw, leaves_withClause, leaves_orderClause, leaves_tuples, leaves_fromClause, leaves_columns, leaves_assignments, cteLeaves, termLeaves, columnLeaves, leavesOf_where, leavesOf_else, leavesOf_expression, leavesOf_names, leavesOf_alias, leavesOf_collation, leavesOf_schema, leavesOf_order, leavesOf_limit, leavesOf_group, leavesOf_joinType, leavesOf_all, leavesOf_as, leavesOf_outer, leavesOf_asc, assignment, select, setExpr, resultColumns, table, constraint, groupClause, limit, words, literal, expr, setSpec]
  | comparativeExpression_16 _ _ ih0 ih3 =>
    intro _
    have h0 := ih0 rfl
    have h3 := ih3 rfl
    clear ih0 ih3
    simp +decide [h0, h3, LeavesOf, leaves_append, leaves_cons, leaves_nil, isLeaf, leaves_name, leaves_string, leaves_number, leaves_atLevel, leaves_tableOperand, leaves_names, leaves_qualified, leaves_mode, leaves_setOperator, leaves_joinOperator, leaves_direction, leaves_alias, leaves_collation, leaves_columnNames, leaves_binary, leaves_comparison, leaves_exprs, leaves_whens, leaves_exprOption, leaves_where, leaves_else, leaves_having, leaves_offset, kw, leaves_withClause, leaves_orderClause, leaves_tuples, leaves_fromClause, leaves_columns, leaves_assignments, cteLeaves, termLeaves, columnLeaves, leavesOf_where, leavesOf_else, leavesOf_expression, leavesOf_names, leavesOf_alias, leavesOf_collation, leavesOf_schema, leavesOf_order, leavesOf_limit, leavesOf_group, leavesOf_joinType, leavesOf_all, leavesOf_as, leavesOf_outer, leavesOf_asc, assignment, select, setExpr, resultColumns, table, constraint, groupClause, limit, words, literal, expr, setSpec]
  | comparativeExpression_17 _ _ ih0 ih4 =>
    intro _
    have h0 := ih0 rfl
    have h4 := ih4 rfl
    clear ih0 ih4
    simp +decide [h0, h4, LeavesOf, leaves_append, leaves_cons, leaves_nil, isLeaf, leaves_name, leaves_string, leaves_number, leaves_atLevel, leaves_tableOperand, leaves_names, leaves_qualified, leaves_mode, leaves_setOperator, leaves_joinOperator, leaves_direction, leaves_alias, leaves_collation, leaves_columnNames, leaves_binary, leaves_comparison, leaves_exprs, leaves_whens, leaves_exprOption, leaves_where, leaves_else, leaves_having, leaves_offset, kw, leaves_withClause, leaves_orderClause, leaves_tuples, leaves_fromClause, leaves_columns, leaves_assignments, cteLeaves, termLeaves, columnLeaves, leavesOf_where, leavesOf_else, leavesOf_expression, leavesOf_names, leavesOf_alias, leavesOf_collation, leavesOf_schema, leavesOf_order, leavesOf_limit, leavesOf_group, leavesOf_joinType, leavesOf_all, leavesOf_as, leavesOf_outer, leavesOf_asc, assignment, select, setExpr, resultColumns, table, constraint, groupClause, limit, words, literal, expr, setSpec]
  | comparativeExpression_18 _ _ ih0 ih3 =>
    intro _
    have h0 := ih0 rfl
    have h3 := ih3 rfl
    clear ih0 ih3
    simp +decide [h0, h3, LeavesOf, leaves_append, leaves_cons, leaves_nil, isLeaf, leaves_name, leaves_string, leaves_number, leaves_atLevel, leaves_tableOperand, leaves_names, leaves_qualified, leaves_mode, leaves_setOperator, leaves_joinOperator, leaves_direction, leaves_alias, leaves_collation, leaves_columnNames, leaves_binary, leaves_comparison, leaves_exprs, leaves_whens, leaves_exprOption, leaves_where, leaves_else, leaves_having, leaves_offset, kw, leaves_withClause, leaves_orderClause, leaves_tuples, leaves_fromClause, leaves_columns, leaves_assignments, cteLeaves, termLeaves, columnLeaves, leavesOf_where, leavesOf_else, leavesOf_expression, leavesOf_names, leavesOf_alias, leavesOf_collation, leavesOf_schema, leavesOf_order, leavesOf_limit, leavesOf_group, leavesOf_joinType, leavesOf_all, leavesOf_as, leavesOf_outer, leavesOf_asc, assignment, select, setExpr, resultColumns, table, constraint, groupClause, limit, words, literal, expr, setSpec]
  | comparativeExpression_19 _ _ ih0 ih4 =>
    intro _
    have h0 := ih0 rfl
    have h4 := ih4 rfl
    clear ih0 ih4
    simp +decide [h0, h4, LeavesOf, leaves_append, leaves_cons, leaves_nil, isLeaf, leaves_name, leaves_string, leaves_number, leaves_atLevel, leaves_tableOperand, leaves_names, leaves_qualified, leaves_mode, leaves_setOperator, leaves_joinOperator, leaves_direction, leaves_alias, leaves_collation, leaves_columnNames, leaves_binary, leaves_comparison, leaves_exprs, leaves_whens, leaves_exprOption, leaves_where, leaves_else, leaves_having, leaves_offset, kw, leaves_withClause, leaves_orderClause, leaves_tuples, leaves_fromClause, leaves_columns, leaves_assignments, cteLeaves, termLeaves, columnLeaves, leavesOf_where, leavesOf_else, leavesOf_expression, leavesOf_names, leavesOf_alias, leavesOf_collation, leavesOf_schema, leavesOf_order, leavesOf_limit, leavesOf_group, leavesOf_joinType, leavesOf_all, leavesOf_as, leavesOf_outer, leavesOf_asc, assignment, select, setExpr, resultColumns, table, constraint, groupClause, limit, words, literal, expr, setSpec]
  | comparativeExpression_20 _ _ ih0 ih2 =>
    intro _
    have h0 := ih0 rfl
    have h2 := ih2 rfl
    clear ih0 ih2
    simp +decide [h0, h2, LeavesOf, leaves_append, leaves_cons, leaves_nil, isLeaf, leaves_name, leaves_string, leaves_number, leaves_atLevel, leaves_tableOperand, leaves_names, leaves_qualified, leaves_mode, leaves_setOperator, leaves_joinOperator, leaves_direction, leaves_alias, leaves_collation, leaves_columnNames, leaves_binary, leaves_comparison, leaves_exprs, leaves_whens, leaves_exprOption, leaves_where, leaves_else, leaves_having, leaves_offset, kw, leaves_withClause, leaves_orderClause, leaves_tuples, leaves_fromClause, leaves_columns, leaves_assignments, cteLeaves, termLeaves, columnLeaves, leavesOf_where, leavesOf_else, leavesOf_expression, leavesOf_names, leavesOf_alias, leavesOf_collation, leavesOf_schema, leavesOf_order, leavesOf_limit, leavesOf_group, leavesOf_joinType, leavesOf_all, leavesOf_as, leavesOf_outer, leavesOf_asc, assignment, select, setExpr, resultColumns, table, constraint, groupClause, limit, words, literal, expr, setSpec]
  | comparativeExpression_21 _ _ ih0 ih3 =>
    intro _
    have h0 := ih0 rfl
    have h3 := ih3 rfl
    clear ih0 ih3
    simp +decide [h0, h3, LeavesOf, leaves_append, leaves_cons, leaves_nil, isLeaf, leaves_name, leaves_string, leaves_number, leaves_atLevel, leaves_tableOperand, leaves_names, leaves_qualified, leaves_mode, leaves_setOperator, leaves_joinOperator, leaves_direction, leaves_alias, leaves_collation, leaves_columnNames, leaves_binary, leaves_comparison, leaves_exprs, leaves_whens, leaves_exprOption, leaves_where, leaves_else, leaves_having, leaves_offset, kw, leaves_withClause, leaves_orderClause, leaves_tuples, leaves_fromClause, leaves_columns, leaves_assignments, cteLeaves, termLeaves, columnLeaves, leavesOf_where, leavesOf_else, leavesOf_expression, leavesOf_names, leavesOf_alias, leavesOf_collation, leavesOf_schema, leavesOf_order, leavesOf_limit, leavesOf_group, leavesOf_joinType, leavesOf_all, leavesOf_as, leavesOf_outer, leavesOf_asc, assignment, select, setExpr, resultColumns, table, constraint, groupClause, limit, words, literal, expr, setSpec]
  | comparativeExpression_22 _ _ _ ih0 ih2 ih4 =>
    intro _
    have h0 := ih0 rfl
    have h2 := ih2 rfl
    have h4 := ih4 rfl
    clear ih0 ih2 ih4
    simp +decide [h0, h2, h4, LeavesOf, leaves_append, leaves_cons, leaves_nil, isLeaf, leaves_name, leaves_string, leaves_number, leaves_atLevel, leaves_tableOperand, leaves_names, leaves_qualified, leaves_mode, leaves_setOperator, leaves_joinOperator, leaves_direction, leaves_alias, leaves_collation, leaves_columnNames, leaves_binary, leaves_comparison, leaves_exprs, leaves_whens, leaves_exprOption, leaves_where, leaves_else, leaves_having, leaves_offset, kw, leaves_withClause, leaves_orderClause, leaves_tuples, leaves_fromClause, leaves_columns, leaves_assignments, cteLeaves, termLeaves, columnLeaves, leavesOf_where, leavesOf_else, leavesOf_expression, leavesOf_names, leavesOf_alias, leavesOf_collation, leavesOf_schema, leavesOf_order, leavesOf_limit, leavesOf_group, leavesOf_joinType, leavesOf_all, leavesOf_as, leavesOf_outer, leavesOf_asc, assignment, select, setExpr, resultColumns, table, constraint, groupClause, limit, words, literal, expr, setSpec]
  | comparativeExpression_23 _ _ _ ih0 ih3 ih5 =>
    intro _
    have h0 := ih0 rfl
    have h3 := ih3 rfl
    have h5 := ih5 rfl
    clear ih0 ih3 ih5
    simp +decide [h0, h3, h5, LeavesOf, leaves_append, leaves_cons, leaves_nil, isLeaf, leaves_name, leaves_string, leaves_number, leaves_atLevel, leaves_tableOperand, leaves_names, leaves_qualified, leaves_mode, leaves_setOperator, leaves_joinOperator, leaves_direction, leaves_alias, leaves_collation, leaves_columnNames, leaves_binary, leaves_comparison, leaves_exprs, leaves_whens, leaves_exprOption, leaves_where, leaves_else, leaves_having, leaves_offset, kw, leaves_withClause, leaves_orderClause, leaves_tuples, leaves_fromClause, leaves_columns, leaves_assignments, cteLeaves, termLeaves, columnLeaves, leavesOf_where, leavesOf_else, leavesOf_expression, leavesOf_names, leavesOf_alias, leavesOf_collation, leavesOf_schema, leavesOf_order, leavesOf_limit, leavesOf_group, leavesOf_joinType, leavesOf_all, leavesOf_as, leavesOf_outer, leavesOf_asc, assignment, select, setExpr, resultColumns, table, constraint, groupClause, limit, words, literal, expr, setSpec]
  | complexExpression_1 _ ih0 =>
    intro _
    have h0 := ih0 rfl
    exact h0
  | complexExpression_2 _ ih0 =>
    intro _
    have h0 := ih0 rfl
    exact h0
  | caseExpression_1 _ _ _ ih1 ih2 ih3 =>
    intro _
    have h1 := ih1 rfl
    have h2 := ih2 rfl
    have h3 := ih3 rfl
    clear ih1 ih2 ih3
    simp +decide [h1, h2, h3, LeavesOf, leaves_append, leaves_cons, leaves_nil, isLeaf, leaves_name, leaves_string, leaves_number, leaves_atLevel, leaves_tableOperand, leaves_names, leaves_qualified, leaves_mode, leaves_setOperator, leaves_joinOperator, leaves_direction, leaves_alias, leaves_collation, leaves_columnNames, leaves_binary, leaves_comparison, leaves_exprs, leaves_whens, leaves_exprOption, leaves_where, leaves_else, leaves_having, leaves_offset, kw, leaves_withClause, leaves_orderClause, leaves_tuples, leaves_fromClause, leaves_columns, leaves_assignments, cteLeaves, termLeaves, columnLeaves, leavesOf_where, leavesOf_else, leavesOf_expression, leavesOf_names, leavesOf_alias, leavesOf_collation, leavesOf_schema, leavesOf_order, leavesOf_limit, leavesOf_group, leavesOf_joinType, leavesOf_all, leavesOf_as, leavesOf_outer, leavesOf_asc, assignment, select, setExpr, resultColumns, table, constraint, groupClause, limit, words, literal, expr, setSpec]
  | whenClauses_1 _ ih0 =>
    intro _
    have h0 := ih0 rfl
    clear ih0
    simp +decide [h0, LeavesOf, leaves_append, leaves_cons, leaves_nil, isLeaf, leaves_name, leaves_string, leaves_number, leaves_atLevel, leaves_tableOperand, leaves_names, leaves_qualified, leaves_mode, leaves_setOperator, leaves_joinOperator, leaves_direction, leaves_alias, leaves_collation, leaves_columnNames, leaves_binary, leaves_comparison, leaves_exprs, leaves_whens, leaves_exprOption, leaves_where, leaves_else, leaves_having, leaves_offset, kw, leaves_withClause, leaves_orderClause, leaves_tuples, leaves_fromClause, leaves_columns, leaves_assignments, cteLeaves, termLeaves, columnLeaves, leavesOf_where, leavesOf_else, leavesOf_expression, leavesOf_names, leavesOf_alias, leavesOf_collation, leavesOf_schema, leavesOf_order, leavesOf_limit, leavesOf_group, leavesOf_joinType, leavesOf_all, leavesOf_as, leavesOf_outer, leavesOf_asc, assignment, select, setExpr, resultColumns, table, constraint, groupClause, limit, words, literal, expr, setSpec]
  | whenClauses_2 _ _ ih0 ih1 =>
    intro _
    have h0 := ih0 rfl
    have h1 := ih1 rfl
    clear ih0 ih1
    simp +decide [h0, h1, LeavesOf, leaves_append, leaves_cons, leaves_nil, isLeaf, leaves_name, leaves_string, leaves_number, leaves_atLevel, leaves_tableOperand, leaves_names, leaves_qualified, leaves_mode, leaves_setOperator, leaves_joinOperator, leaves_direction, leaves_alias, leaves_collation, leaves_columnNames, leaves_binary, leaves_comparison, leaves_exprs, leaves_whens, leaves_exprOption, leaves_where, leaves_else, leaves_having, leaves_offset, kw, leaves_withClause, leaves_orderClause, leaves_tuples, leaves_fromClause, leaves_columns, leaves_assignments, cteLeaves, termLeaves, columnLeaves, leavesOf_where, leavesOf_else, leavesOf_expression, leavesOf_names, leavesOf_alias, leavesOf_collation, leavesOf_schema, leavesOf_order, leavesOf_limit, leavesOf_group, leavesOf_joinType, leavesOf_all, leavesOf_as, leavesOf_outer, leavesOf_asc, assignment, select, setExpr, resultColumns, table, constraint, groupClause, limit, words, literal, expr, setSpec]
  | whenClause_1 _ _ ih1 ih3 =>
    intro _
    have h1 := ih1 rfl
    have h3 := ih3 rfl
    clear ih1 ih3
    simp +decide [h1, h3, LeavesOf, leaves_append, leaves_cons, leaves_nil, isLeaf, leaves_name, leaves_string, leaves_number, leaves_atLevel, leaves_tableOperand, leaves_names, leaves_qualified, leaves_mode, leaves_setOperator, leaves_joinOperator, leaves_direction, leaves_alias, leaves_collation, leaves_columnNames, leaves_binary, leaves_comparison, leaves_exprs, leaves_whens, leaves_exprOption, leaves_where, leaves_else, leaves_having, leaves_offset, kw, leaves_withClause, leaves_orderClause, leaves_tuples, leaves_fromClause, leaves_columns, leaves_assignments, cteLeaves, termLeaves, columnLeaves, leavesOf_where, leavesOf_else, leavesOf_expression, leavesOf_names, leavesOf_alias, leavesOf_collation, leavesOf_schema, leavesOf_order, leavesOf_limit, leavesOf_group, leavesOf_joinType, leavesOf_all, leavesOf_as, leavesOf_outer, leavesOf_asc, assignment, select, setExpr, resultColumns, table, constraint, groupClause, limit, words, literal, expr, setSpec]
  | elseClause_1 _ ih1 =>
    intro _
    have h1 := ih1 rfl
    clear ih1
    simp +decide [h1, LeavesOf, leaves_append, leaves_cons, leaves_nil, isLeaf, leaves_name, leaves_string, leaves_number, leaves_atLevel, leaves_tableOperand, leaves_names, leaves_qualified, leaves_mode, leaves_setOperator, leaves_joinOperator, leaves_direction, leaves_alias, leaves_collation, leaves_columnNames, leaves_binary, leaves_comparison, leaves_exprs, leaves_whens, leaves_exprOption, leaves_where, leaves_else, leaves_having, leaves_offset, kw, leaves_withClause, leaves_orderClause, leaves_tuples, leaves_fromClause, leaves_columns, leaves_assignments, cteLeaves, termLeaves, columnLeaves, leavesOf_where, leavesOf_else, leavesOf_expression, leavesOf_names, leavesOf_alias, leavesOf_collation, leavesOf_schema, leavesOf_order, leavesOf_limit, leavesOf_group, leavesOf_joinType, leavesOf_all, leavesOf_as, leavesOf_outer, leavesOf_asc, assignment, select, setExpr, resultColumns, table, constraint, groupClause, limit, words, literal, expr, setSpec]
  | notExpression_1 _ ih0 =>
    intro _
    have h0 := ih0 rfl
    exact h0
  | notExpression_2 _ ih1 =>
    intro _
    have h1 := ih1 rfl
    clear ih1
    simp +decide [h1, LeavesOf, leaves_append, leaves_cons, leaves_nil, isLeaf, leaves_name, leaves_string, leaves_number, leaves_atLevel, leaves_tableOperand, leaves_names, leaves_qualified, leaves_mode, leaves_setOperator, leaves_joinOperator, leaves_direction, leaves_alias, leaves_collation, leaves_columnNames, leaves_binary, leaves_comparison, leaves_exprs, leaves_whens, leaves_exprOption, leaves_where, leaves_else, leaves_having, leaves_offset, kw, leaves_withClause, leaves_orderClause, leaves_tuples, leaves_fromClause, leaves_columns, leaves_assignments, cteLeaves, termLeaves, columnLeaves, leavesOf_where, leavesOf_else, leavesOf_expression, leavesOf_names, leavesOf_alias, leavesOf_collation, leavesOf_schema, leavesOf_order, leavesOf_limit, leavesOf_group, leavesOf_joinType, leavesOf_all, leavesOf_as, leavesOf_outer, leavesOf_asc, assignment, select, setExpr, resultColumns, table, constraint, groupClause, limit, words, literal, expr, setSpec]
  | andExpression_1 _ ih0 =>
    intro _
    have h0 := ih0 rfl
    exact h0
  | andExpression_2 _ _ ih0 ih2 =>
    intro _
    have h0 := ih0 rfl
    have h2 := ih2 rfl
    clear ih0 ih2
    simp +decide [h0, h2, LeavesOf, leaves_append, leaves_cons, leaves_nil, isLeaf, leaves_name, leaves_string, leaves_number, leaves_atLevel, leaves_tableOperand, leaves_names, leaves_qualified, leaves_mode, leaves_setOperator, leaves_joinOperator, leaves_direction, leaves_alias, leaves_collation, leaves_columnNames, leaves_binary, leaves_comparison, leaves_exprs, leaves_whens, leaves_exprOption, leaves_where, leaves_else, leaves_having, leaves_offset, kw, leaves_withClause, leaves_orderClause, leaves_tuples, leaves_fromClause, leaves_columns, leaves_assignments, cteLeaves, termLeaves, columnLeaves, leavesOf_where, leavesOf_else, leavesOf_expression, leavesOf_names, leavesOf_alias, leavesOf_collation, leavesOf_schema, leavesOf_order, leavesOf_limit, leavesOf_group, leavesOf_joinType, leavesOf_all, leavesOf_as, leavesOf_outer, leavesOf_asc, assignment, select, setExpr, resultColumns, table, constraint, groupClause, limit, words, literal, expr, setSpec]
  | orExpression_1 _ ih0 =>
    intro _
    have h0 := ih0 rfl
    exact h0
  | orExpression_2 _ _ ih0 ih2 =>
    intro _
    have h0 := ih0 rfl
    have h2 := ih2 rfl
    clear ih0 ih2
    simp +decide [h0, h2, LeavesOf, leaves_append, leaves_cons, leaves_nil, isLeaf, leaves_name, leaves_string, leaves_number, leaves_atLevel, leaves_tableOperand, leaves_names, leaves_qualified, leaves_mode, leaves_setOperator, leaves_joinOperator, leaves_direction, leaves_alias, leaves_collation, leaves_columnNames, leaves_binary, leaves_comparison, leaves_exprs, leaves_whens, leaves_exprOption, leaves_where, leaves_else, leaves_having, leaves_offset, kw, leaves_withClause, leaves_orderClause, leaves_tuples, leaves_fromClause, leaves_columns, leaves_assignments, cteLeaves, termLeaves, columnLeaves, leavesOf_where, leavesOf_else, leavesOf_expression, leavesOf_names, leavesOf_alias, leavesOf_collation, leavesOf_schema, leavesOf_order, leavesOf_limit, leavesOf_group, leavesOf_joinType, leavesOf_all, leavesOf_as, leavesOf_outer, leavesOf_asc, assignment, select, setExpr, resultColumns, table, constraint, groupClause, limit, words, literal, expr, setSpec]
  | expression_1 _ ih0 =>
    intro _
    have h0 := ih0 rfl
    exact h0
  | literalValue_1 _ ih0 =>
    intro _
    have h0 := ih0 rfl
    clear ih0
    simp +decide [h0, LeavesOf, leaves_append, leaves_cons, leaves_nil, isLeaf, leaves_name, leaves_string, leaves_number, leaves_atLevel, leaves_tableOperand, leaves_names, leaves_qualified, leaves_mode, leaves_setOperator, leaves_joinOperator, leaves_direction, leaves_alias, leaves_collation, leaves_columnNames, leaves_binary, leaves_comparison, leaves_exprs, leaves_whens, leaves_exprOption, leaves_where, leaves_else, leaves_having, leaves_offset, kw, leaves_withClause, leaves_orderClause, leaves_tuples, leaves_fromClause, leaves_columns, leaves_assignments, cteLeaves, termLeaves, columnLeaves, leavesOf_where, leavesOf_else, leavesOf_expression, leavesOf_names, leavesOf_alias, leavesOf_collation, leavesOf_schema, leavesOf_order, leavesOf_limit, leavesOf_group, leavesOf_joinType, leavesOf_all, leavesOf_as, leavesOf_outer, leavesOf_asc, assignment, select, setExpr, resultColumns, table, constraint, groupClause, limit, words, literal, expr, setSpec]
  | literalValue_2 _ ih0 =>
    intro _
    have h0 := ih0 rfl
    clear ih0
    simp +decide [h0, LeavesOf, leaves_append, leaves_cons, leaves_nil, isLeaf, leaves_name, leaves_string, leaves_number, leaves_atLevel, leaves_tableOperand, leaves_names, leaves_qualified, leaves_mode, leaves_setOperator, leaves_joinOperator, leaves_direction, leaves_alias, leaves_collation, leaves_columnNames, leaves_binary, leaves_comparison, leaves_exprs, leaves_whens, leaves_exprOption, leaves_where, leaves_else, leaves_having, leaves_offset, kw, leaves_withClause, leaves_orderClause, leaves_tuples, leaves_fromClause, leaves_columns, leaves_assignments, cteLeaves, termLeaves, columnLeaves, leavesOf_where, leavesOf_else, leavesOf_expression, leavesOf_names, leavesOf_alias, leavesOf_collation, leavesOf_schema, leavesOf_order, leavesOf_limit, leavesOf_group, leavesOf_joinType, leavesOf_all, leavesOf_as, leavesOf_outer, leavesOf_asc, assignment, select, setExpr, resultColumns, table, constraint, groupClause, limit, words, literal, expr, setSpec]
  | literalValue_3 =>
    intro _
    simp +decide [LeavesOf, leaves_append, leaves_cons, leaves_nil, isLeaf, leaves_name, leaves_string, leaves_number, leaves_atLevel, leaves_tableOperand, leaves_names, leaves_qualified, leaves_mode, leaves_setOperator, leaves_joinOperator, leaves_direction, leaves_alias, leaves_collation, leaves_columnNames, leaves_binary, leaves_comparison, leaves_exprs, leaves_whens, leaves_exprOption, leaves_where, leaves_else, leaves_having, leaves_offset, kw, leaves_withClause, leaves_orderClause, leaves_tuples, leaves_fromClause, leaves_columns, leaves_assignments, cteLeaves, termLeaves, columnLeaves, leavesOf_where, leavesOf_else, leavesOf_expression, leavesOf_names, leavesOf_alias, leavesOf_collation, leavesOf_schema, leavesOf_order, leavesOf_limit, leavesOf_group, leavesOf_joinType, leavesOf_all, leavesOf_as, leavesOf_outer, leavesOf_asc, assignment, select, setExpr, resultColumns, table, constraint, groupClause, limit, words, literal, expr, setSpec]
  | literalValue_4 =>
    intro _
    simp +decide [LeavesOf, leaves_append, leaves_cons, leaves_nil, isLeaf, leaves_name, leaves_string, leaves_number, leaves_atLevel, leaves_tableOperand, leaves_names, leaves_qualified, leaves_mode, leaves_setOperator, leaves_joinOperator, leaves_direction, leaves_alias, leaves_collation, leaves_columnNames, leaves_binary, leaves_comparison, leaves_exprs, leaves_whens, leaves_exprOption, leaves_where, leaves_else, leaves_having, leaves_offset, kw, leaves_withClause, leaves_orderClause, leaves_tuples, leaves_fromClause, leaves_columns, leaves_assignments, cteLeaves, termLeaves, columnLeaves, leavesOf_where, leavesOf_else, leavesOf_expression, leavesOf_names, leavesOf_alias, leavesOf_collation, leavesOf_schema, leavesOf_order, leavesOf_limit, leavesOf_group, leavesOf_joinType, leavesOf_all, leavesOf_as, leavesOf_outer, leavesOf_asc, assignment, select, setExpr, resultColumns, table, constraint, groupClause, limit, words, literal, expr, setSpec]
  | literalValue_5 =>
    intro _
    simp +decide [LeavesOf, leaves_append, leaves_cons, leaves_nil, isLeaf, leaves_name, leaves_string, leaves_number, leaves_atLevel, leaves_tableOperand, leaves_names, leaves_qualified, leaves_mode, leaves_setOperator, leaves_joinOperator, leaves_direction, leaves_alias, leaves_collation, leaves_columnNames, leaves_binary, leaves_comparison, leaves_exprs, leaves_whens, leaves_exprOption, leaves_where, leaves_else, leaves_having, leaves_offset, kw, leaves_withClause, leaves_orderClause, leaves_tuples, leaves_fromClause, leaves_columns, leaves_assignments, cteLeaves, termLeaves, columnLeaves, leavesOf_where, leavesOf_else, leavesOf_expression, leavesOf_names, leavesOf_alias, leavesOf_collation, leavesOf_schema, leavesOf_order, leavesOf_limit, leavesOf_group, leavesOf_joinType, leavesOf_all, leavesOf_as, leavesOf_outer, leavesOf_asc, assignment, select, setExpr, resultColumns, table, constraint, groupClause, limit, words, literal, expr, setSpec]
  | literalValue_6 =>
    intro _
    simp +decide [LeavesOf, leaves_append, leaves_cons, leaves_nil, isLeaf, leaves_name, leaves_string, leaves_number, leaves_atLevel, leaves_tableOperand, leaves_names, leaves_qualified, leaves_mode, leaves_setOperator, leaves_joinOperator, leaves_direction, leaves_alias, leaves_collation, leaves_columnNames, leaves_binary, leaves_comparison, leaves_exprs, leaves_whens, leaves_exprOption, leaves_where, leaves_else, leaves_having, leaves_offset, kw, leaves_withClause, leaves_orderClause, leaves_tuples, leaves_fromClause, leaves_columns, leaves_assignments, cteLeaves, termLeaves, columnLeaves, leavesOf_where, leavesOf_else, leavesOf_expression, leavesOf_names, leavesOf_alias, leavesOf_collation, leavesOf_schema, leavesOf_order, leavesOf_limit, leavesOf_group, leavesOf_joinType, leavesOf_all, leavesOf_as, leavesOf_outer, leavesOf_asc, assignment, select, setExpr, resultColumns, table, constraint, groupClause, limit, words, literal, expr, setSpec]
  | literalValue_7 _ ih1 =>
    intro _
    have h1 := ih1 rfl
    clear ih1
    simp +decide [h1, LeavesOf, leaves_append, leaves_cons, leaves_nil, isLeaf, leaves_name, leaves_string, leaves_number, leaves_atLevel, leaves_tableOperand, leaves_names, leaves_qualified, leaves_mode, leaves_setOperator, leaves_joinOperator, leaves_direction, leaves_alias, leaves_collation, leaves_columnNames, leaves_binary, leaves_comparison, leaves_exprs, leaves_whens, leaves_exprOption, leaves_where, leaves_else, leaves_having, leaves_offset, kw, leaves_withClause, leaves_orderClause, leaves_tuples, leaves_fromClause, leaves_columns, leaves_assignments, cteLeaves, termLeaves, columnLeaves, leavesOf_where, leavesOf_else, leavesOf_expression, leavesOf_names, leavesOf_alias, leavesOf_collation, leavesOf_schema, leavesOf_order, leavesOf_limit, leavesOf_group, leavesOf_joinType, leavesOf_all, leavesOf_as, leavesOf_outer, leavesOf_asc, assignment, select, setExpr, resultColumns, table, constraint, groupClause, limit, words, literal, expr, setSpec]
  | literalValue_8 _ ih1 =>
    intro _
    have h1 := ih1 rfl
    clear ih1
    simp +decide [h1, LeavesOf, leaves_append, leaves_cons, leaves_nil, isLeaf, leaves_name, leaves_string, leaves_number, leaves_atLevel, leaves_tableOperand, leaves_names, leaves_qualified, leaves_mode, leaves_setOperator, leaves_joinOperator, leaves_direction, leaves_alias, leaves_collation, leaves_columnNames, leaves_binary, leaves_comparison, leaves_exprs, leaves_whens, leaves_exprOption, leaves_where, leaves_else, leaves_having, leaves_offset, kw, leaves_withClause, leaves_orderClause, leaves_tuples, leaves_fromClause, leaves_columns, leaves_assignments, cteLeaves, termLeaves, columnLeaves, leavesOf_where, leavesOf_else, leavesOf_expression, leavesOf_names, leavesOf_alias, leavesOf_collation, leavesOf_schema, leavesOf_order, leavesOf_limit, leavesOf_group, leavesOf_joinType, leavesOf_all, leavesOf_as, leavesOf_outer, leavesOf_asc, assignment, select, setExpr, resultColumns, table, constraint, groupClause, limit, words, literal, expr, setSpec]
  | literalValue_9 _ ih1 =>
    intro _
    have h1 := ih1 rfl
    clear ih1
    simp +decide [h1, LeavesOf, leaves_append, leaves_cons, leaves_nil, isLeaf, leaves_name, leaves_string, leaves_number, leaves_atLevel, leaves_tableOperand, leaves_names, leaves_qualified, leaves_mode, leaves_setOperator, leaves_joinOperator, leaves_direction, leaves_alias, leaves_collation, leaves_columnNames, leaves_binary, leaves_comparison, leaves_exprs, leaves_whens, leaves_exprOption, leaves_where, leaves_else, leaves_having, leaves_offset, kw, leaves_withClause, leaves_orderClause, leaves_tuples, leaves_fromClause, leaves_columns, leaves_assignments, cteLeaves, termLeaves, columnLeaves, leavesOf_where, leavesOf_else, leavesOf_expression, leavesOf_names, leavesOf_alias, leavesOf_collation, leavesOf_schema, leavesOf_order, leavesOf_limit, leavesOf_group, leavesOf_joinType, leavesOf_all, leavesOf_as, leavesOf_outer, leavesOf_asc, assignment, select, setExpr, resultColumns, table, constraint, groupClause, limit, words, literal, expr, setSpec]
  | identifier_1 =>
    intro _
    simp +decide [LeavesOf, leaves_append, leaves_cons, leaves_nil, isLeaf, leaves_name, leaves_string, leaves_number, leaves_atLevel, leaves_tableOperand, leaves_names, leaves_qualified, leaves_mode, leaves_setOperator, leaves_joinOperator, leaves_direction, leaves_alias, leaves_collation, leaves_columnNames, leaves_binary, leaves_comparison, leaves_exprs, leaves_whens, leaves_exprOption, leaves_where, leaves_else, leaves_having, leaves_offset, kw, leaves_withClause, leaves_orderClause, leaves_tuples, leaves_fromClause, leaves_columns, leaves_assignments, cteLeaves, termLeaves, columnLeaves, leavesOf_where, leavesOf_else, leavesOf_expression, leavesOf_names, leavesOf_alias, leavesOf_collation, leavesOf_schema, leavesOf_order, leavesOf_limit, leavesOf_group, leavesOf_joinType, leavesOf_all, leavesOf_as, leavesOf_outer, leavesOf_asc, assignment, select, setExpr, resultColumns, table, constraint, groupClause, limit, words, literal, expr, setSpec]
  | numericLiteral_1 =>
    intro _
    simp +decide [LeavesOf, leaves_append, leaves_cons, leaves_nil, isLeaf, leaves_name, leaves_string, leaves_number, leaves_atLevel, leaves_tableOperand, leaves_names, leaves_qualified, leaves_mode, leaves_setOperator, leaves_joinOperator, leaves_direction, leaves_alias, leaves_collation, leaves_columnNames, leaves_binary, leaves_comparison, leaves_exprs, leaves_whens, leaves_exprOption, leaves_where, leaves_else, leaves_having, leaves_offset, kw, leaves_withClause, leaves_orderClause, leaves_tuples, leaves_fromClause, leaves_columns, leaves_assignments, cteLeaves, termLeaves, columnLeaves, leavesOf_where, leavesOf_else, leavesOf_expression, leavesOf_names, leavesOf_alias, leavesOf_collation, leavesOf_schema, leavesOf_order, leavesOf_limit, leavesOf_group, leavesOf_joinType, leavesOf_all, leavesOf_as, leavesOf_outer, leavesOf_asc, assignment, select, setExpr, resultColumns, table, constraint, groupClause, limit, words, literal, expr, setSpec]
  | numericLiteral_2 =>
    intro _
    simp +decide [LeavesOf, leaves_append, leaves_cons, leaves_nil, isLeaf, leaves_name, leaves_string, leaves_number, leaves_atLevel, leaves_tableOperand, leaves_names, leaves_qualified, leaves_mode, leaves_setOperator, leaves_joinOperator, leaves_direction, leaves_alias, leaves_collation, leaves_columnNames, leaves_binary, leaves_comparison, leaves_exprs, leaves_whens, leaves_exprOption, leaves_where, leaves_else, leaves_having, leaves_offset, kw, leaves_withClause, leaves_orderClause, leaves_tuples, leaves_fromClause, leaves_columns, leaves_assignments, cteLeaves, termLeaves, columnLeaves, leavesOf_where, leavesOf_else, leavesOf_expression, leavesOf_names, leavesOf_alias, leavesOf_collation, leavesOf_schema, leavesOf_order, leavesOf_limit, leavesOf_group, leavesOf_joinType, leavesOf_all, leavesOf_as, leavesOf_outer, leavesOf_asc, assignment, select, setExpr, resultColumns, table, constraint, groupClause, limit, words, literal, expr, setSpec]
  | numericLiteral_3 =>
    intro _
    simp +decide [LeavesOf, leaves_append, leaves_cons, leaves_nil, isLeaf, leaves_name, leaves_string, leaves_number, leaves_atLevel, leaves_tableOperand, leaves_names, leaves_qualified, leaves_mode, leaves_setOperator, leaves_joinOperator, leaves_direction, leaves_alias, leaves_collation, leaves_columnNames, leaves_binary, leaves_comparison, leaves_exprs, leaves_whens, leaves_exprOption, leaves_where, leaves_else, leaves_having, leaves_offset, kw, leaves_withClause, leaves_orderClause, leaves_tuples, leaves_fromClause, leaves_columns, leaves_assignments, cteLeaves, termLeaves, columnLeaves, leavesOf_where, leavesOf_else, leavesOf_expression, leavesOf_names, leavesOf_alias, leavesOf_collation, leavesOf_schema, leavesOf_order, leavesOf_limit, leavesOf_group, leavesOf_joinType, leavesOf_all, leavesOf_as, leavesOf_outer, leavesOf_asc, assignment, select, setExpr, resultColumns, table, constraint, groupClause, limit, words, literal, expr, setSpec]
  | stringLiteral_1 =>
    intro _
    simp +decide [LeavesOf, leaves_append, leaves_cons, leaves_nil, isLeaf, leaves_name, leaves_string, leaves_number, leaves_atLevel, leaves_tableOperand, leaves_names, leaves_qualified, leaves_mode, leaves_setOperator, leaves_joinOperator, leaves_direction, leaves_alias, leaves_collation, leaves_columnNames, leaves_binary, leaves_comparison, leaves_exprs, leaves_whens, leaves_exprOption, leaves_where, leaves_else, leaves_having, leaves_offset, kw, leaves_withClause, leaves_orderClause, leaves_tuples, leaves_fromClause, leaves_columns, leaves_assignments, cteLeaves, termLeaves, columnLeaves, leavesOf_where, leavesOf_else, leavesOf_expression, leavesOf_names, leavesOf_alias, leavesOf_collation, leavesOf_schema, leavesOf_order, leavesOf_limit, leavesOf_group, leavesOf_joinType, leavesOf_all, leavesOf_as, leavesOf_outer, leavesOf_asc, assignment, select, setExpr, resultColumns, table, constraint, groupClause, limit, words, literal, expr, setSpec]

end Verif.Sql.Writing
