import Verif.Proof.SqlWriting
/-!
# Statements with a text can be written
-/

namespace Verif.Sql.Writing
open Grammar Lexing

theorem exprsOk_append {a b : List (Expr Name)} : ExprsOk (a ++ b) ↔ ExprsOk a ∧ ExprsOk b := by
  induction a with
  | nil => simp [ExprsOk]
  | cons x a ih => simp [ExprsOk, ih, and_assoc]

theorem rowsOk_append {a b : List (List (Expr Name))} : RowsOk (a ++ b) ↔ RowsOk a ∧ RowsOk b := by
  induction a with
  | nil => simp [RowsOk]
  | cons x a ih => simp [RowsOk, ih, and_assoc]

theorem ctesOk_append {a b : List (Cte Name)} : CtesOk (a ++ b) ↔ CtesOk a ∧ CtesOk b := by
  induction a with
  | nil => simp [CtesOk]
  | cons x a ih => cases x; simp [CtesOk, ih, and_assoc]

theorem termsOk_append {a b : List (OrderTerm Name)} : TermsOk (a ++ b) ↔ TermsOk a ∧ TermsOk b := by
  induction a with
  | nil => simp [TermsOk]
  | cons x a ih => cases x; simp [TermsOk, ih, and_assoc]

theorem tablesOk_append {a b : List (TableExpr Name)} : TablesOk (a ++ b) ↔ TablesOk a ∧ TablesOk b := by
  induction a with
  | nil => simp [TablesOk]
  | cons x a ih => simp [TablesOk, ih, and_assoc]

theorem columnsOk_append {a b : List (ResultColumn Name)} : ColumnsOk (a ++ b) ↔ ColumnsOk a ∧ ColumnsOk b := by
  induction a with
  | nil => simp [ColumnsOk]
  | cons x a ih => cases x <;> simp [ColumnsOk, ih, and_assoc]

theorem whensOk_append {a b : List (When Name)} : WhensOk (a ++ b) ↔ WhensOk a ∧ WhensOk b := by
  induction a with
  | nil => simp [WhensOk]
  | cons x a ih => cases x; simp [WhensOk, ih, and_assoc]

/-- What is known of the value of words. -/
def OkOf : (s : Nt) → Grammar.Ty s → Prop
  | .sqlStatement, v => Writable v
  | .statement, v => StatementOk v
  | .insertStatement, v => StatementOk (.insert v)
  | .columnNameList, v => NamesOk v
  | .deleteStatement, v => StatementOk (.delete v)
  | .updateStatement, v => StatementOk (.update v)
  | .assignments, v => v ≠ [] ∧ ∀ a ∈ v, AssignmentOk a
  | .assignment, v => AssignmentOk v
  | .selectStatement, v => SelectOk v
  | .tableExpressions, v => CtesOk v
  | .commonTableExpressionList, v => CtesOk v
  | .commonTableExpression, v => CtesOk [v]
  | .selectCoreList, v => SetExprOk v
  | .compoundOperator, _ => True
  | .selectCore, v => Simple v ∧ SetExprOk v
  | .selectMode, _ => True
  | .tupleList, v => v ≠ [] ∧ RowsOk v
  | .tuple, v => v ≠ [] ∧ ExprsOk v
  | .resultColumns, v => ResultColumnsOk v
  | .resultColumnList, v => v ≠ [] ∧ ColumnsOk v
  | .resultColumn, v => ColumnsOk [v]
  | .qualifiedIdentifier, v => QualifiedOk v
  | .fromClause, v => TablesOk v
  | .tableExpressionList, v => TablesOk v
  | .tableExpression, v => TableOk v
  | .tableOrSubQuery, v => TableOk v
  | .tableAlias, v => NameOk v
  | .joinOperator, _ => True
  | .joinType, _ => True
  | .joinConstraint, v => ConstraintOk v
  | .identifierList, v => NamesOk v
  | .whereClause, v => ExprOk v
  | .groupByClause, v => GroupOk (some v)
  | .orderByClause, v => TermsOk v
  | .orderingTermList, v => TermsOk v
  | .orderingTerm, v => TermsOk [v]
  | .orderingCollation, v => NameOk v
  | .orderingDirection, _ => True
  | .limitClause, v => LimitOk (some v)
  | .attachStatement, v => Writable (.attach v)
  | .describeStatement, v => Writable (.describe v)
  | .schemaName, v => NameOk v
  | .expressionList, v => v ≠ [] ∧ ExprsOk v
  | .primaryExpression, v => ExprOk v
  | .unaryExpression, v => ExprOk v
  | .multiplicativeExpression, v => ExprOk v
  | .additiveExpression, v => ExprOk v
  | .comparativeExpression, v => ExprOk v
  | .complexExpression, v => ExprOk v
  | .caseExpression, v => ExprOk v
  | .whenClauses, v => v ≠ [] ∧ WhensOk v
  | .whenClause, v => WhensOk [v]
  | .elseClause, v => ExprOk v
  | .notExpression, v => ExprOk v
  | .andExpression, v => ExprOk v
  | .orExpression, v => ExprOk v
  | .expression, v => ExprOk v
  | .literalValue, v => LiteralOk v
  | .identifier, v => NameOk v
  | .numericLiteral, v => NumberOk v
  | .stringLiteral, v => StringOk v
  | .tok _, _ => True
  | .opt _, none => True
  | .opt s, some v => OkOf s v

theorem optOk_names {o : Option (List Name)} (h : OkOf (.opt .columnNameList) o) : ∀ ns, o = some ns → NamesOk ns := by
  rintro ns rfl
  exact h

theorem optOk_alias {o : Option Name} (h : OkOf (.opt .tableAlias) o) : OptionOk o := by
  rintro n rfl
  exact h

theorem optOk_collation {o : Option Name} (h : OkOf (.opt .orderingCollation) o) : OptionOk o := by
  rintro n rfl
  exact h

theorem optOk_schema {o : Option Name} {n : Name} (h : OkOf (.opt .schemaName) o) (hn : NameOk n) :
    (o.toList ++ [n]).length ≤ 2 ∧ QualifiedOk (o.toList ++ [n]) := by
  cases o with
  | none => exact ⟨by simp, by simp, by simpa using hn⟩
  | some m => exact ⟨by simp, by simp, by simpa using ⟨h, hn⟩⟩

theorem optOk_order {o : Option (List (OrderTerm Name))} (h : OkOf (.opt .orderByClause) o) : TermsOk (o.getD []) := by
  cases o
  · simp [TermsOk]
  · exact h

theorem optOk_limit {o : Option (Limit Name)} (h : OkOf (.opt .limitClause) o) : LimitOk o := by
  cases o
  · simp [LimitOk]
  · exact h

theorem optOk_where {o : Option (Expr Name)} (h : OkOf (.opt .whereClause) o) : ExprOptionOk o := by
  cases o
  · simp [ExprOptionOk]
  · rw [ExprOptionOk]
    exact h

theorem optOk_else {o : Option (Expr Name)} (h : OkOf (.opt .elseClause) o) : ExprOptionOk o := by
  cases o
  · simp [ExprOptionOk]
  · rw [ExprOptionOk]
    exact h

theorem optOk_expr {o : Option (Expr Name)} (h : OkOf (.opt .expression) o) : ExprOptionOk o := by
  cases o
  · simp [ExprOptionOk]
  · rw [ExprOptionOk]
    exact h

theorem optOk_group {o : Option (GroupBy Name)} (h : OkOf (.opt .groupByClause) o) : GroupOk o := by
  cases o
  · simp [GroupOk]
  · exact h

set_option linter.unusedSimpArgs false in
theorem gr_okOf {s : Nt} {w : List Lexeme} {v : Grammar.Ty s} (h : Gr s w v) : AllWords w → OkOf s v := by
  induction h with
  | tok => intro _; trivial
  | optNone => intro _; trivial
  | optSome _ ih => exact ih
  | sqlStatement_1 _ ih0 =>
    intro hw
    have h0 := ih0 hw
    clear hw ih0
    simp_all [OkOf, Writable, StatementOk, AssignmentOk, SelectOk, CtesOk, SetExprOk, Simple, RowsOk, ExprsOk, ResultColumnsOk, ColumnsOk, QualifiedOk, TablesOk, TableOk, ConstraintOk, NamesOk, GroupOk, TermsOk, LimitOk, WhensOk, LiteralOk, NumberOk, NameOk, StringOk, OptionOk, ExprOk, ExprOptionOk, SetSpecOk, exprsOk_append, rowsOk_append, ctesOk_append, termsOk_append, tablesOk_append, columnsOk_append, whensOk_append]
  | sqlStatement_2 _ ih1 =>
    intro hw
    have h1 := ih1 (allWords_cons.mp hw).2
    clear hw ih1
    simp_all [OkOf, Writable, StatementOk, AssignmentOk, SelectOk, CtesOk, SetExprOk, Simple, RowsOk, ExprsOk, ResultColumnsOk, ColumnsOk, QualifiedOk, TablesOk, TableOk, ConstraintOk, NamesOk, GroupOk, TermsOk, LimitOk, WhensOk, LiteralOk, NumberOk, NameOk, StringOk, OptionOk, ExprOk, ExprOptionOk, SetSpecOk, exprsOk_append, rowsOk_append, ctesOk_append, termsOk_append, tablesOk_append, columnsOk_append, whensOk_append]
  | sqlStatement_3 _ ih3 =>
    intro hw
    have h3 := ih3 (allWords_cons.mp (allWords_cons.mp (allWords_cons.mp hw).2).2).2
    clear hw ih3
    simp_all [OkOf, Writable, StatementOk, AssignmentOk, SelectOk, CtesOk, SetExprOk, Simple, RowsOk, ExprsOk, ResultColumnsOk, ColumnsOk, QualifiedOk, TablesOk, TableOk, ConstraintOk, NamesOk, GroupOk, TermsOk, LimitOk, WhensOk, LiteralOk, NumberOk, NameOk, StringOk, OptionOk, ExprOk, ExprOptionOk, SetSpecOk, exprsOk_append, rowsOk_append, ctesOk_append, termsOk_append, tablesOk_append, columnsOk_append, whensOk_append]
  | sqlStatement_4 _ ih0 =>
    intro hw
    have h0 := ih0 hw
    clear hw ih0
    simp_all [OkOf, Writable, StatementOk, AssignmentOk, SelectOk, CtesOk, SetExprOk, Simple, RowsOk, ExprsOk, ResultColumnsOk, ColumnsOk, QualifiedOk, TablesOk, TableOk, ConstraintOk, NamesOk, GroupOk, TermsOk, LimitOk, WhensOk, LiteralOk, NumberOk, NameOk, StringOk, OptionOk, ExprOk, ExprOptionOk, SetSpecOk, exprsOk_append, rowsOk_append, ctesOk_append, termsOk_append, tablesOk_append, columnsOk_append, whensOk_append]
  | sqlStatement_5 _ ih0 =>
    intro hw
    have h0 := ih0 hw
    clear hw ih0
    simp_all [OkOf, Writable, StatementOk, AssignmentOk, SelectOk, CtesOk, SetExprOk, Simple, RowsOk, ExprsOk, ResultColumnsOk, ColumnsOk, QualifiedOk, TablesOk, TableOk, ConstraintOk, NamesOk, GroupOk, TermsOk, LimitOk, WhensOk, LiteralOk, NumberOk, NameOk, StringOk, OptionOk, ExprOk, ExprOptionOk, SetSpecOk, exprsOk_append, rowsOk_append, ctesOk_append, termsOk_append, tablesOk_append, columnsOk_append, whensOk_append]
  | statement_1 _ ih0 =>
    intro hw
    have h0 := ih0 hw
    exact h0
  | statement_2 _ ih0 =>
    intro hw
    have h0 := ih0 hw
    exact h0
  | statement_3 _ ih0 =>
    intro hw
    have h0 := ih0 hw
    exact h0
  | statement_4 _ ih0 =>
    intro hw
    have h0 := ih0 hw
    exact h0
  | insertStatement_1 _ _ _ _ ih0 ih3 ih4 ih5 =>
    intro hw
    have h0 := ih0 (allWords_append.mp hw).1
    have h3 := ih3 (allWords_append.mp (allWords_cons.mp (allWords_cons.mp (allWords_append.mp hw).2).2).2).1
    have h4 := ih4 (allWords_append.mp (allWords_append.mp (allWords_cons.mp (allWords_cons.mp (allWords_append.mp hw).2).2).2).2).1
    have h5 := ih5 (allWords_append.mp (allWords_append.mp (allWords_cons.mp (allWords_cons.mp (allWords_append.mp hw).2).2).2).2).2
    exact ⟨h3, optOk_names h4, h5⟩
  | columnNameList_1 _ ih1 =>
    intro hw
    have h1 := ih1 (allWords_append.mp (allWords_cons.mp hw).2).1
    clear hw ih1
    simp_all [OkOf, Writable, StatementOk, AssignmentOk, SelectOk, CtesOk, SetExprOk, Simple, RowsOk, ExprsOk, ResultColumnsOk, ColumnsOk, QualifiedOk, TablesOk, TableOk, ConstraintOk, NamesOk, GroupOk, TermsOk, LimitOk, WhensOk, LiteralOk, NumberOk, NameOk, StringOk, OptionOk, ExprOk, ExprOptionOk, SetSpecOk, exprsOk_append, rowsOk_append, ctesOk_append, termsOk_append, tablesOk_append, columnsOk_append, whensOk_append]
  | deleteStatement_1 _ _ _ ih0 ih3 ih4 =>
    intro hw
    have h0 := ih0 (allWords_append.mp hw).1
    have h3 := ih3 (allWords_append.mp (allWords_cons.mp (allWords_cons.mp (allWords_append.mp hw).2).2).2).1
    have h4 := ih4 (allWords_append.mp (allWords_cons.mp (allWords_cons.mp (allWords_append.mp hw).2).2).2).2
    exact ⟨h3, optOk_where h4⟩
  | updateStatement_1 _ _ _ _ ih0 ih2 ih4 ih5 =>
    intro hw
    have h0 := ih0 (allWords_append.mp hw).1
    have h2 := ih2 (allWords_append.mp (allWords_cons.mp (allWords_append.mp hw).2).2).1
    have h4 := ih4 (allWords_append.mp (allWords_cons.mp (allWords_append.mp (allWords_cons.mp (allWords_append.mp hw).2).2).2).2).1
    have h5 := ih5 (allWords_append.mp (allWords_cons.mp (allWords_append.mp (allWords_cons.mp (allWords_append.mp hw).2).2).2).2).2
    exact ⟨h2, h4.1, h4.2, optOk_where h5⟩
  | assignments_1 _ ih0 =>
    intro hw
    have h0 := ih0 hw
    clear hw ih0
    simp_all [OkOf, Writable, StatementOk, AssignmentOk, SelectOk, CtesOk, SetExprOk, Simple, RowsOk, ExprsOk, ResultColumnsOk, ColumnsOk, QualifiedOk, TablesOk, TableOk, ConstraintOk, NamesOk, GroupOk, TermsOk, LimitOk, WhensOk, LiteralOk, NumberOk, NameOk, StringOk, OptionOk, ExprOk, ExprOptionOk, SetSpecOk, exprsOk_append, rowsOk_append, ctesOk_append, termsOk_append, tablesOk_append, columnsOk_append, whensOk_append]
  | assignments_2 _ _ ih0 ih2 =>
    intro hw
    have h0 := ih0 (allWords_append.mp hw).1
    have h2 := ih2 (allWords_cons.mp (allWords_append.mp hw).2).2
    exact ⟨by simp, fun a ha => (List.mem_append.mp ha).elim (h0.2 a) fun h => by rw [List.mem_singleton.mp h]; exact h2⟩
  | assignment_1 _ _ ih0 ih2 =>
    intro hw
    have h0 := ih0 (allWords_append.mp hw).1
    have h2 := ih2 (allWords_cons.mp (allWords_append.mp hw).2).2
    clear hw ih0 ih2
    simp_all [OkOf, Writable, StatementOk, AssignmentOk, SelectOk, CtesOk, SetExprOk, Simple, RowsOk, ExprsOk, ResultColumnsOk, ColumnsOk, QualifiedOk, TablesOk, TableOk, ConstraintOk, NamesOk, GroupOk, TermsOk, LimitOk, WhensOk, LiteralOk, NumberOk, NameOk, StringOk, OptionOk, ExprOk, ExprOptionOk, SetSpecOk, exprsOk_append, rowsOk_append, ctesOk_append, termsOk_append, tablesOk_append, columnsOk_append, whensOk_append]
  | selectStatement_1 _ _ _ _ ih0 ih1 ih2 ih3 =>
    intro hw
    have h0 := ih0 (allWords_append.mp hw).1
    have h1 := ih1 (allWords_append.mp (allWords_append.mp hw).2).1
    have h2 := ih2 (allWords_append.mp (allWords_append.mp (allWords_append.mp hw).2).2).1
    have h3 := ih3 (allWords_append.mp (allWords_append.mp (allWords_append.mp hw).2).2).2
    exact ⟨h0, h1, optOk_order h2, optOk_limit h3⟩
  | selectStatement_2 _ _ _ ih0 ih1 ih2 =>
    intro hw
    have h0 := ih0 (allWords_append.mp hw).1
    have h1 := ih1 (allWords_append.mp (allWords_append.mp hw).2).1
    have h2 := ih2 (allWords_append.mp (allWords_append.mp hw).2).2
    exact ⟨trivial, h0, optOk_order h1, optOk_limit h2⟩
  | tableExpressions_1 _ ih1 =>
    intro hw
    have h1 := ih1 (allWords_cons.mp hw).2
    clear hw ih1
    simp_all [OkOf, Writable, StatementOk, AssignmentOk, SelectOk, CtesOk, SetExprOk, Simple, RowsOk, ExprsOk, ResultColumnsOk, ColumnsOk, QualifiedOk, TablesOk, TableOk, ConstraintOk, NamesOk, GroupOk, TermsOk, LimitOk, WhensOk, LiteralOk, NumberOk, NameOk, StringOk, OptionOk, ExprOk, ExprOptionOk, SetSpecOk, exprsOk_append, rowsOk_append, ctesOk_append, termsOk_append, tablesOk_append, columnsOk_append, whensOk_append]
  | commonTableExpressionList_1 _ ih0 =>
    intro hw
    have h0 := ih0 hw
    clear hw ih0
    simp_all [OkOf, Writable, StatementOk, AssignmentOk, SelectOk, CtesOk, SetExprOk, Simple, RowsOk, ExprsOk, ResultColumnsOk, ColumnsOk, QualifiedOk, TablesOk, TableOk, ConstraintOk, NamesOk, GroupOk, TermsOk, LimitOk, WhensOk, LiteralOk, NumberOk, NameOk, StringOk, OptionOk, ExprOk, ExprOptionOk, SetSpecOk, exprsOk_append, rowsOk_append, ctesOk_append, termsOk_append, tablesOk_append, columnsOk_append, whensOk_append]
  | commonTableExpressionList_2 _ _ ih0 ih2 =>
    intro hw
    have h0 := ih0 (allWords_append.mp hw).1
    have h2 := ih2 (allWords_cons.mp (allWords_append.mp hw).2).2
    clear hw ih0 ih2
    simp_all [OkOf, Writable, StatementOk, AssignmentOk, SelectOk, CtesOk, SetExprOk, Simple, RowsOk, ExprsOk, ResultColumnsOk, ColumnsOk, QualifiedOk, TablesOk, TableOk, ConstraintOk, NamesOk, GroupOk, TermsOk, LimitOk, WhensOk, LiteralOk, NumberOk, NameOk, StringOk, OptionOk, ExprOk, ExprOptionOk, SetSpecOk, exprsOk_append, rowsOk_append, ctesOk_append, termsOk_append, tablesOk_append, columnsOk_append, whensOk_append]
  | commonTableExpression_1 _ _ ih0 ih3 =>
    intro hw
    have h0 := ih0 (allWords_append.mp hw).1
    have h3 := ih3 (allWords_append.mp (allWords_cons.mp (allWords_cons.mp (allWords_append.mp hw).2).2).2).1
    clear hw ih0 ih3
    simp_all [OkOf, Writable, StatementOk, AssignmentOk, SelectOk, CtesOk, SetExprOk, Simple, RowsOk, ExprsOk, ResultColumnsOk, ColumnsOk, QualifiedOk, TablesOk, TableOk, ConstraintOk, NamesOk, GroupOk, TermsOk, LimitOk, WhensOk, LiteralOk, NumberOk, NameOk, StringOk, OptionOk, ExprOk, ExprOptionOk, SetSpecOk, exprsOk_append, rowsOk_append, ctesOk_append, termsOk_append, tablesOk_append, columnsOk_append, whensOk_append]
  | commonTableExpression_2 _ _ _ ih0 ih2 ih6 =>
    intro hw
    have h0 := ih0 (allWords_append.mp hw).1
    have h2 := ih2 (allWords_append.mp (allWords_cons.mp (allWords_append.mp hw).2).2).1
    have h6 := ih6 (allWords_append.mp (allWords_cons.mp (allWords_cons.mp (allWords_cons.mp (allWords_append.mp (allWords_cons.mp (allWords_append.mp hw).2).2).2).2).2).2).1
    clear hw ih0 ih2 ih6
    simp_all [OkOf, Writable, StatementOk, AssignmentOk, SelectOk, CtesOk, SetExprOk, Simple, RowsOk, ExprsOk, ResultColumnsOk, ColumnsOk, QualifiedOk, TablesOk, TableOk, ConstraintOk, NamesOk, GroupOk, TermsOk, LimitOk, WhensOk, LiteralOk, NumberOk, NameOk, StringOk, OptionOk, ExprOk, ExprOptionOk, SetSpecOk, exprsOk_append, rowsOk_append, ctesOk_append, termsOk_append, tablesOk_append, columnsOk_append, whensOk_append]
  | selectCoreList_1 _ ih0 =>
    intro hw
    have h0 := ih0 hw
    clear hw ih0
    simp_all [OkOf, Writable, StatementOk, AssignmentOk, SelectOk, CtesOk, SetExprOk, Simple, RowsOk, ExprsOk, ResultColumnsOk, ColumnsOk, QualifiedOk, TablesOk, TableOk, ConstraintOk, NamesOk, GroupOk, TermsOk, LimitOk, WhensOk, LiteralOk, NumberOk, NameOk, StringOk, OptionOk, ExprOk, ExprOptionOk, SetSpecOk, exprsOk_append, rowsOk_append, ctesOk_append, termsOk_append, tablesOk_append, columnsOk_append, whensOk_append]
  | selectCoreList_2 _ _ _ ih0 ih1 ih2 =>
    intro hw
    have h0 := ih0 (allWords_append.mp hw).1
    have h1 := ih1 (allWords_append.mp (allWords_append.mp hw).2).1
    have h2 := ih2 (allWords_append.mp (allWords_append.mp hw).2).2
    clear hw ih0 ih1 ih2
    simp_all [OkOf, Writable, StatementOk, AssignmentOk, SelectOk, CtesOk, SetExprOk, Simple, RowsOk, ExprsOk, ResultColumnsOk, ColumnsOk, QualifiedOk, TablesOk, TableOk, ConstraintOk, NamesOk, GroupOk, TermsOk, LimitOk, WhensOk, LiteralOk, NumberOk, NameOk, StringOk, OptionOk, ExprOk, ExprOptionOk, SetSpecOk, exprsOk_append, rowsOk_append, ctesOk_append, termsOk_append, tablesOk_append, columnsOk_append, whensOk_append]
  | compoundOperator_1 =>
    exact fun _ => trivial
  | compoundOperator_2 =>
    exact fun _ => trivial
  | compoundOperator_3 =>
    exact fun _ => trivial
  | compoundOperator_4 =>
    exact fun _ => trivial
  | selectCore_1 _ _ _ _ ih1 ih2 ih3 ih4 =>
    intro hw
    have h1 := ih1 (allWords_append.mp (allWords_cons.mp hw).2).1
    have h2 := ih2 (allWords_append.mp (allWords_append.mp (allWords_cons.mp hw).2).2).1
    have h3 := ih3 (allWords_append.mp (allWords_append.mp (allWords_append.mp (allWords_cons.mp hw).2).2).2).1
    have h4 := ih4 (allWords_append.mp (allWords_append.mp (allWords_append.mp (allWords_cons.mp hw).2).2).2).2
    exact ⟨trivial, h2, trivial, optOk_where h3, optOk_group h4⟩
  | selectCore_2 _ _ _ _ _ ih1 ih2 ih3 ih4 ih5 =>
    intro hw
    have h1 := ih1 (allWords_append.mp (allWords_cons.mp hw).2).1
    have h2 := ih2 (allWords_append.mp (allWords_append.mp (allWords_cons.mp hw).2).2).1
    have h3 := ih3 (allWords_append.mp (allWords_append.mp (allWords_append.mp (allWords_cons.mp hw).2).2).2).1
    have h4 := ih4 (allWords_append.mp (allWords_append.mp (allWords_append.mp (allWords_append.mp (allWords_cons.mp hw).2).2).2).2).1
    have h5 := ih5 (allWords_append.mp (allWords_append.mp (allWords_append.mp (allWords_append.mp (allWords_cons.mp hw).2).2).2).2).2
    exact ⟨trivial, h2, h3, optOk_where h4, optOk_group h5⟩
  | selectCore_3 _ ih1 =>
    intro hw
    have h1 := ih1 (allWords_cons.mp hw).2
    clear hw ih1
    simp_all [OkOf, Writable, StatementOk, AssignmentOk, SelectOk, CtesOk, SetExprOk, Simple, RowsOk, ExprsOk, ResultColumnsOk, ColumnsOk, QualifiedOk, TablesOk, TableOk, ConstraintOk, NamesOk, GroupOk, TermsOk, LimitOk, WhensOk, LiteralOk, NumberOk, NameOk, StringOk, OptionOk, ExprOk, ExprOptionOk, SetSpecOk, exprsOk_append, rowsOk_append, ctesOk_append, termsOk_append, tablesOk_append, columnsOk_append, whensOk_append]
  | selectMode_1 _ ih0 =>
    exact fun _ => trivial
  | selectMode_2 =>
    exact fun _ => trivial
  | tupleList_1 _ ih0 =>
    intro hw
    have h0 := ih0 hw
    clear hw ih0
    simp_all [OkOf, Writable, StatementOk, AssignmentOk, SelectOk, CtesOk, SetExprOk, Simple, RowsOk, ExprsOk, ResultColumnsOk, ColumnsOk, QualifiedOk, TablesOk, TableOk, ConstraintOk, NamesOk, GroupOk, TermsOk, LimitOk, WhensOk, LiteralOk, NumberOk, NameOk, StringOk, OptionOk, ExprOk, ExprOptionOk, SetSpecOk, exprsOk_append, rowsOk_append, ctesOk_append, termsOk_append, tablesOk_append, columnsOk_append, whensOk_append]
  | tupleList_2 _ _ ih0 ih2 =>
    intro hw
    have h0 := ih0 (allWords_append.mp hw).1
    have h2 := ih2 (allWords_cons.mp (allWords_append.mp hw).2).2
    clear hw ih0 ih2
    simp_all [OkOf, Writable, StatementOk, AssignmentOk, SelectOk, CtesOk, SetExprOk, Simple, RowsOk, ExprsOk, ResultColumnsOk, ColumnsOk, QualifiedOk, TablesOk, TableOk, ConstraintOk, NamesOk, GroupOk, TermsOk, LimitOk, WhensOk, LiteralOk, NumberOk, NameOk, StringOk, OptionOk, ExprOk, ExprOptionOk, SetSpecOk, exprsOk_append, rowsOk_append, ctesOk_append, termsOk_append, tablesOk_append, columnsOk_append, whensOk_append]
  | tuple_1 _ ih1 =>
    intro hw
    have h1 := ih1 (allWords_append.mp (allWords_cons.mp hw).2).1
    clear hw ih1
    simp_all [OkOf, Writable, StatementOk, AssignmentOk, SelectOk, CtesOk, SetExprOk, Simple, RowsOk, ExprsOk, ResultColumnsOk, ColumnsOk, QualifiedOk, TablesOk, TableOk, ConstraintOk, NamesOk, GroupOk, TermsOk, LimitOk, WhensOk, LiteralOk, NumberOk, NameOk, StringOk, OptionOk, ExprOk, ExprOptionOk, SetSpecOk, exprsOk_append, rowsOk_append, ctesOk_append, termsOk_append, tablesOk_append, columnsOk_append, whensOk_append]
  | resultColumns_1 =>
    intro hw
    clear hw 
    simp_all [OkOf, Writable, StatementOk, AssignmentOk, SelectOk, CtesOk, SetExprOk, Simple, RowsOk, ExprsOk, ResultColumnsOk, ColumnsOk, QualifiedOk, TablesOk, TableOk, ConstraintOk, NamesOk, GroupOk, TermsOk, LimitOk, WhensOk, LiteralOk, NumberOk, NameOk, StringOk, OptionOk, ExprOk, ExprOptionOk, SetSpecOk, exprsOk_append, rowsOk_append, ctesOk_append, termsOk_append, tablesOk_append, columnsOk_append, whensOk_append]
  | resultColumns_2 _ ih0 =>
    intro hw
    have h0 := ih0 hw
    clear hw ih0
    simp_all [OkOf, Writable, StatementOk, AssignmentOk, SelectOk, CtesOk, SetExprOk, Simple, RowsOk, ExprsOk, ResultColumnsOk, ColumnsOk, QualifiedOk, TablesOk, TableOk, ConstraintOk, NamesOk, GroupOk, TermsOk, LimitOk, WhensOk, LiteralOk, NumberOk, NameOk, StringOk, OptionOk, ExprOk, ExprOptionOk, SetSpecOk, exprsOk_append, rowsOk_append, ctesOk_append, termsOk_append, tablesOk_append, columnsOk_append, whensOk_append]
  | resultColumnList_1 _ ih0 =>
    intro hw
    have h0 := ih0 hw
    clear hw ih0
    simp_all [OkOf, Writable, StatementOk, AssignmentOk, SelectOk, CtesOk, SetExprOk, Simple, RowsOk, ExprsOk, ResultColumnsOk, ColumnsOk, QualifiedOk, TablesOk, TableOk, ConstraintOk, NamesOk, GroupOk, TermsOk, LimitOk, WhensOk, LiteralOk, NumberOk, NameOk, StringOk, OptionOk, ExprOk, ExprOptionOk, SetSpecOk, exprsOk_append, rowsOk_append, ctesOk_append, termsOk_append, tablesOk_append, columnsOk_append, whensOk_append]
  | resultColumnList_2 _ _ ih0 ih2 =>
    intro hw
    have h0 := ih0 (allWords_append.mp hw).1
    have h2 := ih2 (allWords_cons.mp (allWords_append.mp hw).2).2
    clear hw ih0 ih2
    simp_all [OkOf, Writable, StatementOk, AssignmentOk, SelectOk, CtesOk, SetExprOk, Simple, RowsOk, ExprsOk, ResultColumnsOk, ColumnsOk, QualifiedOk, TablesOk, TableOk, ConstraintOk, NamesOk, GroupOk, TermsOk, LimitOk, WhensOk, LiteralOk, NumberOk, NameOk, StringOk, OptionOk, ExprOk, ExprOptionOk, SetSpecOk, exprsOk_append, rowsOk_append, ctesOk_append, termsOk_append, tablesOk_append, columnsOk_append, whensOk_append]
  | resultColumn_1 _ ih0 =>
    intro hw
    have h0 := ih0 hw
    clear hw ih0
    simp_all [OkOf, Writable, StatementOk, AssignmentOk, SelectOk, CtesOk, SetExprOk, Simple, RowsOk, ExprsOk, ResultColumnsOk, ColumnsOk, QualifiedOk, TablesOk, TableOk, ConstraintOk, NamesOk, GroupOk, TermsOk, LimitOk, WhensOk, LiteralOk, NumberOk, NameOk, StringOk, OptionOk, ExprOk, ExprOptionOk, SetSpecOk, exprsOk_append, rowsOk_append, ctesOk_append, termsOk_append, tablesOk_append, columnsOk_append, whensOk_append]
  | resultColumn_2 _ _ _ ih0 ih1 ih2 =>
    intro hw
    have h0 := ih0 (allWords_append.mp hw).1
    have h1 := ih1 (allWords_append.mp (allWords_append.mp hw).2).1
    have h2 := ih2 (allWords_append.mp (allWords_append.mp hw).2).2
    clear hw ih0 ih1 ih2
    simp_all [OkOf, Writable, StatementOk, AssignmentOk, SelectOk, CtesOk, SetExprOk, Simple, RowsOk, ExprsOk, ResultColumnsOk, ColumnsOk, QualifiedOk, TablesOk, TableOk, ConstraintOk, NamesOk, GroupOk, TermsOk, LimitOk, WhensOk, LiteralOk, NumberOk, NameOk, StringOk, OptionOk, ExprOk, ExprOptionOk, SetSpecOk, exprsOk_append, rowsOk_append, ctesOk_append, termsOk_append, tablesOk_append, columnsOk_append, whensOk_append]
  | resultColumn_3 _ ih0 =>
    intro hw
    have h0 := ih0 (allWords_append.mp hw).1
    clear hw ih0
    simp_all [OkOf, Writable, StatementOk, AssignmentOk, SelectOk, CtesOk, SetExprOk, Simple, RowsOk, ExprsOk, ResultColumnsOk, ColumnsOk, QualifiedOk, TablesOk, TableOk, ConstraintOk, NamesOk, GroupOk, TermsOk, LimitOk, WhensOk, LiteralOk, NumberOk, NameOk, StringOk, OptionOk, ExprOk, ExprOptionOk, SetSpecOk, exprsOk_append, rowsOk_append, ctesOk_append, termsOk_append, tablesOk_append, columnsOk_append, whensOk_append]
  | qualifiedIdentifier_1 _ ih0 =>
    intro hw
    have h0 := ih0 hw
    clear hw ih0
    simp_all [OkOf, Writable, StatementOk, AssignmentOk, SelectOk, CtesOk, SetExprOk, Simple, RowsOk, ExprsOk, ResultColumnsOk, ColumnsOk, QualifiedOk, TablesOk, TableOk, ConstraintOk, NamesOk, GroupOk, TermsOk, LimitOk, WhensOk, LiteralOk, NumberOk, NameOk, StringOk, OptionOk, ExprOk, ExprOptionOk, SetSpecOk, exprsOk_append, rowsOk_append, ctesOk_append, termsOk_append, tablesOk_append, columnsOk_append, whensOk_append]
  | qualifiedIdentifier_2 _ _ ih0 ih2 =>
    intro hw
    have h0 := ih0 (allWords_append.mp hw).1
    have h2 := ih2 (allWords_cons.mp (allWords_append.mp hw).2).2
    clear hw ih0 ih2
    simp_all [OkOf, Writable, StatementOk, AssignmentOk, SelectOk, CtesOk, SetExprOk, Simple, RowsOk, ExprsOk, ResultColumnsOk, ColumnsOk, QualifiedOk, TablesOk, TableOk, ConstraintOk, NamesOk, GroupOk, TermsOk, LimitOk, WhensOk, LiteralOk, NumberOk, NameOk, StringOk, OptionOk, ExprOk, ExprOptionOk, SetSpecOk, exprsOk_append, rowsOk_append, ctesOk_append, termsOk_append, tablesOk_append, columnsOk_append, whensOk_append]
  | qualifiedIdentifier_3 _ _ _ ih0 ih2 ih4 =>
    intro hw
    have h0 := ih0 (allWords_append.mp hw).1
    have h2 := ih2 (allWords_append.mp (allWords_cons.mp (allWords_append.mp hw).2).2).1
    have h4 := ih4 (allWords_cons.mp (allWords_append.mp (allWords_cons.mp (allWords_append.mp hw).2).2).2).2
    clear hw ih0 ih2 ih4
    simp_all [OkOf, Writable, StatementOk, AssignmentOk, SelectOk, CtesOk, SetExprOk, Simple, RowsOk, ExprsOk, ResultColumnsOk, ColumnsOk, QualifiedOk, TablesOk, TableOk, ConstraintOk, NamesOk, GroupOk, TermsOk, LimitOk, WhensOk, LiteralOk, NumberOk, NameOk, StringOk, OptionOk, ExprOk, ExprOptionOk, SetSpecOk, exprsOk_append, rowsOk_append, ctesOk_append, termsOk_append, tablesOk_append, columnsOk_append, whensOk_append]
  | fromClause_1 _ ih1 =>
    intro hw
    have h1 := ih1 (allWords_cons.mp hw).2
    clear hw ih1
    simp_all [OkOf, Writable, StatementOk, AssignmentOk, SelectOk, CtesOk, SetExprOk, Simple, RowsOk, ExprsOk, ResultColumnsOk, ColumnsOk, QualifiedOk, TablesOk, TableOk, ConstraintOk, NamesOk, GroupOk, TermsOk, LimitOk, WhensOk, LiteralOk, NumberOk, NameOk, StringOk, OptionOk, ExprOk, ExprOptionOk, SetSpecOk, exprsOk_append, rowsOk_append, ctesOk_append, termsOk_append, tablesOk_append, columnsOk_append, whensOk_append]
  | tableExpressionList_1 _ ih0 =>
    intro hw
    have h0 := ih0 hw
    clear hw ih0
    simp_all [OkOf, Writable, StatementOk, AssignmentOk, SelectOk, CtesOk, SetExprOk, Simple, RowsOk, ExprsOk, ResultColumnsOk, ColumnsOk, QualifiedOk, TablesOk, TableOk, ConstraintOk, NamesOk, GroupOk, TermsOk, LimitOk, WhensOk, LiteralOk, NumberOk, NameOk, StringOk, OptionOk, ExprOk, ExprOptionOk, SetSpecOk, exprsOk_append, rowsOk_append, ctesOk_append, termsOk_append, tablesOk_append, columnsOk_append, whensOk_append]
  | tableExpressionList_2 _ _ ih0 ih2 =>
    intro hw
    have h0 := ih0 (allWords_append.mp hw).1
    have h2 := ih2 (allWords_cons.mp (allWords_append.mp hw).2).2
    clear hw ih0 ih2
    simp_all [OkOf, Writable, StatementOk, AssignmentOk, SelectOk, CtesOk, SetExprOk, Simple, RowsOk, ExprsOk, ResultColumnsOk, ColumnsOk, QualifiedOk, TablesOk, TableOk, ConstraintOk, NamesOk, GroupOk, TermsOk, LimitOk, WhensOk, LiteralOk, NumberOk, NameOk, StringOk, OptionOk, ExprOk, ExprOptionOk, SetSpecOk, exprsOk_append, rowsOk_append, ctesOk_append, termsOk_append, tablesOk_append, columnsOk_append, whensOk_append]
  | tableExpression_1 _ ih0 =>
    intro hw
    have h0 := ih0 hw
    exact h0
  | tableExpression_2 _ _ _ _ ih0 ih1 ih2 ih3 =>
    intro hw
    have h0 := ih0 (allWords_append.mp hw).1
    have h1 := ih1 (allWords_append.mp (allWords_append.mp hw).2).1
    have h2 := ih2 (allWords_append.mp (allWords_append.mp (allWords_append.mp hw).2).2).1
    have h3 := ih3 (allWords_append.mp (allWords_append.mp (allWords_append.mp hw).2).2).2
    clear hw ih0 ih1 ih2 ih3
    simp_all [OkOf, Writable, StatementOk, AssignmentOk, SelectOk, CtesOk, SetExprOk, Simple, RowsOk, ExprsOk, ResultColumnsOk, ColumnsOk, QualifiedOk, TablesOk, TableOk, ConstraintOk, NamesOk, GroupOk, TermsOk, LimitOk, WhensOk, LiteralOk, NumberOk, NameOk, StringOk, OptionOk, ExprOk, ExprOptionOk, SetSpecOk, exprsOk_append, rowsOk_append, ctesOk_append, termsOk_append, tablesOk_append, columnsOk_append, whensOk_append]
  | tableOrSubQuery_1 _ _ ih0 ih1 =>
    intro hw
    have h0 := ih0 (allWords_append.mp hw).1
    have h1 := ih1 (allWords_append.mp hw).2
    exact ⟨h0, optOk_alias h1⟩
  | tableOrSubQuery_2 _ _ ih1 ih3 =>
    intro hw
    have h1 := ih1 (allWords_append.mp (allWords_cons.mp hw).2).1
    have h3 := ih3 (allWords_cons.mp (allWords_append.mp (allWords_cons.mp hw).2).2).2
    exact ⟨h1, optOk_alias h3⟩
  | tableOrSubQuery_3 _ ih1 =>
    intro hw
    have h1 := ih1 (allWords_append.mp (allWords_cons.mp hw).2).1
    clear hw ih1
    simp_all [OkOf, Writable, StatementOk, AssignmentOk, SelectOk, CtesOk, SetExprOk, Simple, RowsOk, ExprsOk, ResultColumnsOk, ColumnsOk, QualifiedOk, TablesOk, TableOk, ConstraintOk, NamesOk, GroupOk, TermsOk, LimitOk, WhensOk, LiteralOk, NumberOk, NameOk, StringOk, OptionOk, ExprOk, ExprOptionOk, SetSpecOk, exprsOk_append, rowsOk_append, ctesOk_append, termsOk_append, tablesOk_append, columnsOk_append, whensOk_append]
  | tableAlias_1 _ _ ih0 ih1 =>
    intro hw
    have h0 := ih0 (allWords_append.mp hw).1
    have h1 := ih1 (allWords_append.mp hw).2
    clear hw ih0 ih1
    simp_all [OkOf, Writable, StatementOk, AssignmentOk, SelectOk, CtesOk, SetExprOk, Simple, RowsOk, ExprsOk, ResultColumnsOk, ColumnsOk, QualifiedOk, TablesOk, TableOk, ConstraintOk, NamesOk, GroupOk, TermsOk, LimitOk, WhensOk, LiteralOk, NumberOk, NameOk, StringOk, OptionOk, ExprOk, ExprOptionOk, SetSpecOk, exprsOk_append, rowsOk_append, ctesOk_append, termsOk_append, tablesOk_append, columnsOk_append, whensOk_append]
  | joinOperator_1 _ ih0 =>
    exact fun _ => trivial
  | joinOperator_2 _ ih1 =>
    exact fun _ => trivial
  | joinOperator_3 =>
    exact fun _ => trivial
  | joinType_1 _ ih1 =>
    exact fun _ => trivial
  | joinType_2 _ ih1 =>
    exact fun _ => trivial
  | joinType_3 _ ih1 =>
    exact fun _ => trivial
  | joinType_4 =>
    exact fun _ => trivial
  | joinConstraint_1 _ ih1 =>
    intro hw
    have h1 := ih1 (allWords_cons.mp hw).2
    clear hw ih1
    simp_all [OkOf, Writable, StatementOk, AssignmentOk, SelectOk, CtesOk, SetExprOk, Simple, RowsOk, ExprsOk, ResultColumnsOk, ColumnsOk, QualifiedOk, TablesOk, TableOk, ConstraintOk, NamesOk, GroupOk, TermsOk, LimitOk, WhensOk, LiteralOk, NumberOk, NameOk, StringOk, OptionOk, ExprOk, ExprOptionOk, SetSpecOk, exprsOk_append, rowsOk_append, ctesOk_append, termsOk_append, tablesOk_append, columnsOk_append, whensOk_append]
  | joinConstraint_2 _ ih2 =>
    intro hw
    have h2 := ih2 (allWords_append.mp (allWords_cons.mp (allWords_cons.mp hw).2).2).1
    clear hw ih2
    simp_all [OkOf, Writable, StatementOk, AssignmentOk, SelectOk, CtesOk, SetExprOk, Simple, RowsOk, ExprsOk, ResultColumnsOk, ColumnsOk, QualifiedOk, TablesOk, TableOk, ConstraintOk, NamesOk, GroupOk, TermsOk, LimitOk, WhensOk, LiteralOk, NumberOk, NameOk, StringOk, OptionOk, ExprOk, ExprOptionOk, SetSpecOk, exprsOk_append, rowsOk_append, ctesOk_append, termsOk_append, tablesOk_append, columnsOk_append, whensOk_append]
  | identifierList_1 _ ih0 =>
    intro hw
    have h0 := ih0 hw
    clear hw ih0
    simp_all [OkOf, Writable, StatementOk, AssignmentOk, SelectOk, CtesOk, SetExprOk, Simple, RowsOk, ExprsOk, ResultColumnsOk, ColumnsOk, QualifiedOk, TablesOk, TableOk, ConstraintOk, NamesOk, GroupOk, TermsOk, LimitOk, WhensOk, LiteralOk, NumberOk, NameOk, StringOk, OptionOk, ExprOk, ExprOptionOk, SetSpecOk, exprsOk_append, rowsOk_append, ctesOk_append, termsOk_append, tablesOk_append, columnsOk_append, whensOk_append]
  | identifierList_2 _ _ ih0 ih2 =>
    intro hw
    have h0 := ih0 (allWords_append.mp hw).1
    have h2 := ih2 (allWords_cons.mp (allWords_append.mp hw).2).2
    exact ⟨by simp, fun a ha => (List.mem_append.mp ha).elim (h0.2 a) fun h => by rw [List.mem_singleton.mp h]; exact h2⟩
  | whereClause_1 _ ih1 =>
    intro hw
    have h1 := ih1 (allWords_cons.mp hw).2
    clear hw ih1
    simp_all [OkOf, Writable, StatementOk, AssignmentOk, SelectOk, CtesOk, SetExprOk, Simple, RowsOk, ExprsOk, ResultColumnsOk, ColumnsOk, QualifiedOk, TablesOk, TableOk, ConstraintOk, NamesOk, GroupOk, TermsOk, LimitOk, WhensOk, LiteralOk, NumberOk, NameOk, StringOk, OptionOk, ExprOk, ExprOptionOk, SetSpecOk, exprsOk_append, rowsOk_append, ctesOk_append, termsOk_append, tablesOk_append, columnsOk_append, whensOk_append]
  | groupByClause_1 _ ih2 =>
    intro hw
    have h2 := ih2 (allWords_cons.mp (allWords_cons.mp hw).2).2
    clear hw ih2
    simp_all [OkOf, Writable, StatementOk, AssignmentOk, SelectOk, CtesOk, SetExprOk, Simple, RowsOk, ExprsOk, ResultColumnsOk, ColumnsOk, QualifiedOk, TablesOk, TableOk, ConstraintOk, NamesOk, GroupOk, TermsOk, LimitOk, WhensOk, LiteralOk, NumberOk, NameOk, StringOk, OptionOk, ExprOk, ExprOptionOk, SetSpecOk, exprsOk_append, rowsOk_append, ctesOk_append, termsOk_append, tablesOk_append, columnsOk_append, whensOk_append]
  | groupByClause_2 _ _ ih2 ih4 =>
    intro hw
    have h2 := ih2 (allWords_append.mp (allWords_cons.mp (allWords_cons.mp hw).2).2).1
    have h4 := ih4 (allWords_cons.mp (allWords_append.mp (allWords_cons.mp (allWords_cons.mp hw).2).2).2).2
    clear hw ih2 ih4
    simp_all [OkOf, Writable, StatementOk, AssignmentOk, SelectOk, CtesOk, SetExprOk, Simple, RowsOk, ExprsOk, ResultColumnsOk, ColumnsOk, QualifiedOk, TablesOk, TableOk, ConstraintOk, NamesOk, GroupOk, TermsOk, LimitOk, WhensOk, LiteralOk, NumberOk, NameOk, StringOk, OptionOk, ExprOk, ExprOptionOk, SetSpecOk, exprsOk_append, rowsOk_append, ctesOk_append, termsOk_append, tablesOk_append, columnsOk_append, whensOk_append]
  | orderByClause_1 _ ih2 =>
    intro hw
    have h2 := ih2 (allWords_cons.mp (allWords_cons.mp hw).2).2
    clear hw ih2
    simp_all [OkOf, Writable, StatementOk, AssignmentOk, SelectOk, CtesOk, SetExprOk, Simple, RowsOk, ExprsOk, ResultColumnsOk, ColumnsOk, QualifiedOk, TablesOk, TableOk, ConstraintOk, NamesOk, GroupOk, TermsOk, LimitOk, WhensOk, LiteralOk, NumberOk, NameOk, StringOk, OptionOk, ExprOk, ExprOptionOk, SetSpecOk, exprsOk_append, rowsOk_append, ctesOk_append, termsOk_append, tablesOk_append, columnsOk_append, whensOk_append]
  | orderingTermList_1 _ ih0 =>
    intro hw
    have h0 := ih0 hw
    clear hw ih0
    simp_all [OkOf, Writable, StatementOk, AssignmentOk, SelectOk, CtesOk, SetExprOk, Simple, RowsOk, ExprsOk, ResultColumnsOk, ColumnsOk, QualifiedOk, TablesOk, TableOk, ConstraintOk, NamesOk, GroupOk, TermsOk, LimitOk, WhensOk, LiteralOk, NumberOk, NameOk, StringOk, OptionOk, ExprOk, ExprOptionOk, SetSpecOk, exprsOk_append, rowsOk_append, ctesOk_append, termsOk_append, tablesOk_append, columnsOk_append, whensOk_append]
  | orderingTermList_2 _ _ ih0 ih2 =>
    intro hw
    have h0 := ih0 (allWords_append.mp hw).1
    have h2 := ih2 (allWords_cons.mp (allWords_append.mp hw).2).2
    clear hw ih0 ih2
    simp_all [OkOf, Writable, StatementOk, AssignmentOk, SelectOk, CtesOk, SetExprOk, Simple, RowsOk, ExprsOk, ResultColumnsOk, ColumnsOk, QualifiedOk, TablesOk, TableOk, ConstraintOk, NamesOk, GroupOk, TermsOk, LimitOk, WhensOk, LiteralOk, NumberOk, NameOk, StringOk, OptionOk, ExprOk, ExprOptionOk, SetSpecOk, exprsOk_append, rowsOk_append, ctesOk_append, termsOk_append, tablesOk_append, columnsOk_append, whensOk_append]
  | orderingTerm_1 _ _ _ ih0 ih1 ih2 =>
    intro hw
    have h0 := ih0 (allWords_append.mp hw).1
    have h1 := ih1 (allWords_append.mp (allWords_append.mp hw).2).1
    have h2 := ih2 (allWords_append.mp (allWords_append.mp hw).2).2
    exact ⟨h0, optOk_collation h1, trivial⟩
  | orderingCollation_1 _ ih1 =>
    intro hw
    have h1 := ih1 (allWords_cons.mp hw).2
    clear hw ih1
    simp_all [OkOf, Writable, StatementOk, AssignmentOk, SelectOk, CtesOk, SetExprOk, Simple, RowsOk, ExprsOk, ResultColumnsOk, ColumnsOk, QualifiedOk, TablesOk, TableOk, ConstraintOk, NamesOk, GroupOk, TermsOk, LimitOk, WhensOk, LiteralOk, NumberOk, NameOk, StringOk, OptionOk, ExprOk, ExprOptionOk, SetSpecOk, exprsOk_append, rowsOk_append, ctesOk_append, termsOk_append, tablesOk_append, columnsOk_append, whensOk_append]
  | orderingDirection_1 _ ih0 =>
    exact fun _ => trivial
  | orderingDirection_2 =>
    exact fun _ => trivial
  | limitClause_1 _ ih1 =>
    intro hw
    have h1 := ih1 (allWords_cons.mp hw).2
    clear hw ih1
    simp_all [OkOf, Writable, StatementOk, AssignmentOk, SelectOk, CtesOk, SetExprOk, Simple, RowsOk, ExprsOk, ResultColumnsOk, ColumnsOk, QualifiedOk, TablesOk, TableOk, ConstraintOk, NamesOk, GroupOk, TermsOk, LimitOk, WhensOk, LiteralOk, NumberOk, NameOk, StringOk, OptionOk, ExprOk, ExprOptionOk, SetSpecOk, exprsOk_append, rowsOk_append, ctesOk_append, termsOk_append, tablesOk_append, columnsOk_append, whensOk_append]
  | limitClause_2 _ _ ih1 ih3 =>
    intro hw
    have h1 := ih1 (allWords_append.mp (allWords_cons.mp hw).2).1
    have h3 := ih3 (allWords_cons.mp (allWords_append.mp (allWords_cons.mp hw).2).2).2
    clear hw ih1 ih3
    simp_all [OkOf, Writable, StatementOk, AssignmentOk, SelectOk, CtesOk, SetExprOk, Simple, RowsOk, ExprsOk, ResultColumnsOk, ColumnsOk, QualifiedOk, TablesOk, TableOk, ConstraintOk, NamesOk, GroupOk, TermsOk, LimitOk, WhensOk, LiteralOk, NumberOk, NameOk, StringOk, OptionOk, ExprOk, ExprOptionOk, SetSpecOk, exprsOk_append, rowsOk_append, ctesOk_append, termsOk_append, tablesOk_append, columnsOk_append, whensOk_append]
  | limitClause_3 _ _ ih1 ih3 =>
    intro hw
    have h1 := ih1 (allWords_append.mp (allWords_cons.mp hw).2).1
    have h3 := ih3 (allWords_cons.mp (allWords_append.mp (allWords_cons.mp hw).2).2).2
    clear hw ih1 ih3
    simp_all [OkOf, Writable, StatementOk, AssignmentOk, SelectOk, CtesOk, SetExprOk, Simple, RowsOk, ExprsOk, ResultColumnsOk, ColumnsOk, QualifiedOk, TablesOk, TableOk, ConstraintOk, NamesOk, GroupOk, TermsOk, LimitOk, WhensOk, LiteralOk, NumberOk, NameOk, StringOk, OptionOk, ExprOk, ExprOptionOk, SetSpecOk, exprsOk_append, rowsOk_append, ctesOk_append, termsOk_append, tablesOk_append, columnsOk_append, whensOk_append]
  | attachStatement_1 _ _ _ ih2 ih4 ih5 =>
    intro hw
    have h2 := ih2 (allWords_append.mp (allWords_cons.mp (allWords_cons.mp hw).2).2).1
    have h4 := ih4 (allWords_append.mp (allWords_cons.mp (allWords_append.mp (allWords_cons.mp (allWords_cons.mp hw).2).2).2).2).1
    have h5 := ih5 (allWords_append.mp (allWords_cons.mp (allWords_append.mp (allWords_cons.mp (allWords_cons.mp hw).2).2).2).2).2
    exact ⟨h2, optOk_schema h4 h5⟩
  | describeStatement_1 _ _ ih1 ih2 =>
    intro hw
    have h1 := ih1 (allWords_append.mp (allWords_cons.mp hw).2).1
    have h2 := ih2 (allWords_append.mp (allWords_cons.mp hw).2).2
    exact optOk_schema h1 h2
  | schemaName_1 _ ih0 =>
    intro hw
    have h0 := ih0 (allWords_append.mp hw).1
    clear hw ih0
    simp_all [OkOf, Writable, StatementOk, AssignmentOk, SelectOk, CtesOk, SetExprOk, Simple, RowsOk, ExprsOk, ResultColumnsOk, ColumnsOk, QualifiedOk, TablesOk, TableOk, ConstraintOk, NamesOk, GroupOk, TermsOk, LimitOk, WhensOk, LiteralOk, NumberOk, NameOk, StringOk, OptionOk, ExprOk, ExprOptionOk, SetSpecOk, exprsOk_append, rowsOk_append, ctesOk_append, termsOk_append, tablesOk_append, columnsOk_append, whensOk_append]
  | expressionList_1 _ ih0 =>
    intro hw
    have h0 := ih0 hw
    clear hw ih0
    simp_all [OkOf, Writable, StatementOk, AssignmentOk, SelectOk, CtesOk, SetExprOk, Simple, RowsOk, ExprsOk, ResultColumnsOk, ColumnsOk, QualifiedOk, TablesOk, TableOk, ConstraintOk, NamesOk, GroupOk, TermsOk, LimitOk, WhensOk, LiteralOk, NumberOk, NameOk, StringOk, OptionOk, ExprOk, ExprOptionOk, SetSpecOk, exprsOk_append, rowsOk_append, ctesOk_append, termsOk_append, tablesOk_append, columnsOk_append, whensOk_append]
  | expressionList_2 _ _ ih0 ih2 =>
    intro hw
    have h0 := ih0 (allWords_append.mp hw).1
    have h2 := ih2 (allWords_cons.mp (allWords_append.mp hw).2).2
    clear hw ih0 ih2
    simp_all [OkOf, Writable, StatementOk, AssignmentOk, SelectOk, CtesOk, SetExprOk, Simple, RowsOk, ExprsOk, ResultColumnsOk, ColumnsOk, QualifiedOk, TablesOk, TableOk, ConstraintOk, NamesOk, GroupOk, TermsOk, LimitOk, WhensOk, LiteralOk, NumberOk, NameOk, StringOk, OptionOk, ExprOk, ExprOptionOk, SetSpecOk, exprsOk_append, rowsOk_append, ctesOk_append, termsOk_append, tablesOk_append, columnsOk_append, whensOk_append]
  | primaryExpression_1 _ ih1 =>
    intro hw
    have h1 := ih1 (allWords_append.mp (allWords_cons.mp hw).2).1
    clear hw ih1
    simp_all [OkOf, Writable, StatementOk, AssignmentOk, SelectOk, CtesOk, SetExprOk, Simple, RowsOk, ExprsOk, ResultColumnsOk, ColumnsOk, QualifiedOk, TablesOk, TableOk, ConstraintOk, NamesOk, GroupOk, TermsOk, LimitOk, WhensOk, LiteralOk, NumberOk, NameOk, StringOk, OptionOk, ExprOk, ExprOptionOk, SetSpecOk, exprsOk_append, rowsOk_append, ctesOk_append, termsOk_append, tablesOk_append, columnsOk_append, whensOk_append]
  | primaryExpression_2 _ hc ih1 =>
    intro hw
    have h1 := ih1 (allWords_append.mp (allWords_cons.mp hw).2).1
    exact ⟨by have := List.length_pos_iff.mpr h1.1; omega, h1.2⟩
  | primaryExpression_3 _ ih1 =>
    intro hw
    have h1 := ih1 (allWords_append.mp (allWords_cons.mp hw).2).1
    clear hw ih1
    simp_all [OkOf, Writable, StatementOk, AssignmentOk, SelectOk, CtesOk, SetExprOk, Simple, RowsOk, ExprsOk, ResultColumnsOk, ColumnsOk, QualifiedOk, TablesOk, TableOk, ConstraintOk, NamesOk, GroupOk, TermsOk, LimitOk, WhensOk, LiteralOk, NumberOk, NameOk, StringOk, OptionOk, ExprOk, ExprOptionOk, SetSpecOk, exprsOk_append, rowsOk_append, ctesOk_append, termsOk_append, tablesOk_append, columnsOk_append, whensOk_append]
  | primaryExpression_4 _ ih0 =>
    intro hw
    have h0 := ih0 hw
    clear hw ih0
    simp_all [OkOf, Writable, StatementOk, AssignmentOk, SelectOk, CtesOk, SetExprOk, Simple, RowsOk, ExprsOk, ResultColumnsOk, ColumnsOk, QualifiedOk, TablesOk, TableOk, ConstraintOk, NamesOk, GroupOk, TermsOk, LimitOk, WhensOk, LiteralOk, NumberOk, NameOk, StringOk, OptionOk, ExprOk, ExprOptionOk, SetSpecOk, exprsOk_append, rowsOk_append, ctesOk_append, termsOk_append, tablesOk_append, columnsOk_append, whensOk_append]
  | primaryExpression_5 _ ih0 =>
    intro hw
    have h0 := ih0 hw
    clear hw ih0
    simp_all [OkOf, Writable, StatementOk, AssignmentOk, SelectOk, CtesOk, SetExprOk, Simple, RowsOk, ExprsOk, ResultColumnsOk, ColumnsOk, QualifiedOk, TablesOk, TableOk, ConstraintOk, NamesOk, GroupOk, TermsOk, LimitOk, WhensOk, LiteralOk, NumberOk, NameOk, StringOk, OptionOk, ExprOk, ExprOptionOk, SetSpecOk, exprsOk_append, rowsOk_append, ctesOk_append, termsOk_append, tablesOk_append, columnsOk_append, whensOk_append]
  | unaryExpression_1 _ ih0 =>
    intro hw
    have h0 := ih0 hw
    exact h0
  | unaryExpression_2 _ ih1 =>
    intro hw
    have h1 := ih1 (allWords_cons.mp hw).2
    clear hw ih1
    simp_all [OkOf, Writable, StatementOk, AssignmentOk, SelectOk, CtesOk, SetExprOk, Simple, RowsOk, ExprsOk, ResultColumnsOk, ColumnsOk, QualifiedOk, TablesOk, TableOk, ConstraintOk, NamesOk, GroupOk, TermsOk, LimitOk, WhensOk, LiteralOk, NumberOk, NameOk, StringOk, OptionOk, ExprOk, ExprOptionOk, SetSpecOk, exprsOk_append, rowsOk_append, ctesOk_append, termsOk_append, tablesOk_append, columnsOk_append, whensOk_append]
  | unaryExpression_3 _ ih1 =>
    intro hw
    have h1 := ih1 (allWords_cons.mp hw).2
    clear hw ih1
    simp_all [OkOf, Writable, StatementOk, AssignmentOk, SelectOk, CtesOk, SetExprOk, Simple, RowsOk, ExprsOk, ResultColumnsOk, ColumnsOk, QualifiedOk, TablesOk, TableOk, ConstraintOk, NamesOk, GroupOk, TermsOk, LimitOk, WhensOk, LiteralOk, NumberOk, NameOk, StringOk, OptionOk, ExprOk, ExprOptionOk, SetSpecOk, exprsOk_append, rowsOk_append, ctesOk_append, termsOk_append, tablesOk_append, columnsOk_append, whensOk_append]
  | multiplicativeExpression_1 _ ih0 =>
    intro hw
    have h0 := ih0 hw
    exact h0
  | multiplicativeExpression_2 _ _ ih0 ih2 =>
    intro hw
    have h0 := ih0 (allWords_append.mp hw).1
    have h2 := ih2 (allWords_cons.mp (allWords_append.mp hw).2).2
    clear hw ih0 ih2
    simp_all [OkOf, Writable, StatementOk, AssignmentOk, SelectOk, CtesOk, SetExprOk, Simple, RowsOk, ExprsOk, ResultColumnsOk, ColumnsOk, QualifiedOk, TablesOk, TableOk, ConstraintOk, NamesOk, GroupOk, TermsOk, LimitOk, WhensOk, LiteralOk, NumberOk, NameOk, StringOk, OptionOk, ExprOk, ExprOptionOk, SetSpecOk, exprsOk_append, rowsOk_append, ctesOk_append, termsOk_append, tablesOk_append, columnsOk_append, whensOk_append]
  | multiplicativeExpression_3 _ _ ih0 ih2 =>
    intro hw
    have h0 := ih0 (allWords_append.mp hw).1
    have h2 := ih2 (allWords_cons.mp (allWords_append.mp hw).2).2
    clear hw ih0 ih2
    simp_all [OkOf, Writable, StatementOk, AssignmentOk, SelectOk, CtesOk, SetExprOk, Simple, RowsOk, ExprsOk, ResultColumnsOk, ColumnsOk, QualifiedOk, TablesOk, TableOk, ConstraintOk, NamesOk, GroupOk, TermsOk, LimitOk, WhensOk, LiteralOk, NumberOk, NameOk, StringOk, OptionOk, ExprOk, ExprOptionOk, SetSpecOk, exprsOk_append, rowsOk_append, ctesOk_append, termsOk_append, tablesOk_append, columnsOk_append, whensOk_append]
  | additiveExpression_1 _ ih0 =>
    intro hw
    have h0 := ih0 hw
    exact h0
  | additiveExpression_2 _ _ ih0 ih2 =>
    intro hw
    have h0 := ih0 (allWords_append.mp hw).1
    have h2 := ih2 (allWords_cons.mp (allWords_append.mp hw).2).2
    clear hw ih0 ih2
    simp_all [OkOf, Writable, StatementOk, AssignmentOk, SelectOk, CtesOk, SetExprOk, Simple, RowsOk, ExprsOk, ResultColumnsOk, ColumnsOk, QualifiedOk, TablesOk, TableOk, ConstraintOk, NamesOk, GroupOk, TermsOk, LimitOk, WhensOk, LiteralOk, NumberOk, NameOk, StringOk, OptionOk, ExprOk, ExprOptionOk, SetSpecOk, exprsOk_append, rowsOk_append, ctesOk_append, termsOk_append, tablesOk_append, columnsOk_append, whensOk_append]
  | additiveExpression_3 _ _ ih0 ih2 =>
    intro hw
    have h0 := ih0 (allWords_append.mp hw).1
    have h2 := ih2 (allWords_cons.mp (allWords_append.mp hw).2).2
    clear hw ih0 ih2
    simp_all [OkOf, Writable, StatementOk, AssignmentOk, SelectOk, CtesOk, SetExprOk, Simple, RowsOk, ExprsOk, ResultColumnsOk, ColumnsOk, QualifiedOk, TablesOk, TableOk, ConstraintOk, NamesOk, GroupOk, TermsOk, LimitOk, WhensOk, LiteralOk, NumberOk, NameOk, StringOk, OptionOk, ExprOk, ExprOptionOk, SetSpecOk, exprsOk_append, rowsOk_append, ctesOk_append, termsOk_append, tablesOk_append, columnsOk_append, whensOk_append]
  | additiveExpression_4 _ _ ih0 ih2 =>
    intro hw
    have h0 := ih0 (allWords_append.mp hw).1
    have h2 := ih2 (allWords_cons.mp (allWords_append.mp hw).2).2
    clear hw ih0 ih2
    simp_all [OkOf, Writable, StatementOk, AssignmentOk, SelectOk, CtesOk, SetExprOk, Simple, RowsOk, ExprsOk, ResultColumnsOk, ColumnsOk, QualifiedOk, TablesOk, TableOk, ConstraintOk, NamesOk, GroupOk, TermsOk, LimitOk, WhensOk, LiteralOk, NumberOk, NameOk, StringOk, OptionOk, ExprOk, ExprOptionOk, SetSpecOk, exprsOk_append, rowsOk_append, ctesOk_append, termsOk_append, tablesOk_append, columnsOk_append, whensOk_append]
  | comparativeExpression_1 _ ih0 =>
    intro hw
    have h0 := ih0 hw
    exact h0
  | comparativeExpression_2 _ _ ih0 ih2 =>
    intro hw
    have h0 := ih0 (allWords_append.mp hw).1
    have h2 := ih2 (allWords_cons.mp (allWords_append.mp hw).2).2
    clear hw ih0 ih2
    simp_all [OkOf, Writable, StatementOk, AssignmentOk, SelectOk, CtesOk, SetExprOk, Simple, RowsOk, ExprsOk, ResultColumnsOk, ColumnsOk, QualifiedOk, TablesOk, TableOk, ConstraintOk, NamesOk, GroupOk, TermsOk, LimitOk, WhensOk, LiteralOk, NumberOk, NameOk, StringOk, OptionOk, ExprOk, ExprOptionOk, SetSpecOk, exprsOk_append, rowsOk_append, ctesOk_append, termsOk_append, tablesOk_append, columnsOk_append, whensOk_append]
  | comparativeExpression_3 _ _ ih0 ih2 =>
    intro hw
    have h0 := ih0 (allWords_append.mp hw).1
    have h2 := ih2 (allWords_cons.mp (allWords_append.mp hw).2).2
    clear hw ih0 ih2
    simp_all [OkOf, Writable, StatementOk, AssignmentOk, SelectOk, CtesOk, SetExprOk, Simple, RowsOk, ExprsOk, ResultColumnsOk, ColumnsOk, QualifiedOk, TablesOk, TableOk, ConstraintOk, NamesOk, GroupOk, TermsOk, LimitOk, WhensOk, LiteralOk, NumberOk, NameOk, StringOk, OptionOk, ExprOk, ExprOptionOk, SetSpecOk, exprsOk_append, rowsOk_append, ctesOk_append, termsOk_append, tablesOk_append, columnsOk_append, whensOk_append]
  | comparativeExpression_4 _ _ ih0 ih2 =>
    intro hw
    have h0 := ih0 (allWords_append.mp hw).1
    have h2 := ih2 (allWords_cons.mp (allWords_append.mp hw).2).2
    clear hw ih0 ih2
    simp_all [OkOf, Writable, StatementOk, AssignmentOk, SelectOk, CtesOk, SetExprOk, Simple, RowsOk, ExprsOk, ResultColumnsOk, ColumnsOk, QualifiedOk, TablesOk, TableOk, ConstraintOk, NamesOk, GroupOk, TermsOk, LimitOk, WhensOk, LiteralOk, NumberOk, NameOk, StringOk, OptionOk, ExprOk, ExprOptionOk, SetSpecOk, exprsOk_append, rowsOk_append, ctesOk_append, termsOk_append, tablesOk_append, columnsOk_append, whensOk_append]
  | comparativeExpression_5 _ _ ih0 ih2 =>
    intro hw
    have h0 := ih0 (allWords_append.mp hw).1
    have h2 := ih2 (allWords_cons.mp (allWords_append.mp hw).2).2
    clear hw ih0 ih2
    simp_all [OkOf, Writable, StatementOk, AssignmentOk, SelectOk, CtesOk, SetExprOk, Simple, RowsOk, ExprsOk, ResultColumnsOk, ColumnsOk, QualifiedOk, TablesOk, TableOk, ConstraintOk, NamesOk, GroupOk, TermsOk, LimitOk, WhensOk, LiteralOk, NumberOk, NameOk, StringOk, OptionOk, ExprOk, ExprOptionOk, SetSpecOk, exprsOk_append, rowsOk_append, ctesOk_append, termsOk_append, tablesOk_append, columnsOk_append, whensOk_append]
  | comparativeExpression_6 _ _ ih0 ih2 =>
    intro hw
    have h0 := ih0 (allWords_append.mp hw).1
    have h2 := ih2 (allWords_cons.mp (allWords_append.mp hw).2).2
    clear hw ih0 ih2
    simp_all [OkOf, Writable, StatementOk, AssignmentOk, SelectOk, CtesOk, SetExprOk, Simple, RowsOk, ExprsOk, ResultColumnsOk, ColumnsOk, QualifiedOk, TablesOk, TableOk, ConstraintOk, NamesOk, GroupOk, TermsOk, LimitOk, WhensOk, LiteralOk, NumberOk, NameOk, StringOk, OptionOk, ExprOk, ExprOptionOk, SetSpecOk, exprsOk_append, rowsOk_append, ctesOk_append, termsOk_append, tablesOk_append, columnsOk_append, whensOk_append]
  | comparativeExpression_7 _ _ ih0 ih2 =>
    intro hw
    have h0 := ih0 (allWords_append.mp hw).1
    have h2 := ih2 (allWords_cons.mp (allWords_append.mp hw).2).2
    clear hw ih0 ih2
    simp_all [OkOf, Writable, StatementOk, AssignmentOk, SelectOk, CtesOk, SetExprOk, Simple, RowsOk, ExprsOk, ResultColumnsOk, ColumnsOk, QualifiedOk, TablesOk, TableOk, ConstraintOk, NamesOk, GroupOk, TermsOk, LimitOk, WhensOk, LiteralOk, NumberOk, NameOk, StringOk, OptionOk, ExprOk, ExprOptionOk, SetSpecOk, exprsOk_append, rowsOk_append, ctesOk_append, termsOk_append, tablesOk_append, columnsOk_append, whensOk_append]
  | comparativeExpression_8 _ ih0 =>
    intro hw
    have h0 := ih0 (allWords_append.mp hw).1
    clear hw ih0
    simp_all [OkOf, Writable, StatementOk, AssignmentOk, SelectOk, CtesOk, SetExprOk, Simple, RowsOk, ExprsOk, ResultColumnsOk, ColumnsOk, QualifiedOk, TablesOk, TableOk, ConstraintOk, NamesOk, GroupOk, TermsOk, LimitOk, WhensOk, LiteralOk, NumberOk, NameOk, StringOk, OptionOk, ExprOk, ExprOptionOk, SetSpecOk, exprsOk_append, rowsOk_append, ctesOk_append, termsOk_append, tablesOk_append, columnsOk_append, whensOk_append]
  | comparativeExpression_9 _ ih0 =>
    intro hw
    have h0 := ih0 (allWords_append.mp hw).1
    clear hw ih0
    simp_all [OkOf, Writable, StatementOk, AssignmentOk, SelectOk, CtesOk, SetExprOk, Simple, RowsOk, ExprsOk, ResultColumnsOk, ColumnsOk, QualifiedOk, TablesOk, TableOk, ConstraintOk, NamesOk, GroupOk, TermsOk, LimitOk, WhensOk, LiteralOk, NumberOk, NameOk, StringOk, OptionOk, ExprOk, ExprOptionOk, SetSpecOk, exprsOk_append, rowsOk_append, ctesOk_append, termsOk_append, tablesOk_append, columnsOk_append, whensOk_append]
  | comparativeExpression_10 _ _ ih0 ih2 =>
    intro hw
    have h0 := ih0 (allWords_append.mp hw).1
    have h2 := ih2 (allWords_cons.mp (allWords_append.mp hw).2).2
    clear hw ih0 ih2
    simp_all [OkOf, Writable, StatementOk, AssignmentOk, SelectOk, CtesOk, SetExprOk, Simple, RowsOk, ExprsOk, ResultColumnsOk, ColumnsOk, QualifiedOk, TablesOk, TableOk, ConstraintOk, NamesOk, GroupOk, TermsOk, LimitOk, WhensOk, LiteralOk, NumberOk, NameOk, StringOk, OptionOk, ExprOk, ExprOptionOk, SetSpecOk, exprsOk_append, rowsOk_append, ctesOk_append, termsOk_append, tablesOk_append, columnsOk_append, whensOk_append]
  | comparativeExpression_11 _ ih0 =>
    intro hw
    have h0 := ih0 (allWords_append.mp hw).1
    clear hw ih0
    simp_all [OkOf, Writable, StatementOk, AssignmentOk, SelectOk, CtesOk, SetExprOk, Simple, RowsOk, ExprsOk, ResultColumnsOk, ColumnsOk, QualifiedOk, TablesOk, TableOk, ConstraintOk, NamesOk, GroupOk, TermsOk, LimitOk, WhensOk, LiteralOk, NumberOk, NameOk, StringOk, OptionOk, ExprOk, ExprOptionOk, SetSpecOk, exprsOk_append, rowsOk_append, ctesOk_append, termsOk_append, tablesOk_append, columnsOk_append, whensOk_append]
  | comparativeExpression_12 _ ih0 =>
    intro hw
    have h0 := ih0 (allWords_append.mp hw).1
    clear hw ih0
    simp_all [OkOf, Writable, StatementOk, AssignmentOk, SelectOk, CtesOk, SetExprOk, Simple, RowsOk, ExprsOk, ResultColumnsOk, ColumnsOk, QualifiedOk, TablesOk, TableOk, ConstraintOk, NamesOk, GroupOk, TermsOk, LimitOk, WhensOk, LiteralOk, NumberOk, NameOk, StringOk, OptionOk, ExprOk, ExprOptionOk, SetSpecOk, exprsOk_append, rowsOk_append, ctesOk_append, termsOk_append, tablesOk_append, columnsOk_append, whensOk_append]
  | comparativeExpression_13 _ ih0 =>
    intro hw
    have h0 := ih0 (allWords_append.mp hw).1
    clear hw ih0
    simp_all [OkOf, Writable, StatementOk, AssignmentOk, SelectOk, CtesOk, SetExprOk, Simple, RowsOk, ExprsOk, ResultColumnsOk, ColumnsOk, QualifiedOk, TablesOk, TableOk, ConstraintOk, NamesOk, GroupOk, TermsOk, LimitOk, WhensOk, LiteralOk, NumberOk, NameOk, StringOk, OptionOk, ExprOk, ExprOptionOk, SetSpecOk, exprsOk_append, rowsOk_append, ctesOk_append, termsOk_append, tablesOk_append, columnsOk_append, whensOk_append]
  | comparativeExpression_14 _ ih0 =>
    intro hw
    have h0 := ih0 (allWords_append.mp hw).1
    clear hw ih0
    simp_all [OkOf, Writable, StatementOk, AssignmentOk, SelectOk, CtesOk, SetExprOk, Simple, RowsOk, ExprsOk, ResultColumnsOk, ColumnsOk, QualifiedOk, TablesOk, TableOk, ConstraintOk, NamesOk, GroupOk, TermsOk, LimitOk, WhensOk, LiteralOk, NumberOk, NameOk, StringOk, OptionOk, ExprOk, ExprOptionOk, SetSpecOk, exprsOk_append, rowsOk_append, ctesOk_append, termsOk_append, tablesOk_append, columnsOk_append, whensOk_append]
  | comparativeExpression_15 _ ih0 =>
    intro hw
    have h0 := ih0 (allWords_append.mp hw).1
    clear hw ih0
    simp_all [OkOf, Writable, StatementOk, AssignmentOk, SelectOk, CtesOk, SetExprOk, Simple, RowsOk, ExprsOk, ResultColumnsOk, ColumnsOk, QualifiedOk, TablesOk, TableOk, ConstraintOk, NamesOk, GroupOk, TermsOk, LimitOk, WhensOk, LiteralOk, NumberOk, NameOk, StringOk, OptionOk, ExprOk, ExprOptionOk, SetSpecOk, exprsOk_append, rowsOk_append, ctesOk_append, termsOk_append, tablesOk_append, columnsOk_append, whensOk_append]
  | comparativeExpression_16 _ _ ih0 ih3 =>
    intro hw
    have h0 := ih0 (allWords_append.mp hw).1
    have h3 := ih3 (allWords_append.mp (allWords_cons.mp (allWords_cons.mp (allWords_append.mp hw).2).2).2).1
    clear hw ih0 ih3
    simp_all [OkOf, Writable, StatementOk, AssignmentOk, SelectOk, CtesOk, SetExprOk, Simple, RowsOk, ExprsOk, ResultColumnsOk, ColumnsOk, QualifiedOk, TablesOk, TableOk, ConstraintOk, NamesOk, GroupOk, TermsOk, LimitOk, WhensOk, LiteralOk, NumberOk, NameOk, StringOk, OptionOk, ExprOk, ExprOptionOk, SetSpecOk, exprsOk_append, rowsOk_append, ctesOk_append, termsOk_append, tablesOk_append, columnsOk_append, whensOk_append]
  | comparativeExpression_17 _ _ ih0 ih4 =>
    intro hw
    have h0 := ih0 (allWords_append.mp hw).1
    have h4 := ih4 (allWords_append.mp (allWords_cons.mp (allWords_cons.mp (allWords_cons.mp (allWords_append.mp hw).2).2).2).2).1
    clear hw ih0 ih4
    simp_all [OkOf, Writable, StatementOk, AssignmentOk, SelectOk, CtesOk, SetExprOk, Simple, RowsOk, ExprsOk, ResultColumnsOk, ColumnsOk, QualifiedOk, TablesOk, TableOk, ConstraintOk, NamesOk, GroupOk, TermsOk, LimitOk, WhensOk, LiteralOk, NumberOk, NameOk, StringOk, OptionOk, ExprOk, ExprOptionOk, SetSpecOk, exprsOk_append, rowsOk_append, ctesOk_append, termsOk_append, tablesOk_append, columnsOk_append, whensOk_append]
  | comparativeExpression_18 _ _ ih0 ih3 =>
    intro hw
    have h0 := ih0 (allWords_append.mp hw).1
    have h3 := ih3 (allWords_append.mp (allWords_cons.mp (allWords_cons.mp (allWords_append.mp hw).2).2).2).1
    clear hw ih0 ih3
    simp_all [OkOf, Writable, StatementOk, AssignmentOk, SelectOk, CtesOk, SetExprOk, Simple, RowsOk, ExprsOk, ResultColumnsOk, ColumnsOk, QualifiedOk, TablesOk, TableOk, ConstraintOk, NamesOk, GroupOk, TermsOk, LimitOk, WhensOk, LiteralOk, NumberOk, NameOk, StringOk, OptionOk, ExprOk, ExprOptionOk, SetSpecOk, exprsOk_append, rowsOk_append, ctesOk_append, termsOk_append, tablesOk_append, columnsOk_append, whensOk_append]
  | comparativeExpression_19 _ _ ih0 ih4 =>
    intro hw
    have h0 := ih0 (allWords_append.mp hw).1
    have h4 := ih4 (allWords_append.mp (allWords_cons.mp (allWords_cons.mp (allWords_cons.mp (allWords_append.mp hw).2).2).2).2).1
    clear hw ih0 ih4
    simp_all [OkOf, Writable, StatementOk, AssignmentOk, SelectOk, CtesOk, SetExprOk, Simple, RowsOk, ExprsOk, ResultColumnsOk, ColumnsOk, QualifiedOk, TablesOk, TableOk, ConstraintOk, NamesOk, GroupOk, TermsOk, LimitOk, WhensOk, LiteralOk, NumberOk, NameOk, StringOk, OptionOk, ExprOk, ExprOptionOk, SetSpecOk, exprsOk_append, rowsOk_append, ctesOk_append, termsOk_append, tablesOk_append, columnsOk_append, whensOk_append]
  | comparativeExpression_20 _ _ ih0 ih2 =>
    intro hw
    have h0 := ih0 (allWords_append.mp hw).1
    have h2 := ih2 (allWords_cons.mp (allWords_append.mp hw).2).2
    clear hw ih0 ih2
    simp_all [OkOf, Writable, StatementOk, AssignmentOk, SelectOk, CtesOk, SetExprOk, Simple, RowsOk, ExprsOk, ResultColumnsOk, ColumnsOk, QualifiedOk, TablesOk, TableOk, ConstraintOk, NamesOk, GroupOk, TermsOk, LimitOk, WhensOk, LiteralOk, NumberOk, NameOk, StringOk, OptionOk, ExprOk, ExprOptionOk, SetSpecOk, exprsOk_append, rowsOk_append, ctesOk_append, termsOk_append, tablesOk_append, columnsOk_append, whensOk_append]
  | comparativeExpression_21 _ _ ih0 ih3 =>
    intro hw
    have h0 := ih0 (allWords_append.mp hw).1
    have h3 := ih3 (allWords_cons.mp (allWords_cons.mp (allWords_append.mp hw).2).2).2
    clear hw ih0 ih3
    simp_all [OkOf, Writable, StatementOk, AssignmentOk, SelectOk, CtesOk, SetExprOk, Simple, RowsOk, ExprsOk, ResultColumnsOk, ColumnsOk, QualifiedOk, TablesOk, TableOk, ConstraintOk, NamesOk, GroupOk, TermsOk, LimitOk, WhensOk, LiteralOk, NumberOk, NameOk, StringOk, OptionOk, ExprOk, ExprOptionOk, SetSpecOk, exprsOk_append, rowsOk_append, ctesOk_append, termsOk_append, tablesOk_append, columnsOk_append, whensOk_append]
  | comparativeExpression_22 _ _ _ ih0 ih2 ih4 =>
    intro hw
    have h0 := ih0 (allWords_append.mp hw).1
    have h2 := ih2 (allWords_append.mp (allWords_cons.mp (allWords_append.mp hw).2).2).1
    have h4 := ih4 (allWords_cons.mp (allWords_append.mp (allWords_cons.mp (allWords_append.mp hw).2).2).2).2
    clear hw ih0 ih2 ih4
    simp_all [OkOf, Writable, StatementOk, AssignmentOk, SelectOk, CtesOk, SetExprOk, Simple, RowsOk, ExprsOk, ResultColumnsOk, ColumnsOk, QualifiedOk, TablesOk, TableOk, ConstraintOk, NamesOk, GroupOk, TermsOk, LimitOk, WhensOk, LiteralOk, NumberOk, NameOk, StringOk, OptionOk, ExprOk, ExprOptionOk, SetSpecOk, exprsOk_append, rowsOk_append, ctesOk_append, termsOk_append, tablesOk_append, columnsOk_append, whensOk_append]
  | comparativeExpression_23 _ _ _ ih0 ih3 ih5 =>
    intro hw
    have h0 := ih0 (allWords_append.mp hw).1
    have h3 := ih3 (allWords_append.mp (allWords_cons.mp (allWords_cons.mp (allWords_append.mp hw).2).2).2).1
    have h5 := ih5 (allWords_cons.mp (allWords_append.mp (allWords_cons.mp (allWords_cons.mp (allWords_append.mp hw).2).2).2).2).2
    clear hw ih0 ih3 ih5
    simp_all [OkOf, Writable, StatementOk, AssignmentOk, SelectOk, CtesOk, SetExprOk, Simple, RowsOk, ExprsOk, ResultColumnsOk, ColumnsOk, QualifiedOk, TablesOk, TableOk, ConstraintOk, NamesOk, GroupOk, TermsOk, LimitOk, WhensOk, LiteralOk, NumberOk, NameOk, StringOk, OptionOk, ExprOk, ExprOptionOk, SetSpecOk, exprsOk_append, rowsOk_append, ctesOk_append, termsOk_append, tablesOk_append, columnsOk_append, whensOk_append]
  | complexExpression_1 _ ih0 =>
    intro hw
    have h0 := ih0 hw
    exact h0
  | complexExpression_2 _ ih0 =>
    intro hw
    have h0 := ih0 hw
    exact h0
  | caseExpression_1 _ _ _ ih1 ih2 ih3 =>
    intro hw
    have h1 := ih1 (allWords_append.mp (allWords_cons.mp hw).2).1
    have h2 := ih2 (allWords_append.mp (allWords_append.mp (allWords_cons.mp hw).2).2).1
    have h3 := ih3 (allWords_append.mp (allWords_append.mp (allWords_append.mp (allWords_cons.mp hw).2).2).2).1
    exact ⟨optOk_expr h1, h2.1, h2.2, optOk_else h3⟩
  | whenClauses_1 _ ih0 =>
    intro hw
    have h0 := ih0 hw
    clear hw ih0
    simp_all [OkOf, Writable, StatementOk, AssignmentOk, SelectOk, CtesOk, SetExprOk, Simple, RowsOk, ExprsOk, ResultColumnsOk, ColumnsOk, QualifiedOk, TablesOk, TableOk, ConstraintOk, NamesOk, GroupOk, TermsOk, LimitOk, WhensOk, LiteralOk, NumberOk, NameOk, StringOk, OptionOk, ExprOk, ExprOptionOk, SetSpecOk, exprsOk_append, rowsOk_append, ctesOk_append, termsOk_append, tablesOk_append, columnsOk_append, whensOk_append]
  | whenClauses_2 _ _ ih0 ih1 =>
    intro hw
    have h0 := ih0 (allWords_append.mp hw).1
    have h1 := ih1 (allWords_append.mp hw).2
    clear hw ih0 ih1
    simp_all [OkOf, Writable, StatementOk, AssignmentOk, SelectOk, CtesOk, SetExprOk, Simple, RowsOk, ExprsOk, ResultColumnsOk, ColumnsOk, QualifiedOk, TablesOk, TableOk, ConstraintOk, NamesOk, GroupOk, TermsOk, LimitOk, WhensOk, LiteralOk, NumberOk, NameOk, StringOk, OptionOk, ExprOk, ExprOptionOk, SetSpecOk, exprsOk_append, rowsOk_append, ctesOk_append, termsOk_append, tablesOk_append, columnsOk_append, whensOk_append]
  | whenClause_1 _ _ ih1 ih3 =>
    intro hw
    have h1 := ih1 (allWords_append.mp (allWords_cons.mp hw).2).1
    have h3 := ih3 (allWords_cons.mp (allWords_append.mp (allWords_cons.mp hw).2).2).2
    clear hw ih1 ih3
    simp_all [OkOf, Writable, StatementOk, AssignmentOk, SelectOk, CtesOk, SetExprOk, Simple, RowsOk, ExprsOk, ResultColumnsOk, ColumnsOk, QualifiedOk, TablesOk, TableOk, ConstraintOk, NamesOk, GroupOk, TermsOk, LimitOk, WhensOk, LiteralOk, NumberOk, NameOk, StringOk, OptionOk, ExprOk, ExprOptionOk, SetSpecOk, exprsOk_append, rowsOk_append, ctesOk_append, termsOk_append, tablesOk_append, columnsOk_append, whensOk_append]
  | elseClause_1 _ ih1 =>
    intro hw
    have h1 := ih1 (allWords_cons.mp hw).2
    clear hw ih1
    simp_all [OkOf, Writable, StatementOk, AssignmentOk, SelectOk, CtesOk, SetExprOk, Simple, RowsOk, ExprsOk, ResultColumnsOk, ColumnsOk, QualifiedOk, TablesOk, TableOk, ConstraintOk, NamesOk, GroupOk, TermsOk, LimitOk, WhensOk, LiteralOk, NumberOk, NameOk, StringOk, OptionOk, ExprOk, ExprOptionOk, SetSpecOk, exprsOk_append, rowsOk_append, ctesOk_append, termsOk_append, tablesOk_append, columnsOk_append, whensOk_append]
  | notExpression_1 _ ih0 =>
    intro hw
    have h0 := ih0 hw
    exact h0
  | notExpression_2 _ ih1 =>
    intro hw
    have h1 := ih1 (allWords_cons.mp hw).2
    clear hw ih1
    simp_all [OkOf, Writable, StatementOk, AssignmentOk, SelectOk, CtesOk, SetExprOk, Simple, RowsOk, ExprsOk, ResultColumnsOk, ColumnsOk, QualifiedOk, TablesOk, TableOk, ConstraintOk, NamesOk, GroupOk, TermsOk, LimitOk, WhensOk, LiteralOk, NumberOk, NameOk, StringOk, OptionOk, ExprOk, ExprOptionOk, SetSpecOk, exprsOk_append, rowsOk_append, ctesOk_append, termsOk_append, tablesOk_append, columnsOk_append, whensOk_append]
  | andExpression_1 _ ih0 =>
    intro hw
    have h0 := ih0 hw
    exact h0
  | andExpression_2 _ _ ih0 ih2 =>
    intro hw
    have h0 := ih0 (allWords_append.mp hw).1
    have h2 := ih2 (allWords_cons.mp (allWords_append.mp hw).2).2
    clear hw ih0 ih2
    simp_all [OkOf, Writable, StatementOk, AssignmentOk, SelectOk, CtesOk, SetExprOk, Simple, RowsOk, ExprsOk, ResultColumnsOk, ColumnsOk, QualifiedOk, TablesOk, TableOk, ConstraintOk, NamesOk, GroupOk, TermsOk, LimitOk, WhensOk, LiteralOk, NumberOk, NameOk, StringOk, OptionOk, ExprOk, ExprOptionOk, SetSpecOk, exprsOk_append, rowsOk_append, ctesOk_append, termsOk_append, tablesOk_append, columnsOk_append, whensOk_append]
  | orExpression_1 _ ih0 =>
    intro hw
    have h0 := ih0 hw
    exact h0
  | orExpression_2 _ _ ih0 ih2 =>
    intro hw
    have h0 := ih0 (allWords_append.mp hw).1
    have h2 := ih2 (allWords_cons.mp (allWords_append.mp hw).2).2
    clear hw ih0 ih2
    simp_all [OkOf, Writable, StatementOk, AssignmentOk, SelectOk, CtesOk, SetExprOk, Simple, RowsOk, ExprsOk, ResultColumnsOk, ColumnsOk, QualifiedOk, TablesOk, TableOk, ConstraintOk, NamesOk, GroupOk, TermsOk, LimitOk, WhensOk, LiteralOk, NumberOk, NameOk, StringOk, OptionOk, ExprOk, ExprOptionOk, SetSpecOk, exprsOk_append, rowsOk_append, ctesOk_append, termsOk_append, tablesOk_append, columnsOk_append, whensOk_append]
  | expression_1 _ ih0 =>
    intro hw
    have h0 := ih0 hw
    exact h0
  | literalValue_1 _ ih0 =>
    intro hw
    have h0 := ih0 hw
    clear hw ih0
    simp_all [OkOf, Writable, StatementOk, AssignmentOk, SelectOk, CtesOk, SetExprOk, Simple, RowsOk, ExprsOk, ResultColumnsOk, ColumnsOk, QualifiedOk, TablesOk, TableOk, ConstraintOk, NamesOk, GroupOk, TermsOk, LimitOk, WhensOk, LiteralOk, NumberOk, NameOk, StringOk, OptionOk, ExprOk, ExprOptionOk, SetSpecOk, exprsOk_append, rowsOk_append, ctesOk_append, termsOk_append, tablesOk_append, columnsOk_append, whensOk_append]
  | literalValue_2 _ ih0 =>
    intro hw
    have h0 := ih0 hw
    clear hw ih0
    simp_all [OkOf, Writable, StatementOk, AssignmentOk, SelectOk, CtesOk, SetExprOk, Simple, RowsOk, ExprsOk, ResultColumnsOk, ColumnsOk, QualifiedOk, TablesOk, TableOk, ConstraintOk, NamesOk, GroupOk, TermsOk, LimitOk, WhensOk, LiteralOk, NumberOk, NameOk, StringOk, OptionOk, ExprOk, ExprOptionOk, SetSpecOk, exprsOk_append, rowsOk_append, ctesOk_append, termsOk_append, tablesOk_append, columnsOk_append, whensOk_append]
  | literalValue_3 =>
    intro hw
    clear hw 
    simp_all [OkOf, Writable, StatementOk, AssignmentOk, SelectOk, CtesOk, SetExprOk, Simple, RowsOk, ExprsOk, ResultColumnsOk, ColumnsOk, QualifiedOk, TablesOk, TableOk, ConstraintOk, NamesOk, GroupOk, TermsOk, LimitOk, WhensOk, LiteralOk, NumberOk, NameOk, StringOk, OptionOk, ExprOk, ExprOptionOk, SetSpecOk, exprsOk_append, rowsOk_append, ctesOk_append, termsOk_append, tablesOk_append, columnsOk_append, whensOk_append]
  | literalValue_4 =>
    intro hw
    clear hw 
    simp_all [OkOf, Writable, StatementOk, AssignmentOk, SelectOk, CtesOk, SetExprOk, Simple, RowsOk, ExprsOk, ResultColumnsOk, ColumnsOk, QualifiedOk, TablesOk, TableOk, ConstraintOk, NamesOk, GroupOk, TermsOk, LimitOk, WhensOk, LiteralOk, NumberOk, NameOk, StringOk, OptionOk, ExprOk, ExprOptionOk, SetSpecOk, exprsOk_append, rowsOk_append, ctesOk_append, termsOk_append, tablesOk_append, columnsOk_append, whensOk_append]
  | literalValue_5 =>
    intro hw
    clear hw 
    simp_all [OkOf, Writable, StatementOk, AssignmentOk, SelectOk, CtesOk, SetExprOk, Simple, RowsOk, ExprsOk, ResultColumnsOk, ColumnsOk, QualifiedOk, TablesOk, TableOk, ConstraintOk, NamesOk, GroupOk, TermsOk, LimitOk, WhensOk, LiteralOk, NumberOk, NameOk, StringOk, OptionOk, ExprOk, ExprOptionOk, SetSpecOk, exprsOk_append, rowsOk_append, ctesOk_append, termsOk_append, tablesOk_append, columnsOk_append, whensOk_append]
  | literalValue_6 =>
    intro hw
    clear hw 
    simp_all [OkOf, Writable, StatementOk, AssignmentOk, SelectOk, CtesOk, SetExprOk, Simple, RowsOk, ExprsOk, ResultColumnsOk, ColumnsOk, QualifiedOk, TablesOk, TableOk, ConstraintOk, NamesOk, GroupOk, TermsOk, LimitOk, WhensOk, LiteralOk, NumberOk, NameOk, StringOk, OptionOk, ExprOk, ExprOptionOk, SetSpecOk, exprsOk_append, rowsOk_append, ctesOk_append, termsOk_append, tablesOk_append, columnsOk_append, whensOk_append]
  | literalValue_7 _ ih1 =>
    intro hw
    have h1 := ih1 (allWords_cons.mp hw).2
    clear hw ih1
    simp_all [OkOf, Writable, StatementOk, AssignmentOk, SelectOk, CtesOk, SetExprOk, Simple, RowsOk, ExprsOk, ResultColumnsOk, ColumnsOk, QualifiedOk, TablesOk, TableOk, ConstraintOk, NamesOk, GroupOk, TermsOk, LimitOk, WhensOk, LiteralOk, NumberOk, NameOk, StringOk, OptionOk, ExprOk, ExprOptionOk, SetSpecOk, exprsOk_append, rowsOk_append, ctesOk_append, termsOk_append, tablesOk_append, columnsOk_append, whensOk_append]
  | literalValue_8 _ ih1 =>
    intro hw
    have h1 := ih1 (allWords_cons.mp hw).2
    clear hw ih1
    simp_all [OkOf, Writable, StatementOk, AssignmentOk, SelectOk, CtesOk, SetExprOk, Simple, RowsOk, ExprsOk, ResultColumnsOk, ColumnsOk, QualifiedOk, TablesOk, TableOk, ConstraintOk, NamesOk, GroupOk, TermsOk, LimitOk, WhensOk, LiteralOk, NumberOk, NameOk, StringOk, OptionOk, ExprOk, ExprOptionOk, SetSpecOk, exprsOk_append, rowsOk_append, ctesOk_append, termsOk_append, tablesOk_append, columnsOk_append, whensOk_append]
  | literalValue_9 _ ih1 =>
    intro hw
    have h1 := ih1 (allWords_cons.mp hw).2
    clear hw ih1
    simp_all [OkOf, Writable, StatementOk, AssignmentOk, SelectOk, CtesOk, SetExprOk, Simple, RowsOk, ExprsOk, ResultColumnsOk, ColumnsOk, QualifiedOk, TablesOk, TableOk, ConstraintOk, NamesOk, GroupOk, TermsOk, LimitOk, WhensOk, LiteralOk, NumberOk, NameOk, StringOk, OptionOk, ExprOk, ExprOptionOk, SetSpecOk, exprsOk_append, rowsOk_append, ctesOk_append, termsOk_append, tablesOk_append, columnsOk_append, whensOk_append]
  | identifier_1 =>
    intro hw
    exact (allWords_cons.mp hw).1
  | numericLiteral_1 =>
    intro hw
    exact .inl (allWords_cons.mp hw).1
  | numericLiteral_2 =>
    intro hw
    exact .inr (.inl (allWords_cons.mp hw).1)
  | numericLiteral_3 =>
    intro hw
    exact .inr (.inr (allWords_cons.mp hw).1)
  | stringLiteral_1 =>
    intro hw
    exact (allWords_cons.mp hw).1

end Verif.Sql.Writing
