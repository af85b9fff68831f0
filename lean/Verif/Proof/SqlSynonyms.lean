import Verif.Spec.SqlSynonyms
/-!
# Words that can be left out or replaced make no difference
-/

namespace Verif.Sql.Writing
open Grammar

/-- What is known of the plain words of a category. -/
def PlainOf : (s : Nt) → List Lexeme → Grammar.Ty s → Prop
  | .tok k, w, v => w = [(k, v)]
  | .joinType, w, v => ∃ j : Option JoinType, Gr (.opt .joinType) (w.flatMap plain) j ∧ j.getD .inner = v
  | .opt (.tok k), w, _ => k = .ALL ∨ k = .AS ∨ k = .OUTER ∨ k = .ASC →
    ∃ j : Option Str, Gr (.opt (.tok k)) (w.flatMap plain) j
  | .opt .joinType, w, v => ∃ j : Option JoinType, Gr (.opt .joinType) (w.flatMap plain) j ∧
    j.getD .inner = Option.getD (α := JoinType) v .inner
  | .opt (.opt _), _, _ => True
  | .opt s, w, v => Gr (.opt s) (w.flatMap plain) v
  | s, w, v => Gr s (w.flatMap plain) v

set_option linter.unusedSimpArgs false in
theorem gr_plainOf {s : Nt} {w : List Lexeme} {v : Grammar.Ty s} (h : Gr s w v) : PlainOf s w v := by
  induction h with
  | tok => rfl
  | @optNone s =>
    cases s <;> first | exact .optNone | exact trivial | exact ⟨none, .optNone, rfl⟩ | exact fun _ => ⟨none, .optNone⟩
  | @optSome s w v _ ih =>
    cases s <;> first | exact .optSome ih | exact trivial | skip
    · exact ih
    · cases (ih : w = [(_, v)])
      rintro (rfl | rfl | rfl | rfl)
      · exact ⟨_, .optSome (.tok (t := v))⟩
      · exact ⟨_, .optSome (.tok (t := v))⟩
      · exact ⟨none, .optNone⟩
      · exact ⟨none, .optNone⟩
  | sqlStatement_1 _ ih0 =>
    replace ih0 : Gr .statement (List.flatMap plain _) _ := ih0
    exact Gr.sqlStatement_1 ih0
  | sqlStatement_2 _ ih1 =>
    replace ih1 : Gr .statement (List.flatMap plain _) _ := ih1
    simp only [PlainOf, List.flatMap_append, List.flatMap_cons, List.flatMap_nil, plain, List.cons_append, List.nil_append]
    exact Gr.sqlStatement_2 ih1
  | sqlStatement_3 _ ih3 =>
    replace ih3 : Gr .statement (List.flatMap plain _) _ := ih3
    simp only [PlainOf, List.flatMap_append, List.flatMap_cons, List.flatMap_nil, plain, List.cons_append, List.nil_append]
    exact Gr.sqlStatement_3 ih3
  | sqlStatement_4 _ ih0 =>
    replace ih0 : Gr .attachStatement (List.flatMap plain _) _ := ih0
    exact Gr.sqlStatement_4 ih0
  | sqlStatement_5 _ ih0 =>
    replace ih0 : Gr .describeStatement (List.flatMap plain _) _ := ih0
    exact Gr.sqlStatement_5 ih0
  | statement_1 _ ih0 =>
    replace ih0 : Gr .selectStatement (List.flatMap plain _) _ := ih0
    exact Gr.statement_1 ih0
  | statement_2 _ ih0 =>
    replace ih0 : Gr .insertStatement (List.flatMap plain _) _ := ih0
    exact Gr.statement_2 ih0
  | statement_3 _ ih0 =>
    replace ih0 : Gr .deleteStatement (List.flatMap plain _) _ := ih0
    exact Gr.statement_3 ih0
  | statement_4 _ ih0 =>
    replace ih0 : Gr .updateStatement (List.flatMap plain _) _ := ih0
    exact Gr.statement_4 ih0
  | insertStatement_1 _ _ _ _ ih0 ih3 ih4 ih5 =>
    replace ih0 : Gr (.opt .tableExpressions) (List.flatMap plain _) _ := ih0
    replace ih3 : Gr .qualifiedIdentifier (List.flatMap plain _) _ := ih3
    replace ih4 : Gr (.opt .columnNameList) (List.flatMap plain _) _ := ih4
    replace ih5 : Gr .selectCore (List.flatMap plain _) _ := ih5
    simp only [PlainOf, List.flatMap_append, List.flatMap_cons, List.flatMap_nil, plain, List.cons_append, List.nil_append]
    exact Gr.insertStatement_1 ih0 ih3 ih4 ih5
  | columnNameList_1 _ ih1 =>
    replace ih1 : Gr .identifierList (List.flatMap plain _) _ := ih1
    simp only [PlainOf, List.flatMap_append, List.flatMap_cons, List.flatMap_nil, plain, List.cons_append, List.nil_append]
    exact Gr.columnNameList_1 ih1
  | deleteStatement_1 _ _ _ ih0 ih3 ih4 =>
    replace ih0 : Gr (.opt .tableExpressions) (List.flatMap plain _) _ := ih0
    replace ih3 : Gr .qualifiedIdentifier (List.flatMap plain _) _ := ih3
    replace ih4 : Gr (.opt .whereClause) (List.flatMap plain _) _ := ih4
    simp only [PlainOf, List.flatMap_append, List.flatMap_cons, List.flatMap_nil, plain, List.cons_append, List.nil_append]
    exact Gr.deleteStatement_1 ih0 ih3 ih4
  | updateStatement_1 _ _ _ _ ih0 ih2 ih4 ih5 =>
    replace ih0 : Gr (.opt .tableExpressions) (List.flatMap plain _) _ := ih0
    replace ih2 : Gr .qualifiedIdentifier (List.flatMap plain _) _ := ih2
    replace ih4 : Gr .assignments (List.flatMap plain _) _ := ih4
    replace ih5 : Gr (.opt .whereClause) (List.flatMap plain _) _ := ih5
    simp only [PlainOf, List.flatMap_append, List.flatMap_cons, List.flatMap_nil, plain, List.cons_append, List.nil_append]
    exact Gr.updateStatement_1 ih0 ih2 ih4 ih5
  | assignments_1 _ ih0 =>
    replace ih0 : Gr .assignment (List.flatMap plain _) _ := ih0
    exact Gr.assignments_1 ih0
  | assignments_2 _ _ ih0 ih2 =>
    replace ih0 : Gr .assignments (List.flatMap plain _) _ := ih0
    replace ih2 : Gr .assignment (List.flatMap plain _) _ := ih2
    simp only [PlainOf, List.flatMap_append, List.flatMap_cons, List.flatMap_nil, plain, List.cons_append, List.nil_append]
    exact Gr.assignments_2 ih0 ih2
  | assignment_1 _ _ ih0 ih2 =>
    replace ih0 : Gr .identifierList (List.flatMap plain _) _ := ih0
    replace ih2 : Gr .expression (List.flatMap plain _) _ := ih2
    simp only [PlainOf, List.flatMap_append, List.flatMap_cons, List.flatMap_nil, plain, List.cons_append, List.nil_append]
    exact Gr.assignment_1 ih0 ih2
  | selectStatement_1 _ _ _ _ ih0 ih1 ih2 ih3 =>
    replace ih0 : Gr .tableExpressions (List.flatMap plain _) _ := ih0
    replace ih1 : Gr .selectCoreList (List.flatMap plain _) _ := ih1
    replace ih2 : Gr (.opt .orderByClause) (List.flatMap plain _) _ := ih2
    replace ih3 : Gr (.opt .limitClause) (List.flatMap plain _) _ := ih3
    simp only [PlainOf, List.flatMap_append, List.flatMap_cons, List.flatMap_nil, plain, List.cons_append, List.nil_append]
    exact Gr.selectStatement_1 ih0 ih1 ih2 ih3
  | selectStatement_2 _ _ _ ih0 ih1 ih2 =>
    replace ih0 : Gr .selectCoreList (List.flatMap plain _) _ := ih0
    replace ih1 : Gr (.opt .orderByClause) (List.flatMap plain _) _ := ih1
    replace ih2 : Gr (.opt .limitClause) (List.flatMap plain _) _ := ih2
    simp only [PlainOf, List.flatMap_append, List.flatMap_cons, List.flatMap_nil, plain, List.cons_append, List.nil_append]
    exact Gr.selectStatement_2 ih0 ih1 ih2
  | tableExpressions_1 _ ih1 =>
    replace ih1 : Gr .commonTableExpressionList (List.flatMap plain _) _ := ih1
    simp only [PlainOf, List.flatMap_append, List.flatMap_cons, List.flatMap_nil, plain, List.cons_append, List.nil_append]
    exact Gr.tableExpressions_1 ih1
  | commonTableExpressionList_1 _ ih0 =>
    replace ih0 : Gr .commonTableExpression (List.flatMap plain _) _ := ih0
    exact Gr.commonTableExpressionList_1 ih0
  | commonTableExpressionList_2 _ _ ih0 ih2 =>
    replace ih0 : Gr .commonTableExpressionList (List.flatMap plain _) _ := ih0
    replace ih2 : Gr .commonTableExpression (List.flatMap plain _) _ := ih2
    simp only [PlainOf, List.flatMap_append, List.flatMap_cons, List.flatMap_nil, plain, List.cons_append, List.nil_append]
    exact Gr.commonTableExpressionList_2 ih0 ih2
  | commonTableExpression_1 _ _ ih0 ih3 =>
    replace ih0 : Gr .identifier (List.flatMap plain _) _ := ih0
    replace ih3 : Gr .selectStatement (List.flatMap plain _) _ := ih3
    simp only [PlainOf, List.flatMap_append, List.flatMap_cons, List.flatMap_nil, plain, List.cons_append, List.nil_append]
    exact Gr.commonTableExpression_1 ih0 ih3
  | commonTableExpression_2 _ _ _ ih0 ih2 ih6 =>
    replace ih0 : Gr .identifier (List.flatMap plain _) _ := ih0
    replace ih2 : Gr .identifierList (List.flatMap plain _) _ := ih2
    replace ih6 : Gr .selectStatement (List.flatMap plain _) _ := ih6
    simp only [PlainOf, List.flatMap_append, List.flatMap_cons, List.flatMap_nil, plain, List.cons_append, List.nil_append]
    exact Gr.commonTableExpression_2 ih0 ih2 ih6
  | selectCoreList_1 _ ih0 =>
    replace ih0 : Gr .selectCore (List.flatMap plain _) _ := ih0
    exact Gr.selectCoreList_1 ih0
  | selectCoreList_2 _ _ _ ih0 ih1 ih2 =>
    replace ih0 : Gr .selectCoreList (List.flatMap plain _) _ := ih0
    replace ih1 : Gr .compoundOperator (List.flatMap plain _) _ := ih1
    replace ih2 : Gr .selectCore (List.flatMap plain _) _ := ih2
    simp only [PlainOf, List.flatMap_append, List.flatMap_cons, List.flatMap_nil, plain, List.cons_append, List.nil_append]
    exact Gr.selectCoreList_2 ih0 ih1 ih2
  | compoundOperator_1 =>
    simp only [PlainOf, List.flatMap_append, List.flatMap_cons, List.flatMap_nil, plain, List.cons_append, List.nil_append]
    exact Gr.compoundOperator_1
  | compoundOperator_2 =>
    simp only [PlainOf, List.flatMap_append, List.flatMap_cons, List.flatMap_nil, plain, List.cons_append, List.nil_append]
    exact Gr.compoundOperator_2
  | compoundOperator_3 =>
    simp only [PlainOf, List.flatMap_append, List.flatMap_cons, List.flatMap_nil, plain, List.cons_append, List.nil_append]
    exact Gr.compoundOperator_3
  | compoundOperator_4 =>
    simp only [PlainOf, List.flatMap_append, List.flatMap_cons, List.flatMap_nil, plain, List.cons_append, List.nil_append]
    exact Gr.compoundOperator_4
  | selectCore_1 _ _ _ _ ih1 ih2 ih3 ih4 =>
    replace ih1 : Gr .selectMode (List.flatMap plain _) _ := ih1
    replace ih2 : Gr .resultColumns (List.flatMap plain _) _ := ih2
    replace ih3 : Gr (.opt .whereClause) (List.flatMap plain _) _ := ih3
    replace ih4 : Gr (.opt .groupByClause) (List.flatMap plain _) _ := ih4
    simp only [PlainOf, List.flatMap_append, List.flatMap_cons, List.flatMap_nil, plain, List.cons_append, List.nil_append]
    exact Gr.selectCore_1 ih1 ih2 ih3 ih4
  | selectCore_2 _ _ _ _ _ ih1 ih2 ih3 ih4 ih5 =>
    replace ih1 : Gr .selectMode (List.flatMap plain _) _ := ih1
    replace ih2 : Gr .resultColumns (List.flatMap plain _) _ := ih2
    replace ih3 : Gr .fromClause (List.flatMap plain _) _ := ih3
    replace ih4 : Gr (.opt .whereClause) (List.flatMap plain _) _ := ih4
    replace ih5 : Gr (.opt .groupByClause) (List.flatMap plain _) _ := ih5
    simp only [PlainOf, List.flatMap_append, List.flatMap_cons, List.flatMap_nil, plain, List.cons_append, List.nil_append]
    exact Gr.selectCore_2 ih1 ih2 ih3 ih4 ih5
  | selectCore_3 _ ih1 =>
    replace ih1 : Gr .tupleList (List.flatMap plain _) _ := ih1
    simp only [PlainOf, List.flatMap_append, List.flatMap_cons, List.flatMap_nil, plain, List.cons_append, List.nil_append]
    exact Gr.selectCore_3 ih1
  | selectMode_1 _ ih0 =>
    obtain ⟨j0, ih0⟩ := ih0 (by simp)
    simp only [PlainOf, List.flatMap_append, List.flatMap_cons, List.flatMap_nil, plain, List.cons_append, List.nil_append]
    exact Gr.selectMode_1 ih0
  | selectMode_2 =>
    simp only [PlainOf, List.flatMap_append, List.flatMap_cons, List.flatMap_nil, plain, List.cons_append, List.nil_append]
    exact Gr.selectMode_2
  | tupleList_1 _ ih0 =>
    replace ih0 : Gr .tuple (List.flatMap plain _) _ := ih0
    exact Gr.tupleList_1 ih0
  | tupleList_2 _ _ ih0 ih2 =>
    replace ih0 : Gr .tupleList (List.flatMap plain _) _ := ih0
    replace ih2 : Gr .tuple (List.flatMap plain _) _ := ih2
    simp only [PlainOf, List.flatMap_append, List.flatMap_cons, List.flatMap_nil, plain, List.cons_append, List.nil_append]
    exact Gr.tupleList_2 ih0 ih2
  | tuple_1 _ ih1 =>
    replace ih1 : Gr .expressionList (List.flatMap plain _) _ := ih1
    simp only [PlainOf, List.flatMap_append, List.flatMap_cons, List.flatMap_nil, plain, List.cons_append, List.nil_append]
    exact Gr.tuple_1 ih1
  | resultColumns_1 =>
    simp only [PlainOf, List.flatMap_append, List.flatMap_cons, List.flatMap_nil, plain, List.cons_append, List.nil_append]
    exact Gr.resultColumns_1
  | resultColumns_2 _ ih0 =>
    replace ih0 : Gr .resultColumnList (List.flatMap plain _) _ := ih0
    exact Gr.resultColumns_2 ih0
  | resultColumnList_1 _ ih0 =>
    replace ih0 : Gr .resultColumn (List.flatMap plain _) _ := ih0
    exact Gr.resultColumnList_1 ih0
  | resultColumnList_2 _ _ ih0 ih2 =>
    replace ih0 : Gr .resultColumnList (List.flatMap plain _) _ := ih0
    replace ih2 : Gr .resultColumn (List.flatMap plain _) _ := ih2
    simp only [PlainOf, List.flatMap_append, List.flatMap_cons, List.flatMap_nil, plain, List.cons_append, List.nil_append]
    exact Gr.resultColumnList_2 ih0 ih2
  | resultColumn_1 _ ih0 =>
    replace ih0 : Gr .expression (List.flatMap plain _) _ := ih0
    exact Gr.resultColumn_1 ih0
  | resultColumn_2 _ _ _ ih0 ih1 ih2 =>
    replace ih0 : Gr .expression (List.flatMap plain _) _ := ih0
    obtain ⟨j1, ih1⟩ := ih1 (by simp)
    replace ih2 : Gr .identifier (List.flatMap plain _) _ := ih2
    simp only [PlainOf, List.flatMap_append, List.flatMap_cons, List.flatMap_nil, plain, List.cons_append, List.nil_append]
    exact Gr.resultColumn_2 ih0 ih1 ih2
  | resultColumn_3 _ ih0 =>
    replace ih0 : Gr .identifier (List.flatMap plain _) _ := ih0
    simp only [PlainOf, List.flatMap_append, List.flatMap_cons, List.flatMap_nil, plain, List.cons_append, List.nil_append]
    exact Gr.resultColumn_3 ih0
  | qualifiedIdentifier_1 _ ih0 =>
    replace ih0 : Gr .identifier (List.flatMap plain _) _ := ih0
    exact Gr.qualifiedIdentifier_1 ih0
  | qualifiedIdentifier_2 _ _ ih0 ih2 =>
    replace ih0 : Gr .identifier (List.flatMap plain _) _ := ih0
    replace ih2 : Gr .identifier (List.flatMap plain _) _ := ih2
    simp only [PlainOf, List.flatMap_append, List.flatMap_cons, List.flatMap_nil, plain, List.cons_append, List.nil_append]
    exact Gr.qualifiedIdentifier_2 ih0 ih2
  | qualifiedIdentifier_3 _ _ _ ih0 ih2 ih4 =>
    replace ih0 : Gr .identifier (List.flatMap plain _) _ := ih0
    replace ih2 : Gr .identifier (List.flatMap plain _) _ := ih2
    replace ih4 : Gr .identifier (List.flatMap plain _) _ := ih4
    simp only [PlainOf, List.flatMap_append, List.flatMap_cons, List.flatMap_nil, plain, List.cons_append, List.nil_append]
    exact Gr.qualifiedIdentifier_3 ih0 ih2 ih4
  | fromClause_1 _ ih1 =>
    replace ih1 : Gr .tableExpressionList (List.flatMap plain _) _ := ih1
    simp only [PlainOf, List.flatMap_append, List.flatMap_cons, List.flatMap_nil, plain, List.cons_append, List.nil_append]
    exact Gr.fromClause_1 ih1
  | tableExpressionList_1 _ ih0 =>
    replace ih0 : Gr .tableExpression (List.flatMap plain _) _ := ih0
    exact Gr.tableExpressionList_1 ih0
  | tableExpressionList_2 _ _ ih0 ih2 =>
    replace ih0 : Gr .tableExpressionList (List.flatMap plain _) _ := ih0
    replace ih2 : Gr .tableExpression (List.flatMap plain _) _ := ih2
    simp only [PlainOf, List.flatMap_append, List.flatMap_cons, List.flatMap_nil, plain, List.cons_append, List.nil_append]
    exact Gr.tableExpressionList_2 ih0 ih2
  | tableExpression_1 _ ih0 =>
    replace ih0 : Gr .tableOrSubQuery (List.flatMap plain _) _ := ih0
    exact Gr.tableExpression_1 ih0
  | tableExpression_2 _ _ _ _ ih0 ih1 ih2 ih3 =>
    replace ih0 : Gr .tableExpression (List.flatMap plain _) _ := ih0
    replace ih1 : Gr .joinOperator (List.flatMap plain _) _ := ih1
    replace ih2 : Gr .tableOrSubQuery (List.flatMap plain _) _ := ih2
    replace ih3 : Gr .joinConstraint (List.flatMap plain _) _ := ih3
    simp only [PlainOf, List.flatMap_append, List.flatMap_cons, List.flatMap_nil, plain, List.cons_append, List.nil_append]
    exact Gr.tableExpression_2 ih0 ih1 ih2 ih3
  | tableOrSubQuery_1 _ _ ih0 ih1 =>
    replace ih0 : Gr .qualifiedIdentifier (List.flatMap plain _) _ := ih0
    replace ih1 : Gr (.opt .tableAlias) (List.flatMap plain _) _ := ih1
    simp only [PlainOf, List.flatMap_append, List.flatMap_cons, List.flatMap_nil, plain, List.cons_append, List.nil_append]
    exact Gr.tableOrSubQuery_1 ih0 ih1
  | tableOrSubQuery_2 _ _ ih1 ih3 =>
    replace ih1 : Gr .selectStatement (List.flatMap plain _) _ := ih1
    replace ih3 : Gr (.opt .tableAlias) (List.flatMap plain _) _ := ih3
    simp only [PlainOf, List.flatMap_append, List.flatMap_cons, List.flatMap_nil, plain, List.cons_append, List.nil_append]
    exact Gr.tableOrSubQuery_2 ih1 ih3
  | tableOrSubQuery_3 _ ih1 =>
    replace ih1 : Gr .tableExpression (List.flatMap plain _) _ := ih1
    simp only [PlainOf, List.flatMap_append, List.flatMap_cons, List.flatMap_nil, plain, List.cons_append, List.nil_append]
    exact Gr.tableOrSubQuery_3 ih1
  | tableAlias_1 _ _ ih0 ih1 =>
    obtain ⟨j0, ih0⟩ := ih0 (by simp)
    replace ih1 : Gr .identifier (List.flatMap plain _) _ := ih1
    simp only [PlainOf, List.flatMap_append, List.flatMap_cons, List.flatMap_nil, plain, List.cons_append, List.nil_append]
    exact Gr.tableAlias_1 ih0 ih1
  | joinOperator_1 _ ih0 =>
    obtain ⟨j0, ih0, e0⟩ := ih0
    rw [← e0]
    simp only [PlainOf, List.flatMap_append, List.flatMap_cons, List.flatMap_nil, plain, List.cons_append, List.nil_append]
    exact Gr.joinOperator_1 ih0
  | joinOperator_2 _ ih1 =>
    obtain ⟨j1, ih1, e1⟩ := ih1
    rw [← e1]
    simp only [PlainOf, List.flatMap_append, List.flatMap_cons, List.flatMap_nil, plain, List.cons_append, List.nil_append]
    exact Gr.joinOperator_2 ih1
  | joinOperator_3 =>
    simp only [PlainOf, List.flatMap_append, List.flatMap_cons, List.flatMap_nil, plain, List.cons_append, List.nil_append]
    exact Gr.joinOperator_3
  | joinType_1 _ ih1 =>
    exact by
      obtain ⟨j, hj⟩ := ih1 (by simp)
      exact ⟨_, .optSome (.joinType_1 hj), rfl⟩
  | joinType_2 _ ih1 =>
    exact by
      obtain ⟨j, hj⟩ := ih1 (by simp)
      exact ⟨_, .optSome (.joinType_2 hj), rfl⟩
  | joinType_3 _ ih1 =>
    exact by
      obtain ⟨j, hj⟩ := ih1 (by simp)
      exact ⟨_, .optSome (.joinType_3 hj), rfl⟩
  | joinType_4 =>
    exact ⟨none, .optNone, rfl⟩
  | joinConstraint_1 _ ih1 =>
    replace ih1 : Gr .expression (List.flatMap plain _) _ := ih1
    simp only [PlainOf, List.flatMap_append, List.flatMap_cons, List.flatMap_nil, plain, List.cons_append, List.nil_append]
    exact Gr.joinConstraint_1 ih1
  | joinConstraint_2 _ ih2 =>
    replace ih2 : Gr .identifierList (List.flatMap plain _) _ := ih2
    simp only [PlainOf, List.flatMap_append, List.flatMap_cons, List.flatMap_nil, plain, List.cons_append, List.nil_append]
    exact Gr.joinConstraint_2 ih2
  | identifierList_1 _ ih0 =>
    replace ih0 : Gr .identifier (List.flatMap plain _) _ := ih0
    exact Gr.identifierList_1 ih0
  | identifierList_2 _ _ ih0 ih2 =>
    replace ih0 : Gr .identifierList (List.flatMap plain _) _ := ih0
    replace ih2 : Gr .identifier (List.flatMap plain _) _ := ih2
    simp only [PlainOf, List.flatMap_append, List.flatMap_cons, List.flatMap_nil, plain, List.cons_append, List.nil_append]
    exact Gr.identifierList_2 ih0 ih2
  | whereClause_1 _ ih1 =>
    replace ih1 : Gr .expression (List.flatMap plain _) _ := ih1
    simp only [PlainOf, List.flatMap_append, List.flatMap_cons, List.flatMap_nil, plain, List.cons_append, List.nil_append]
    exact Gr.whereClause_1 ih1
  | groupByClause_1 _ ih2 =>
    replace ih2 : Gr .expressionList (List.flatMap plain _) _ := ih2
    simp only [PlainOf, List.flatMap_append, List.flatMap_cons, List.flatMap_nil, plain, List.cons_append, List.nil_append]
    exact Gr.groupByClause_1 ih2
  | groupByClause_2 _ _ ih2 ih4 =>
    replace ih2 : Gr .expressionList (List.flatMap plain _) _ := ih2
    replace ih4 : Gr .expression (List.flatMap plain _) _ := ih4
    simp only [PlainOf, List.flatMap_append, List.flatMap_cons, List.flatMap_nil, plain, List.cons_append, List.nil_append]
    exact Gr.groupByClause_2 ih2 ih4
  | orderByClause_1 _ ih2 =>
    replace ih2 : Gr .orderingTermList (List.flatMap plain _) _ := ih2
    simp only [PlainOf, List.flatMap_append, List.flatMap_cons, List.flatMap_nil, plain, List.cons_append, List.nil_append]
    exact Gr.orderByClause_1 ih2
  | orderingTermList_1 _ ih0 =>
    replace ih0 : Gr .orderingTerm (List.flatMap plain _) _ := ih0
    exact Gr.orderingTermList_1 ih0
  | orderingTermList_2 _ _ ih0 ih2 =>
    replace ih0 : Gr .orderingTermList (List.flatMap plain _) _ := ih0
    replace ih2 : Gr .orderingTerm (List.flatMap plain _) _ := ih2
    simp only [PlainOf, List.flatMap_append, List.flatMap_cons, List.flatMap_nil, plain, List.cons_append, List.nil_append]
    exact Gr.orderingTermList_2 ih0 ih2
  | orderingTerm_1 _ _ _ ih0 ih1 ih2 =>
    replace ih0 : Gr .expression (List.flatMap plain _) _ := ih0
    replace ih1 : Gr (.opt .orderingCollation) (List.flatMap plain _) _ := ih1
    replace ih2 : Gr .orderingDirection (List.flatMap plain _) _ := ih2
    simp only [PlainOf, List.flatMap_append, List.flatMap_cons, List.flatMap_nil, plain, List.cons_append, List.nil_append]
    exact Gr.orderingTerm_1 ih0 ih1 ih2
  | orderingCollation_1 _ ih1 =>
    replace ih1 : Gr .identifier (List.flatMap plain _) _ := ih1
    simp only [PlainOf, List.flatMap_append, List.flatMap_cons, List.flatMap_nil, plain, List.cons_append, List.nil_append]
    exact Gr.orderingCollation_1 ih1
  | orderingDirection_1 _ ih0 =>
    obtain ⟨j0, ih0⟩ := ih0 (by simp)
    simp only [PlainOf, List.flatMap_append, List.flatMap_cons, List.flatMap_nil, plain, List.cons_append, List.nil_append]
    exact Gr.orderingDirection_1 ih0
  | orderingDirection_2 =>
    simp only [PlainOf, List.flatMap_append, List.flatMap_cons, List.flatMap_nil, plain, List.cons_append, List.nil_append]
    exact Gr.orderingDirection_2
  | limitClause_1 _ ih1 =>
    replace ih1 : Gr .expression (List.flatMap plain _) _ := ih1
    simp only [PlainOf, List.flatMap_append, List.flatMap_cons, List.flatMap_nil, plain, List.cons_append, List.nil_append]
    exact Gr.limitClause_1 ih1
  | limitClause_2 _ _ ih1 ih3 =>
    replace ih1 : Gr .expression (List.flatMap plain _) _ := ih1
    replace ih3 : Gr .expression (List.flatMap plain _) _ := ih3
    simp only [PlainOf, List.flatMap_append, List.flatMap_cons, List.flatMap_nil, plain, List.cons_append, List.nil_append]
    exact Gr.limitClause_2 ih1 ih3
  | limitClause_3 _ _ ih1 ih3 =>
    replace ih1 : Gr .expression (List.flatMap plain _) _ := ih1
    replace ih3 : Gr .expression (List.flatMap plain _) _ := ih3
    simp only [PlainOf, List.flatMap_append, List.flatMap_cons, List.flatMap_nil, plain, List.cons_append, List.nil_append]
    exact Gr.limitClause_2 ih1 ih3
  | attachStatement_1 _ _ _ ih2 ih4 ih5 =>
    replace ih2 : Gr .stringLiteral (List.flatMap plain _) _ := ih2
    replace ih4 : Gr (.opt .schemaName) (List.flatMap plain _) _ := ih4
    replace ih5 : Gr .identifier (List.flatMap plain _) _ := ih5
    simp only [PlainOf, List.flatMap_append, List.flatMap_cons, List.flatMap_nil, plain, List.cons_append, List.nil_append]
    exact Gr.attachStatement_1 ih2 ih4 ih5
  | describeStatement_1 _ _ ih1 ih2 =>
    replace ih1 : Gr (.opt .schemaName) (List.flatMap plain _) _ := ih1
    replace ih2 : Gr .identifier (List.flatMap plain _) _ := ih2
    simp only [PlainOf, List.flatMap_append, List.flatMap_cons, List.flatMap_nil, plain, List.cons_append, List.nil_append]
    exact Gr.describeStatement_1 ih1 ih2
  | schemaName_1 _ ih0 =>
    replace ih0 : Gr .identifier (List.flatMap plain _) _ := ih0
    simp only [PlainOf, List.flatMap_append, List.flatMap_cons, List.flatMap_nil, plain, List.cons_append, List.nil_append]
    exact Gr.schemaName_1 ih0
  | expressionList_1 _ ih0 =>
    replace ih0 : Gr .expression (List.flatMap plain _) _ := ih0
    exact Gr.expressionList_1 ih0
  | expressionList_2 _ _ ih0 ih2 =>
    replace ih0 : Gr .expressionList (List.flatMap plain _) _ := ih0
    replace ih2 : Gr .expression (List.flatMap plain _) _ := ih2
    simp only [PlainOf, List.flatMap_append, List.flatMap_cons, List.flatMap_nil, plain, List.cons_append, List.nil_append]
    exact Gr.expressionList_2 ih0 ih2
  | primaryExpression_1 _ ih1 =>
    replace ih1 : Gr .expressionList (List.flatMap plain _) _ := ih1
    simp only [PlainOf, List.flatMap_append, List.flatMap_cons, List.flatMap_nil, plain, List.cons_append, List.nil_append]
    exact Gr.primaryExpression_1 ih1
  | primaryExpression_2 _ hc ih1 =>
    replace ih1 : Gr .expressionList (List.flatMap plain _) _ := ih1
    simp only [PlainOf, List.flatMap_append, List.flatMap_cons, List.flatMap_nil, plain, List.cons_append, List.nil_append]
    exact Gr.primaryExpression_2 ih1 hc
  | primaryExpression_3 _ ih1 =>
    replace ih1 : Gr .selectStatement (List.flatMap plain _) _ := ih1
    simp only [PlainOf, List.flatMap_append, List.flatMap_cons, List.flatMap_nil, plain, List.cons_append, List.nil_append]
    exact Gr.primaryExpression_3 ih1
  | primaryExpression_4 _ ih0 =>
    replace ih0 : Gr .literalValue (List.flatMap plain _) _ := ih0
    exact Gr.primaryExpression_4 ih0
  | primaryExpression_5 _ ih0 =>
    replace ih0 : Gr .qualifiedIdentifier (List.flatMap plain _) _ := ih0
    exact Gr.primaryExpression_5 ih0
  | unaryExpression_1 _ ih0 =>
    replace ih0 : Gr .primaryExpression (List.flatMap plain _) _ := ih0
    exact Gr.unaryExpression_1 ih0
  | unaryExpression_2 _ ih1 =>
    replace ih1 : Gr .unaryExpression (List.flatMap plain _) _ := ih1
    simp only [PlainOf, List.flatMap_append, List.flatMap_cons, List.flatMap_nil, plain, List.cons_append, List.nil_append]
    exact Gr.unaryExpression_2 ih1
  | unaryExpression_3 _ ih1 =>
    replace ih1 : Gr .unaryExpression (List.flatMap plain _) _ := ih1
    simp only [PlainOf, List.flatMap_append, List.flatMap_cons, List.flatMap_nil, plain, List.cons_append, List.nil_append]
    exact Gr.unaryExpression_3 ih1
  | multiplicativeExpression_1 _ ih0 =>
    replace ih0 : Gr .unaryExpression (List.flatMap plain _) _ := ih0
    exact Gr.multiplicativeExpression_1 ih0
  | multiplicativeExpression_2 _ _ ih0 ih2 =>
    replace ih0 : Gr .multiplicativeExpression (List.flatMap plain _) _ := ih0
    replace ih2 : Gr .unaryExpression (List.flatMap plain _) _ := ih2
    simp only [PlainOf, List.flatMap_append, List.flatMap_cons, List.flatMap_nil, plain, List.cons_append, List.nil_append]
    exact Gr.multiplicativeExpression_2 ih0 ih2
  | multiplicativeExpression_3 _ _ ih0 ih2 =>
    replace ih0 : Gr .multiplicativeExpression (List.flatMap plain _) _ := ih0
    replace ih2 : Gr .unaryExpression (List.flatMap plain _) _ := ih2
    simp only [PlainOf, List.flatMap_append, List.flatMap_cons, List.flatMap_nil, plain, List.cons_append, List.nil_append]
    exact Gr.multiplicativeExpression_3 ih0 ih2
  | additiveExpression_1 _ ih0 =>
    replace ih0 : Gr .multiplicativeExpression (List.flatMap plain _) _ := ih0
    exact Gr.additiveExpression_1 ih0
  | additiveExpression_2 _ _ ih0 ih2 =>
    replace ih0 : Gr .additiveExpression (List.flatMap plain _) _ := ih0
    replace ih2 : Gr .multiplicativeExpression (List.flatMap plain _) _ := ih2
    simp only [PlainOf, List.flatMap_append, List.flatMap_cons, List.flatMap_nil, plain, List.cons_append, List.nil_append]
    exact Gr.additiveExpression_2 ih0 ih2
  | additiveExpression_3 _ _ ih0 ih2 =>
    replace ih0 : Gr .additiveExpression (List.flatMap plain _) _ := ih0
    replace ih2 : Gr .multiplicativeExpression (List.flatMap plain _) _ := ih2
    simp only [PlainOf, List.flatMap_append, List.flatMap_cons, List.flatMap_nil, plain, List.cons_append, List.nil_append]
    exact Gr.additiveExpression_3 ih0 ih2
  | additiveExpression_4 _ _ ih0 ih2 =>
    replace ih0 : Gr .additiveExpression (List.flatMap plain _) _ := ih0
    replace ih2 : Gr .multiplicativeExpression (List.flatMap plain _) _ := ih2
    simp only [PlainOf, List.flatMap_append, List.flatMap_cons, List.flatMap_nil, plain, List.cons_append, List.nil_append]
    exact Gr.additiveExpression_4 ih0 ih2
  | comparativeExpression_1 _ ih0 =>
    replace ih0 : Gr .additiveExpression (List.flatMap plain _) _ := ih0
    exact Gr.comparativeExpression_1 ih0
  | comparativeExpression_2 _ _ ih0 ih2 =>
    replace ih0 : Gr .comparativeExpression (List.flatMap plain _) _ := ih0
    replace ih2 : Gr .additiveExpression (List.flatMap plain _) _ := ih2
    simp only [PlainOf, List.flatMap_append, List.flatMap_cons, List.flatMap_nil, plain, List.cons_append, List.nil_append]
    exact Gr.comparativeExpression_2 ih0 ih2
  | comparativeExpression_3 _ _ ih0 ih2 =>
    replace ih0 : Gr .comparativeExpression (List.flatMap plain _) _ := ih0
    replace ih2 : Gr .additiveExpression (List.flatMap plain _) _ := ih2
    simp only [PlainOf, List.flatMap_append, List.flatMap_cons, List.flatMap_nil, plain, List.cons_append, List.nil_append]
    exact Gr.comparativeExpression_3 ih0 ih2
  | comparativeExpression_4 _ _ ih0 ih2 =>
    replace ih0 : Gr .comparativeExpression (List.flatMap plain _) _ := ih0
    replace ih2 : Gr .additiveExpression (List.flatMap plain _) _ := ih2
    simp only [PlainOf, List.flatMap_append, List.flatMap_cons, List.flatMap_nil, plain, List.cons_append, List.nil_append]
    exact Gr.comparativeExpression_4 ih0 ih2
  | comparativeExpression_5 _ _ ih0 ih2 =>
    replace ih0 : Gr .comparativeExpression (List.flatMap plain _) _ := ih0
    replace ih2 : Gr .additiveExpression (List.flatMap plain _) _ := ih2
    simp only [PlainOf, List.flatMap_append, List.flatMap_cons, List.flatMap_nil, plain, List.cons_append, List.nil_append]
    exact Gr.comparativeExpression_5 ih0 ih2
  | comparativeExpression_6 _ _ ih0 ih2 =>
    replace ih0 : Gr .comparativeExpression (List.flatMap plain _) _ := ih0
    replace ih2 : Gr .additiveExpression (List.flatMap plain _) _ := ih2
    simp only [PlainOf, List.flatMap_append, List.flatMap_cons, List.flatMap_nil, plain, List.cons_append, List.nil_append]
    exact Gr.comparativeExpression_6 ih0 ih2
  | comparativeExpression_7 _ _ ih0 ih2 =>
    replace ih0 : Gr .comparativeExpression (List.flatMap plain _) _ := ih0
    replace ih2 : Gr .additiveExpression (List.flatMap plain _) _ := ih2
    simp only [PlainOf, List.flatMap_append, List.flatMap_cons, List.flatMap_nil, plain, List.cons_append, List.nil_append]
    exact Gr.comparativeExpression_7 ih0 ih2
  | comparativeExpression_8 _ ih0 =>
    replace ih0 : Gr .comparativeExpression (List.flatMap plain _) _ := ih0
    simp only [PlainOf, List.flatMap_append, List.flatMap_cons, List.flatMap_nil, plain, List.cons_append, List.nil_append]
    exact Gr.comparativeExpression_8 ih0
  | comparativeExpression_9 _ ih0 =>
    replace ih0 : Gr .comparativeExpression (List.flatMap plain _) _ := ih0
    simp only [PlainOf, List.flatMap_append, List.flatMap_cons, List.flatMap_nil, plain, List.cons_append, List.nil_append]
    exact Gr.comparativeExpression_9 ih0
  | comparativeExpression_10 _ _ ih0 ih2 =>
    replace ih0 : Gr .comparativeExpression (List.flatMap plain _) _ := ih0
    replace ih2 : Gr .additiveExpression (List.flatMap plain _) _ := ih2
    simp only [PlainOf, List.flatMap_append, List.flatMap_cons, List.flatMap_nil, plain, List.cons_append, List.nil_append]
    exact Gr.comparativeExpression_10 ih0 ih2
  | comparativeExpression_11 _ ih0 =>
    replace ih0 : Gr .comparativeExpression (List.flatMap plain _) _ := ih0
    simp only [PlainOf, List.flatMap_append, List.flatMap_cons, List.flatMap_nil, plain, List.cons_append, List.nil_append]
    exact Gr.comparativeExpression_8 ih0
  | comparativeExpression_12 _ ih0 =>
    replace ih0 : Gr .comparativeExpression (List.flatMap plain _) _ := ih0
    simp only [PlainOf, List.flatMap_append, List.flatMap_cons, List.flatMap_nil, plain, List.cons_append, List.nil_append]
    exact Gr.comparativeExpression_9 ih0
  | comparativeExpression_13 _ ih0 =>
    replace ih0 : Gr .comparativeExpression (List.flatMap plain _) _ := ih0
    simp only [PlainOf, List.flatMap_append, List.flatMap_cons, List.flatMap_nil, plain, List.cons_append, List.nil_append]
    exact Gr.comparativeExpression_13 ih0
  | comparativeExpression_14 _ ih0 =>
    replace ih0 : Gr .comparativeExpression (List.flatMap plain _) _ := ih0
    simp only [PlainOf, List.flatMap_append, List.flatMap_cons, List.flatMap_nil, plain, List.cons_append, List.nil_append]
    exact Gr.comparativeExpression_14 ih0
  | comparativeExpression_15 _ ih0 =>
    replace ih0 : Gr .comparativeExpression (List.flatMap plain _) _ := ih0
    simp only [PlainOf, List.flatMap_append, List.flatMap_cons, List.flatMap_nil, plain, List.cons_append, List.nil_append]
    exact Gr.comparativeExpression_15 ih0
  | comparativeExpression_16 _ _ ih0 ih3 =>
    replace ih0 : Gr .comparativeExpression (List.flatMap plain _) _ := ih0
    replace ih3 : Gr .expressionList (List.flatMap plain _) _ := ih3
    simp only [PlainOf, List.flatMap_append, List.flatMap_cons, List.flatMap_nil, plain, List.cons_append, List.nil_append]
    exact Gr.comparativeExpression_16 ih0 ih3
  | comparativeExpression_17 _ _ ih0 ih4 =>
    replace ih0 : Gr .comparativeExpression (List.flatMap plain _) _ := ih0
    replace ih4 : Gr .expressionList (List.flatMap plain _) _ := ih4
    simp only [PlainOf, List.flatMap_append, List.flatMap_cons, List.flatMap_nil, plain, List.cons_append, List.nil_append]
    exact Gr.comparativeExpression_17 ih0 ih4
  | comparativeExpression_18 _ _ ih0 ih3 =>
    replace ih0 : Gr .comparativeExpression (List.flatMap plain _) _ := ih0
    replace ih3 : Gr .selectStatement (List.flatMap plain _) _ := ih3
    simp only [PlainOf, List.flatMap_append, List.flatMap_cons, List.flatMap_nil, plain, List.cons_append, List.nil_append]
    exact Gr.comparativeExpression_18 ih0 ih3
  | comparativeExpression_19 _ _ ih0 ih4 =>
    replace ih0 : Gr .comparativeExpression (List.flatMap plain _) _ := ih0
    replace ih4 : Gr .selectStatement (List.flatMap plain _) _ := ih4
    simp only [PlainOf, List.flatMap_append, List.flatMap_cons, List.flatMap_nil, plain, List.cons_append, List.nil_append]
    exact Gr.comparativeExpression_19 ih0 ih4
  | comparativeExpression_20 _ _ ih0 ih2 =>
    replace ih0 : Gr .comparativeExpression (List.flatMap plain _) _ := ih0
    replace ih2 : Gr .qualifiedIdentifier (List.flatMap plain _) _ := ih2
    simp only [PlainOf, List.flatMap_append, List.flatMap_cons, List.flatMap_nil, plain, List.cons_append, List.nil_append]
    exact Gr.comparativeExpression_20 ih0 ih2
  | comparativeExpression_21 _ _ ih0 ih3 =>
    replace ih0 : Gr .comparativeExpression (List.flatMap plain _) _ := ih0
    replace ih3 : Gr .qualifiedIdentifier (List.flatMap plain _) _ := ih3
    simp only [PlainOf, List.flatMap_append, List.flatMap_cons, List.flatMap_nil, plain, List.cons_append, List.nil_append]
    exact Gr.comparativeExpression_21 ih0 ih3
  | comparativeExpression_22 _ _ _ ih0 ih2 ih4 =>
    replace ih0 : Gr .comparativeExpression (List.flatMap plain _) _ := ih0
    replace ih2 : Gr .additiveExpression (List.flatMap plain _) _ := ih2
    replace ih4 : Gr .additiveExpression (List.flatMap plain _) _ := ih4
    simp only [PlainOf, List.flatMap_append, List.flatMap_cons, List.flatMap_nil, plain, List.cons_append, List.nil_append]
    exact Gr.comparativeExpression_22 ih0 ih2 ih4
  | comparativeExpression_23 _ _ _ ih0 ih3 ih5 =>
    replace ih0 : Gr .comparativeExpression (List.flatMap plain _) _ := ih0
    replace ih3 : Gr .additiveExpression (List.flatMap plain _) _ := ih3
    replace ih5 : Gr .additiveExpression (List.flatMap plain _) _ := ih5
    simp only [PlainOf, List.flatMap_append, List.flatMap_cons, List.flatMap_nil, plain, List.cons_append, List.nil_append]
    exact Gr.comparativeExpression_23 ih0 ih3 ih5
  | complexExpression_1 _ ih0 =>
    replace ih0 : Gr .comparativeExpression (List.flatMap plain _) _ := ih0
    exact Gr.complexExpression_1 ih0
  | complexExpression_2 _ ih0 =>
    replace ih0 : Gr .caseExpression (List.flatMap plain _) _ := ih0
    exact Gr.complexExpression_2 ih0
  | caseExpression_1 _ _ _ ih1 ih2 ih3 =>
    replace ih1 : Gr (.opt .expression) (List.flatMap plain _) _ := ih1
    replace ih2 : Gr .whenClauses (List.flatMap plain _) _ := ih2
    replace ih3 : Gr (.opt .elseClause) (List.flatMap plain _) _ := ih3
    simp only [PlainOf, List.flatMap_append, List.flatMap_cons, List.flatMap_nil, plain, List.cons_append, List.nil_append]
    exact Gr.caseExpression_1 ih1 ih2 ih3
  | whenClauses_1 _ ih0 =>
    replace ih0 : Gr .whenClause (List.flatMap plain _) _ := ih0
    exact Gr.whenClauses_1 ih0
  | whenClauses_2 _ _ ih0 ih1 =>
    replace ih0 : Gr .whenClauses (List.flatMap plain _) _ := ih0
    replace ih1 : Gr .whenClause (List.flatMap plain _) _ := ih1
    simp only [PlainOf, List.flatMap_append, List.flatMap_cons, List.flatMap_nil, plain, List.cons_append, List.nil_append]
    exact Gr.whenClauses_2 ih0 ih1
  | whenClause_1 _ _ ih1 ih3 =>
    replace ih1 : Gr .expression (List.flatMap plain _) _ := ih1
    replace ih3 : Gr .expression (List.flatMap plain _) _ := ih3
    simp only [PlainOf, List.flatMap_append, List.flatMap_cons, List.flatMap_nil, plain, List.cons_append, List.nil_append]
    exact Gr.whenClause_1 ih1 ih3
  | elseClause_1 _ ih1 =>
    replace ih1 : Gr .expression (List.flatMap plain _) _ := ih1
    simp only [PlainOf, List.flatMap_append, List.flatMap_cons, List.flatMap_nil, plain, List.cons_append, List.nil_append]
    exact Gr.elseClause_1 ih1
  | notExpression_1 _ ih0 =>
    replace ih0 : Gr .complexExpression (List.flatMap plain _) _ := ih0
    exact Gr.notExpression_1 ih0
  | notExpression_2 _ ih1 =>
    replace ih1 : Gr .complexExpression (List.flatMap plain _) _ := ih1
    simp only [PlainOf, List.flatMap_append, List.flatMap_cons, List.flatMap_nil, plain, List.cons_append, List.nil_append]
    exact Gr.notExpression_2 ih1
  | andExpression_1 _ ih0 =>
    replace ih0 : Gr .notExpression (List.flatMap plain _) _ := ih0
    exact Gr.andExpression_1 ih0
  | andExpression_2 _ _ ih0 ih2 =>
    replace ih0 : Gr .andExpression (List.flatMap plain _) _ := ih0
    replace ih2 : Gr .notExpression (List.flatMap plain _) _ := ih2
    simp only [PlainOf, List.flatMap_append, List.flatMap_cons, List.flatMap_nil, plain, List.cons_append, List.nil_append]
    exact Gr.andExpression_2 ih0 ih2
  | orExpression_1 _ ih0 =>
    replace ih0 : Gr .andExpression (List.flatMap plain _) _ := ih0
    exact Gr.orExpression_1 ih0
  | orExpression_2 _ _ ih0 ih2 =>
    replace ih0 : Gr .orExpression (List.flatMap plain _) _ := ih0
    replace ih2 : Gr .andExpression (List.flatMap plain _) _ := ih2
    simp only [PlainOf, List.flatMap_append, List.flatMap_cons, List.flatMap_nil, plain, List.cons_append, List.nil_append]
    exact Gr.orExpression_2 ih0 ih2
  | expression_1 _ ih0 =>
    replace ih0 : Gr .orExpression (List.flatMap plain _) _ := ih0
    exact Gr.expression_1 ih0
  | literalValue_1 _ ih0 =>
    replace ih0 : Gr .numericLiteral (List.flatMap plain _) _ := ih0
    exact Gr.literalValue_1 ih0
  | literalValue_2 _ ih0 =>
    replace ih0 : Gr .stringLiteral (List.flatMap plain _) _ := ih0
    exact Gr.literalValue_2 ih0
  | literalValue_3 =>
    simp only [PlainOf, List.flatMap_append, List.flatMap_cons, List.flatMap_nil, plain, List.cons_append, List.nil_append]
    exact Gr.literalValue_3
  | literalValue_4 =>
    simp only [PlainOf, List.flatMap_append, List.flatMap_cons, List.flatMap_nil, plain, List.cons_append, List.nil_append]
    exact Gr.literalValue_4
  | literalValue_5 =>
    simp only [PlainOf, List.flatMap_append, List.flatMap_cons, List.flatMap_nil, plain, List.cons_append, List.nil_append]
    exact Gr.literalValue_5
  | literalValue_6 =>
    simp only [PlainOf, List.flatMap_append, List.flatMap_cons, List.flatMap_nil, plain, List.cons_append, List.nil_append]
    exact Gr.literalValue_6
  | literalValue_7 _ ih1 =>
    replace ih1 : Gr .stringLiteral (List.flatMap plain _) _ := ih1
    simp only [PlainOf, List.flatMap_append, List.flatMap_cons, List.flatMap_nil, plain, List.cons_append, List.nil_append]
    exact Gr.literalValue_7 ih1
  | literalValue_8 _ ih1 =>
    replace ih1 : Gr .stringLiteral (List.flatMap plain _) _ := ih1
    simp only [PlainOf, List.flatMap_append, List.flatMap_cons, List.flatMap_nil, plain, List.cons_append, List.nil_append]
    exact Gr.literalValue_8 ih1
  | literalValue_9 _ ih1 =>
    replace ih1 : Gr .stringLiteral (List.flatMap plain _) _ := ih1
    simp only [PlainOf, List.flatMap_append, List.flatMap_cons, List.flatMap_nil, plain, List.cons_append, List.nil_append]
    exact Gr.literalValue_9 ih1
  | identifier_1 =>
    simp only [PlainOf, List.flatMap_append, List.flatMap_cons, List.flatMap_nil, plain, List.cons_append, List.nil_append]
    exact Gr.identifier_1
  | numericLiteral_1 =>
    simp only [PlainOf, List.flatMap_append, List.flatMap_cons, List.flatMap_nil, plain, List.cons_append, List.nil_append]
    exact Gr.numericLiteral_1
  | numericLiteral_2 =>
    simp only [PlainOf, List.flatMap_append, List.flatMap_cons, List.flatMap_nil, plain, List.cons_append, List.nil_append]
    exact Gr.numericLiteral_2
  | numericLiteral_3 =>
    simp only [PlainOf, List.flatMap_append, List.flatMap_cons, List.flatMap_nil, plain, List.cons_append, List.nil_append]
    exact Gr.numericLiteral_3
  | stringLiteral_1 =>
    simp only [PlainOf, List.flatMap_append, List.flatMap_cons, List.flatMap_nil, plain, List.cons_append, List.nil_append]
    exact Gr.stringLiteral_1

end Verif.Sql.Writing
