import Verif.Spec.SqlRespelt
/-!
# Words spelt differently

A statement whose words are spelt differently is a statement again, and stands for the same up to the replacement of
identifiers.
-/

namespace Verif.Sql.Grammar

variable {K : Type} {f : Name → K}

theorem Respelt.split {a b w : List Lexeme} (h : Respelt f (a ++ b) w) :
    ∃ a' b', w = a' ++ b' ∧ Respelt f a a' ∧ Respelt f b b' := by
  induction a generalizing w with
  | nil => exact ⟨[], w, rfl, .nil, h⟩
  | cons x a ih =>
    cases h with
    | cons hx h =>
      obtain ⟨a', b', rfl, h1, h2⟩ := ih h
      exact ⟨_ :: a', b', rfl, .cons hx h1, h2⟩

theorem Respelt.word {k : Kind} {t : Str} {r w : List Lexeme} (h : Respelt f ((k, t) :: r) w) :
    ∃ t' r', w = (k, t') :: r' ∧ SameWord f (k, t) (k, t') ∧ Respelt f r r' := by
  cases h with
  | @cons x y _ r' hx h =>
    obtain ⟨k', t'⟩ := y
    obtain rfl : k = k' := hx.1
    exact ⟨t', r', rfl, hx, h⟩

theorem Respelt.none {w : List Lexeme} (h : Respelt f [] w) : w = [] := by
  cases h
  rfl

section
variable (f)

theorem mapList_append (a b : List (Expr Name)) : Expr.mapList f (a ++ b) = Expr.mapList f a ++ Expr.mapList f b := by
  induction a with
  | nil => rfl
  | cons x a ih => simp [Expr.mapList, ih]

theorem mapList_length (a : List (Expr Name)) : (Expr.mapList f a).length = a.length := by
  induction a with
  | nil => rfl
  | cons x a ih => simp [Expr.mapList, ih]

theorem mapRows_append (a b : List (List (Expr Name))) :
    Expr.mapRows f (a ++ b) = Expr.mapRows f a ++ Expr.mapRows f b := by
  induction a with
  | nil => rfl
  | cons x a ih => simp [Expr.mapRows, ih]

theorem mapWhens_append (a b : List (When Name)) :
    When.mapList f (a ++ b) = When.mapList f a ++ When.mapList f b := by
  induction a with
  | nil => rfl
  | cons x a ih => cases x; simp [When.mapList, ih]

theorem mapCtes_append (a b : List (Cte Name)) :
    Cte.mapList f (a ++ b) = Cte.mapList f a ++ Cte.mapList f b := by
  induction a with
  | nil => rfl
  | cons x a ih => simp [Cte.mapList, ih]

theorem mapTables_append (a b : List (TableExpr Name)) :
    TableExpr.mapList f (a ++ b) = TableExpr.mapList f a ++ TableExpr.mapList f b := by
  induction a with
  | nil => rfl
  | cons x a ih => simp [TableExpr.mapList, ih]

theorem mapTerms_append (a b : List (OrderTerm Name)) :
    OrderTerm.mapList f (a ++ b) = OrderTerm.mapList f a ++ OrderTerm.mapList f b := by
  induction a with
  | nil => rfl
  | cons x a ih => cases x; simp [OrderTerm.mapList, ih]

theorem mapColumns_append (a b : List (ResultColumn Name)) :
    ResultColumn.mapList f (a ++ b) = ResultColumn.mapList f a ++ ResultColumn.mapList f b := by
  induction a with
  | nil => rfl
  | cons x a ih => cases x <;> simp [ResultColumn.mapList, ih]

/-- Values that are the same after the replacement of identifiers. -/
def Same : (s : Nt) → Ty s → Ty s → Prop
  | .sqlStatement, a, b => a.map f = b.map f
  | .statement, a, b => a.map f = b.map f
  | .insertStatement, a, b => a.map f = b.map f
  | .columnNameList, a, b => a.map f = b.map f
  | .deleteStatement, a, b => a.map f = b.map f
  | .updateStatement, a, b => a.map f = b.map f
  | .assignments, a, b => a.map (Assignment.map f) = b.map (Assignment.map f)
  | .assignment, a, b => a.map f = b.map f
  | .selectStatement, a, b => a.map f = b.map f
  | .tableExpressions, a, b => Cte.mapList f a = Cte.mapList f b
  | .commonTableExpressionList, a, b => Cte.mapList f a = Cte.mapList f b
  | .commonTableExpression, a, b => a.map f = b.map f
  | .selectCoreList, a, b => a.map f = b.map f
  | .compoundOperator, a, b => a = b
  | .selectCore, a, b => a.map f = b.map f
  | .selectMode, a, b => a = b
  | .tupleList, a, b => Expr.mapRows f a = Expr.mapRows f b
  | .tuple, a, b => Expr.mapList f a = Expr.mapList f b
  | .resultColumns, a, b => a.map f = b.map f
  | .resultColumnList, a, b => ResultColumn.mapList f a = ResultColumn.mapList f b
  | .resultColumn, a, b => ResultColumn.mapList f [a] = ResultColumn.mapList f [b]
  | .qualifiedIdentifier, a, b => a.map f = b.map f
  | .fromClause, a, b => TableExpr.mapList f a = TableExpr.mapList f b
  | .tableExpressionList, a, b => TableExpr.mapList f a = TableExpr.mapList f b
  | .tableExpression, a, b => a.map f = b.map f
  | .tableOrSubQuery, a, b => a.map f = b.map f
  | .tableAlias, a, b => f a = f b
  | .joinOperator, a, b => a = b
  | .joinType, a, b => a = b
  | .joinConstraint, a, b => a.map f = b.map f
  | .identifierList, a, b => a.map f = b.map f
  | .whereClause, a, b => a.map f = b.map f
  | .groupByClause, a, b => GroupBy.mapOption f (some a) = GroupBy.mapOption f (some b)
  | .orderByClause, a, b => OrderTerm.mapList f a = OrderTerm.mapList f b
  | .orderingTermList, a, b => OrderTerm.mapList f a = OrderTerm.mapList f b
  | .orderingTerm, a, b => OrderTerm.mapList f [a] = OrderTerm.mapList f [b]
  | .orderingCollation, a, b => f a = f b
  | .orderingDirection, a, b => a = b
  | .limitClause, a, b => Limit.mapOption f (some a) = Limit.mapOption f (some b)
  | .attachStatement, a, b => a.qualifiedName.map f = b.qualifiedName.map f ∧ a.path = b.path
  | .describeStatement, a, b => a.qualifiedName.map f = b.qualifiedName.map f
  | .schemaName, a, b => f a = f b
  | .expressionList, a, b => Expr.mapList f a = Expr.mapList f b
  | .primaryExpression, a, b => a.map f = b.map f
  | .unaryExpression, a, b => a.map f = b.map f
  | .multiplicativeExpression, a, b => a.map f = b.map f
  | .additiveExpression, a, b => a.map f = b.map f
  | .comparativeExpression, a, b => a.map f = b.map f
  | .complexExpression, a, b => a.map f = b.map f
  | .caseExpression, a, b => a.map f = b.map f
  | .whenClauses, a, b => When.mapList f a = When.mapList f b
  | .whenClause, a, b => When.mapList f [a] = When.mapList f [b]
  | .elseClause, a, b => a.map f = b.map f
  | .notExpression, a, b => a.map f = b.map f
  | .andExpression, a, b => a.map f = b.map f
  | .orExpression, a, b => a.map f = b.map f
  | .expression, a, b => a.map f = b.map f
  | .literalValue, a, b => a = b
  | .identifier, a, b => f a = f b
  | .numericLiteral, a, b => a = b
  | .stringLiteral, a, b => a = b
  | .tok _, _, _ => True
  | .opt _, none, none => True
  | .opt s, some a, some b => Same s a b
  | .opt _, none, some _ => False
  | .opt _, some _, none => False

end

theorem same_order {a b : Option (List (OrderTerm Name))} (h : Same f (.opt .orderByClause) a b) :
    OrderTerm.mapList f (a.getD []) = OrderTerm.mapList f (b.getD []) := by
  cases a <;> cases b
  · rfl
  · exact False.elim h
  · exact False.elim h
  · exact h

theorem same_where {a b : Option (Expr Name)} (h : Same f (.opt .whereClause) a b) :
    Expr.mapOption f a = Expr.mapOption f b := by
  cases a <;> cases b
  · rfl
  · exact False.elim h
  · exact False.elim h
  · exact congrArg some h

theorem same_group {a b : Option (GroupBy Name)} (h : Same f (.opt .groupByClause) a b) :
    GroupBy.mapOption f a = GroupBy.mapOption f b := by
  cases a <;> cases b
  · rfl
  · exact False.elim h
  · exact False.elim h
  · exact h

theorem same_query {m m' : SelectMode} {c c' : ResultColumns Name} {t t' : List (TableExpr Name)}
    {p p' : Option (Expr Name)} {g g' : Option (GroupBy Name)} (h1 : m = m') (h2 : c.map f = c'.map f)
    (h3 : TableExpr.mapList f t = TableExpr.mapList f t') (h4 : Expr.mapOption f p = Expr.mapOption f p')
    (h5 : GroupBy.mapOption f g = GroupBy.mapOption f g') :
    Same f .selectCore (.query m c t p g) (.query m' c' t' p' g') := by
  show SetExpr.map f _ = SetExpr.map f _
  rw [SetExpr.map, SetExpr.map, h1, h2, h3, h4, h5]

theorem same_limit {a b : Option (Limit Name)} (h : Same f (.opt .limitClause) a b) :
    Limit.mapOption f a = Limit.mapOption f b := by
  cases a <;> cases b
  · rfl
  · exact False.elim h
  · exact False.elim h
  · exact h

theorem same_select {c c' : List (Cte Name)} {q q' : SetExpr Name} {o o' : List (OrderTerm Name)}
    {l l' : Option (Limit Name)} (h1 : Cte.mapList f c = Cte.mapList f c') (h2 : q.map f = q'.map f)
    (h3 : OrderTerm.mapList f o = OrderTerm.mapList f o') (h4 : Limit.mapOption f l = Limit.mapOption f l') :
    Same f .selectStatement (.mk c q o l) (.mk c' q' o' l') := by
  show Select.map f _ = Select.map f _
  rw [Select.map, Select.map, h1, h2, h3, h4]

macro "same_tac" : tactic => `(tactic| (
  simp only [Same, SqlStatement.map, Statement.map, InsertStatement.map, DeleteStatement.map, UpdateStatement.map, Assignment.map, Select.map, Cte.map, Cte.mapList, Expr.map, Expr.mapList, Expr.mapOption, Expr.mapRows, When.mapList, SetSpec.map, SetExpr.map, TableExpr.map, TableExpr.mapList, JoinConstraint.map, ResultColumns.map, ResultColumn.mapList, GroupBy.mapOption, OrderTerm.mapList, Limit.mapOption, mapList_append, mapRows_append, mapWhens_append, mapCtes_append, mapTables_append, mapTerms_append, mapColumns_append, List.map_append, List.map_cons, List.map_nil, List.append_cancel_right_eq,
    Option.getD_none, Option.getD_some, Option.toList_none, Option.toList_some, List.nil_append, List.cons_append,
    Option.map_none, Option.map_some, List.cons.injEq, and_true, true_and, SqlStatement.statement.injEq] at * <;>
  simp_all))

set_option maxHeartbeats 1600000 in
theorem gr_respell {s : Nt} {w : List Lexeme} {v : Ty s} (h : Gr s w v) :
    ∀ {w'}, Respelt f w w' → ∃ v', Gr s w' v' ∧ Same f s v v' := by
  induction h with
  | tok =>
    intro w' hr
    obtain ⟨t, r, rfl, h1, hr⟩ := hr.word
    obtain rfl := hr.none
    exact ⟨t, .tok, trivial⟩
  | optNone =>
    intro w' hr
    obtain rfl := hr.none
    exact ⟨none, .optNone, trivial⟩
  | optSome _ ih =>
    intro w' hr
    obtain ⟨v', h1, h2⟩ := ih hr
    exact ⟨some v', .optSome h1, h2⟩
  | @sqlStatement_1 _ vs _ ih0 =>
    intro w' hr
    have p0 := hr
    obtain ⟨x0, g0, q0⟩ := ih0 p0
    refine ⟨_, .sqlStatement_1 g0, ?_⟩
    clear g0 ih0 p0
    all_goals same_tac
  | @sqlStatement_2 _ t0 vs _ ih1 =>
    intro w' hr
    obtain ⟨s0, r0, rfl, m0, hr⟩ := hr.word
    have p1 := hr
    obtain ⟨x1, g1, q1⟩ := ih1 p1
    refine ⟨_, .sqlStatement_2 g1, ?_⟩
    clear g1 ih1 p1
    all_goals same_tac
  | @sqlStatement_3 _ t0 t1 t2 vs _ ih3 =>
    intro w' hr
    obtain ⟨s0, r0, rfl, m0, hr⟩ := hr.word
    obtain ⟨s1, r1, rfl, m1, hr⟩ := hr.word
    obtain ⟨s2, r2, rfl, m2, hr⟩ := hr.word
    have p3 := hr
    obtain ⟨x3, g3, q3⟩ := ih3 p3
    refine ⟨_, .sqlStatement_3 g3, ?_⟩
    clear g3 ih3 p3
    all_goals same_tac
  | @sqlStatement_4 _ vs _ ih0 =>
    intro w' hr
    have p0 := hr
    obtain ⟨x0, g0, q0⟩ := ih0 p0
    refine ⟨_, .sqlStatement_4 g0, ?_⟩
    clear g0 ih0 p0
    all_goals same_tac
  | @sqlStatement_5 _ vs _ ih0 =>
    intro w' hr
    have p0 := hr
    obtain ⟨x0, g0, q0⟩ := ih0 p0
    refine ⟨_, .sqlStatement_5 g0, ?_⟩
    clear g0 ih0 p0
    all_goals same_tac
  | @statement_1 _ vs _ ih0 =>
    intro w' hr
    have p0 := hr
    obtain ⟨x0, g0, q0⟩ := ih0 p0
    refine ⟨_, .statement_1 g0, ?_⟩
    clear g0 ih0 p0
    all_goals same_tac
  | @statement_2 _ vs _ ih0 =>
    intro w' hr
    have p0 := hr
    obtain ⟨x0, g0, q0⟩ := ih0 p0
    refine ⟨_, .statement_2 g0, ?_⟩
    clear g0 ih0 p0
    all_goals same_tac
  | @statement_3 _ vs _ ih0 =>
    intro w' hr
    have p0 := hr
    obtain ⟨x0, g0, q0⟩ := ih0 p0
    refine ⟨_, .statement_3 g0, ?_⟩
    clear g0 ih0 p0
    all_goals same_tac
  | @statement_4 _ vs _ ih0 =>
    intro w' hr
    have p0 := hr
    obtain ⟨x0, g0, q0⟩ := ih0 p0
    refine ⟨_, .statement_4 g0, ?_⟩
    clear g0 ih0 p0
    all_goals same_tac
  | @insertStatement_1 _ _ _ _ t1 t2 vc vn vl vq _ _ _ _ ih0 ih3 ih4 ih5 =>
    intro w' hr
    obtain ⟨a0, r0, rfl, p0, hr⟩ := hr.split
    obtain ⟨s1, r1, rfl, m1, hr⟩ := hr.word
    obtain ⟨s2, r2, rfl, m2, hr⟩ := hr.word
    obtain ⟨a3, r3, rfl, p3, hr⟩ := hr.split
    obtain ⟨a4, r4, rfl, p4, hr⟩ := hr.split
    have p5 := hr
    obtain ⟨x0, g0, q0⟩ := ih0 p0
    obtain ⟨x3, g3, q3⟩ := ih3 p3
    obtain ⟨x4, g4, q4⟩ := ih4 p4
    obtain ⟨x5, g5, q5⟩ := ih5 p5
    refine ⟨_, .insertStatement_1 g0 g3 g4 g5, ?_⟩
    clear g0 g3 g4 g5 ih0 ih3 ih4 ih5 p0 p3 p4 p5
    all_goals rcases vc with _ | vc <;> rcases x0 with _ | x0 <;> try exact False.elim q0
    all_goals rcases vl with _ | vl <;> rcases x4 with _ | x4 <;> try exact False.elim q4
    all_goals same_tac
  | @columnNameList_1 _ t0 t2 vl _ ih1 =>
    intro w' hr
    obtain ⟨s0, r0, rfl, m0, hr⟩ := hr.word
    obtain ⟨a1, r1, rfl, p1, hr⟩ := hr.split
    obtain ⟨s2, r2, rfl, m2, hr⟩ := hr.word
    obtain rfl := hr.none
    obtain ⟨x1, g1, q1⟩ := ih1 p1
    refine ⟨_, .columnNameList_1 g1, ?_⟩
    clear g1 ih1 p1
    all_goals same_tac
  | @deleteStatement_1 _ _ _ t1 t2 vc vn vp _ _ _ ih0 ih3 ih4 =>
    intro w' hr
    obtain ⟨a0, r0, rfl, p0, hr⟩ := hr.split
    obtain ⟨s1, r1, rfl, m1, hr⟩ := hr.word
    obtain ⟨s2, r2, rfl, m2, hr⟩ := hr.word
    obtain ⟨a3, r3, rfl, p3, hr⟩ := hr.split
    have p4 := hr
    obtain ⟨x0, g0, q0⟩ := ih0 p0
    obtain ⟨x3, g3, q3⟩ := ih3 p3
    obtain ⟨x4, g4, q4⟩ := ih4 p4
    refine ⟨_, .deleteStatement_1 g0 g3 g4, ?_⟩
    clear g0 g3 g4 ih0 ih3 ih4 p0 p3 p4
    all_goals rcases vc with _ | vc <;> rcases x0 with _ | x0 <;> try exact False.elim q0
    all_goals rcases vp with _ | vp <;> rcases x4 with _ | x4 <;> try exact False.elim q4
    all_goals same_tac
  | @updateStatement_1 _ _ _ _ t1 t3 vc vn va vp _ _ _ _ ih0 ih2 ih4 ih5 =>
    intro w' hr
    obtain ⟨a0, r0, rfl, p0, hr⟩ := hr.split
    obtain ⟨s1, r1, rfl, m1, hr⟩ := hr.word
    obtain ⟨a2, r2, rfl, p2, hr⟩ := hr.split
    obtain ⟨s3, r3, rfl, m3, hr⟩ := hr.word
    obtain ⟨a4, r4, rfl, p4, hr⟩ := hr.split
    have p5 := hr
    obtain ⟨x0, g0, q0⟩ := ih0 p0
    obtain ⟨x2, g2, q2⟩ := ih2 p2
    obtain ⟨x4, g4, q4⟩ := ih4 p4
    obtain ⟨x5, g5, q5⟩ := ih5 p5
    refine ⟨_, .updateStatement_1 g0 g2 g4 g5, ?_⟩
    clear g0 g2 g4 g5 ih0 ih2 ih4 ih5 p0 p2 p4 p5
    all_goals rcases vc with _ | vc <;> rcases x0 with _ | x0 <;> try exact False.elim q0
    all_goals rcases vp with _ | vp <;> rcases x5 with _ | x5 <;> try exact False.elim q5
    all_goals same_tac
  | @assignments_1 _ va _ ih0 =>
    intro w' hr
    have p0 := hr
    obtain ⟨x0, g0, q0⟩ := ih0 p0
    refine ⟨_, .assignments_1 g0, ?_⟩
    clear g0 ih0 p0
    all_goals same_tac
  | @assignments_2 _ _ t1 vl va _ _ ih0 ih2 =>
    intro w' hr
    obtain ⟨a0, r0, rfl, p0, hr⟩ := hr.split
    obtain ⟨s1, r1, rfl, m1, hr⟩ := hr.word
    have p2 := hr
    obtain ⟨x0, g0, q0⟩ := ih0 p0
    obtain ⟨x2, g2, q2⟩ := ih2 p2
    refine ⟨_, .assignments_2 g0 g2, ?_⟩
    clear g0 g2 ih0 ih2 p0 p2
    all_goals same_tac
  | @assignment_1 _ _ t1 vl ve _ _ ih0 ih2 =>
    intro w' hr
    obtain ⟨a0, r0, rfl, p0, hr⟩ := hr.split
    obtain ⟨s1, r1, rfl, m1, hr⟩ := hr.word
    have p2 := hr
    obtain ⟨x0, g0, q0⟩ := ih0 p0
    obtain ⟨x2, g2, q2⟩ := ih2 p2
    refine ⟨_, .assignment_1 g0 g2, ?_⟩
    clear g0 g2 ih0 ih2 p0 p2
    all_goals same_tac
  | @selectStatement_1 _ _ _ _ vc vq vo vl _ _ _ _ ih0 ih1 ih2 ih3 =>
    intro w' hr
    obtain ⟨a0, r0, rfl, p0, hr⟩ := hr.split
    obtain ⟨a1, r1, rfl, p1, hr⟩ := hr.split
    obtain ⟨a2, r2, rfl, p2, hr⟩ := hr.split
    have p3 := hr
    obtain ⟨x0, g0, q0⟩ := ih0 p0
    obtain ⟨x1, g1, q1⟩ := ih1 p1
    obtain ⟨x2, g2, q2⟩ := ih2 p2
    obtain ⟨x3, g3, q3⟩ := ih3 p3
    exact ⟨_, .selectStatement_1 g0 g1 g2 g3, same_select q0 q1 (same_order q2) (same_limit q3)⟩
  | @selectStatement_2 _ _ _ vq vo vl _ _ _ ih0 ih1 ih2 =>
    intro w' hr
    obtain ⟨a0, r0, rfl, p0, hr⟩ := hr.split
    obtain ⟨a1, r1, rfl, p1, hr⟩ := hr.split
    have p2 := hr
    obtain ⟨x0, g0, q0⟩ := ih0 p0
    obtain ⟨x1, g1, q1⟩ := ih1 p1
    obtain ⟨x2, g2, q2⟩ := ih2 p2
    exact ⟨_, .selectStatement_2 g0 g1 g2, same_select rfl q0 (same_order q1) (same_limit q2)⟩
  | @tableExpressions_1 _ t0 vl _ ih1 =>
    intro w' hr
    obtain ⟨s0, r0, rfl, m0, hr⟩ := hr.word
    have p1 := hr
    obtain ⟨x1, g1, q1⟩ := ih1 p1
    refine ⟨_, .tableExpressions_1 g1, ?_⟩
    clear g1 ih1 p1
    all_goals same_tac
  | @commonTableExpressionList_1 _ vc _ ih0 =>
    intro w' hr
    have p0 := hr
    obtain ⟨x0, g0, q0⟩ := ih0 p0
    refine ⟨_, .commonTableExpressionList_1 g0, ?_⟩
    clear g0 ih0 p0
    all_goals same_tac
  | @commonTableExpressionList_2 _ _ t1 vl vc _ _ ih0 ih2 =>
    intro w' hr
    obtain ⟨a0, r0, rfl, p0, hr⟩ := hr.split
    obtain ⟨s1, r1, rfl, m1, hr⟩ := hr.word
    have p2 := hr
    obtain ⟨x0, g0, q0⟩ := ih0 p0
    obtain ⟨x2, g2, q2⟩ := ih2 p2
    refine ⟨_, .commonTableExpressionList_2 g0 g2, ?_⟩
    clear g0 g2 ih0 ih2 p0 p2
    all_goals same_tac
  | @commonTableExpression_1 _ _ t1 t2 t4 vn vq _ _ ih0 ih3 =>
    intro w' hr
    obtain ⟨a0, r0, rfl, p0, hr⟩ := hr.split
    obtain ⟨s1, r1, rfl, m1, hr⟩ := hr.word
    obtain ⟨s2, r2, rfl, m2, hr⟩ := hr.word
    obtain ⟨a3, r3, rfl, p3, hr⟩ := hr.split
    obtain ⟨s4, r4, rfl, m4, hr⟩ := hr.word
    obtain rfl := hr.none
    obtain ⟨x0, g0, q0⟩ := ih0 p0
    obtain ⟨x3, g3, q3⟩ := ih3 p3
    refine ⟨_, .commonTableExpression_1 g0 g3, ?_⟩
    clear g0 g3 ih0 ih3 p0 p3
    all_goals same_tac
  | @commonTableExpression_2 _ _ _ t1 t3 t4 t5 t7 vn vl vq _ _ _ ih0 ih2 ih6 =>
    intro w' hr
    obtain ⟨a0, r0, rfl, p0, hr⟩ := hr.split
    obtain ⟨s1, r1, rfl, m1, hr⟩ := hr.word
    obtain ⟨a2, r2, rfl, p2, hr⟩ := hr.split
    obtain ⟨s3, r3, rfl, m3, hr⟩ := hr.word
    obtain ⟨s4, r4, rfl, m4, hr⟩ := hr.word
    obtain ⟨s5, r5, rfl, m5, hr⟩ := hr.word
    obtain ⟨a6, r6, rfl, p6, hr⟩ := hr.split
    obtain ⟨s7, r7, rfl, m7, hr⟩ := hr.word
    obtain rfl := hr.none
    obtain ⟨x0, g0, q0⟩ := ih0 p0
    obtain ⟨x2, g2, q2⟩ := ih2 p2
    obtain ⟨x6, g6, q6⟩ := ih6 p6
    refine ⟨_, .commonTableExpression_2 g0 g2 g6, ?_⟩
    clear g0 g2 g6 ih0 ih2 ih6 p0 p2 p6
    all_goals same_tac
  | @selectCoreList_1 _ vq _ ih0 =>
    intro w' hr
    have p0 := hr
    obtain ⟨x0, g0, q0⟩ := ih0 p0
    refine ⟨_, .selectCoreList_1 g0, ?_⟩
    clear g0 ih0 p0
    all_goals same_tac
  | @selectCoreList_2 _ _ _ vl vr vo _ _ _ ih0 ih1 ih2 =>
    intro w' hr
    obtain ⟨a0, r0, rfl, p0, hr⟩ := hr.split
    obtain ⟨a1, r1, rfl, p1, hr⟩ := hr.split
    have p2 := hr
    obtain ⟨x0, g0, q0⟩ := ih0 p0
    obtain ⟨x1, g1, q1⟩ := ih1 p1
    obtain ⟨x2, g2, q2⟩ := ih2 p2
    refine ⟨_, .selectCoreList_2 g0 g1 g2, ?_⟩
    clear g0 g1 g2 ih0 ih1 ih2 p0 p1 p2
    all_goals same_tac
  | @compoundOperator_1 t0 =>
    intro w' hr
    obtain ⟨s0, r0, rfl, m0, hr⟩ := hr.word
    obtain rfl := hr.none
    refine ⟨_, .compoundOperator_1, ?_⟩
    all_goals same_tac
  | @compoundOperator_2 t0 t1 =>
    intro w' hr
    obtain ⟨s0, r0, rfl, m0, hr⟩ := hr.word
    obtain ⟨s1, r1, rfl, m1, hr⟩ := hr.word
    obtain rfl := hr.none
    refine ⟨_, .compoundOperator_2, ?_⟩
    all_goals same_tac
  | @compoundOperator_3 t0 =>
    intro w' hr
    obtain ⟨s0, r0, rfl, m0, hr⟩ := hr.word
    obtain rfl := hr.none
    refine ⟨_, .compoundOperator_3, ?_⟩
    all_goals same_tac
  | @compoundOperator_4 t0 =>
    intro w' hr
    obtain ⟨s0, r0, rfl, m0, hr⟩ := hr.word
    obtain rfl := hr.none
    refine ⟨_, .compoundOperator_4, ?_⟩
    all_goals same_tac
  | @selectCore_1 _ _ _ _ t0 vm vc vp vg _ _ _ _ ih1 ih2 ih3 ih4 =>
    intro w' hr
    obtain ⟨s0, r0, rfl, m0, hr⟩ := hr.word
    obtain ⟨a1, r1, rfl, p1, hr⟩ := hr.split
    obtain ⟨a2, r2, rfl, p2, hr⟩ := hr.split
    obtain ⟨a3, r3, rfl, p3, hr⟩ := hr.split
    have p4 := hr
    obtain ⟨x1, g1, q1⟩ := ih1 p1
    obtain ⟨x2, g2, q2⟩ := ih2 p2
    obtain ⟨x3, g3, q3⟩ := ih3 p3
    obtain ⟨x4, g4, q4⟩ := ih4 p4
    exact ⟨_, .selectCore_1 g1 g2 g3 g4, same_query q1 q2 rfl (same_where q3) (same_group q4)⟩
  | @selectCore_2 _ _ _ _ _ t0 vm vc vf vp vg _ _ _ _ _ ih1 ih2 ih3 ih4 ih5 =>
    intro w' hr
    obtain ⟨s0, r0, rfl, m0, hr⟩ := hr.word
    obtain ⟨a1, r1, rfl, p1, hr⟩ := hr.split
    obtain ⟨a2, r2, rfl, p2, hr⟩ := hr.split
    obtain ⟨a3, r3, rfl, p3, hr⟩ := hr.split
    obtain ⟨a4, r4, rfl, p4, hr⟩ := hr.split
    have p5 := hr
    obtain ⟨x1, g1, q1⟩ := ih1 p1
    obtain ⟨x2, g2, q2⟩ := ih2 p2
    obtain ⟨x3, g3, q3⟩ := ih3 p3
    obtain ⟨x4, g4, q4⟩ := ih4 p4
    obtain ⟨x5, g5, q5⟩ := ih5 p5
    exact ⟨_, .selectCore_2 g1 g2 g3 g4 g5, same_query q1 q2 q3 (same_where q4) (same_group q5)⟩
  | @selectCore_3 _ t0 vt _ ih1 =>
    intro w' hr
    obtain ⟨s0, r0, rfl, m0, hr⟩ := hr.word
    have p1 := hr
    obtain ⟨x1, g1, q1⟩ := ih1 p1
    refine ⟨_, .selectCore_3 g1, ?_⟩
    clear g1 ih1 p1
    all_goals same_tac
  | @selectMode_1 _ vo0 _ ih0 =>
    intro w' hr
    have p0 := hr
    obtain ⟨x0, g0, q0⟩ := ih0 p0
    refine ⟨_, .selectMode_1 g0, ?_⟩
    clear g0 ih0 p0
    all_goals same_tac
  | @selectMode_2 t0 =>
    intro w' hr
    obtain ⟨s0, r0, rfl, m0, hr⟩ := hr.word
    obtain rfl := hr.none
    refine ⟨_, .selectMode_2, ?_⟩
    all_goals same_tac
  | @tupleList_1 _ vt _ ih0 =>
    intro w' hr
    have p0 := hr
    obtain ⟨x0, g0, q0⟩ := ih0 p0
    refine ⟨_, .tupleList_1 g0, ?_⟩
    clear g0 ih0 p0
    all_goals same_tac
  | @tupleList_2 _ _ t1 vl vt _ _ ih0 ih2 =>
    intro w' hr
    obtain ⟨a0, r0, rfl, p0, hr⟩ := hr.split
    obtain ⟨s1, r1, rfl, m1, hr⟩ := hr.word
    have p2 := hr
    obtain ⟨x0, g0, q0⟩ := ih0 p0
    obtain ⟨x2, g2, q2⟩ := ih2 p2
    refine ⟨_, .tupleList_2 g0 g2, ?_⟩
    clear g0 g2 ih0 ih2 p0 p2
    all_goals same_tac
  | @tuple_1 _ t0 t2 vl _ ih1 =>
    intro w' hr
    obtain ⟨s0, r0, rfl, m0, hr⟩ := hr.word
    obtain ⟨a1, r1, rfl, p1, hr⟩ := hr.split
    obtain ⟨s2, r2, rfl, m2, hr⟩ := hr.word
    obtain rfl := hr.none
    obtain ⟨x1, g1, q1⟩ := ih1 p1
    refine ⟨_, .tuple_1 g1, ?_⟩
    clear g1 ih1 p1
    all_goals same_tac
  | @resultColumns_1 t0 =>
    intro w' hr
    obtain ⟨s0, r0, rfl, m0, hr⟩ := hr.word
    obtain rfl := hr.none
    refine ⟨_, .resultColumns_1, ?_⟩
    all_goals same_tac
  | @resultColumns_2 _ vl _ ih0 =>
    intro w' hr
    have p0 := hr
    obtain ⟨x0, g0, q0⟩ := ih0 p0
    refine ⟨_, .resultColumns_2 g0, ?_⟩
    clear g0 ih0 p0
    all_goals same_tac
  | @resultColumnList_1 _ vc _ ih0 =>
    intro w' hr
    have p0 := hr
    obtain ⟨x0, g0, q0⟩ := ih0 p0
    refine ⟨_, .resultColumnList_1 g0, ?_⟩
    clear g0 ih0 p0
    all_goals same_tac
  | @resultColumnList_2 _ _ t1 vl vc _ _ ih0 ih2 =>
    intro w' hr
    obtain ⟨a0, r0, rfl, p0, hr⟩ := hr.split
    obtain ⟨s1, r1, rfl, m1, hr⟩ := hr.word
    have p2 := hr
    obtain ⟨x0, g0, q0⟩ := ih0 p0
    obtain ⟨x2, g2, q2⟩ := ih2 p2
    refine ⟨_, .resultColumnList_2 g0 g2, ?_⟩
    clear g0 g2 ih0 ih2 p0 p2
    all_goals same_tac
  | @resultColumn_1 _ ve _ ih0 =>
    intro w' hr
    have p0 := hr
    obtain ⟨x0, g0, q0⟩ := ih0 p0
    refine ⟨_, .resultColumn_1 g0, ?_⟩
    clear g0 ih0 p0
    all_goals same_tac
  | @resultColumn_2 _ _ _ ve vo1 vn _ _ _ ih0 ih1 ih2 =>
    intro w' hr
    obtain ⟨a0, r0, rfl, p0, hr⟩ := hr.split
    obtain ⟨a1, r1, rfl, p1, hr⟩ := hr.split
    have p2 := hr
    obtain ⟨x0, g0, q0⟩ := ih0 p0
    obtain ⟨x1, g1, q1⟩ := ih1 p1
    obtain ⟨x2, g2, q2⟩ := ih2 p2
    refine ⟨_, .resultColumn_2 g0 g1 g2, ?_⟩
    clear g0 g1 g2 ih0 ih1 ih2 p0 p1 p2
    all_goals same_tac
  | @resultColumn_3 _ t1 t2 vn _ ih0 =>
    intro w' hr
    obtain ⟨a0, r0, rfl, p0, hr⟩ := hr.split
    obtain ⟨s1, r1, rfl, m1, hr⟩ := hr.word
    obtain ⟨s2, r2, rfl, m2, hr⟩ := hr.word
    obtain rfl := hr.none
    obtain ⟨x0, g0, q0⟩ := ih0 p0
    refine ⟨_, .resultColumn_3 g0, ?_⟩
    clear g0 ih0 p0
    all_goals same_tac
  | @qualifiedIdentifier_1 _ va _ ih0 =>
    intro w' hr
    have p0 := hr
    obtain ⟨x0, g0, q0⟩ := ih0 p0
    refine ⟨_, .qualifiedIdentifier_1 g0, ?_⟩
    clear g0 ih0 p0
    all_goals same_tac
  | @qualifiedIdentifier_2 _ _ t1 va vb _ _ ih0 ih2 =>
    intro w' hr
    obtain ⟨a0, r0, rfl, p0, hr⟩ := hr.split
    obtain ⟨s1, r1, rfl, m1, hr⟩ := hr.word
    have p2 := hr
    obtain ⟨x0, g0, q0⟩ := ih0 p0
    obtain ⟨x2, g2, q2⟩ := ih2 p2
    refine ⟨_, .qualifiedIdentifier_2 g0 g2, ?_⟩
    clear g0 g2 ih0 ih2 p0 p2
    all_goals same_tac
  | @qualifiedIdentifier_3 _ _ _ t1 t3 va vb vc _ _ _ ih0 ih2 ih4 =>
    intro w' hr
    obtain ⟨a0, r0, rfl, p0, hr⟩ := hr.split
    obtain ⟨s1, r1, rfl, m1, hr⟩ := hr.word
    obtain ⟨a2, r2, rfl, p2, hr⟩ := hr.split
    obtain ⟨s3, r3, rfl, m3, hr⟩ := hr.word
    have p4 := hr
    obtain ⟨x0, g0, q0⟩ := ih0 p0
    obtain ⟨x2, g2, q2⟩ := ih2 p2
    obtain ⟨x4, g4, q4⟩ := ih4 p4
    refine ⟨_, .qualifiedIdentifier_3 g0 g2 g4, ?_⟩
    clear g0 g2 g4 ih0 ih2 ih4 p0 p2 p4
    all_goals same_tac
  | @fromClause_1 _ t0 vl _ ih1 =>
    intro w' hr
    obtain ⟨s0, r0, rfl, m0, hr⟩ := hr.word
    have p1 := hr
    obtain ⟨x1, g1, q1⟩ := ih1 p1
    refine ⟨_, .fromClause_1 g1, ?_⟩
    clear g1 ih1 p1
    all_goals same_tac
  | @tableExpressionList_1 _ vt _ ih0 =>
    intro w' hr
    have p0 := hr
    obtain ⟨x0, g0, q0⟩ := ih0 p0
    refine ⟨_, .tableExpressionList_1 g0, ?_⟩
    clear g0 ih0 p0
    all_goals same_tac
  | @tableExpressionList_2 _ _ t1 vl vt _ _ ih0 ih2 =>
    intro w' hr
    obtain ⟨a0, r0, rfl, p0, hr⟩ := hr.split
    obtain ⟨s1, r1, rfl, m1, hr⟩ := hr.word
    have p2 := hr
    obtain ⟨x0, g0, q0⟩ := ih0 p0
    obtain ⟨x2, g2, q2⟩ := ih2 p2
    refine ⟨_, .tableExpressionList_2 g0 g2, ?_⟩
    clear g0 g2 ih0 ih2 p0 p2
    all_goals same_tac
  | @tableExpression_1 _ vt _ ih0 =>
    intro w' hr
    have p0 := hr
    obtain ⟨x0, g0, q0⟩ := ih0 p0
    refine ⟨_, .tableExpression_1 g0, ?_⟩
    clear g0 ih0 p0
    all_goals same_tac
  | @tableExpression_2 _ _ _ _ vl vr vo vc _ _ _ _ ih0 ih1 ih2 ih3 =>
    intro w' hr
    obtain ⟨a0, r0, rfl, p0, hr⟩ := hr.split
    obtain ⟨a1, r1, rfl, p1, hr⟩ := hr.split
    obtain ⟨a2, r2, rfl, p2, hr⟩ := hr.split
    have p3 := hr
    obtain ⟨x0, g0, q0⟩ := ih0 p0
    obtain ⟨x1, g1, q1⟩ := ih1 p1
    obtain ⟨x2, g2, q2⟩ := ih2 p2
    obtain ⟨x3, g3, q3⟩ := ih3 p3
    refine ⟨_, .tableExpression_2 g0 g1 g2 g3, ?_⟩
    clear g0 g1 g2 g3 ih0 ih1 ih2 ih3 p0 p1 p2 p3
    all_goals same_tac
  | @tableOrSubQuery_1 _ _ vn va _ _ ih0 ih1 =>
    intro w' hr
    obtain ⟨a0, r0, rfl, p0, hr⟩ := hr.split
    have p1 := hr
    obtain ⟨x0, g0, q0⟩ := ih0 p0
    obtain ⟨x1, g1, q1⟩ := ih1 p1
    refine ⟨_, .tableOrSubQuery_1 g0 g1, ?_⟩
    clear g0 g1 ih0 ih1 p0 p1
    all_goals rcases va with _ | va <;> rcases x1 with _ | x1 <;> try exact False.elim q1
    all_goals same_tac
  | @tableOrSubQuery_2 _ _ t0 t2 vq va _ _ ih1 ih3 =>
    intro w' hr
    obtain ⟨s0, r0, rfl, m0, hr⟩ := hr.word
    obtain ⟨a1, r1, rfl, p1, hr⟩ := hr.split
    obtain ⟨s2, r2, rfl, m2, hr⟩ := hr.word
    have p3 := hr
    obtain ⟨x1, g1, q1⟩ := ih1 p1
    obtain ⟨x3, g3, q3⟩ := ih3 p3
    refine ⟨_, .tableOrSubQuery_2 g1 g3, ?_⟩
    clear g1 g3 ih1 ih3 p1 p3
    all_goals rcases va with _ | va <;> rcases x3 with _ | x3 <;> try exact False.elim q3
    all_goals same_tac
  | @tableOrSubQuery_3 _ t0 t2 vt _ ih1 =>
    intro w' hr
    obtain ⟨s0, r0, rfl, m0, hr⟩ := hr.word
    obtain ⟨a1, r1, rfl, p1, hr⟩ := hr.split
    obtain ⟨s2, r2, rfl, m2, hr⟩ := hr.word
    obtain rfl := hr.none
    obtain ⟨x1, g1, q1⟩ := ih1 p1
    refine ⟨_, .tableOrSubQuery_3 g1, ?_⟩
    clear g1 ih1 p1
    all_goals same_tac
  | @tableAlias_1 _ _ vo0 vn _ _ ih0 ih1 =>
    intro w' hr
    obtain ⟨a0, r0, rfl, p0, hr⟩ := hr.split
    have p1 := hr
    obtain ⟨x0, g0, q0⟩ := ih0 p0
    obtain ⟨x1, g1, q1⟩ := ih1 p1
    refine ⟨_, .tableAlias_1 g0 g1, ?_⟩
    clear g0 g1 ih0 ih1 p0 p1
    all_goals same_tac
  | @joinOperator_1 _ t1 vj _ ih0 =>
    intro w' hr
    obtain ⟨a0, r0, rfl, p0, hr⟩ := hr.split
    obtain ⟨s1, r1, rfl, m1, hr⟩ := hr.word
    obtain rfl := hr.none
    obtain ⟨x0, g0, q0⟩ := ih0 p0
    refine ⟨_, .joinOperator_1 g0, ?_⟩
    clear g0 ih0 p0
    all_goals rcases vj with _ | vj <;> rcases x0 with _ | x0 <;> try exact False.elim q0
    all_goals same_tac
  | @joinOperator_2 _ t0 t2 vj _ ih1 =>
    intro w' hr
    obtain ⟨s0, r0, rfl, m0, hr⟩ := hr.word
    obtain ⟨a1, r1, rfl, p1, hr⟩ := hr.split
    obtain ⟨s2, r2, rfl, m2, hr⟩ := hr.word
    obtain rfl := hr.none
    obtain ⟨x1, g1, q1⟩ := ih1 p1
    refine ⟨_, .joinOperator_2 g1, ?_⟩
    clear g1 ih1 p1
    all_goals rcases vj with _ | vj <;> rcases x1 with _ | x1 <;> try exact False.elim q1
    all_goals same_tac
  | @joinOperator_3 t0 t1 =>
    intro w' hr
    obtain ⟨s0, r0, rfl, m0, hr⟩ := hr.word
    obtain ⟨s1, r1, rfl, m1, hr⟩ := hr.word
    obtain rfl := hr.none
    refine ⟨_, .joinOperator_3, ?_⟩
    all_goals same_tac
  | @joinType_1 _ t0 vo1 _ ih1 =>
    intro w' hr
    obtain ⟨s0, r0, rfl, m0, hr⟩ := hr.word
    have p1 := hr
    obtain ⟨x1, g1, q1⟩ := ih1 p1
    refine ⟨_, .joinType_1 g1, ?_⟩
    clear g1 ih1 p1
    all_goals same_tac
  | @joinType_2 _ t0 vo1 _ ih1 =>
    intro w' hr
    obtain ⟨s0, r0, rfl, m0, hr⟩ := hr.word
    have p1 := hr
    obtain ⟨x1, g1, q1⟩ := ih1 p1
    refine ⟨_, .joinType_2 g1, ?_⟩
    clear g1 ih1 p1
    all_goals same_tac
  | @joinType_3 _ t0 vo1 _ ih1 =>
    intro w' hr
    obtain ⟨s0, r0, rfl, m0, hr⟩ := hr.word
    have p1 := hr
    obtain ⟨x1, g1, q1⟩ := ih1 p1
    refine ⟨_, .joinType_3 g1, ?_⟩
    clear g1 ih1 p1
    all_goals same_tac
  | @joinType_4 t0 =>
    intro w' hr
    obtain ⟨s0, r0, rfl, m0, hr⟩ := hr.word
    obtain rfl := hr.none
    refine ⟨_, .joinType_4, ?_⟩
    all_goals same_tac
  | @joinConstraint_1 _ t0 ve _ ih1 =>
    intro w' hr
    obtain ⟨s0, r0, rfl, m0, hr⟩ := hr.word
    have p1 := hr
    obtain ⟨x1, g1, q1⟩ := ih1 p1
    refine ⟨_, .joinConstraint_1 g1, ?_⟩
    clear g1 ih1 p1
    all_goals same_tac
  | @joinConstraint_2 _ t0 t1 t3 vl _ ih2 =>
    intro w' hr
    obtain ⟨s0, r0, rfl, m0, hr⟩ := hr.word
    obtain ⟨s1, r1, rfl, m1, hr⟩ := hr.word
    obtain ⟨a2, r2, rfl, p2, hr⟩ := hr.split
    obtain ⟨s3, r3, rfl, m3, hr⟩ := hr.word
    obtain rfl := hr.none
    obtain ⟨x2, g2, q2⟩ := ih2 p2
    refine ⟨_, .joinConstraint_2 g2, ?_⟩
    clear g2 ih2 p2
    all_goals same_tac
  | @identifierList_1 _ vn _ ih0 =>
    intro w' hr
    have p0 := hr
    obtain ⟨x0, g0, q0⟩ := ih0 p0
    refine ⟨_, .identifierList_1 g0, ?_⟩
    clear g0 ih0 p0
    all_goals same_tac
  | @identifierList_2 _ _ t1 vl vn _ _ ih0 ih2 =>
    intro w' hr
    obtain ⟨a0, r0, rfl, p0, hr⟩ := hr.split
    obtain ⟨s1, r1, rfl, m1, hr⟩ := hr.word
    have p2 := hr
    obtain ⟨x0, g0, q0⟩ := ih0 p0
    obtain ⟨x2, g2, q2⟩ := ih2 p2
    refine ⟨_, .identifierList_2 g0 g2, ?_⟩
    clear g0 g2 ih0 ih2 p0 p2
    all_goals same_tac
  | @whereClause_1 _ t0 ve _ ih1 =>
    intro w' hr
    obtain ⟨s0, r0, rfl, m0, hr⟩ := hr.word
    have p1 := hr
    obtain ⟨x1, g1, q1⟩ := ih1 p1
    refine ⟨_, .whereClause_1 g1, ?_⟩
    clear g1 ih1 p1
    all_goals same_tac
  | @groupByClause_1 _ t0 t1 vl _ ih2 =>
    intro w' hr
    obtain ⟨s0, r0, rfl, m0, hr⟩ := hr.word
    obtain ⟨s1, r1, rfl, m1, hr⟩ := hr.word
    have p2 := hr
    obtain ⟨x2, g2, q2⟩ := ih2 p2
    refine ⟨_, .groupByClause_1 g2, ?_⟩
    clear g2 ih2 p2
    all_goals same_tac
  | @groupByClause_2 _ _ t0 t1 t3 vl ve _ _ ih2 ih4 =>
    intro w' hr
    obtain ⟨s0, r0, rfl, m0, hr⟩ := hr.word
    obtain ⟨s1, r1, rfl, m1, hr⟩ := hr.word
    obtain ⟨a2, r2, rfl, p2, hr⟩ := hr.split
    obtain ⟨s3, r3, rfl, m3, hr⟩ := hr.word
    have p4 := hr
    obtain ⟨x2, g2, q2⟩ := ih2 p2
    obtain ⟨x4, g4, q4⟩ := ih4 p4
    refine ⟨_, .groupByClause_2 g2 g4, ?_⟩
    clear g2 g4 ih2 ih4 p2 p4
    all_goals same_tac
  | @orderByClause_1 _ t0 t1 vl _ ih2 =>
    intro w' hr
    obtain ⟨s0, r0, rfl, m0, hr⟩ := hr.word
    obtain ⟨s1, r1, rfl, m1, hr⟩ := hr.word
    have p2 := hr
    obtain ⟨x2, g2, q2⟩ := ih2 p2
    refine ⟨_, .orderByClause_1 g2, ?_⟩
    clear g2 ih2 p2
    all_goals same_tac
  | @orderingTermList_1 _ vt _ ih0 =>
    intro w' hr
    have p0 := hr
    obtain ⟨x0, g0, q0⟩ := ih0 p0
    refine ⟨_, .orderingTermList_1 g0, ?_⟩
    clear g0 ih0 p0
    all_goals same_tac
  | @orderingTermList_2 _ _ t1 vl vt _ _ ih0 ih2 =>
    intro w' hr
    obtain ⟨a0, r0, rfl, p0, hr⟩ := hr.split
    obtain ⟨s1, r1, rfl, m1, hr⟩ := hr.word
    have p2 := hr
    obtain ⟨x0, g0, q0⟩ := ih0 p0
    obtain ⟨x2, g2, q2⟩ := ih2 p2
    refine ⟨_, .orderingTermList_2 g0 g2, ?_⟩
    clear g0 g2 ih0 ih2 p0 p2
    all_goals same_tac
  | @orderingTerm_1 _ _ _ ve vc vd _ _ _ ih0 ih1 ih2 =>
    intro w' hr
    obtain ⟨a0, r0, rfl, p0, hr⟩ := hr.split
    obtain ⟨a1, r1, rfl, p1, hr⟩ := hr.split
    have p2 := hr
    obtain ⟨x0, g0, q0⟩ := ih0 p0
    obtain ⟨x1, g1, q1⟩ := ih1 p1
    obtain ⟨x2, g2, q2⟩ := ih2 p2
    refine ⟨_, .orderingTerm_1 g0 g1 g2, ?_⟩
    clear g0 g1 g2 ih0 ih1 ih2 p0 p1 p2
    all_goals rcases vc with _ | vc <;> rcases x1 with _ | x1 <;> try exact False.elim q1
    all_goals same_tac
  | @orderingCollation_1 _ t0 vn _ ih1 =>
    intro w' hr
    obtain ⟨s0, r0, rfl, m0, hr⟩ := hr.word
    have p1 := hr
    obtain ⟨x1, g1, q1⟩ := ih1 p1
    refine ⟨_, .orderingCollation_1 g1, ?_⟩
    clear g1 ih1 p1
    all_goals same_tac
  | @orderingDirection_1 _ vo0 _ ih0 =>
    intro w' hr
    have p0 := hr
    obtain ⟨x0, g0, q0⟩ := ih0 p0
    refine ⟨_, .orderingDirection_1 g0, ?_⟩
    clear g0 ih0 p0
    all_goals same_tac
  | @orderingDirection_2 t0 =>
    intro w' hr
    obtain ⟨s0, r0, rfl, m0, hr⟩ := hr.word
    obtain rfl := hr.none
    refine ⟨_, .orderingDirection_2, ?_⟩
    all_goals same_tac
  | @limitClause_1 _ t0 vn _ ih1 =>
    intro w' hr
    obtain ⟨s0, r0, rfl, m0, hr⟩ := hr.word
    have p1 := hr
    obtain ⟨x1, g1, q1⟩ := ih1 p1
    refine ⟨_, .limitClause_1 g1, ?_⟩
    clear g1 ih1 p1
    all_goals same_tac
  | @limitClause_2 _ _ t0 t2 vn vo _ _ ih1 ih3 =>
    intro w' hr
    obtain ⟨s0, r0, rfl, m0, hr⟩ := hr.word
    obtain ⟨a1, r1, rfl, p1, hr⟩ := hr.split
    obtain ⟨s2, r2, rfl, m2, hr⟩ := hr.word
    have p3 := hr
    obtain ⟨x1, g1, q1⟩ := ih1 p1
    obtain ⟨x3, g3, q3⟩ := ih3 p3
    refine ⟨_, .limitClause_2 g1 g3, ?_⟩
    clear g1 g3 ih1 ih3 p1 p3
    all_goals same_tac
  | @limitClause_3 _ _ t0 t2 vn vo _ _ ih1 ih3 =>
    intro w' hr
    obtain ⟨s0, r0, rfl, m0, hr⟩ := hr.word
    obtain ⟨a1, r1, rfl, p1, hr⟩ := hr.split
    obtain ⟨s2, r2, rfl, m2, hr⟩ := hr.word
    have p3 := hr
    obtain ⟨x1, g1, q1⟩ := ih1 p1
    obtain ⟨x3, g3, q3⟩ := ih3 p3
    refine ⟨_, .limitClause_3 g1 g3, ?_⟩
    clear g1 g3 ih1 ih3 p1 p3
    all_goals same_tac
  | @attachStatement_1 _ _ _ t0 t1 t3 vp vs vn _ _ _ ih2 ih4 ih5 =>
    intro w' hr
    obtain ⟨s0, r0, rfl, m0, hr⟩ := hr.word
    obtain ⟨s1, r1, rfl, m1, hr⟩ := hr.word
    obtain ⟨a2, r2, rfl, p2, hr⟩ := hr.split
    obtain ⟨s3, r3, rfl, m3, hr⟩ := hr.word
    obtain ⟨a4, r4, rfl, p4, hr⟩ := hr.split
    have p5 := hr
    obtain ⟨x2, g2, q2⟩ := ih2 p2
    obtain ⟨x4, g4, q4⟩ := ih4 p4
    obtain ⟨x5, g5, q5⟩ := ih5 p5
    refine ⟨_, .attachStatement_1 g2 g4 g5, ?_⟩
    clear g2 g4 g5 ih2 ih4 ih5 p2 p4 p5
    all_goals rcases vs with _ | vs <;> rcases x4 with _ | x4 <;> try exact False.elim q4
    all_goals same_tac
  | @describeStatement_1 _ _ t0 vs vn _ _ ih1 ih2 =>
    intro w' hr
    obtain ⟨s0, r0, rfl, m0, hr⟩ := hr.word
    obtain ⟨a1, r1, rfl, p1, hr⟩ := hr.split
    have p2 := hr
    obtain ⟨x1, g1, q1⟩ := ih1 p1
    obtain ⟨x2, g2, q2⟩ := ih2 p2
    refine ⟨_, .describeStatement_1 g1 g2, ?_⟩
    clear g1 g2 ih1 ih2 p1 p2
    all_goals rcases vs with _ | vs <;> rcases x1 with _ | x1 <;> try exact False.elim q1
    all_goals same_tac
  | @schemaName_1 _ t1 vn _ ih0 =>
    intro w' hr
    obtain ⟨a0, r0, rfl, p0, hr⟩ := hr.split
    obtain ⟨s1, r1, rfl, m1, hr⟩ := hr.word
    obtain rfl := hr.none
    obtain ⟨x0, g0, q0⟩ := ih0 p0
    refine ⟨_, .schemaName_1 g0, ?_⟩
    clear g0 ih0 p0
    all_goals same_tac
  | @expressionList_1 _ ve _ ih0 =>
    intro w' hr
    have p0 := hr
    obtain ⟨x0, g0, q0⟩ := ih0 p0
    refine ⟨_, .expressionList_1 g0, ?_⟩
    clear g0 ih0 p0
    all_goals same_tac
  | @expressionList_2 _ _ t1 vl ve _ _ ih0 ih2 =>
    intro w' hr
    obtain ⟨a0, r0, rfl, p0, hr⟩ := hr.split
    obtain ⟨s1, r1, rfl, m1, hr⟩ := hr.word
    have p2 := hr
    obtain ⟨x0, g0, q0⟩ := ih0 p0
    obtain ⟨x2, g2, q2⟩ := ih2 p2
    refine ⟨_, .expressionList_2 g0 g2, ?_⟩
    clear g0 g2 ih0 ih2 p0 p2
    all_goals same_tac
  | @primaryExpression_1 _ t0 t2 ve _ ih1 =>
    intro w' hr
    obtain ⟨s0, r0, rfl, m0, hr⟩ := hr.word
    obtain ⟨a1, r1, rfl, p1, hr⟩ := hr.split
    obtain ⟨s2, r2, rfl, m2, hr⟩ := hr.word
    obtain rfl := hr.none
    obtain ⟨x1, g1, q1⟩ := ih1 p1
    match x1, g1, q1 with
    | [], _, q1 => simp [Same, Expr.mapList] at q1
    | [e'], g1, q1 => exact ⟨_, .primaryExpression_1 g1, by simpa [Same, Expr.mapList] using q1⟩
    | _ :: _ :: _, _, q1 => simp [Same, Expr.mapList] at q1
  | @primaryExpression_2 _ t0 t2 ves _ hc ih1 =>
    intro w' hr
    obtain ⟨s0, r0, rfl, m0, hr⟩ := hr.word
    obtain ⟨a1, r1, rfl, p1, hr⟩ := hr.split
    obtain ⟨s2, r2, rfl, m2, hr⟩ := hr.word
    obtain rfl := hr.none
    obtain ⟨x1, g1, q1⟩ := ih1 p1
    refine ⟨_, .primaryExpression_2 g1 ?_, ?_⟩
    · have := congrArg List.length q1
      rw [mapList_length, mapList_length] at this
      omega
    · simpa [Same, Expr.map] using q1
  | @primaryExpression_3 _ t0 t2 vq _ ih1 =>
    intro w' hr
    obtain ⟨s0, r0, rfl, m0, hr⟩ := hr.word
    obtain ⟨a1, r1, rfl, p1, hr⟩ := hr.split
    obtain ⟨s2, r2, rfl, m2, hr⟩ := hr.word
    obtain rfl := hr.none
    obtain ⟨x1, g1, q1⟩ := ih1 p1
    refine ⟨_, .primaryExpression_3 g1, ?_⟩
    clear g1 ih1 p1
    all_goals same_tac
  | @primaryExpression_4 _ vl _ ih0 =>
    intro w' hr
    have p0 := hr
    obtain ⟨x0, g0, q0⟩ := ih0 p0
    refine ⟨_, .primaryExpression_4 g0, ?_⟩
    clear g0 ih0 p0
    all_goals same_tac
  | @primaryExpression_5 _ vn _ ih0 =>
    intro w' hr
    have p0 := hr
    obtain ⟨x0, g0, q0⟩ := ih0 p0
    refine ⟨_, .primaryExpression_5 g0, ?_⟩
    clear g0 ih0 p0
    all_goals same_tac
  | @unaryExpression_1 _ ve _ ih0 =>
    intro w' hr
    have p0 := hr
    obtain ⟨x0, g0, q0⟩ := ih0 p0
    refine ⟨_, .unaryExpression_1 g0, ?_⟩
    clear g0 ih0 p0
    all_goals same_tac
  | @unaryExpression_2 _ t0 ve _ ih1 =>
    intro w' hr
    obtain ⟨s0, r0, rfl, m0, hr⟩ := hr.word
    have p1 := hr
    obtain ⟨x1, g1, q1⟩ := ih1 p1
    refine ⟨_, .unaryExpression_2 g1, ?_⟩
    clear g1 ih1 p1
    all_goals same_tac
  | @unaryExpression_3 _ t0 ve _ ih1 =>
    intro w' hr
    obtain ⟨s0, r0, rfl, m0, hr⟩ := hr.word
    have p1 := hr
    obtain ⟨x1, g1, q1⟩ := ih1 p1
    refine ⟨_, .unaryExpression_3 g1, ?_⟩
    clear g1 ih1 p1
    all_goals same_tac
  | @multiplicativeExpression_1 _ ve _ ih0 =>
    intro w' hr
    have p0 := hr
    obtain ⟨x0, g0, q0⟩ := ih0 p0
    refine ⟨_, .multiplicativeExpression_1 g0, ?_⟩
    clear g0 ih0 p0
    all_goals same_tac
  | @multiplicativeExpression_2 _ _ t1 vl vr _ _ ih0 ih2 =>
    intro w' hr
    obtain ⟨a0, r0, rfl, p0, hr⟩ := hr.split
    obtain ⟨s1, r1, rfl, m1, hr⟩ := hr.word
    have p2 := hr
    obtain ⟨x0, g0, q0⟩ := ih0 p0
    obtain ⟨x2, g2, q2⟩ := ih2 p2
    refine ⟨_, .multiplicativeExpression_2 g0 g2, ?_⟩
    clear g0 g2 ih0 ih2 p0 p2
    all_goals same_tac
  | @multiplicativeExpression_3 _ _ t1 vl vr _ _ ih0 ih2 =>
    intro w' hr
    obtain ⟨a0, r0, rfl, p0, hr⟩ := hr.split
    obtain ⟨s1, r1, rfl, m1, hr⟩ := hr.word
    have p2 := hr
    obtain ⟨x0, g0, q0⟩ := ih0 p0
    obtain ⟨x2, g2, q2⟩ := ih2 p2
    refine ⟨_, .multiplicativeExpression_3 g0 g2, ?_⟩
    clear g0 g2 ih0 ih2 p0 p2
    all_goals same_tac
  | @additiveExpression_1 _ ve _ ih0 =>
    intro w' hr
    have p0 := hr
    obtain ⟨x0, g0, q0⟩ := ih0 p0
    refine ⟨_, .additiveExpression_1 g0, ?_⟩
    clear g0 ih0 p0
    all_goals same_tac
  | @additiveExpression_2 _ _ t1 vl vr _ _ ih0 ih2 =>
    intro w' hr
    obtain ⟨a0, r0, rfl, p0, hr⟩ := hr.split
    obtain ⟨s1, r1, rfl, m1, hr⟩ := hr.word
    have p2 := hr
    obtain ⟨x0, g0, q0⟩ := ih0 p0
    obtain ⟨x2, g2, q2⟩ := ih2 p2
    refine ⟨_, .additiveExpression_2 g0 g2, ?_⟩
    clear g0 g2 ih0 ih2 p0 p2
    all_goals same_tac
  | @additiveExpression_3 _ _ t1 vl vr _ _ ih0 ih2 =>
    intro w' hr
    obtain ⟨a0, r0, rfl, p0, hr⟩ := hr.split
    obtain ⟨s1, r1, rfl, m1, hr⟩ := hr.word
    have p2 := hr
    obtain ⟨x0, g0, q0⟩ := ih0 p0
    obtain ⟨x2, g2, q2⟩ := ih2 p2
    refine ⟨_, .additiveExpression_3 g0 g2, ?_⟩
    clear g0 g2 ih0 ih2 p0 p2
    all_goals same_tac
  | @additiveExpression_4 _ _ t1 vl vr _ _ ih0 ih2 =>
    intro w' hr
    obtain ⟨a0, r0, rfl, p0, hr⟩ := hr.split
    obtain ⟨s1, r1, rfl, m1, hr⟩ := hr.word
    have p2 := hr
    obtain ⟨x0, g0, q0⟩ := ih0 p0
    obtain ⟨x2, g2, q2⟩ := ih2 p2
    refine ⟨_, .additiveExpression_4 g0 g2, ?_⟩
    clear g0 g2 ih0 ih2 p0 p2
    all_goals same_tac
  | @comparativeExpression_1 _ ve _ ih0 =>
    intro w' hr
    have p0 := hr
    obtain ⟨x0, g0, q0⟩ := ih0 p0
    refine ⟨_, .comparativeExpression_1 g0, ?_⟩
    clear g0 ih0 p0
    all_goals same_tac
  | @comparativeExpression_2 _ _ t1 vl vr _ _ ih0 ih2 =>
    intro w' hr
    obtain ⟨a0, r0, rfl, p0, hr⟩ := hr.split
    obtain ⟨s1, r1, rfl, m1, hr⟩ := hr.word
    have p2 := hr
    obtain ⟨x0, g0, q0⟩ := ih0 p0
    obtain ⟨x2, g2, q2⟩ := ih2 p2
    refine ⟨_, .comparativeExpression_2 g0 g2, ?_⟩
    clear g0 g2 ih0 ih2 p0 p2
    all_goals same_tac
  | @comparativeExpression_3 _ _ t1 vl vr _ _ ih0 ih2 =>
    intro w' hr
    obtain ⟨a0, r0, rfl, p0, hr⟩ := hr.split
    obtain ⟨s1, r1, rfl, m1, hr⟩ := hr.word
    have p2 := hr
    obtain ⟨x0, g0, q0⟩ := ih0 p0
    obtain ⟨x2, g2, q2⟩ := ih2 p2
    refine ⟨_, .comparativeExpression_3 g0 g2, ?_⟩
    clear g0 g2 ih0 ih2 p0 p2
    all_goals same_tac
  | @comparativeExpression_4 _ _ t1 vl vr _ _ ih0 ih2 =>
    intro w' hr
    obtain ⟨a0, r0, rfl, p0, hr⟩ := hr.split
    obtain ⟨s1, r1, rfl, m1, hr⟩ := hr.word
    have p2 := hr
    obtain ⟨x0, g0, q0⟩ := ih0 p0
    obtain ⟨x2, g2, q2⟩ := ih2 p2
    refine ⟨_, .comparativeExpression_4 g0 g2, ?_⟩
    clear g0 g2 ih0 ih2 p0 p2
    all_goals same_tac
  | @comparativeExpression_5 _ _ t1 vl vr _ _ ih0 ih2 =>
    intro w' hr
    obtain ⟨a0, r0, rfl, p0, hr⟩ := hr.split
    obtain ⟨s1, r1, rfl, m1, hr⟩ := hr.word
    have p2 := hr
    obtain ⟨x0, g0, q0⟩ := ih0 p0
    obtain ⟨x2, g2, q2⟩ := ih2 p2
    refine ⟨_, .comparativeExpression_5 g0 g2, ?_⟩
    clear g0 g2 ih0 ih2 p0 p2
    all_goals same_tac
  | @comparativeExpression_6 _ _ t1 vl vr _ _ ih0 ih2 =>
    intro w' hr
    obtain ⟨a0, r0, rfl, p0, hr⟩ := hr.split
    obtain ⟨s1, r1, rfl, m1, hr⟩ := hr.word
    have p2 := hr
    obtain ⟨x0, g0, q0⟩ := ih0 p0
    obtain ⟨x2, g2, q2⟩ := ih2 p2
    refine ⟨_, .comparativeExpression_6 g0 g2, ?_⟩
    clear g0 g2 ih0 ih2 p0 p2
    all_goals same_tac
  | @comparativeExpression_7 _ _ t1 vl vr _ _ ih0 ih2 =>
    intro w' hr
    obtain ⟨a0, r0, rfl, p0, hr⟩ := hr.split
    obtain ⟨s1, r1, rfl, m1, hr⟩ := hr.word
    have p2 := hr
    obtain ⟨x0, g0, q0⟩ := ih0 p0
    obtain ⟨x2, g2, q2⟩ := ih2 p2
    refine ⟨_, .comparativeExpression_7 g0 g2, ?_⟩
    clear g0 g2 ih0 ih2 p0 p2
    all_goals same_tac
  | @comparativeExpression_8 _ t1 t2 ve _ ih0 =>
    intro w' hr
    obtain ⟨a0, r0, rfl, p0, hr⟩ := hr.split
    obtain ⟨s1, r1, rfl, m1, hr⟩ := hr.word
    obtain ⟨s2, r2, rfl, m2, hr⟩ := hr.word
    obtain rfl := hr.none
    obtain ⟨x0, g0, q0⟩ := ih0 p0
    refine ⟨_, .comparativeExpression_8 g0, ?_⟩
    clear g0 ih0 p0
    all_goals same_tac
  | @comparativeExpression_9 _ t1 t2 t3 ve _ ih0 =>
    intro w' hr
    obtain ⟨a0, r0, rfl, p0, hr⟩ := hr.split
    obtain ⟨s1, r1, rfl, m1, hr⟩ := hr.word
    obtain ⟨s2, r2, rfl, m2, hr⟩ := hr.word
    obtain ⟨s3, r3, rfl, m3, hr⟩ := hr.word
    obtain rfl := hr.none
    obtain ⟨x0, g0, q0⟩ := ih0 p0
    refine ⟨_, .comparativeExpression_9 g0, ?_⟩
    clear g0 ih0 p0
    all_goals same_tac
  | @comparativeExpression_10 _ _ t1 vl vr _ _ ih0 ih2 =>
    intro w' hr
    obtain ⟨a0, r0, rfl, p0, hr⟩ := hr.split
    obtain ⟨s1, r1, rfl, m1, hr⟩ := hr.word
    have p2 := hr
    obtain ⟨x0, g0, q0⟩ := ih0 p0
    obtain ⟨x2, g2, q2⟩ := ih2 p2
    refine ⟨_, .comparativeExpression_10 g0 g2, ?_⟩
    clear g0 g2 ih0 ih2 p0 p2
    all_goals same_tac
  | @comparativeExpression_11 _ t1 ve _ ih0 =>
    intro w' hr
    obtain ⟨a0, r0, rfl, p0, hr⟩ := hr.split
    obtain ⟨s1, r1, rfl, m1, hr⟩ := hr.word
    obtain rfl := hr.none
    obtain ⟨x0, g0, q0⟩ := ih0 p0
    refine ⟨_, .comparativeExpression_11 g0, ?_⟩
    clear g0 ih0 p0
    all_goals same_tac
  | @comparativeExpression_12 _ t1 ve _ ih0 =>
    intro w' hr
    obtain ⟨a0, r0, rfl, p0, hr⟩ := hr.split
    obtain ⟨s1, r1, rfl, m1, hr⟩ := hr.word
    obtain rfl := hr.none
    obtain ⟨x0, g0, q0⟩ := ih0 p0
    refine ⟨_, .comparativeExpression_12 g0, ?_⟩
    clear g0 ih0 p0
    all_goals same_tac
  | @comparativeExpression_13 _ t1 t2 ve _ ih0 =>
    intro w' hr
    obtain ⟨a0, r0, rfl, p0, hr⟩ := hr.split
    obtain ⟨s1, r1, rfl, m1, hr⟩ := hr.word
    obtain ⟨s2, r2, rfl, m2, hr⟩ := hr.word
    obtain rfl := hr.none
    obtain ⟨x0, g0, q0⟩ := ih0 p0
    refine ⟨_, .comparativeExpression_13 g0, ?_⟩
    clear g0 ih0 p0
    all_goals same_tac
  | @comparativeExpression_14 _ t1 t2 t3 ve _ ih0 =>
    intro w' hr
    obtain ⟨a0, r0, rfl, p0, hr⟩ := hr.split
    obtain ⟨s1, r1, rfl, m1, hr⟩ := hr.word
    obtain ⟨s2, r2, rfl, m2, hr⟩ := hr.word
    obtain ⟨s3, r3, rfl, m3, hr⟩ := hr.word
    obtain rfl := hr.none
    obtain ⟨x0, g0, q0⟩ := ih0 p0
    refine ⟨_, .comparativeExpression_14 g0, ?_⟩
    clear g0 ih0 p0
    all_goals same_tac
  | @comparativeExpression_15 _ t1 t2 t3 t4 ve _ ih0 =>
    intro w' hr
    obtain ⟨a0, r0, rfl, p0, hr⟩ := hr.split
    obtain ⟨s1, r1, rfl, m1, hr⟩ := hr.word
    obtain ⟨s2, r2, rfl, m2, hr⟩ := hr.word
    obtain ⟨s3, r3, rfl, m3, hr⟩ := hr.word
    obtain ⟨s4, r4, rfl, m4, hr⟩ := hr.word
    obtain rfl := hr.none
    obtain ⟨x0, g0, q0⟩ := ih0 p0
    refine ⟨_, .comparativeExpression_15 g0, ?_⟩
    clear g0 ih0 p0
    all_goals same_tac
  | @comparativeExpression_16 _ _ t1 t2 t4 ve vl _ _ ih0 ih3 =>
    intro w' hr
    obtain ⟨a0, r0, rfl, p0, hr⟩ := hr.split
    obtain ⟨s1, r1, rfl, m1, hr⟩ := hr.word
    obtain ⟨s2, r2, rfl, m2, hr⟩ := hr.word
    obtain ⟨a3, r3, rfl, p3, hr⟩ := hr.split
    obtain ⟨s4, r4, rfl, m4, hr⟩ := hr.word
    obtain rfl := hr.none
    obtain ⟨x0, g0, q0⟩ := ih0 p0
    obtain ⟨x3, g3, q3⟩ := ih3 p3
    refine ⟨_, .comparativeExpression_16 g0 g3, ?_⟩
    clear g0 g3 ih0 ih3 p0 p3
    all_goals same_tac
  | @comparativeExpression_17 _ _ t1 t2 t3 t5 ve vl _ _ ih0 ih4 =>
    intro w' hr
    obtain ⟨a0, r0, rfl, p0, hr⟩ := hr.split
    obtain ⟨s1, r1, rfl, m1, hr⟩ := hr.word
    obtain ⟨s2, r2, rfl, m2, hr⟩ := hr.word
    obtain ⟨s3, r3, rfl, m3, hr⟩ := hr.word
    obtain ⟨a4, r4, rfl, p4, hr⟩ := hr.split
    obtain ⟨s5, r5, rfl, m5, hr⟩ := hr.word
    obtain rfl := hr.none
    obtain ⟨x0, g0, q0⟩ := ih0 p0
    obtain ⟨x4, g4, q4⟩ := ih4 p4
    refine ⟨_, .comparativeExpression_17 g0 g4, ?_⟩
    clear g0 g4 ih0 ih4 p0 p4
    all_goals same_tac
  | @comparativeExpression_18 _ _ t1 t2 t4 ve vq _ _ ih0 ih3 =>
    intro w' hr
    obtain ⟨a0, r0, rfl, p0, hr⟩ := hr.split
    obtain ⟨s1, r1, rfl, m1, hr⟩ := hr.word
    obtain ⟨s2, r2, rfl, m2, hr⟩ := hr.word
    obtain ⟨a3, r3, rfl, p3, hr⟩ := hr.split
    obtain ⟨s4, r4, rfl, m4, hr⟩ := hr.word
    obtain rfl := hr.none
    obtain ⟨x0, g0, q0⟩ := ih0 p0
    obtain ⟨x3, g3, q3⟩ := ih3 p3
    refine ⟨_, .comparativeExpression_18 g0 g3, ?_⟩
    clear g0 g3 ih0 ih3 p0 p3
    all_goals same_tac
  | @comparativeExpression_19 _ _ t1 t2 t3 t5 ve vq _ _ ih0 ih4 =>
    intro w' hr
    obtain ⟨a0, r0, rfl, p0, hr⟩ := hr.split
    obtain ⟨s1, r1, rfl, m1, hr⟩ := hr.word
    obtain ⟨s2, r2, rfl, m2, hr⟩ := hr.word
    obtain ⟨s3, r3, rfl, m3, hr⟩ := hr.word
    obtain ⟨a4, r4, rfl, p4, hr⟩ := hr.split
    obtain ⟨s5, r5, rfl, m5, hr⟩ := hr.word
    obtain rfl := hr.none
    obtain ⟨x0, g0, q0⟩ := ih0 p0
    obtain ⟨x4, g4, q4⟩ := ih4 p4
    refine ⟨_, .comparativeExpression_19 g0 g4, ?_⟩
    clear g0 g4 ih0 ih4 p0 p4
    all_goals same_tac
  | @comparativeExpression_20 _ _ t1 ve vn _ _ ih0 ih2 =>
    intro w' hr
    obtain ⟨a0, r0, rfl, p0, hr⟩ := hr.split
    obtain ⟨s1, r1, rfl, m1, hr⟩ := hr.word
    have p2 := hr
    obtain ⟨x0, g0, q0⟩ := ih0 p0
    obtain ⟨x2, g2, q2⟩ := ih2 p2
    refine ⟨_, .comparativeExpression_20 g0 g2, ?_⟩
    clear g0 g2 ih0 ih2 p0 p2
    all_goals same_tac
  | @comparativeExpression_21 _ _ t1 t2 ve vn _ _ ih0 ih3 =>
    intro w' hr
    obtain ⟨a0, r0, rfl, p0, hr⟩ := hr.split
    obtain ⟨s1, r1, rfl, m1, hr⟩ := hr.word
    obtain ⟨s2, r2, rfl, m2, hr⟩ := hr.word
    have p3 := hr
    obtain ⟨x0, g0, q0⟩ := ih0 p0
    obtain ⟨x3, g3, q3⟩ := ih3 p3
    refine ⟨_, .comparativeExpression_21 g0 g3, ?_⟩
    clear g0 g3 ih0 ih3 p0 p3
    all_goals same_tac
  | @comparativeExpression_22 _ _ _ t1 t3 ve vl vu _ _ _ ih0 ih2 ih4 =>
    intro w' hr
    obtain ⟨a0, r0, rfl, p0, hr⟩ := hr.split
    obtain ⟨s1, r1, rfl, m1, hr⟩ := hr.word
    obtain ⟨a2, r2, rfl, p2, hr⟩ := hr.split
    obtain ⟨s3, r3, rfl, m3, hr⟩ := hr.word
    have p4 := hr
    obtain ⟨x0, g0, q0⟩ := ih0 p0
    obtain ⟨x2, g2, q2⟩ := ih2 p2
    obtain ⟨x4, g4, q4⟩ := ih4 p4
    refine ⟨_, .comparativeExpression_22 g0 g2 g4, ?_⟩
    clear g0 g2 g4 ih0 ih2 ih4 p0 p2 p4
    all_goals same_tac
  | @comparativeExpression_23 _ _ _ t1 t2 t4 ve vl vu _ _ _ ih0 ih3 ih5 =>
    intro w' hr
    obtain ⟨a0, r0, rfl, p0, hr⟩ := hr.split
    obtain ⟨s1, r1, rfl, m1, hr⟩ := hr.word
    obtain ⟨s2, r2, rfl, m2, hr⟩ := hr.word
    obtain ⟨a3, r3, rfl, p3, hr⟩ := hr.split
    obtain ⟨s4, r4, rfl, m4, hr⟩ := hr.word
    have p5 := hr
    obtain ⟨x0, g0, q0⟩ := ih0 p0
    obtain ⟨x3, g3, q3⟩ := ih3 p3
    obtain ⟨x5, g5, q5⟩ := ih5 p5
    refine ⟨_, .comparativeExpression_23 g0 g3 g5, ?_⟩
    clear g0 g3 g5 ih0 ih3 ih5 p0 p3 p5
    all_goals same_tac
  | @complexExpression_1 _ ve _ ih0 =>
    intro w' hr
    have p0 := hr
    obtain ⟨x0, g0, q0⟩ := ih0 p0
    refine ⟨_, .complexExpression_1 g0, ?_⟩
    clear g0 ih0 p0
    all_goals same_tac
  | @complexExpression_2 _ ve _ ih0 =>
    intro w' hr
    have p0 := hr
    obtain ⟨x0, g0, q0⟩ := ih0 p0
    refine ⟨_, .complexExpression_2 g0, ?_⟩
    clear g0 ih0 p0
    all_goals same_tac
  | @caseExpression_1 _ _ _ t0 t4 ve vo vl _ _ _ ih1 ih2 ih3 =>
    intro w' hr
    obtain ⟨s0, r0, rfl, m0, hr⟩ := hr.word
    obtain ⟨a1, r1, rfl, p1, hr⟩ := hr.split
    obtain ⟨a2, r2, rfl, p2, hr⟩ := hr.split
    obtain ⟨a3, r3, rfl, p3, hr⟩ := hr.split
    obtain ⟨s4, r4, rfl, m4, hr⟩ := hr.word
    obtain rfl := hr.none
    obtain ⟨x1, g1, q1⟩ := ih1 p1
    obtain ⟨x2, g2, q2⟩ := ih2 p2
    obtain ⟨x3, g3, q3⟩ := ih3 p3
    refine ⟨_, .caseExpression_1 g1 g2 g3, ?_⟩
    clear g1 g2 g3 ih1 ih2 ih3 p1 p2 p3
    all_goals rcases ve with _ | ve <;> rcases x1 with _ | x1 <;> try exact False.elim q1
    all_goals rcases vo with _ | vo <;> rcases x3 with _ | x3 <;> try exact False.elim q3
    all_goals same_tac
  | @whenClauses_1 _ vx _ ih0 =>
    intro w' hr
    have p0 := hr
    obtain ⟨x0, g0, q0⟩ := ih0 p0
    refine ⟨_, .whenClauses_1 g0, ?_⟩
    clear g0 ih0 p0
    all_goals same_tac
  | @whenClauses_2 _ _ vl vx _ _ ih0 ih1 =>
    intro w' hr
    obtain ⟨a0, r0, rfl, p0, hr⟩ := hr.split
    have p1 := hr
    obtain ⟨x0, g0, q0⟩ := ih0 p0
    obtain ⟨x1, g1, q1⟩ := ih1 p1
    refine ⟨_, .whenClauses_2 g0 g1, ?_⟩
    clear g0 g1 ih0 ih1 p0 p1
    all_goals same_tac
  | @whenClause_1 _ _ t0 t2 vg vb _ _ ih1 ih3 =>
    intro w' hr
    obtain ⟨s0, r0, rfl, m0, hr⟩ := hr.word
    obtain ⟨a1, r1, rfl, p1, hr⟩ := hr.split
    obtain ⟨s2, r2, rfl, m2, hr⟩ := hr.word
    have p3 := hr
    obtain ⟨x1, g1, q1⟩ := ih1 p1
    obtain ⟨x3, g3, q3⟩ := ih3 p3
    refine ⟨_, .whenClause_1 g1 g3, ?_⟩
    clear g1 g3 ih1 ih3 p1 p3
    all_goals same_tac
  | @elseClause_1 _ t0 ve _ ih1 =>
    intro w' hr
    obtain ⟨s0, r0, rfl, m0, hr⟩ := hr.word
    have p1 := hr
    obtain ⟨x1, g1, q1⟩ := ih1 p1
    refine ⟨_, .elseClause_1 g1, ?_⟩
    clear g1 ih1 p1
    all_goals same_tac
  | @notExpression_1 _ ve _ ih0 =>
    intro w' hr
    have p0 := hr
    obtain ⟨x0, g0, q0⟩ := ih0 p0
    refine ⟨_, .notExpression_1 g0, ?_⟩
    clear g0 ih0 p0
    all_goals same_tac
  | @notExpression_2 _ t0 ve _ ih1 =>
    intro w' hr
    obtain ⟨s0, r0, rfl, m0, hr⟩ := hr.word
    have p1 := hr
    obtain ⟨x1, g1, q1⟩ := ih1 p1
    refine ⟨_, .notExpression_2 g1, ?_⟩
    clear g1 ih1 p1
    all_goals same_tac
  | @andExpression_1 _ ve _ ih0 =>
    intro w' hr
    have p0 := hr
    obtain ⟨x0, g0, q0⟩ := ih0 p0
    refine ⟨_, .andExpression_1 g0, ?_⟩
    clear g0 ih0 p0
    all_goals same_tac
  | @andExpression_2 _ _ t1 vl vr _ _ ih0 ih2 =>
    intro w' hr
    obtain ⟨a0, r0, rfl, p0, hr⟩ := hr.split
    obtain ⟨s1, r1, rfl, m1, hr⟩ := hr.word
    have p2 := hr
    obtain ⟨x0, g0, q0⟩ := ih0 p0
    obtain ⟨x2, g2, q2⟩ := ih2 p2
    refine ⟨_, .andExpression_2 g0 g2, ?_⟩
    clear g0 g2 ih0 ih2 p0 p2
    all_goals same_tac
  | @orExpression_1 _ ve _ ih0 =>
    intro w' hr
    have p0 := hr
    obtain ⟨x0, g0, q0⟩ := ih0 p0
    refine ⟨_, .orExpression_1 g0, ?_⟩
    clear g0 ih0 p0
    all_goals same_tac
  | @orExpression_2 _ _ t1 vl vr _ _ ih0 ih2 =>
    intro w' hr
    obtain ⟨a0, r0, rfl, p0, hr⟩ := hr.split
    obtain ⟨s1, r1, rfl, m1, hr⟩ := hr.word
    have p2 := hr
    obtain ⟨x0, g0, q0⟩ := ih0 p0
    obtain ⟨x2, g2, q2⟩ := ih2 p2
    refine ⟨_, .orExpression_2 g0 g2, ?_⟩
    clear g0 g2 ih0 ih2 p0 p2
    all_goals same_tac
  | @expression_1 _ ve _ ih0 =>
    intro w' hr
    have p0 := hr
    obtain ⟨x0, g0, q0⟩ := ih0 p0
    refine ⟨_, .expression_1 g0, ?_⟩
    clear g0 ih0 p0
    all_goals same_tac
  | @literalValue_1 _ vs _ ih0 =>
    intro w' hr
    have p0 := hr
    obtain ⟨x0, g0, q0⟩ := ih0 p0
    refine ⟨_, .literalValue_1 g0, ?_⟩
    clear g0 ih0 p0
    all_goals same_tac
  | @literalValue_2 _ vs _ ih0 =>
    intro w' hr
    have p0 := hr
    obtain ⟨x0, g0, q0⟩ := ih0 p0
    refine ⟨_, .literalValue_2 g0, ?_⟩
    clear g0 ih0 p0
    all_goals same_tac
  | @literalValue_3 t0 =>
    intro w' hr
    obtain ⟨s0, r0, rfl, m0, hr⟩ := hr.word
    obtain rfl := hr.none
    refine ⟨_, .literalValue_3, ?_⟩
    all_goals same_tac
  | @literalValue_4 t0 =>
    intro w' hr
    obtain ⟨s0, r0, rfl, m0, hr⟩ := hr.word
    obtain rfl := hr.none
    refine ⟨_, .literalValue_4, ?_⟩
    all_goals same_tac
  | @literalValue_5 t0 =>
    intro w' hr
    obtain ⟨s0, r0, rfl, m0, hr⟩ := hr.word
    obtain rfl := hr.none
    refine ⟨_, .literalValue_5, ?_⟩
    all_goals same_tac
  | @literalValue_6 t0 =>
    intro w' hr
    obtain ⟨s0, r0, rfl, m0, hr⟩ := hr.word
    obtain rfl := hr.none
    refine ⟨_, .literalValue_6, ?_⟩
    all_goals same_tac
  | @literalValue_7 _ t0 vs _ ih1 =>
    intro w' hr
    obtain ⟨s0, r0, rfl, m0, hr⟩ := hr.word
    have p1 := hr
    obtain ⟨x1, g1, q1⟩ := ih1 p1
    refine ⟨_, .literalValue_7 g1, ?_⟩
    clear g1 ih1 p1
    all_goals same_tac
  | @literalValue_8 _ t0 vs _ ih1 =>
    intro w' hr
    obtain ⟨s0, r0, rfl, m0, hr⟩ := hr.word
    have p1 := hr
    obtain ⟨x1, g1, q1⟩ := ih1 p1
    refine ⟨_, .literalValue_8 g1, ?_⟩
    clear g1 ih1 p1
    all_goals same_tac
  | @literalValue_9 _ t0 vs _ ih1 =>
    intro w' hr
    obtain ⟨s0, r0, rfl, m0, hr⟩ := hr.word
    have p1 := hr
    obtain ⟨x1, g1, q1⟩ := ih1 p1
    refine ⟨_, .literalValue_9 g1, ?_⟩
    clear g1 ih1 p1
    all_goals same_tac
  | @identifier_1 t0 =>
    intro w' hr
    obtain ⟨s0, r0, rfl, m0, hr⟩ := hr.word
    obtain rfl := hr.none
    exact ⟨_, .identifier_1, m0.2.2 rfl⟩
  | @numericLiteral_1 t0 =>
    intro w' hr
    obtain ⟨s0, r0, rfl, m0, hr⟩ := hr.word
    obtain rfl := hr.none
    obtain rfl := m0.2.1 (by simp)
    exact ⟨_, .numericLiteral_1, rfl⟩
  | @numericLiteral_2 t0 =>
    intro w' hr
    obtain ⟨s0, r0, rfl, m0, hr⟩ := hr.word
    obtain rfl := hr.none
    obtain rfl := m0.2.1 (by simp)
    exact ⟨_, .numericLiteral_2, rfl⟩
  | @numericLiteral_3 t0 =>
    intro w' hr
    obtain ⟨s0, r0, rfl, m0, hr⟩ := hr.word
    obtain rfl := hr.none
    obtain rfl := m0.2.1 (by simp)
    exact ⟨_, .numericLiteral_3, rfl⟩
  | @stringLiteral_1 t0 =>
    intro w' hr
    obtain ⟨s0, r0, rfl, m0, hr⟩ := hr.word
    obtain rfl := hr.none
    obtain rfl := m0.2.1 (by simp)
    exact ⟨_, .stringLiteral_1, rfl⟩

end Verif.Sql.Grammar
