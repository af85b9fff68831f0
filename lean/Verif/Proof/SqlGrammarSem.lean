import Verif.Proof.SqlGrammarDer
/-!
# From reductions of the generated parser to the grammar

If the arguments of a reduction stand for words of the grammar, the reduction succeeds and its result stands for
the concatenation.
-/

namespace Verif.Sql.Parser
open Grammar

/-- The category of a nonterminal of the parser; none for the nonterminals of optional parts. -/
def ntOf : List (Option Nt) := [
  none,
  none,
  none,
  none,
  none,
  none,
  some .additiveExpression,
  some .andExpression,
  some .assignment,
  some .assignments,
  some .attachStatement,
  some .caseExpression,
  some .columnNameList,
  none,
  some .commonTableExpression,
  some .commonTableExpressionList,
  some .comparativeExpression,
  some .complexExpression,
  some .compoundOperator,
  some .deleteStatement,
  some .describeStatement,
  some .elseClause,
  none,
  some .expression,
  none,
  some .expressionList,
  some .fromClause,
  some .groupByClause,
  none,
  some .identifier,
  some .identifierList,
  some .insertStatement,
  some .joinConstraint,
  some .joinOperator,
  some .joinType,
  none,
  some .limitClause,
  none,
  some .literalValue,
  some .multiplicativeExpression,
  some .notExpression,
  some .numericLiteral,
  some .orExpression,
  some .orderByClause,
  none,
  some .orderingCollation,
  none,
  some .orderingDirection,
  some .orderingTerm,
  some .orderingTermList,
  some .primaryExpression,
  some .qualifiedIdentifier,
  some .resultColumn,
  some .resultColumnList,
  some .resultColumns,
  some .schemaName,
  none,
  some .selectCore,
  some .selectCoreList,
  some .selectMode,
  some .selectStatement,
  some .sqlStatement,
  some .statement,
  some .stringLiteral,
  some .tableAlias,
  none,
  some .tableExpression,
  some .tableExpressionList,
  some .tableExpressions,
  none,
  some .tableOrSubQuery,
  some .tuple,
  some .tupleList,
  some .unaryExpression,
  some .updateStatement,
  some .whenClause,
  some .whenClauses,
  some .whereClause,
  none
]

/-- The value of a category on the stack of the parser. -/
def wrap : (s : Nt) → Grammar.Ty s → Symbol
  | .sqlStatement, v => .variant41 v
  | .statement, v => .variant42 v
  | .insertStatement, v => .variant21 v
  | .columnNameList, v => .variant8 v
  | .deleteStatement, v => .variant13 v
  | .updateStatement, v => .variant46 v
  | .assignments, v => .variant6 v
  | .assignment, v => .variant5 v
  | .selectStatement, v => .variant40 v
  | .tableExpressions, v => .variant11 v
  | .commonTableExpressionList, v => .variant11 v
  | .commonTableExpression, v => .variant10 v
  | .selectCoreList, v => .variant38 v
  | .compoundOperator, v => .variant12 v
  | .selectCore, v => .variant38 v
  | .selectMode, v => .variant39 v
  | .tupleList, v => .variant45 v
  | .tuple, v => .variant16 v
  | .resultColumns, v => .variant37 v
  | .resultColumnList, v => .variant36 v
  | .resultColumn, v => .variant35 v
  | .qualifiedIdentifier, v => .variant8 v
  | .fromClause, v => .variant17 v
  | .tableExpressionList, v => .variant17 v
  | .tableExpression, v => .variant43 v
  | .tableOrSubQuery, v => .variant43 v
  | .tableAlias, v => .variant20 v
  | .joinOperator, v => .variant23 v
  | .joinType, v => .variant24 v
  | .joinConstraint, v => .variant22 v
  | .identifierList, v => .variant8 v
  | .whereClause, v => .variant4 v
  | .groupByClause, v => .variant18 v
  | .orderByClause, v => .variant30 v
  | .orderingTermList, v => .variant30 v
  | .orderingTerm, v => .variant34 v
  | .orderingCollation, v => .variant20 v
  | .orderingDirection, v => .variant33 v
  | .limitClause, v => .variant26 v
  | .attachStatement, v => .variant7 v
  | .describeStatement, v => .variant14 v
  | .schemaName, v => .variant20 v
  | .expressionList, v => .variant16 v
  | .primaryExpression, v => .variant4 v
  | .unaryExpression, v => .variant4 v
  | .multiplicativeExpression, v => .variant4 v
  | .additiveExpression, v => .variant4 v
  | .comparativeExpression, v => .variant4 v
  | .complexExpression, v => .variant4 v
  | .caseExpression, v => .variant4 v
  | .whenClauses, v => .variant48 v
  | .whenClause, v => .variant47 v
  | .elseClause, v => .variant4 v
  | .notExpression, v => .variant4 v
  | .andExpression, v => .variant4 v
  | .orExpression, v => .variant4 v
  | .expression, v => .variant4 v
  | .literalValue, v => .variant28 v
  | .identifier, v => .variant20 v
  | .numericLiteral, v => .variant29 v
  | .stringLiteral, v => .variant29 v
  | .tok _, v => .variant0 v
  | .opt _, _ => .variant0 []

/-- The text of a word of kind `STRING_LIT` is quoted. -/
def Quoted (l : Lexeme) : Prop := l.1 = .STRING_LIT → ∃ s, l.2 = '\'' :: (s ++ ['\''])

/-- The value `v` on the stack stands for the words `w`. -/
def Sem : Sym → List Lexeme → Symbol → Prop
  | .t k, w, v => ∃ l : Lexeme, w = [l] ∧ code l.1 = k ∧ v = .variant0 l.2 ∧ Quoted l
  | .n A, w, v => match ntOf[A]? with
    | some (some s) => ∃ e : Grammar.Ty s, v = wrap s e ∧ Gr s w e
    | _ => False

/-- The values `vs` on the stack stand for the words `w`. -/
def Sems : List Sym → List Lexeme → List Symbol → Prop
  | [], w, vs => w = [] ∧ vs = []
  | x :: xs, w, vs => ∃ w₁ w₂ v vs', w = w₁ ++ w₂ ∧ vs = v :: vs' ∧ Sem x w₁ v ∧ Sems xs w₂ vs'

/-- The reduction of the production succeeds and gives a value for the words. -/
def ProdOk (p : Nat) : Prop := ∀ w vs, Sems (rhs p) w vs → ∃ v, Red p vs v ∧ Sem (.n (lhs p)) w v

theorem _root_.Verif.Sql.Grammar.Gr.cast {s w w'} {v : Grammar.Ty s} (h : Gr s w v) (e : w = w') : Gr s w' v := e ▸ h

theorem prod_11 : ProdOk 11 := by
  intro w vs h
  obtain ⟨w0, _, _, _, rfl, rfl, ⟨e0, rfl, h0⟩, rfl, rfl⟩ := h
  refine ⟨_, ⟨_, _, _, rfl, fun st => rfl⟩, _, rfl, ?_⟩
  exact (Gr.additiveExpression_1 h0).cast (by simp)

theorem prod_12 : ProdOk 12 := by
  intro w vs h
  obtain ⟨w0, _, _, _, rfl, rfl, ⟨e0, rfl, h0⟩, w1, _, _, _, rfl, rfl, ⟨l1, rfl, hk1, rfl, hq1⟩, w2, _, _, _, rfl, rfl, ⟨e2, rfl, h2⟩, rfl, rfl⟩ := h
  obtain ⟨k1, t1⟩ := l1
  obtain rfl := code_inj (k' := .plus) hk1
  refine ⟨_, ⟨_, _, _, rfl, fun st => rfl⟩, _, rfl, ?_⟩
  exact (Gr.additiveExpression_2 (t1 := t1) h0 h2).cast (by simp)

theorem prod_13 : ProdOk 13 := by
  intro w vs h
  obtain ⟨w0, _, _, _, rfl, rfl, ⟨e0, rfl, h0⟩, w1, _, _, _, rfl, rfl, ⟨l1, rfl, hk1, rfl, hq1⟩, w2, _, _, _, rfl, rfl, ⟨e2, rfl, h2⟩, rfl, rfl⟩ := h
  obtain ⟨k1, t1⟩ := l1
  obtain rfl := code_inj (k' := .minus) hk1
  refine ⟨_, ⟨_, _, _, rfl, fun st => rfl⟩, _, rfl, ?_⟩
  exact (Gr.additiveExpression_3 (t1 := t1) h0 h2).cast (by simp)

theorem prod_14 : ProdOk 14 := by
  intro w vs h
  obtain ⟨w0, _, _, _, rfl, rfl, ⟨e0, rfl, h0⟩, w1, _, _, _, rfl, rfl, ⟨l1, rfl, hk1, rfl, hq1⟩, w2, _, _, _, rfl, rfl, ⟨e2, rfl, h2⟩, rfl, rfl⟩ := h
  obtain ⟨k1, t1⟩ := l1
  obtain rfl := code_inj (k' := .bars) hk1
  refine ⟨_, ⟨_, _, _, rfl, fun st => rfl⟩, _, rfl, ?_⟩
  exact (Gr.additiveExpression_4 (t1 := t1) h0 h2).cast (by simp)

theorem prod_15 : ProdOk 15 := by
  intro w vs h
  obtain ⟨w0, _, _, _, rfl, rfl, ⟨e0, rfl, h0⟩, rfl, rfl⟩ := h
  refine ⟨_, ⟨_, _, _, rfl, fun st => rfl⟩, _, rfl, ?_⟩
  exact (Gr.andExpression_1 h0).cast (by simp)

theorem prod_16 : ProdOk 16 := by
  intro w vs h
  obtain ⟨w0, _, _, _, rfl, rfl, ⟨e0, rfl, h0⟩, w1, _, _, _, rfl, rfl, ⟨l1, rfl, hk1, rfl, hq1⟩, w2, _, _, _, rfl, rfl, ⟨e2, rfl, h2⟩, rfl, rfl⟩ := h
  obtain ⟨k1, t1⟩ := l1
  obtain rfl := code_inj (k' := .AND) hk1
  refine ⟨_, ⟨_, _, _, rfl, fun st => rfl⟩, _, rfl, ?_⟩
  exact (Gr.andExpression_2 (t1 := t1) h0 h2).cast (by simp)

theorem prod_17 : ProdOk 17 := by
  intro w vs h
  obtain ⟨w0, _, _, _, rfl, rfl, ⟨e0, rfl, h0⟩, w1, _, _, _, rfl, rfl, ⟨l1, rfl, hk1, rfl, hq1⟩, w2, _, _, _, rfl, rfl, ⟨e2, rfl, h2⟩, rfl, rfl⟩ := h
  obtain ⟨k1, t1⟩ := l1
  obtain rfl := code_inj (k' := .eq) hk1
  refine ⟨_, ⟨_, _, _, rfl, fun st => rfl⟩, _, rfl, ?_⟩
  exact (Gr.assignment_1 (t1 := t1) h0 h2).cast (by simp)

theorem prod_18 : ProdOk 18 := by
  intro w vs h
  obtain ⟨w0, _, _, _, rfl, rfl, ⟨e0, rfl, h0⟩, rfl, rfl⟩ := h
  refine ⟨_, ⟨_, _, _, rfl, fun st => rfl⟩, _, rfl, ?_⟩
  exact (Gr.assignments_1 h0).cast (by simp)

theorem prod_19 : ProdOk 19 := by
  intro w vs h
  obtain ⟨w0, _, _, _, rfl, rfl, ⟨e0, rfl, h0⟩, w1, _, _, _, rfl, rfl, ⟨l1, rfl, hk1, rfl, hq1⟩, w2, _, _, _, rfl, rfl, ⟨e2, rfl, h2⟩, rfl, rfl⟩ := h
  obtain ⟨k1, t1⟩ := l1
  obtain rfl := code_inj (k' := .comma) hk1
  refine ⟨_, ⟨_, _, _, rfl, fun st => rfl⟩, _, rfl, ?_⟩
  exact (Gr.assignments_2 (t1 := t1) h0 h2).cast (by simp)

theorem prod_20 : ProdOk 20 := by
  intro w vs h
  obtain ⟨w0, _, _, _, rfl, rfl, ⟨l0, rfl, hk0, rfl, hq0⟩, w1, _, _, _, rfl, rfl, ⟨l1, rfl, hk1, rfl, hq1⟩, w2, _, _, _, rfl, rfl, ⟨e2, rfl, h2⟩, w3, _, _, _, rfl, rfl, ⟨l3, rfl, hk3, rfl, hq3⟩, w4, _, _, _, rfl, rfl, ⟨e4, rfl, h4⟩, w5, _, _, _, rfl, rfl, ⟨e5, rfl, h5⟩, rfl, rfl⟩ := h
  obtain ⟨k0, t0⟩ := l0
  obtain rfl := code_inj (k' := .ATTACH) hk0
  obtain ⟨k1, t1⟩ := l1
  obtain rfl := code_inj (k' := .FILE) hk1
  obtain ⟨k3, t3⟩ := l3
  obtain rfl := code_inj (k' := .AS) hk3
  refine ⟨_, ⟨_, _, _, rfl, fun st => rfl⟩, _, rfl, ?_⟩
  exact (Gr.attachStatement_1 (t3 := t3) (t1 := t1) (t0 := t0) h2 (.optSome h4) h5).cast (by simp)

theorem prod_21 : ProdOk 21 := by
  intro w vs h
  obtain ⟨w0, _, _, _, rfl, rfl, ⟨l0, rfl, hk0, rfl, hq0⟩, w1, _, _, _, rfl, rfl, ⟨l1, rfl, hk1, rfl, hq1⟩, w2, _, _, _, rfl, rfl, ⟨e2, rfl, h2⟩, w3, _, _, _, rfl, rfl, ⟨l3, rfl, hk3, rfl, hq3⟩, w4, _, _, _, rfl, rfl, ⟨e4, rfl, h4⟩, rfl, rfl⟩ := h
  obtain ⟨k0, t0⟩ := l0
  obtain rfl := code_inj (k' := .ATTACH) hk0
  obtain ⟨k1, t1⟩ := l1
  obtain rfl := code_inj (k' := .FILE) hk1
  obtain ⟨k3, t3⟩ := l3
  obtain rfl := code_inj (k' := .AS) hk3
  refine ⟨_, ⟨_, _, _, rfl, fun st => rfl⟩, _, rfl, ?_⟩
  exact (Gr.attachStatement_1 (t3 := t3) (t1 := t1) (t0 := t0) h2 .optNone h4).cast (by simp)

theorem prod_22 : ProdOk 22 := by
  intro w vs h
  obtain ⟨w0, _, _, _, rfl, rfl, ⟨l0, rfl, hk0, rfl, hq0⟩, w1, _, _, _, rfl, rfl, ⟨e1, rfl, h1⟩, w2, _, _, _, rfl, rfl, ⟨e2, rfl, h2⟩, w3, _, _, _, rfl, rfl, ⟨e3, rfl, h3⟩, w4, _, _, _, rfl, rfl, ⟨l4, rfl, hk4, rfl, hq4⟩, rfl, rfl⟩ := h
  obtain ⟨k0, t0⟩ := l0
  obtain rfl := code_inj (k' := .CASE) hk0
  obtain ⟨k4, t4⟩ := l4
  obtain rfl := code_inj (k' := .END) hk4
  refine ⟨_, ⟨_, _, _, rfl, fun st => rfl⟩, _, rfl, ?_⟩
  exact (Gr.caseExpression_1 (t4 := t4) (t0 := t0) (.optSome h1) h2 (.optSome h3)).cast (by simp)

theorem prod_23 : ProdOk 23 := by
  intro w vs h
  obtain ⟨w0, _, _, _, rfl, rfl, ⟨l0, rfl, hk0, rfl, hq0⟩, w1, _, _, _, rfl, rfl, ⟨e1, rfl, h1⟩, w2, _, _, _, rfl, rfl, ⟨e2, rfl, h2⟩, w3, _, _, _, rfl, rfl, ⟨l3, rfl, hk3, rfl, hq3⟩, rfl, rfl⟩ := h
  obtain ⟨k0, t0⟩ := l0
  obtain rfl := code_inj (k' := .CASE) hk0
  obtain ⟨k3, t3⟩ := l3
  obtain rfl := code_inj (k' := .END) hk3
  refine ⟨_, ⟨_, _, _, rfl, fun st => rfl⟩, _, rfl, ?_⟩
  exact (Gr.caseExpression_1 (t4 := t3) (t0 := t0) .optNone h1 (.optSome h2)).cast (by simp)

theorem prod_24 : ProdOk 24 := by
  intro w vs h
  obtain ⟨w0, _, _, _, rfl, rfl, ⟨l0, rfl, hk0, rfl, hq0⟩, w1, _, _, _, rfl, rfl, ⟨e1, rfl, h1⟩, w2, _, _, _, rfl, rfl, ⟨e2, rfl, h2⟩, w3, _, _, _, rfl, rfl, ⟨l3, rfl, hk3, rfl, hq3⟩, rfl, rfl⟩ := h
  obtain ⟨k0, t0⟩ := l0
  obtain rfl := code_inj (k' := .CASE) hk0
  obtain ⟨k3, t3⟩ := l3
  obtain rfl := code_inj (k' := .END) hk3
  refine ⟨_, ⟨_, _, _, rfl, fun st => rfl⟩, _, rfl, ?_⟩
  exact (Gr.caseExpression_1 (t4 := t3) (t0 := t0) (.optSome h1) h2 .optNone).cast (by simp)

theorem prod_25 : ProdOk 25 := by
  intro w vs h
  obtain ⟨w0, _, _, _, rfl, rfl, ⟨l0, rfl, hk0, rfl, hq0⟩, w1, _, _, _, rfl, rfl, ⟨e1, rfl, h1⟩, w2, _, _, _, rfl, rfl, ⟨l2, rfl, hk2, rfl, hq2⟩, rfl, rfl⟩ := h
  obtain ⟨k0, t0⟩ := l0
  obtain rfl := code_inj (k' := .CASE) hk0
  obtain ⟨k2, t2⟩ := l2
  obtain rfl := code_inj (k' := .END) hk2
  refine ⟨_, ⟨_, _, _, rfl, fun st => rfl⟩, _, rfl, ?_⟩
  exact (Gr.caseExpression_1 (t4 := t2) (t0 := t0) .optNone h1 .optNone).cast (by simp)

theorem prod_26 : ProdOk 26 := by
  intro w vs h
  obtain ⟨w0, _, _, _, rfl, rfl, ⟨l0, rfl, hk0, rfl, hq0⟩, w1, _, _, _, rfl, rfl, ⟨e1, rfl, h1⟩, w2, _, _, _, rfl, rfl, ⟨l2, rfl, hk2, rfl, hq2⟩, rfl, rfl⟩ := h
  obtain ⟨k0, t0⟩ := l0
  obtain rfl := code_inj (k' := .lpar) hk0
  obtain ⟨k2, t2⟩ := l2
  obtain rfl := code_inj (k' := .rpar) hk2
  refine ⟨_, ⟨_, _, _, rfl, fun st => rfl⟩, _, rfl, ?_⟩
  exact (Gr.columnNameList_1 (t2 := t2) (t0 := t0) h1).cast (by simp)

theorem prod_29 : ProdOk 29 := by
  intro w vs h
  obtain ⟨w0, _, _, _, rfl, rfl, ⟨e0, rfl, h0⟩, w1, _, _, _, rfl, rfl, ⟨l1, rfl, hk1, rfl, hq1⟩, w2, _, _, _, rfl, rfl, ⟨l2, rfl, hk2, rfl, hq2⟩, w3, _, _, _, rfl, rfl, ⟨e3, rfl, h3⟩, w4, _, _, _, rfl, rfl, ⟨l4, rfl, hk4, rfl, hq4⟩, rfl, rfl⟩ := h
  obtain ⟨k1, t1⟩ := l1
  obtain rfl := code_inj (k' := .AS) hk1
  obtain ⟨k2, t2⟩ := l2
  obtain rfl := code_inj (k' := .lpar) hk2
  obtain ⟨k4, t4⟩ := l4
  obtain rfl := code_inj (k' := .rpar) hk4
  refine ⟨_, ⟨_, _, _, rfl, fun st => rfl⟩, _, rfl, ?_⟩
  exact (Gr.commonTableExpression_1 (t4 := t4) (t2 := t2) (t1 := t1) h0 h3).cast (by simp)

theorem prod_30 : ProdOk 30 := by
  intro w vs h
  obtain ⟨w0, _, _, _, rfl, rfl, ⟨e0, rfl, h0⟩, w1, _, _, _, rfl, rfl, ⟨l1, rfl, hk1, rfl, hq1⟩, w2, _, _, _, rfl, rfl, ⟨e2, rfl, h2⟩, w3, _, _, _, rfl, rfl, ⟨l3, rfl, hk3, rfl, hq3⟩, w4, _, _, _, rfl, rfl, ⟨l4, rfl, hk4, rfl, hq4⟩, w5, _, _, _, rfl, rfl, ⟨l5, rfl, hk5, rfl, hq5⟩, w6, _, _, _, rfl, rfl, ⟨e6, rfl, h6⟩, w7, _, _, _, rfl, rfl, ⟨l7, rfl, hk7, rfl, hq7⟩, rfl, rfl⟩ := h
  obtain ⟨k1, t1⟩ := l1
  obtain rfl := code_inj (k' := .lpar) hk1
  obtain ⟨k3, t3⟩ := l3
  obtain rfl := code_inj (k' := .rpar) hk3
  obtain ⟨k4, t4⟩ := l4
  obtain rfl := code_inj (k' := .AS) hk4
  obtain ⟨k5, t5⟩ := l5
  obtain rfl := code_inj (k' := .lpar) hk5
  obtain ⟨k7, t7⟩ := l7
  obtain rfl := code_inj (k' := .rpar) hk7
  refine ⟨_, ⟨_, _, _, rfl, fun st => rfl⟩, _, rfl, ?_⟩
  exact (Gr.commonTableExpression_2 (t7 := t7) (t5 := t5) (t4 := t4) (t3 := t3) (t1 := t1) h0 h2 h6).cast (by simp)

theorem prod_31 : ProdOk 31 := by
  intro w vs h
  obtain ⟨w0, _, _, _, rfl, rfl, ⟨e0, rfl, h0⟩, rfl, rfl⟩ := h
  refine ⟨_, ⟨_, _, _, rfl, fun st => rfl⟩, _, rfl, ?_⟩
  exact (Gr.commonTableExpressionList_1 h0).cast (by simp)

theorem prod_32 : ProdOk 32 := by
  intro w vs h
  obtain ⟨w0, _, _, _, rfl, rfl, ⟨e0, rfl, h0⟩, w1, _, _, _, rfl, rfl, ⟨l1, rfl, hk1, rfl, hq1⟩, w2, _, _, _, rfl, rfl, ⟨e2, rfl, h2⟩, rfl, rfl⟩ := h
  obtain ⟨k1, t1⟩ := l1
  obtain rfl := code_inj (k' := .comma) hk1
  refine ⟨_, ⟨_, _, _, rfl, fun st => rfl⟩, _, rfl, ?_⟩
  exact (Gr.commonTableExpressionList_2 (t1 := t1) h0 h2).cast (by simp)

theorem prod_33 : ProdOk 33 := by
  intro w vs h
  obtain ⟨w0, _, _, _, rfl, rfl, ⟨e0, rfl, h0⟩, rfl, rfl⟩ := h
  refine ⟨_, ⟨_, _, _, rfl, fun st => rfl⟩, _, rfl, ?_⟩
  exact (Gr.comparativeExpression_1 h0).cast (by simp)

theorem prod_34 : ProdOk 34 := by
  intro w vs h
  obtain ⟨w0, _, _, _, rfl, rfl, ⟨e0, rfl, h0⟩, w1, _, _, _, rfl, rfl, ⟨l1, rfl, hk1, rfl, hq1⟩, w2, _, _, _, rfl, rfl, ⟨e2, rfl, h2⟩, rfl, rfl⟩ := h
  obtain ⟨k1, t1⟩ := l1
  obtain rfl := code_inj (k' := .eq) hk1
  refine ⟨_, ⟨_, _, _, rfl, fun st => rfl⟩, _, rfl, ?_⟩
  exact (Gr.comparativeExpression_2 (t1 := t1) h0 h2).cast (by simp)

theorem prod_35 : ProdOk 35 := by
  intro w vs h
  obtain ⟨w0, _, _, _, rfl, rfl, ⟨e0, rfl, h0⟩, w1, _, _, _, rfl, rfl, ⟨l1, rfl, hk1, rfl, hq1⟩, w2, _, _, _, rfl, rfl, ⟨e2, rfl, h2⟩, rfl, rfl⟩ := h
  obtain ⟨k1, t1⟩ := l1
  obtain rfl := code_inj (k' := .ne) hk1
  refine ⟨_, ⟨_, _, _, rfl, fun st => rfl⟩, _, rfl, ?_⟩
  exact (Gr.comparativeExpression_3 (t1 := t1) h0 h2).cast (by simp)

theorem prod_36 : ProdOk 36 := by
  intro w vs h
  obtain ⟨w0, _, _, _, rfl, rfl, ⟨e0, rfl, h0⟩, w1, _, _, _, rfl, rfl, ⟨l1, rfl, hk1, rfl, hq1⟩, w2, _, _, _, rfl, rfl, ⟨e2, rfl, h2⟩, rfl, rfl⟩ := h
  obtain ⟨k1, t1⟩ := l1
  obtain rfl := code_inj (k' := .lt) hk1
  refine ⟨_, ⟨_, _, _, rfl, fun st => rfl⟩, _, rfl, ?_⟩
  exact (Gr.comparativeExpression_4 (t1 := t1) h0 h2).cast (by simp)

theorem prod_37 : ProdOk 37 := by
  intro w vs h
  obtain ⟨w0, _, _, _, rfl, rfl, ⟨e0, rfl, h0⟩, w1, _, _, _, rfl, rfl, ⟨l1, rfl, hk1, rfl, hq1⟩, w2, _, _, _, rfl, rfl, ⟨e2, rfl, h2⟩, rfl, rfl⟩ := h
  obtain ⟨k1, t1⟩ := l1
  obtain rfl := code_inj (k' := .gt) hk1
  refine ⟨_, ⟨_, _, _, rfl, fun st => rfl⟩, _, rfl, ?_⟩
  exact (Gr.comparativeExpression_5 (t1 := t1) h0 h2).cast (by simp)

theorem prod_38 : ProdOk 38 := by
  intro w vs h
  obtain ⟨w0, _, _, _, rfl, rfl, ⟨e0, rfl, h0⟩, w1, _, _, _, rfl, rfl, ⟨l1, rfl, hk1, rfl, hq1⟩, w2, _, _, _, rfl, rfl, ⟨e2, rfl, h2⟩, rfl, rfl⟩ := h
  obtain ⟨k1, t1⟩ := l1
  obtain rfl := code_inj (k' := .le) hk1
  refine ⟨_, ⟨_, _, _, rfl, fun st => rfl⟩, _, rfl, ?_⟩
  exact (Gr.comparativeExpression_6 (t1 := t1) h0 h2).cast (by simp)

theorem prod_39 : ProdOk 39 := by
  intro w vs h
  obtain ⟨w0, _, _, _, rfl, rfl, ⟨e0, rfl, h0⟩, w1, _, _, _, rfl, rfl, ⟨l1, rfl, hk1, rfl, hq1⟩, w2, _, _, _, rfl, rfl, ⟨e2, rfl, h2⟩, rfl, rfl⟩ := h
  obtain ⟨k1, t1⟩ := l1
  obtain rfl := code_inj (k' := .ge) hk1
  refine ⟨_, ⟨_, _, _, rfl, fun st => rfl⟩, _, rfl, ?_⟩
  exact (Gr.comparativeExpression_7 (t1 := t1) h0 h2).cast (by simp)

theorem prod_40 : ProdOk 40 := by
  intro w vs h
  obtain ⟨w0, _, _, _, rfl, rfl, ⟨e0, rfl, h0⟩, w1, _, _, _, rfl, rfl, ⟨l1, rfl, hk1, rfl, hq1⟩, w2, _, _, _, rfl, rfl, ⟨l2, rfl, hk2, rfl, hq2⟩, rfl, rfl⟩ := h
  obtain ⟨k1, t1⟩ := l1
  obtain rfl := code_inj (k' := .IS) hk1
  obtain ⟨k2, t2⟩ := l2
  obtain rfl := code_inj (k' := .NULL) hk2
  refine ⟨_, ⟨_, _, _, rfl, fun st => rfl⟩, _, rfl, ?_⟩
  exact (Gr.comparativeExpression_8 (t2 := t2) (t1 := t1) h0).cast (by simp)

theorem prod_41 : ProdOk 41 := by
  intro w vs h
  obtain ⟨w0, _, _, _, rfl, rfl, ⟨e0, rfl, h0⟩, w1, _, _, _, rfl, rfl, ⟨l1, rfl, hk1, rfl, hq1⟩, w2, _, _, _, rfl, rfl, ⟨l2, rfl, hk2, rfl, hq2⟩, w3, _, _, _, rfl, rfl, ⟨l3, rfl, hk3, rfl, hq3⟩, rfl, rfl⟩ := h
  obtain ⟨k1, t1⟩ := l1
  obtain rfl := code_inj (k' := .IS) hk1
  obtain ⟨k2, t2⟩ := l2
  obtain rfl := code_inj (k' := .NOT) hk2
  obtain ⟨k3, t3⟩ := l3
  obtain rfl := code_inj (k' := .NULL) hk3
  refine ⟨_, ⟨_, _, _, rfl, fun st => rfl⟩, _, rfl, ?_⟩
  exact (Gr.comparativeExpression_9 (t3 := t3) (t2 := t2) (t1 := t1) h0).cast (by simp)

theorem prod_42 : ProdOk 42 := by
  intro w vs h
  obtain ⟨w0, _, _, _, rfl, rfl, ⟨e0, rfl, h0⟩, w1, _, _, _, rfl, rfl, ⟨l1, rfl, hk1, rfl, hq1⟩, w2, _, _, _, rfl, rfl, ⟨e2, rfl, h2⟩, rfl, rfl⟩ := h
  obtain ⟨k1, t1⟩ := l1
  obtain rfl := code_inj (k' := .LIKE) hk1
  refine ⟨_, ⟨_, _, _, rfl, fun st => rfl⟩, _, rfl, ?_⟩
  exact (Gr.comparativeExpression_10 (t1 := t1) h0 h2).cast (by simp)

theorem prod_43 : ProdOk 43 := by
  intro w vs h
  obtain ⟨w0, _, _, _, rfl, rfl, ⟨e0, rfl, h0⟩, w1, _, _, _, rfl, rfl, ⟨l1, rfl, hk1, rfl, hq1⟩, rfl, rfl⟩ := h
  obtain ⟨k1, t1⟩ := l1
  obtain rfl := code_inj (k' := .ISNULL) hk1
  refine ⟨_, ⟨_, _, _, rfl, fun st => rfl⟩, _, rfl, ?_⟩
  exact (Gr.comparativeExpression_11 (t1 := t1) h0).cast (by simp)

theorem prod_44 : ProdOk 44 := by
  intro w vs h
  obtain ⟨w0, _, _, _, rfl, rfl, ⟨e0, rfl, h0⟩, w1, _, _, _, rfl, rfl, ⟨l1, rfl, hk1, rfl, hq1⟩, rfl, rfl⟩ := h
  obtain ⟨k1, t1⟩ := l1
  obtain rfl := code_inj (k' := .NOTNULL) hk1
  refine ⟨_, ⟨_, _, _, rfl, fun st => rfl⟩, _, rfl, ?_⟩
  exact (Gr.comparativeExpression_12 (t1 := t1) h0).cast (by simp)

theorem prod_45 : ProdOk 45 := by
  intro w vs h
  obtain ⟨w0, _, _, _, rfl, rfl, ⟨e0, rfl, h0⟩, w1, _, _, _, rfl, rfl, ⟨l1, rfl, hk1, rfl, hq1⟩, w2, _, _, _, rfl, rfl, ⟨l2, rfl, hk2, rfl, hq2⟩, rfl, rfl⟩ := h
  obtain ⟨k1, t1⟩ := l1
  obtain rfl := code_inj (k' := .NOT) hk1
  obtain ⟨k2, t2⟩ := l2
  obtain rfl := code_inj (k' := .NULL) hk2
  refine ⟨_, ⟨_, _, _, rfl, fun st => rfl⟩, _, rfl, ?_⟩
  exact (Gr.comparativeExpression_13 (t2 := t2) (t1 := t1) h0).cast (by simp)

theorem prod_46 : ProdOk 46 := by
  intro w vs h
  obtain ⟨w0, _, _, _, rfl, rfl, ⟨e0, rfl, h0⟩, w1, _, _, _, rfl, rfl, ⟨l1, rfl, hk1, rfl, hq1⟩, w2, _, _, _, rfl, rfl, ⟨l2, rfl, hk2, rfl, hq2⟩, w3, _, _, _, rfl, rfl, ⟨l3, rfl, hk3, rfl, hq3⟩, rfl, rfl⟩ := h
  obtain ⟨k1, t1⟩ := l1
  obtain rfl := code_inj (k' := .IN) hk1
  obtain ⟨k2, t2⟩ := l2
  obtain rfl := code_inj (k' := .lpar) hk2
  obtain ⟨k3, t3⟩ := l3
  obtain rfl := code_inj (k' := .rpar) hk3
  refine ⟨_, ⟨_, _, _, rfl, fun st => rfl⟩, _, rfl, ?_⟩
  exact (Gr.comparativeExpression_14 (t3 := t3) (t2 := t2) (t1 := t1) h0).cast (by simp)

theorem prod_47 : ProdOk 47 := by
  intro w vs h
  obtain ⟨w0, _, _, _, rfl, rfl, ⟨e0, rfl, h0⟩, w1, _, _, _, rfl, rfl, ⟨l1, rfl, hk1, rfl, hq1⟩, w2, _, _, _, rfl, rfl, ⟨l2, rfl, hk2, rfl, hq2⟩, w3, _, _, _, rfl, rfl, ⟨l3, rfl, hk3, rfl, hq3⟩, w4, _, _, _, rfl, rfl, ⟨l4, rfl, hk4, rfl, hq4⟩, rfl, rfl⟩ := h
  obtain ⟨k1, t1⟩ := l1
  obtain rfl := code_inj (k' := .NOT) hk1
  obtain ⟨k2, t2⟩ := l2
  obtain rfl := code_inj (k' := .IN) hk2
  obtain ⟨k3, t3⟩ := l3
  obtain rfl := code_inj (k' := .lpar) hk3
  obtain ⟨k4, t4⟩ := l4
  obtain rfl := code_inj (k' := .rpar) hk4
  refine ⟨_, ⟨_, _, _, rfl, fun st => rfl⟩, _, rfl, ?_⟩
  exact (Gr.comparativeExpression_15 (t4 := t4) (t3 := t3) (t2 := t2) (t1 := t1) h0).cast (by simp)

theorem prod_48 : ProdOk 48 := by
  intro w vs h
  obtain ⟨w0, _, _, _, rfl, rfl, ⟨e0, rfl, h0⟩, w1, _, _, _, rfl, rfl, ⟨l1, rfl, hk1, rfl, hq1⟩, w2, _, _, _, rfl, rfl, ⟨l2, rfl, hk2, rfl, hq2⟩, w3, _, _, _, rfl, rfl, ⟨e3, rfl, h3⟩, w4, _, _, _, rfl, rfl, ⟨l4, rfl, hk4, rfl, hq4⟩, rfl, rfl⟩ := h
  obtain ⟨k1, t1⟩ := l1
  obtain rfl := code_inj (k' := .IN) hk1
  obtain ⟨k2, t2⟩ := l2
  obtain rfl := code_inj (k' := .lpar) hk2
  obtain ⟨k4, t4⟩ := l4
  obtain rfl := code_inj (k' := .rpar) hk4
  refine ⟨_, ⟨_, _, _, rfl, fun st => rfl⟩, _, rfl, ?_⟩
  exact (Gr.comparativeExpression_16 (t4 := t4) (t2 := t2) (t1 := t1) h0 h3).cast (by simp)

theorem prod_49 : ProdOk 49 := by
  intro w vs h
  obtain ⟨w0, _, _, _, rfl, rfl, ⟨e0, rfl, h0⟩, w1, _, _, _, rfl, rfl, ⟨l1, rfl, hk1, rfl, hq1⟩, w2, _, _, _, rfl, rfl, ⟨l2, rfl, hk2, rfl, hq2⟩, w3, _, _, _, rfl, rfl, ⟨l3, rfl, hk3, rfl, hq3⟩, w4, _, _, _, rfl, rfl, ⟨e4, rfl, h4⟩, w5, _, _, _, rfl, rfl, ⟨l5, rfl, hk5, rfl, hq5⟩, rfl, rfl⟩ := h
  obtain ⟨k1, t1⟩ := l1
  obtain rfl := code_inj (k' := .NOT) hk1
  obtain ⟨k2, t2⟩ := l2
  obtain rfl := code_inj (k' := .IN) hk2
  obtain ⟨k3, t3⟩ := l3
  obtain rfl := code_inj (k' := .lpar) hk3
  obtain ⟨k5, t5⟩ := l5
  obtain rfl := code_inj (k' := .rpar) hk5
  refine ⟨_, ⟨_, _, _, rfl, fun st => rfl⟩, _, rfl, ?_⟩
  exact (Gr.comparativeExpression_17 (t5 := t5) (t3 := t3) (t2 := t2) (t1 := t1) h0 h4).cast (by simp)

theorem prod_50 : ProdOk 50 := by
  intro w vs h
  obtain ⟨w0, _, _, _, rfl, rfl, ⟨e0, rfl, h0⟩, w1, _, _, _, rfl, rfl, ⟨l1, rfl, hk1, rfl, hq1⟩, w2, _, _, _, rfl, rfl, ⟨l2, rfl, hk2, rfl, hq2⟩, w3, _, _, _, rfl, rfl, ⟨e3, rfl, h3⟩, w4, _, _, _, rfl, rfl, ⟨l4, rfl, hk4, rfl, hq4⟩, rfl, rfl⟩ := h
  obtain ⟨k1, t1⟩ := l1
  obtain rfl := code_inj (k' := .IN) hk1
  obtain ⟨k2, t2⟩ := l2
  obtain rfl := code_inj (k' := .lpar) hk2
  obtain ⟨k4, t4⟩ := l4
  obtain rfl := code_inj (k' := .rpar) hk4
  refine ⟨_, ⟨_, _, _, rfl, fun st => rfl⟩, _, rfl, ?_⟩
  exact (Gr.comparativeExpression_18 (t4 := t4) (t2 := t2) (t1 := t1) h0 h3).cast (by simp)

theorem prod_51 : ProdOk 51 := by
  intro w vs h
  obtain ⟨w0, _, _, _, rfl, rfl, ⟨e0, rfl, h0⟩, w1, _, _, _, rfl, rfl, ⟨l1, rfl, hk1, rfl, hq1⟩, w2, _, _, _, rfl, rfl, ⟨l2, rfl, hk2, rfl, hq2⟩, w3, _, _, _, rfl, rfl, ⟨l3, rfl, hk3, rfl, hq3⟩, w4, _, _, _, rfl, rfl, ⟨e4, rfl, h4⟩, w5, _, _, _, rfl, rfl, ⟨l5, rfl, hk5, rfl, hq5⟩, rfl, rfl⟩ := h
  obtain ⟨k1, t1⟩ := l1
  obtain rfl := code_inj (k' := .NOT) hk1
  obtain ⟨k2, t2⟩ := l2
  obtain rfl := code_inj (k' := .IN) hk2
  obtain ⟨k3, t3⟩ := l3
  obtain rfl := code_inj (k' := .lpar) hk3
  obtain ⟨k5, t5⟩ := l5
  obtain rfl := code_inj (k' := .rpar) hk5
  refine ⟨_, ⟨_, _, _, rfl, fun st => rfl⟩, _, rfl, ?_⟩
  exact (Gr.comparativeExpression_19 (t5 := t5) (t3 := t3) (t2 := t2) (t1 := t1) h0 h4).cast (by simp)

theorem prod_52 : ProdOk 52 := by
  intro w vs h
  obtain ⟨w0, _, _, _, rfl, rfl, ⟨e0, rfl, h0⟩, w1, _, _, _, rfl, rfl, ⟨l1, rfl, hk1, rfl, hq1⟩, w2, _, _, _, rfl, rfl, ⟨e2, rfl, h2⟩, rfl, rfl⟩ := h
  obtain ⟨k1, t1⟩ := l1
  obtain rfl := code_inj (k' := .IN) hk1
  refine ⟨_, ⟨_, _, _, rfl, fun st => rfl⟩, _, rfl, ?_⟩
  exact (Gr.comparativeExpression_20 (t1 := t1) h0 h2).cast (by simp)

theorem prod_53 : ProdOk 53 := by
  intro w vs h
  obtain ⟨w0, _, _, _, rfl, rfl, ⟨e0, rfl, h0⟩, w1, _, _, _, rfl, rfl, ⟨l1, rfl, hk1, rfl, hq1⟩, w2, _, _, _, rfl, rfl, ⟨l2, rfl, hk2, rfl, hq2⟩, w3, _, _, _, rfl, rfl, ⟨e3, rfl, h3⟩, rfl, rfl⟩ := h
  obtain ⟨k1, t1⟩ := l1
  obtain rfl := code_inj (k' := .NOT) hk1
  obtain ⟨k2, t2⟩ := l2
  obtain rfl := code_inj (k' := .IN) hk2
  refine ⟨_, ⟨_, _, _, rfl, fun st => rfl⟩, _, rfl, ?_⟩
  exact (Gr.comparativeExpression_21 (t2 := t2) (t1 := t1) h0 h3).cast (by simp)

theorem prod_54 : ProdOk 54 := by
  intro w vs h
  obtain ⟨w0, _, _, _, rfl, rfl, ⟨e0, rfl, h0⟩, w1, _, _, _, rfl, rfl, ⟨l1, rfl, hk1, rfl, hq1⟩, w2, _, _, _, rfl, rfl, ⟨e2, rfl, h2⟩, w3, _, _, _, rfl, rfl, ⟨l3, rfl, hk3, rfl, hq3⟩, w4, _, _, _, rfl, rfl, ⟨e4, rfl, h4⟩, rfl, rfl⟩ := h
  obtain ⟨k1, t1⟩ := l1
  obtain rfl := code_inj (k' := .BETWEEN) hk1
  obtain ⟨k3, t3⟩ := l3
  obtain rfl := code_inj (k' := .AND) hk3
  refine ⟨_, ⟨_, _, _, rfl, fun st => rfl⟩, _, rfl, ?_⟩
  exact (Gr.comparativeExpression_22 (t3 := t3) (t1 := t1) h0 h2 h4).cast (by simp)

theorem prod_55 : ProdOk 55 := by
  intro w vs h
  obtain ⟨w0, _, _, _, rfl, rfl, ⟨e0, rfl, h0⟩, w1, _, _, _, rfl, rfl, ⟨l1, rfl, hk1, rfl, hq1⟩, w2, _, _, _, rfl, rfl, ⟨l2, rfl, hk2, rfl, hq2⟩, w3, _, _, _, rfl, rfl, ⟨e3, rfl, h3⟩, w4, _, _, _, rfl, rfl, ⟨l4, rfl, hk4, rfl, hq4⟩, w5, _, _, _, rfl, rfl, ⟨e5, rfl, h5⟩, rfl, rfl⟩ := h
  obtain ⟨k1, t1⟩ := l1
  obtain rfl := code_inj (k' := .NOT) hk1
  obtain ⟨k2, t2⟩ := l2
  obtain rfl := code_inj (k' := .BETWEEN) hk2
  obtain ⟨k4, t4⟩ := l4
  obtain rfl := code_inj (k' := .AND) hk4
  refine ⟨_, ⟨_, _, _, rfl, fun st => rfl⟩, _, rfl, ?_⟩
  exact (Gr.comparativeExpression_23 (t4 := t4) (t2 := t2) (t1 := t1) h0 h3 h5).cast (by simp)

theorem prod_56 : ProdOk 56 := by
  intro w vs h
  obtain ⟨w0, _, _, _, rfl, rfl, ⟨e0, rfl, h0⟩, rfl, rfl⟩ := h
  refine ⟨_, ⟨_, _, _, rfl, fun st => rfl⟩, _, rfl, ?_⟩
  exact (Gr.complexExpression_1 h0).cast (by simp)

theorem prod_57 : ProdOk 57 := by
  intro w vs h
  obtain ⟨w0, _, _, _, rfl, rfl, ⟨e0, rfl, h0⟩, rfl, rfl⟩ := h
  refine ⟨_, ⟨_, _, _, rfl, fun st => rfl⟩, _, rfl, ?_⟩
  exact (Gr.complexExpression_2 h0).cast (by simp)

theorem prod_58 : ProdOk 58 := by
  intro w vs h
  obtain ⟨w0, _, _, _, rfl, rfl, ⟨l0, rfl, hk0, rfl, hq0⟩, rfl, rfl⟩ := h
  obtain ⟨k0, t0⟩ := l0
  obtain rfl := code_inj (k' := .UNION) hk0
  refine ⟨_, ⟨_, _, _, rfl, fun st => rfl⟩, _, rfl, ?_⟩
  exact (Gr.compoundOperator_1 (t0 := t0)).cast (by simp)

theorem prod_59 : ProdOk 59 := by
  intro w vs h
  obtain ⟨w0, _, _, _, rfl, rfl, ⟨l0, rfl, hk0, rfl, hq0⟩, w1, _, _, _, rfl, rfl, ⟨l1, rfl, hk1, rfl, hq1⟩, rfl, rfl⟩ := h
  obtain ⟨k0, t0⟩ := l0
  obtain rfl := code_inj (k' := .UNION) hk0
  obtain ⟨k1, t1⟩ := l1
  obtain rfl := code_inj (k' := .ALL) hk1
  refine ⟨_, ⟨_, _, _, rfl, fun st => rfl⟩, _, rfl, ?_⟩
  exact (Gr.compoundOperator_2 (t1 := t1) (t0 := t0)).cast (by simp)

theorem prod_60 : ProdOk 60 := by
  intro w vs h
  obtain ⟨w0, _, _, _, rfl, rfl, ⟨l0, rfl, hk0, rfl, hq0⟩, rfl, rfl⟩ := h
  obtain ⟨k0, t0⟩ := l0
  obtain rfl := code_inj (k' := .INTERSECT) hk0
  refine ⟨_, ⟨_, _, _, rfl, fun st => rfl⟩, _, rfl, ?_⟩
  exact (Gr.compoundOperator_3 (t0 := t0)).cast (by simp)

theorem prod_61 : ProdOk 61 := by
  intro w vs h
  obtain ⟨w0, _, _, _, rfl, rfl, ⟨l0, rfl, hk0, rfl, hq0⟩, rfl, rfl⟩ := h
  obtain ⟨k0, t0⟩ := l0
  obtain rfl := code_inj (k' := .EXCEPT) hk0
  refine ⟨_, ⟨_, _, _, rfl, fun st => rfl⟩, _, rfl, ?_⟩
  exact (Gr.compoundOperator_4 (t0 := t0)).cast (by simp)

theorem prod_62 : ProdOk 62 := by
  intro w vs h
  obtain ⟨w0, _, _, _, rfl, rfl, ⟨e0, rfl, h0⟩, w1, _, _, _, rfl, rfl, ⟨l1, rfl, hk1, rfl, hq1⟩, w2, _, _, _, rfl, rfl, ⟨l2, rfl, hk2, rfl, hq2⟩, w3, _, _, _, rfl, rfl, ⟨e3, rfl, h3⟩, w4, _, _, _, rfl, rfl, ⟨e4, rfl, h4⟩, rfl, rfl⟩ := h
  obtain ⟨k1, t1⟩ := l1
  obtain rfl := code_inj (k' := .DELETE) hk1
  obtain ⟨k2, t2⟩ := l2
  obtain rfl := code_inj (k' := .FROM) hk2
  refine ⟨_, ⟨_, _, _, rfl, fun st => rfl⟩, _, rfl, ?_⟩
  exact (Gr.deleteStatement_1 (t2 := t2) (t1 := t1) (.optSome h0) h3 (.optSome h4)).cast (by simp)

theorem prod_63 : ProdOk 63 := by
  intro w vs h
  obtain ⟨w0, _, _, _, rfl, rfl, ⟨e0, rfl, h0⟩, w1, _, _, _, rfl, rfl, ⟨l1, rfl, hk1, rfl, hq1⟩, w2, _, _, _, rfl, rfl, ⟨l2, rfl, hk2, rfl, hq2⟩, w3, _, _, _, rfl, rfl, ⟨e3, rfl, h3⟩, rfl, rfl⟩ := h
  obtain ⟨k1, t1⟩ := l1
  obtain rfl := code_inj (k' := .DELETE) hk1
  obtain ⟨k2, t2⟩ := l2
  obtain rfl := code_inj (k' := .FROM) hk2
  refine ⟨_, ⟨_, _, _, rfl, fun st => rfl⟩, _, rfl, ?_⟩
  exact (Gr.deleteStatement_1 (t2 := t2) (t1 := t1) (.optSome h0) h3 .optNone).cast (by simp)

theorem prod_64 : ProdOk 64 := by
  intro w vs h
  obtain ⟨w0, _, _, _, rfl, rfl, ⟨l0, rfl, hk0, rfl, hq0⟩, w1, _, _, _, rfl, rfl, ⟨l1, rfl, hk1, rfl, hq1⟩, w2, _, _, _, rfl, rfl, ⟨e2, rfl, h2⟩, w3, _, _, _, rfl, rfl, ⟨e3, rfl, h3⟩, rfl, rfl⟩ := h
  obtain ⟨k0, t0⟩ := l0
  obtain rfl := code_inj (k' := .DELETE) hk0
  obtain ⟨k1, t1⟩ := l1
  obtain rfl := code_inj (k' := .FROM) hk1
  refine ⟨_, ⟨_, _, _, rfl, fun st => rfl⟩, _, rfl, ?_⟩
  exact (Gr.deleteStatement_1 (t2 := t1) (t1 := t0) .optNone h2 (.optSome h3)).cast (by simp)

theorem prod_65 : ProdOk 65 := by
  intro w vs h
  obtain ⟨w0, _, _, _, rfl, rfl, ⟨l0, rfl, hk0, rfl, hq0⟩, w1, _, _, _, rfl, rfl, ⟨l1, rfl, hk1, rfl, hq1⟩, w2, _, _, _, rfl, rfl, ⟨e2, rfl, h2⟩, rfl, rfl⟩ := h
  obtain ⟨k0, t0⟩ := l0
  obtain rfl := code_inj (k' := .DELETE) hk0
  obtain ⟨k1, t1⟩ := l1
  obtain rfl := code_inj (k' := .FROM) hk1
  refine ⟨_, ⟨_, _, _, rfl, fun st => rfl⟩, _, rfl, ?_⟩
  exact (Gr.deleteStatement_1 (t2 := t1) (t1 := t0) .optNone h2 .optNone).cast (by simp)

theorem prod_66 : ProdOk 66 := by
  intro w vs h
  obtain ⟨w0, _, _, _, rfl, rfl, ⟨l0, rfl, hk0, rfl, hq0⟩, w1, _, _, _, rfl, rfl, ⟨e1, rfl, h1⟩, w2, _, _, _, rfl, rfl, ⟨e2, rfl, h2⟩, rfl, rfl⟩ := h
  obtain ⟨k0, t0⟩ := l0
  obtain rfl := code_inj (k' := .DESCRIBE) hk0
  refine ⟨_, ⟨_, _, _, rfl, fun st => rfl⟩, _, rfl, ?_⟩
  exact (Gr.describeStatement_1 (t0 := t0) (.optSome h1) h2).cast (by simp)

theorem prod_67 : ProdOk 67 := by
  intro w vs h
  obtain ⟨w0, _, _, _, rfl, rfl, ⟨l0, rfl, hk0, rfl, hq0⟩, w1, _, _, _, rfl, rfl, ⟨e1, rfl, h1⟩, rfl, rfl⟩ := h
  obtain ⟨k0, t0⟩ := l0
  obtain rfl := code_inj (k' := .DESCRIBE) hk0
  refine ⟨_, ⟨_, _, _, rfl, fun st => rfl⟩, _, rfl, ?_⟩
  exact (Gr.describeStatement_1 (t0 := t0) .optNone h1).cast (by simp)

theorem prod_68 : ProdOk 68 := by
  intro w vs h
  obtain ⟨w0, _, _, _, rfl, rfl, ⟨l0, rfl, hk0, rfl, hq0⟩, w1, _, _, _, rfl, rfl, ⟨e1, rfl, h1⟩, rfl, rfl⟩ := h
  obtain ⟨k0, t0⟩ := l0
  obtain rfl := code_inj (k' := .ELSE) hk0
  refine ⟨_, ⟨_, _, _, rfl, fun st => rfl⟩, _, rfl, ?_⟩
  exact (Gr.elseClause_1 (t0 := t0) h1).cast (by simp)

theorem prod_71 : ProdOk 71 := by
  intro w vs h
  obtain ⟨w0, _, _, _, rfl, rfl, ⟨e0, rfl, h0⟩, rfl, rfl⟩ := h
  refine ⟨_, ⟨_, _, _, rfl, fun st => rfl⟩, _, rfl, ?_⟩
  exact (Gr.expression_1 h0).cast (by simp)

theorem prod_74 : ProdOk 74 := by
  intro w vs h
  obtain ⟨w0, _, _, _, rfl, rfl, ⟨e0, rfl, h0⟩, rfl, rfl⟩ := h
  refine ⟨_, ⟨_, _, _, rfl, fun st => rfl⟩, _, rfl, ?_⟩
  exact (Gr.expressionList_1 h0).cast (by simp)

theorem prod_75 : ProdOk 75 := by
  intro w vs h
  obtain ⟨w0, _, _, _, rfl, rfl, ⟨e0, rfl, h0⟩, w1, _, _, _, rfl, rfl, ⟨l1, rfl, hk1, rfl, hq1⟩, w2, _, _, _, rfl, rfl, ⟨e2, rfl, h2⟩, rfl, rfl⟩ := h
  obtain ⟨k1, t1⟩ := l1
  obtain rfl := code_inj (k' := .comma) hk1
  refine ⟨_, ⟨_, _, _, rfl, fun st => rfl⟩, _, rfl, ?_⟩
  exact (Gr.expressionList_2 (t1 := t1) h0 h2).cast (by simp)

theorem prod_76 : ProdOk 76 := by
  intro w vs h
  obtain ⟨w0, _, _, _, rfl, rfl, ⟨l0, rfl, hk0, rfl, hq0⟩, w1, _, _, _, rfl, rfl, ⟨e1, rfl, h1⟩, rfl, rfl⟩ := h
  obtain ⟨k0, t0⟩ := l0
  obtain rfl := code_inj (k' := .FROM) hk0
  refine ⟨_, ⟨_, _, _, rfl, fun st => rfl⟩, _, rfl, ?_⟩
  exact (Gr.fromClause_1 (t0 := t0) h1).cast (by simp)

theorem prod_77 : ProdOk 77 := by
  intro w vs h
  obtain ⟨w0, _, _, _, rfl, rfl, ⟨l0, rfl, hk0, rfl, hq0⟩, w1, _, _, _, rfl, rfl, ⟨l1, rfl, hk1, rfl, hq1⟩, w2, _, _, _, rfl, rfl, ⟨e2, rfl, h2⟩, rfl, rfl⟩ := h
  obtain ⟨k0, t0⟩ := l0
  obtain rfl := code_inj (k' := .GROUP) hk0
  obtain ⟨k1, t1⟩ := l1
  obtain rfl := code_inj (k' := .BY) hk1
  refine ⟨_, ⟨_, _, _, rfl, fun st => rfl⟩, _, rfl, ?_⟩
  exact (Gr.groupByClause_1 (t1 := t1) (t0 := t0) h2).cast (by simp)

theorem prod_78 : ProdOk 78 := by
  intro w vs h
  obtain ⟨w0, _, _, _, rfl, rfl, ⟨l0, rfl, hk0, rfl, hq0⟩, w1, _, _, _, rfl, rfl, ⟨l1, rfl, hk1, rfl, hq1⟩, w2, _, _, _, rfl, rfl, ⟨e2, rfl, h2⟩, w3, _, _, _, rfl, rfl, ⟨l3, rfl, hk3, rfl, hq3⟩, w4, _, _, _, rfl, rfl, ⟨e4, rfl, h4⟩, rfl, rfl⟩ := h
  obtain ⟨k0, t0⟩ := l0
  obtain rfl := code_inj (k' := .GROUP) hk0
  obtain ⟨k1, t1⟩ := l1
  obtain rfl := code_inj (k' := .BY) hk1
  obtain ⟨k3, t3⟩ := l3
  obtain rfl := code_inj (k' := .HAVING) hk3
  refine ⟨_, ⟨_, _, _, rfl, fun st => rfl⟩, _, rfl, ?_⟩
  exact (Gr.groupByClause_2 (t3 := t3) (t1 := t1) (t0 := t0) h2 h4).cast (by simp)

theorem prod_81 : ProdOk 81 := by
  intro w vs h
  obtain ⟨w0, _, _, _, rfl, rfl, ⟨l0, rfl, hk0, rfl, hq0⟩, rfl, rfl⟩ := h
  obtain ⟨k0, t0⟩ := l0
  obtain rfl := code_inj (k' := .ID) hk0
  refine ⟨_, ⟨_, _, _, rfl, fun st => rfl⟩, _, rfl, ?_⟩
  exact (Gr.identifier_1 (t := t0)).cast (by simp)

theorem prod_82 : ProdOk 82 := by
  intro w vs h
  obtain ⟨w0, _, _, _, rfl, rfl, ⟨e0, rfl, h0⟩, rfl, rfl⟩ := h
  refine ⟨_, ⟨_, _, _, rfl, fun st => rfl⟩, _, rfl, ?_⟩
  exact (Gr.identifierList_1 h0).cast (by simp)

theorem prod_83 : ProdOk 83 := by
  intro w vs h
  obtain ⟨w0, _, _, _, rfl, rfl, ⟨e0, rfl, h0⟩, w1, _, _, _, rfl, rfl, ⟨l1, rfl, hk1, rfl, hq1⟩, w2, _, _, _, rfl, rfl, ⟨e2, rfl, h2⟩, rfl, rfl⟩ := h
  obtain ⟨k1, t1⟩ := l1
  obtain rfl := code_inj (k' := .comma) hk1
  refine ⟨_, ⟨_, _, _, rfl, fun st => rfl⟩, _, rfl, ?_⟩
  exact (Gr.identifierList_2 (t1 := t1) h0 h2).cast (by simp)

theorem prod_84 : ProdOk 84 := by
  intro w vs h
  obtain ⟨w0, _, _, _, rfl, rfl, ⟨e0, rfl, h0⟩, w1, _, _, _, rfl, rfl, ⟨l1, rfl, hk1, rfl, hq1⟩, w2, _, _, _, rfl, rfl, ⟨l2, rfl, hk2, rfl, hq2⟩, w3, _, _, _, rfl, rfl, ⟨e3, rfl, h3⟩, w4, _, _, _, rfl, rfl, ⟨e4, rfl, h4⟩, w5, _, _, _, rfl, rfl, ⟨e5, rfl, h5⟩, rfl, rfl⟩ := h
  obtain ⟨k1, t1⟩ := l1
  obtain rfl := code_inj (k' := .INSERT) hk1
  obtain ⟨k2, t2⟩ := l2
  obtain rfl := code_inj (k' := .INTO) hk2
  refine ⟨_, ⟨_, _, _, rfl, fun st => rfl⟩, _, rfl, ?_⟩
  exact (Gr.insertStatement_1 (t2 := t2) (t1 := t1) (.optSome h0) h3 (.optSome h4) h5).cast (by simp)

theorem prod_85 : ProdOk 85 := by
  intro w vs h
  obtain ⟨w0, _, _, _, rfl, rfl, ⟨l0, rfl, hk0, rfl, hq0⟩, w1, _, _, _, rfl, rfl, ⟨l1, rfl, hk1, rfl, hq1⟩, w2, _, _, _, rfl, rfl, ⟨e2, rfl, h2⟩, w3, _, _, _, rfl, rfl, ⟨e3, rfl, h3⟩, w4, _, _, _, rfl, rfl, ⟨e4, rfl, h4⟩, rfl, rfl⟩ := h
  obtain ⟨k0, t0⟩ := l0
  obtain rfl := code_inj (k' := .INSERT) hk0
  obtain ⟨k1, t1⟩ := l1
  obtain rfl := code_inj (k' := .INTO) hk1
  refine ⟨_, ⟨_, _, _, rfl, fun st => rfl⟩, _, rfl, ?_⟩
  exact (Gr.insertStatement_1 (t2 := t1) (t1 := t0) .optNone h2 (.optSome h3) h4).cast (by simp)

theorem prod_86 : ProdOk 86 := by
  intro w vs h
  obtain ⟨w0, _, _, _, rfl, rfl, ⟨e0, rfl, h0⟩, w1, _, _, _, rfl, rfl, ⟨l1, rfl, hk1, rfl, hq1⟩, w2, _, _, _, rfl, rfl, ⟨l2, rfl, hk2, rfl, hq2⟩, w3, _, _, _, rfl, rfl, ⟨e3, rfl, h3⟩, w4, _, _, _, rfl, rfl, ⟨e4, rfl, h4⟩, rfl, rfl⟩ := h
  obtain ⟨k1, t1⟩ := l1
  obtain rfl := code_inj (k' := .INSERT) hk1
  obtain ⟨k2, t2⟩ := l2
  obtain rfl := code_inj (k' := .INTO) hk2
  refine ⟨_, ⟨_, _, _, rfl, fun st => rfl⟩, _, rfl, ?_⟩
  exact (Gr.insertStatement_1 (t2 := t2) (t1 := t1) (.optSome h0) h3 .optNone h4).cast (by simp)

theorem prod_87 : ProdOk 87 := by
  intro w vs h
  obtain ⟨w0, _, _, _, rfl, rfl, ⟨l0, rfl, hk0, rfl, hq0⟩, w1, _, _, _, rfl, rfl, ⟨l1, rfl, hk1, rfl, hq1⟩, w2, _, _, _, rfl, rfl, ⟨e2, rfl, h2⟩, w3, _, _, _, rfl, rfl, ⟨e3, rfl, h3⟩, rfl, rfl⟩ := h
  obtain ⟨k0, t0⟩ := l0
  obtain rfl := code_inj (k' := .INSERT) hk0
  obtain ⟨k1, t1⟩ := l1
  obtain rfl := code_inj (k' := .INTO) hk1
  refine ⟨_, ⟨_, _, _, rfl, fun st => rfl⟩, _, rfl, ?_⟩
  exact (Gr.insertStatement_1 (t2 := t1) (t1 := t0) .optNone h2 .optNone h3).cast (by simp)

theorem prod_88 : ProdOk 88 := by
  intro w vs h
  obtain ⟨w0, _, _, _, rfl, rfl, ⟨l0, rfl, hk0, rfl, hq0⟩, w1, _, _, _, rfl, rfl, ⟨e1, rfl, h1⟩, rfl, rfl⟩ := h
  obtain ⟨k0, t0⟩ := l0
  obtain rfl := code_inj (k' := .ON) hk0
  refine ⟨_, ⟨_, _, _, rfl, fun st => rfl⟩, _, rfl, ?_⟩
  exact (Gr.joinConstraint_1 (t0 := t0) h1).cast (by simp)

theorem prod_89 : ProdOk 89 := by
  intro w vs h
  obtain ⟨w0, _, _, _, rfl, rfl, ⟨l0, rfl, hk0, rfl, hq0⟩, w1, _, _, _, rfl, rfl, ⟨l1, rfl, hk1, rfl, hq1⟩, w2, _, _, _, rfl, rfl, ⟨e2, rfl, h2⟩, w3, _, _, _, rfl, rfl, ⟨l3, rfl, hk3, rfl, hq3⟩, rfl, rfl⟩ := h
  obtain ⟨k0, t0⟩ := l0
  obtain rfl := code_inj (k' := .USING) hk0
  obtain ⟨k1, t1⟩ := l1
  obtain rfl := code_inj (k' := .lpar) hk1
  obtain ⟨k3, t3⟩ := l3
  obtain rfl := code_inj (k' := .rpar) hk3
  refine ⟨_, ⟨_, _, _, rfl, fun st => rfl⟩, _, rfl, ?_⟩
  exact (Gr.joinConstraint_2 (t3 := t3) (t1 := t1) (t0 := t0) h2).cast (by simp)

theorem prod_90 : ProdOk 90 := by
  intro w vs h
  obtain ⟨w0, _, _, _, rfl, rfl, ⟨e0, rfl, h0⟩, w1, _, _, _, rfl, rfl, ⟨l1, rfl, hk1, rfl, hq1⟩, rfl, rfl⟩ := h
  obtain ⟨k1, t1⟩ := l1
  obtain rfl := code_inj (k' := .JOIN) hk1
  refine ⟨_, ⟨_, _, _, rfl, fun st => rfl⟩, _, rfl, ?_⟩
  exact (Gr.joinOperator_1 (t1 := t1) (.optSome h0)).cast (by simp)

theorem prod_91 : ProdOk 91 := by
  intro w vs h
  obtain ⟨w0, _, _, _, rfl, rfl, ⟨l0, rfl, hk0, rfl, hq0⟩, rfl, rfl⟩ := h
  obtain ⟨k0, t0⟩ := l0
  obtain rfl := code_inj (k' := .JOIN) hk0
  refine ⟨_, ⟨_, _, _, rfl, fun st => rfl⟩, _, rfl, ?_⟩
  exact (Gr.joinOperator_1 (t1 := t0) .optNone).cast (by simp)

theorem prod_92 : ProdOk 92 := by
  intro w vs h
  obtain ⟨w0, _, _, _, rfl, rfl, ⟨l0, rfl, hk0, rfl, hq0⟩, w1, _, _, _, rfl, rfl, ⟨e1, rfl, h1⟩, w2, _, _, _, rfl, rfl, ⟨l2, rfl, hk2, rfl, hq2⟩, rfl, rfl⟩ := h
  obtain ⟨k0, t0⟩ := l0
  obtain rfl := code_inj (k' := .NATURAL) hk0
  obtain ⟨k2, t2⟩ := l2
  obtain rfl := code_inj (k' := .JOIN) hk2
  refine ⟨_, ⟨_, _, _, rfl, fun st => rfl⟩, _, rfl, ?_⟩
  exact (Gr.joinOperator_2 (t2 := t2) (t0 := t0) (.optSome h1)).cast (by simp)

theorem prod_93 : ProdOk 93 := by
  intro w vs h
  obtain ⟨w0, _, _, _, rfl, rfl, ⟨l0, rfl, hk0, rfl, hq0⟩, w1, _, _, _, rfl, rfl, ⟨l1, rfl, hk1, rfl, hq1⟩, rfl, rfl⟩ := h
  obtain ⟨k0, t0⟩ := l0
  obtain rfl := code_inj (k' := .NATURAL) hk0
  obtain ⟨k1, t1⟩ := l1
  obtain rfl := code_inj (k' := .JOIN) hk1
  refine ⟨_, ⟨_, _, _, rfl, fun st => rfl⟩, _, rfl, ?_⟩
  exact (Gr.joinOperator_2 (t2 := t1) (t0 := t0) .optNone).cast (by simp)

theorem prod_94 : ProdOk 94 := by
  intro w vs h
  obtain ⟨w0, _, _, _, rfl, rfl, ⟨l0, rfl, hk0, rfl, hq0⟩, w1, _, _, _, rfl, rfl, ⟨l1, rfl, hk1, rfl, hq1⟩, rfl, rfl⟩ := h
  obtain ⟨k0, t0⟩ := l0
  obtain rfl := code_inj (k' := .CROSS) hk0
  obtain ⟨k1, t1⟩ := l1
  obtain rfl := code_inj (k' := .JOIN) hk1
  refine ⟨_, ⟨_, _, _, rfl, fun st => rfl⟩, _, rfl, ?_⟩
  exact (Gr.joinOperator_3 (t1 := t1) (t0 := t0)).cast (by simp)

theorem prod_95 : ProdOk 95 := by
  intro w vs h
  obtain ⟨w0, _, _, _, rfl, rfl, ⟨l0, rfl, hk0, rfl, hq0⟩, w1, _, _, _, rfl, rfl, ⟨l1, rfl, hk1, rfl, hq1⟩, rfl, rfl⟩ := h
  obtain ⟨k0, t0⟩ := l0
  obtain rfl := code_inj (k' := .LEFT) hk0
  obtain ⟨k1, t1⟩ := l1
  obtain rfl := code_inj (k' := .OUTER) hk1
  refine ⟨_, ⟨_, _, _, rfl, fun st => rfl⟩, _, rfl, ?_⟩
  exact (Gr.joinType_1 (t0 := t0) (.optSome (.tok (t := t1)))).cast (by simp)

theorem prod_96 : ProdOk 96 := by
  intro w vs h
  obtain ⟨w0, _, _, _, rfl, rfl, ⟨l0, rfl, hk0, rfl, hq0⟩, rfl, rfl⟩ := h
  obtain ⟨k0, t0⟩ := l0
  obtain rfl := code_inj (k' := .LEFT) hk0
  refine ⟨_, ⟨_, _, _, rfl, fun st => rfl⟩, _, rfl, ?_⟩
  exact (Gr.joinType_1 (t0 := t0) .optNone).cast (by simp)

theorem prod_97 : ProdOk 97 := by
  intro w vs h
  obtain ⟨w0, _, _, _, rfl, rfl, ⟨l0, rfl, hk0, rfl, hq0⟩, w1, _, _, _, rfl, rfl, ⟨l1, rfl, hk1, rfl, hq1⟩, rfl, rfl⟩ := h
  obtain ⟨k0, t0⟩ := l0
  obtain rfl := code_inj (k' := .RIGHT) hk0
  obtain ⟨k1, t1⟩ := l1
  obtain rfl := code_inj (k' := .OUTER) hk1
  refine ⟨_, ⟨_, _, _, rfl, fun st => rfl⟩, _, rfl, ?_⟩
  exact (Gr.joinType_2 (t0 := t0) (.optSome (.tok (t := t1)))).cast (by simp)

theorem prod_98 : ProdOk 98 := by
  intro w vs h
  obtain ⟨w0, _, _, _, rfl, rfl, ⟨l0, rfl, hk0, rfl, hq0⟩, rfl, rfl⟩ := h
  obtain ⟨k0, t0⟩ := l0
  obtain rfl := code_inj (k' := .RIGHT) hk0
  refine ⟨_, ⟨_, _, _, rfl, fun st => rfl⟩, _, rfl, ?_⟩
  exact (Gr.joinType_2 (t0 := t0) .optNone).cast (by simp)

theorem prod_99 : ProdOk 99 := by
  intro w vs h
  obtain ⟨w0, _, _, _, rfl, rfl, ⟨l0, rfl, hk0, rfl, hq0⟩, w1, _, _, _, rfl, rfl, ⟨l1, rfl, hk1, rfl, hq1⟩, rfl, rfl⟩ := h
  obtain ⟨k0, t0⟩ := l0
  obtain rfl := code_inj (k' := .FULL) hk0
  obtain ⟨k1, t1⟩ := l1
  obtain rfl := code_inj (k' := .OUTER) hk1
  refine ⟨_, ⟨_, _, _, rfl, fun st => rfl⟩, _, rfl, ?_⟩
  exact (Gr.joinType_3 (t0 := t0) (.optSome (.tok (t := t1)))).cast (by simp)

theorem prod_100 : ProdOk 100 := by
  intro w vs h
  obtain ⟨w0, _, _, _, rfl, rfl, ⟨l0, rfl, hk0, rfl, hq0⟩, rfl, rfl⟩ := h
  obtain ⟨k0, t0⟩ := l0
  obtain rfl := code_inj (k' := .FULL) hk0
  refine ⟨_, ⟨_, _, _, rfl, fun st => rfl⟩, _, rfl, ?_⟩
  exact (Gr.joinType_3 (t0 := t0) .optNone).cast (by simp)

theorem prod_101 : ProdOk 101 := by
  intro w vs h
  obtain ⟨w0, _, _, _, rfl, rfl, ⟨l0, rfl, hk0, rfl, hq0⟩, rfl, rfl⟩ := h
  obtain ⟨k0, t0⟩ := l0
  obtain rfl := code_inj (k' := .INNER) hk0
  refine ⟨_, ⟨_, _, _, rfl, fun st => rfl⟩, _, rfl, ?_⟩
  exact (Gr.joinType_4 (t0 := t0)).cast (by simp)

theorem prod_104 : ProdOk 104 := by
  intro w vs h
  obtain ⟨w0, _, _, _, rfl, rfl, ⟨l0, rfl, hk0, rfl, hq0⟩, w1, _, _, _, rfl, rfl, ⟨e1, rfl, h1⟩, rfl, rfl⟩ := h
  obtain ⟨k0, t0⟩ := l0
  obtain rfl := code_inj (k' := .LIMIT) hk0
  refine ⟨_, ⟨_, _, _, rfl, fun st => rfl⟩, _, rfl, ?_⟩
  exact (Gr.limitClause_1 (t0 := t0) h1).cast (by simp)

theorem prod_105 : ProdOk 105 := by
  intro w vs h
  obtain ⟨w0, _, _, _, rfl, rfl, ⟨l0, rfl, hk0, rfl, hq0⟩, w1, _, _, _, rfl, rfl, ⟨e1, rfl, h1⟩, w2, _, _, _, rfl, rfl, ⟨l2, rfl, hk2, rfl, hq2⟩, w3, _, _, _, rfl, rfl, ⟨e3, rfl, h3⟩, rfl, rfl⟩ := h
  obtain ⟨k0, t0⟩ := l0
  obtain rfl := code_inj (k' := .LIMIT) hk0
  obtain ⟨k2, t2⟩ := l2
  obtain rfl := code_inj (k' := .comma) hk2
  refine ⟨_, ⟨_, _, _, rfl, fun st => rfl⟩, _, rfl, ?_⟩
  exact (Gr.limitClause_2 (t2 := t2) (t0 := t0) h1 h3).cast (by simp)

theorem prod_106 : ProdOk 106 := by
  intro w vs h
  obtain ⟨w0, _, _, _, rfl, rfl, ⟨l0, rfl, hk0, rfl, hq0⟩, w1, _, _, _, rfl, rfl, ⟨e1, rfl, h1⟩, w2, _, _, _, rfl, rfl, ⟨l2, rfl, hk2, rfl, hq2⟩, w3, _, _, _, rfl, rfl, ⟨e3, rfl, h3⟩, rfl, rfl⟩ := h
  obtain ⟨k0, t0⟩ := l0
  obtain rfl := code_inj (k' := .LIMIT) hk0
  obtain ⟨k2, t2⟩ := l2
  obtain rfl := code_inj (k' := .OFFSET) hk2
  refine ⟨_, ⟨_, _, _, rfl, fun st => rfl⟩, _, rfl, ?_⟩
  exact (Gr.limitClause_3 (t2 := t2) (t0 := t0) h1 h3).cast (by simp)

theorem prod_109 : ProdOk 109 := by
  intro w vs h
  obtain ⟨w0, _, _, _, rfl, rfl, ⟨e0, rfl, h0⟩, rfl, rfl⟩ := h
  refine ⟨_, ⟨_, _, _, rfl, fun st => rfl⟩, _, rfl, ?_⟩
  exact (Gr.literalValue_1 h0).cast (by simp)

theorem prod_110 : ProdOk 110 := by
  intro w vs h
  obtain ⟨w0, _, _, _, rfl, rfl, ⟨e0, rfl, h0⟩, rfl, rfl⟩ := h
  refine ⟨_, ⟨_, _, _, rfl, fun st => rfl⟩, _, rfl, ?_⟩
  exact (Gr.literalValue_2 h0).cast (by simp)

theorem prod_111 : ProdOk 111 := by
  intro w vs h
  obtain ⟨w0, _, _, _, rfl, rfl, ⟨l0, rfl, hk0, rfl, hq0⟩, rfl, rfl⟩ := h
  obtain ⟨k0, t0⟩ := l0
  obtain rfl := code_inj (k' := .NULL) hk0
  refine ⟨_, ⟨_, _, _, rfl, fun st => rfl⟩, _, rfl, ?_⟩
  exact (Gr.literalValue_3 (t0 := t0)).cast (by simp)

theorem prod_112 : ProdOk 112 := by
  intro w vs h
  obtain ⟨w0, _, _, _, rfl, rfl, ⟨l0, rfl, hk0, rfl, hq0⟩, rfl, rfl⟩ := h
  obtain ⟨k0, t0⟩ := l0
  obtain rfl := code_inj (k' := .CURRENT_TIME) hk0
  refine ⟨_, ⟨_, _, _, rfl, fun st => rfl⟩, _, rfl, ?_⟩
  exact (Gr.literalValue_4 (t0 := t0)).cast (by simp)

theorem prod_113 : ProdOk 113 := by
  intro w vs h
  obtain ⟨w0, _, _, _, rfl, rfl, ⟨l0, rfl, hk0, rfl, hq0⟩, rfl, rfl⟩ := h
  obtain ⟨k0, t0⟩ := l0
  obtain rfl := code_inj (k' := .CURRENT_DATE) hk0
  refine ⟨_, ⟨_, _, _, rfl, fun st => rfl⟩, _, rfl, ?_⟩
  exact (Gr.literalValue_5 (t0 := t0)).cast (by simp)

theorem prod_114 : ProdOk 114 := by
  intro w vs h
  obtain ⟨w0, _, _, _, rfl, rfl, ⟨l0, rfl, hk0, rfl, hq0⟩, rfl, rfl⟩ := h
  obtain ⟨k0, t0⟩ := l0
  obtain rfl := code_inj (k' := .CURRENT_TIMESTAMP) hk0
  refine ⟨_, ⟨_, _, _, rfl, fun st => rfl⟩, _, rfl, ?_⟩
  exact (Gr.literalValue_6 (t0 := t0)).cast (by simp)

theorem prod_115 : ProdOk 115 := by
  intro w vs h
  obtain ⟨w0, _, _, _, rfl, rfl, ⟨l0, rfl, hk0, rfl, hq0⟩, w1, _, _, _, rfl, rfl, ⟨e1, rfl, h1⟩, rfl, rfl⟩ := h
  obtain ⟨k0, t0⟩ := l0
  obtain rfl := code_inj (k' := .DATE) hk0
  refine ⟨_, ⟨_, _, _, rfl, fun st => rfl⟩, _, rfl, ?_⟩
  exact (Gr.literalValue_7 (t0 := t0) h1).cast (by simp)

theorem prod_116 : ProdOk 116 := by
  intro w vs h
  obtain ⟨w0, _, _, _, rfl, rfl, ⟨l0, rfl, hk0, rfl, hq0⟩, w1, _, _, _, rfl, rfl, ⟨e1, rfl, h1⟩, rfl, rfl⟩ := h
  obtain ⟨k0, t0⟩ := l0
  obtain rfl := code_inj (k' := .TIME) hk0
  refine ⟨_, ⟨_, _, _, rfl, fun st => rfl⟩, _, rfl, ?_⟩
  exact (Gr.literalValue_8 (t0 := t0) h1).cast (by simp)

theorem prod_117 : ProdOk 117 := by
  intro w vs h
  obtain ⟨w0, _, _, _, rfl, rfl, ⟨l0, rfl, hk0, rfl, hq0⟩, w1, _, _, _, rfl, rfl, ⟨e1, rfl, h1⟩, rfl, rfl⟩ := h
  obtain ⟨k0, t0⟩ := l0
  obtain rfl := code_inj (k' := .TIMESTAMP) hk0
  refine ⟨_, ⟨_, _, _, rfl, fun st => rfl⟩, _, rfl, ?_⟩
  exact (Gr.literalValue_9 (t0 := t0) h1).cast (by simp)

theorem prod_118 : ProdOk 118 := by
  intro w vs h
  obtain ⟨w0, _, _, _, rfl, rfl, ⟨e0, rfl, h0⟩, rfl, rfl⟩ := h
  refine ⟨_, ⟨_, _, _, rfl, fun st => rfl⟩, _, rfl, ?_⟩
  exact (Gr.multiplicativeExpression_1 h0).cast (by simp)

theorem prod_119 : ProdOk 119 := by
  intro w vs h
  obtain ⟨w0, _, _, _, rfl, rfl, ⟨e0, rfl, h0⟩, w1, _, _, _, rfl, rfl, ⟨l1, rfl, hk1, rfl, hq1⟩, w2, _, _, _, rfl, rfl, ⟨e2, rfl, h2⟩, rfl, rfl⟩ := h
  obtain ⟨k1, t1⟩ := l1
  obtain rfl := code_inj (k' := .star) hk1
  refine ⟨_, ⟨_, _, _, rfl, fun st => rfl⟩, _, rfl, ?_⟩
  exact (Gr.multiplicativeExpression_2 (t1 := t1) h0 h2).cast (by simp)

theorem prod_120 : ProdOk 120 := by
  intro w vs h
  obtain ⟨w0, _, _, _, rfl, rfl, ⟨e0, rfl, h0⟩, w1, _, _, _, rfl, rfl, ⟨l1, rfl, hk1, rfl, hq1⟩, w2, _, _, _, rfl, rfl, ⟨e2, rfl, h2⟩, rfl, rfl⟩ := h
  obtain ⟨k1, t1⟩ := l1
  obtain rfl := code_inj (k' := .slash) hk1
  refine ⟨_, ⟨_, _, _, rfl, fun st => rfl⟩, _, rfl, ?_⟩
  exact (Gr.multiplicativeExpression_3 (t1 := t1) h0 h2).cast (by simp)

theorem prod_121 : ProdOk 121 := by
  intro w vs h
  obtain ⟨w0, _, _, _, rfl, rfl, ⟨e0, rfl, h0⟩, rfl, rfl⟩ := h
  refine ⟨_, ⟨_, _, _, rfl, fun st => rfl⟩, _, rfl, ?_⟩
  exact (Gr.notExpression_1 h0).cast (by simp)

theorem prod_122 : ProdOk 122 := by
  intro w vs h
  obtain ⟨w0, _, _, _, rfl, rfl, ⟨l0, rfl, hk0, rfl, hq0⟩, w1, _, _, _, rfl, rfl, ⟨e1, rfl, h1⟩, rfl, rfl⟩ := h
  obtain ⟨k0, t0⟩ := l0
  obtain rfl := code_inj (k' := .NOT) hk0
  refine ⟨_, ⟨_, _, _, rfl, fun st => rfl⟩, _, rfl, ?_⟩
  exact (Gr.notExpression_2 (t0 := t0) h1).cast (by simp)

theorem prod_123 : ProdOk 123 := by
  intro w vs h
  obtain ⟨w0, _, _, _, rfl, rfl, ⟨l0, rfl, hk0, rfl, hq0⟩, rfl, rfl⟩ := h
  obtain ⟨k0, t0⟩ := l0
  obtain rfl := code_inj (k' := .NUMERIC_LIT_1) hk0
  refine ⟨_, ⟨_, _, _, rfl, fun st => rfl⟩, _, rfl, ?_⟩
  exact (Gr.numericLiteral_1 (t := t0)).cast (by simp)

theorem prod_124 : ProdOk 124 := by
  intro w vs h
  obtain ⟨w0, _, _, _, rfl, rfl, ⟨l0, rfl, hk0, rfl, hq0⟩, rfl, rfl⟩ := h
  obtain ⟨k0, t0⟩ := l0
  obtain rfl := code_inj (k' := .NUMERIC_LIT_2) hk0
  refine ⟨_, ⟨_, _, _, rfl, fun st => rfl⟩, _, rfl, ?_⟩
  exact (Gr.numericLiteral_2 (t := t0)).cast (by simp)

theorem prod_125 : ProdOk 125 := by
  intro w vs h
  obtain ⟨w0, _, _, _, rfl, rfl, ⟨l0, rfl, hk0, rfl, hq0⟩, rfl, rfl⟩ := h
  obtain ⟨k0, t0⟩ := l0
  obtain rfl := code_inj (k' := .HEX_LIT) hk0
  refine ⟨_, ⟨_, _, _, rfl, fun st => rfl⟩, _, rfl, ?_⟩
  exact (Gr.numericLiteral_3 (t := t0)).cast (by simp)

theorem prod_126 : ProdOk 126 := by
  intro w vs h
  obtain ⟨w0, _, _, _, rfl, rfl, ⟨e0, rfl, h0⟩, rfl, rfl⟩ := h
  refine ⟨_, ⟨_, _, _, rfl, fun st => rfl⟩, _, rfl, ?_⟩
  exact (Gr.orExpression_1 h0).cast (by simp)

theorem prod_127 : ProdOk 127 := by
  intro w vs h
  obtain ⟨w0, _, _, _, rfl, rfl, ⟨e0, rfl, h0⟩, w1, _, _, _, rfl, rfl, ⟨l1, rfl, hk1, rfl, hq1⟩, w2, _, _, _, rfl, rfl, ⟨e2, rfl, h2⟩, rfl, rfl⟩ := h
  obtain ⟨k1, t1⟩ := l1
  obtain rfl := code_inj (k' := .OR) hk1
  refine ⟨_, ⟨_, _, _, rfl, fun st => rfl⟩, _, rfl, ?_⟩
  exact (Gr.orExpression_2 (t1 := t1) h0 h2).cast (by simp)

theorem prod_128 : ProdOk 128 := by
  intro w vs h
  obtain ⟨w0, _, _, _, rfl, rfl, ⟨l0, rfl, hk0, rfl, hq0⟩, w1, _, _, _, rfl, rfl, ⟨l1, rfl, hk1, rfl, hq1⟩, w2, _, _, _, rfl, rfl, ⟨e2, rfl, h2⟩, rfl, rfl⟩ := h
  obtain ⟨k0, t0⟩ := l0
  obtain rfl := code_inj (k' := .ORDER) hk0
  obtain ⟨k1, t1⟩ := l1
  obtain rfl := code_inj (k' := .BY) hk1
  refine ⟨_, ⟨_, _, _, rfl, fun st => rfl⟩, _, rfl, ?_⟩
  exact (Gr.orderByClause_1 (t1 := t1) (t0 := t0) h2).cast (by simp)

theorem prod_131 : ProdOk 131 := by
  intro w vs h
  obtain ⟨w0, _, _, _, rfl, rfl, ⟨l0, rfl, hk0, rfl, hq0⟩, w1, _, _, _, rfl, rfl, ⟨e1, rfl, h1⟩, rfl, rfl⟩ := h
  obtain ⟨k0, t0⟩ := l0
  obtain rfl := code_inj (k' := .COLLATE) hk0
  refine ⟨_, ⟨_, _, _, rfl, fun st => rfl⟩, _, rfl, ?_⟩
  exact (Gr.orderingCollation_1 (t0 := t0) h1).cast (by simp)

theorem prod_134 : ProdOk 134 := by
  intro w vs h
  obtain ⟨w0, _, _, _, rfl, rfl, ⟨l0, rfl, hk0, rfl, hq0⟩, rfl, rfl⟩ := h
  obtain ⟨k0, t0⟩ := l0
  obtain rfl := code_inj (k' := .ASC) hk0
  refine ⟨_, ⟨_, _, _, rfl, fun st => rfl⟩, _, rfl, ?_⟩
  exact (Gr.orderingDirection_1 (.optSome (.tok (t := t0)))).cast (by simp)

theorem prod_135 : ProdOk 135 := by
  intro w vs h
  obtain ⟨rfl, rfl⟩ := h
  refine ⟨_, ⟨_, _, _, rfl, fun st => rfl⟩, _, rfl, ?_⟩
  exact (Gr.orderingDirection_1 .optNone).cast (by simp)

theorem prod_136 : ProdOk 136 := by
  intro w vs h
  obtain ⟨w0, _, _, _, rfl, rfl, ⟨l0, rfl, hk0, rfl, hq0⟩, rfl, rfl⟩ := h
  obtain ⟨k0, t0⟩ := l0
  obtain rfl := code_inj (k' := .DESC) hk0
  refine ⟨_, ⟨_, _, _, rfl, fun st => rfl⟩, _, rfl, ?_⟩
  exact (Gr.orderingDirection_2 (t0 := t0)).cast (by simp)

theorem prod_137 : ProdOk 137 := by
  intro w vs h
  obtain ⟨w0, _, _, _, rfl, rfl, ⟨e0, rfl, h0⟩, w1, _, _, _, rfl, rfl, ⟨e1, rfl, h1⟩, w2, _, _, _, rfl, rfl, ⟨e2, rfl, h2⟩, rfl, rfl⟩ := h
  refine ⟨_, ⟨_, _, _, rfl, fun st => rfl⟩, _, rfl, ?_⟩
  exact (Gr.orderingTerm_1 h0 (.optSome h1) h2).cast (by simp)

theorem prod_138 : ProdOk 138 := by
  intro w vs h
  obtain ⟨w0, _, _, _, rfl, rfl, ⟨e0, rfl, h0⟩, w1, _, _, _, rfl, rfl, ⟨e1, rfl, h1⟩, rfl, rfl⟩ := h
  refine ⟨_, ⟨_, _, _, rfl, fun st => rfl⟩, _, rfl, ?_⟩
  exact (Gr.orderingTerm_1 h0 .optNone h1).cast (by simp)

theorem prod_139 : ProdOk 139 := by
  intro w vs h
  obtain ⟨w0, _, _, _, rfl, rfl, ⟨e0, rfl, h0⟩, rfl, rfl⟩ := h
  refine ⟨_, ⟨_, _, _, rfl, fun st => rfl⟩, _, rfl, ?_⟩
  exact (Gr.orderingTermList_1 h0).cast (by simp)

theorem prod_140 : ProdOk 140 := by
  intro w vs h
  obtain ⟨w0, _, _, _, rfl, rfl, ⟨e0, rfl, h0⟩, w1, _, _, _, rfl, rfl, ⟨l1, rfl, hk1, rfl, hq1⟩, w2, _, _, _, rfl, rfl, ⟨e2, rfl, h2⟩, rfl, rfl⟩ := h
  obtain ⟨k1, t1⟩ := l1
  obtain rfl := code_inj (k' := .comma) hk1
  refine ⟨_, ⟨_, _, _, rfl, fun st => rfl⟩, _, rfl, ?_⟩
  exact (Gr.orderingTermList_2 (t1 := t1) h0 h2).cast (by simp)

theorem prod_141 : ProdOk 141 := by
  intro w vs h
  obtain ⟨w0, _, _, _, rfl, rfl, ⟨l0, rfl, hk0, rfl, hq0⟩, w1, _, _, _, rfl, rfl, ⟨e1, rfl, h1⟩, w2, _, _, _, rfl, rfl, ⟨l2, rfl, hk2, rfl, hq2⟩, rfl, rfl⟩ := h
  obtain ⟨k0, t0⟩ := l0
  obtain rfl := code_inj (k' := .lpar) hk0
  obtain ⟨k2, t2⟩ := l2
  obtain rfl := code_inj (k' := .rpar) hk2
  match e1, h1 with
  | [e], h1 => exact ⟨_, ⟨_, _, _, rfl, fun st => rfl⟩, e, rfl, by simpa using Gr.primaryExpression_1 h1⟩
  | [], h1 => exact ⟨_, ⟨_, _, _, rfl, fun st => rfl⟩, .tuple [], rfl,
      by simpa using Gr.primaryExpression_2 h1 (by simp)⟩
  | a :: b :: r, h1 => exact ⟨_, ⟨_, _, _, rfl, fun st => rfl⟩, .tuple (a :: b :: r), rfl,
      by simpa using Gr.primaryExpression_2 h1 (by simp)⟩

theorem prod_142 : ProdOk 142 := by
  intro w vs h
  obtain ⟨w0, _, _, _, rfl, rfl, ⟨l0, rfl, hk0, rfl, hq0⟩, w1, _, _, _, rfl, rfl, ⟨e1, rfl, h1⟩, w2, _, _, _, rfl, rfl, ⟨l2, rfl, hk2, rfl, hq2⟩, rfl, rfl⟩ := h
  obtain ⟨k0, t0⟩ := l0
  obtain rfl := code_inj (k' := .lpar) hk0
  obtain ⟨k2, t2⟩ := l2
  obtain rfl := code_inj (k' := .rpar) hk2
  refine ⟨_, ⟨_, _, _, rfl, fun st => rfl⟩, _, rfl, ?_⟩
  exact (Gr.primaryExpression_3 (t2 := t2) (t0 := t0) h1).cast (by simp)

theorem prod_143 : ProdOk 143 := by
  intro w vs h
  obtain ⟨w0, _, _, _, rfl, rfl, ⟨e0, rfl, h0⟩, rfl, rfl⟩ := h
  refine ⟨_, ⟨_, _, _, rfl, fun st => rfl⟩, _, rfl, ?_⟩
  exact (Gr.primaryExpression_4 h0).cast (by simp)

theorem prod_144 : ProdOk 144 := by
  intro w vs h
  obtain ⟨w0, _, _, _, rfl, rfl, ⟨e0, rfl, h0⟩, rfl, rfl⟩ := h
  refine ⟨_, ⟨_, _, _, rfl, fun st => rfl⟩, _, rfl, ?_⟩
  exact (Gr.primaryExpression_5 h0).cast (by simp)

theorem prod_145 : ProdOk 145 := by
  intro w vs h
  obtain ⟨w0, _, _, _, rfl, rfl, ⟨e0, rfl, h0⟩, rfl, rfl⟩ := h
  refine ⟨_, ⟨_, _, _, rfl, fun st => rfl⟩, _, rfl, ?_⟩
  exact (Gr.qualifiedIdentifier_1 h0).cast (by simp)

theorem prod_146 : ProdOk 146 := by
  intro w vs h
  obtain ⟨w0, _, _, _, rfl, rfl, ⟨e0, rfl, h0⟩, w1, _, _, _, rfl, rfl, ⟨l1, rfl, hk1, rfl, hq1⟩, w2, _, _, _, rfl, rfl, ⟨e2, rfl, h2⟩, rfl, rfl⟩ := h
  obtain ⟨k1, t1⟩ := l1
  obtain rfl := code_inj (k' := .dot) hk1
  refine ⟨_, ⟨_, _, _, rfl, fun st => rfl⟩, _, rfl, ?_⟩
  exact (Gr.qualifiedIdentifier_2 (t1 := t1) h0 h2).cast (by simp)

theorem prod_147 : ProdOk 147 := by
  intro w vs h
  obtain ⟨w0, _, _, _, rfl, rfl, ⟨e0, rfl, h0⟩, w1, _, _, _, rfl, rfl, ⟨l1, rfl, hk1, rfl, hq1⟩, w2, _, _, _, rfl, rfl, ⟨e2, rfl, h2⟩, w3, _, _, _, rfl, rfl, ⟨l3, rfl, hk3, rfl, hq3⟩, w4, _, _, _, rfl, rfl, ⟨e4, rfl, h4⟩, rfl, rfl⟩ := h
  obtain ⟨k1, t1⟩ := l1
  obtain rfl := code_inj (k' := .dot) hk1
  obtain ⟨k3, t3⟩ := l3
  obtain rfl := code_inj (k' := .dot) hk3
  refine ⟨_, ⟨_, _, _, rfl, fun st => rfl⟩, _, rfl, ?_⟩
  exact (Gr.qualifiedIdentifier_3 (t3 := t3) (t1 := t1) h0 h2 h4).cast (by simp)

theorem prod_148 : ProdOk 148 := by
  intro w vs h
  obtain ⟨w0, _, _, _, rfl, rfl, ⟨e0, rfl, h0⟩, rfl, rfl⟩ := h
  refine ⟨_, ⟨_, _, _, rfl, fun st => rfl⟩, _, rfl, ?_⟩
  exact (Gr.resultColumn_1 h0).cast (by simp)

theorem prod_149 : ProdOk 149 := by
  intro w vs h
  obtain ⟨w0, _, _, _, rfl, rfl, ⟨e0, rfl, h0⟩, w1, _, _, _, rfl, rfl, ⟨l1, rfl, hk1, rfl, hq1⟩, w2, _, _, _, rfl, rfl, ⟨e2, rfl, h2⟩, rfl, rfl⟩ := h
  obtain ⟨k1, t1⟩ := l1
  obtain rfl := code_inj (k' := .AS) hk1
  refine ⟨_, ⟨_, _, _, rfl, fun st => rfl⟩, _, rfl, ?_⟩
  exact (Gr.resultColumn_2 h0 (.optSome (.tok (t := t1))) h2).cast (by simp)

theorem prod_150 : ProdOk 150 := by
  intro w vs h
  obtain ⟨w0, _, _, _, rfl, rfl, ⟨e0, rfl, h0⟩, w1, _, _, _, rfl, rfl, ⟨e1, rfl, h1⟩, rfl, rfl⟩ := h
  refine ⟨_, ⟨_, _, _, rfl, fun st => rfl⟩, _, rfl, ?_⟩
  exact (Gr.resultColumn_2 h0 .optNone h1).cast (by simp)

theorem prod_151 : ProdOk 151 := by
  intro w vs h
  obtain ⟨w0, _, _, _, rfl, rfl, ⟨e0, rfl, h0⟩, w1, _, _, _, rfl, rfl, ⟨l1, rfl, hk1, rfl, hq1⟩, w2, _, _, _, rfl, rfl, ⟨l2, rfl, hk2, rfl, hq2⟩, rfl, rfl⟩ := h
  obtain ⟨k1, t1⟩ := l1
  obtain rfl := code_inj (k' := .dot) hk1
  obtain ⟨k2, t2⟩ := l2
  obtain rfl := code_inj (k' := .star) hk2
  refine ⟨_, ⟨_, _, _, rfl, fun st => rfl⟩, _, rfl, ?_⟩
  exact (Gr.resultColumn_3 (t2 := t2) (t1 := t1) h0).cast (by simp)

theorem prod_152 : ProdOk 152 := by
  intro w vs h
  obtain ⟨w0, _, _, _, rfl, rfl, ⟨e0, rfl, h0⟩, rfl, rfl⟩ := h
  refine ⟨_, ⟨_, _, _, rfl, fun st => rfl⟩, _, rfl, ?_⟩
  exact (Gr.resultColumnList_1 h0).cast (by simp)

theorem prod_153 : ProdOk 153 := by
  intro w vs h
  obtain ⟨w0, _, _, _, rfl, rfl, ⟨e0, rfl, h0⟩, w1, _, _, _, rfl, rfl, ⟨l1, rfl, hk1, rfl, hq1⟩, w2, _, _, _, rfl, rfl, ⟨e2, rfl, h2⟩, rfl, rfl⟩ := h
  obtain ⟨k1, t1⟩ := l1
  obtain rfl := code_inj (k' := .comma) hk1
  refine ⟨_, ⟨_, _, _, rfl, fun st => rfl⟩, _, rfl, ?_⟩
  exact (Gr.resultColumnList_2 (t1 := t1) h0 h2).cast (by simp)

theorem prod_154 : ProdOk 154 := by
  intro w vs h
  obtain ⟨w0, _, _, _, rfl, rfl, ⟨l0, rfl, hk0, rfl, hq0⟩, rfl, rfl⟩ := h
  obtain ⟨k0, t0⟩ := l0
  obtain rfl := code_inj (k' := .star) hk0
  refine ⟨_, ⟨_, _, _, rfl, fun st => rfl⟩, _, rfl, ?_⟩
  exact (Gr.resultColumns_1 (t0 := t0)).cast (by simp)

theorem prod_155 : ProdOk 155 := by
  intro w vs h
  obtain ⟨w0, _, _, _, rfl, rfl, ⟨e0, rfl, h0⟩, rfl, rfl⟩ := h
  refine ⟨_, ⟨_, _, _, rfl, fun st => rfl⟩, _, rfl, ?_⟩
  exact (Gr.resultColumns_2 h0).cast (by simp)

theorem prod_156 : ProdOk 156 := by
  intro w vs h
  obtain ⟨w0, _, _, _, rfl, rfl, ⟨e0, rfl, h0⟩, w1, _, _, _, rfl, rfl, ⟨l1, rfl, hk1, rfl, hq1⟩, rfl, rfl⟩ := h
  obtain ⟨k1, t1⟩ := l1
  obtain rfl := code_inj (k' := .dot) hk1
  refine ⟨_, ⟨_, _, _, rfl, fun st => rfl⟩, _, rfl, ?_⟩
  exact (Gr.schemaName_1 (t1 := t1) h0).cast (by simp)

theorem prod_159 : ProdOk 159 := by
  intro w vs h
  obtain ⟨w0, _, _, _, rfl, rfl, ⟨l0, rfl, hk0, rfl, hq0⟩, w1, _, _, _, rfl, rfl, ⟨e1, rfl, h1⟩, w2, _, _, _, rfl, rfl, ⟨e2, rfl, h2⟩, w3, _, _, _, rfl, rfl, ⟨e3, rfl, h3⟩, w4, _, _, _, rfl, rfl, ⟨e4, rfl, h4⟩, rfl, rfl⟩ := h
  obtain ⟨k0, t0⟩ := l0
  obtain rfl := code_inj (k' := .SELECT) hk0
  refine ⟨_, ⟨_, _, _, rfl, fun st => rfl⟩, _, rfl, ?_⟩
  exact (Gr.selectCore_1 (t0 := t0) h1 h2 (.optSome h3) (.optSome h4)).cast (by simp)

theorem prod_160 : ProdOk 160 := by
  intro w vs h
  obtain ⟨w0, _, _, _, rfl, rfl, ⟨l0, rfl, hk0, rfl, hq0⟩, w1, _, _, _, rfl, rfl, ⟨e1, rfl, h1⟩, w2, _, _, _, rfl, rfl, ⟨e2, rfl, h2⟩, w3, _, _, _, rfl, rfl, ⟨e3, rfl, h3⟩, rfl, rfl⟩ := h
  obtain ⟨k0, t0⟩ := l0
  obtain rfl := code_inj (k' := .SELECT) hk0
  refine ⟨_, ⟨_, _, _, rfl, fun st => rfl⟩, _, rfl, ?_⟩
  exact (Gr.selectCore_1 (t0 := t0) h1 h2 .optNone (.optSome h3)).cast (by simp)

theorem prod_161 : ProdOk 161 := by
  intro w vs h
  obtain ⟨w0, _, _, _, rfl, rfl, ⟨l0, rfl, hk0, rfl, hq0⟩, w1, _, _, _, rfl, rfl, ⟨e1, rfl, h1⟩, w2, _, _, _, rfl, rfl, ⟨e2, rfl, h2⟩, w3, _, _, _, rfl, rfl, ⟨e3, rfl, h3⟩, rfl, rfl⟩ := h
  obtain ⟨k0, t0⟩ := l0
  obtain rfl := code_inj (k' := .SELECT) hk0
  refine ⟨_, ⟨_, _, _, rfl, fun st => rfl⟩, _, rfl, ?_⟩
  exact (Gr.selectCore_1 (t0 := t0) h1 h2 (.optSome h3) .optNone).cast (by simp)

theorem prod_162 : ProdOk 162 := by
  intro w vs h
  obtain ⟨w0, _, _, _, rfl, rfl, ⟨l0, rfl, hk0, rfl, hq0⟩, w1, _, _, _, rfl, rfl, ⟨e1, rfl, h1⟩, w2, _, _, _, rfl, rfl, ⟨e2, rfl, h2⟩, rfl, rfl⟩ := h
  obtain ⟨k0, t0⟩ := l0
  obtain rfl := code_inj (k' := .SELECT) hk0
  refine ⟨_, ⟨_, _, _, rfl, fun st => rfl⟩, _, rfl, ?_⟩
  exact (Gr.selectCore_1 (t0 := t0) h1 h2 .optNone .optNone).cast (by simp)

theorem prod_163 : ProdOk 163 := by
  intro w vs h
  obtain ⟨w0, _, _, _, rfl, rfl, ⟨l0, rfl, hk0, rfl, hq0⟩, w1, _, _, _, rfl, rfl, ⟨e1, rfl, h1⟩, w2, _, _, _, rfl, rfl, ⟨e2, rfl, h2⟩, w3, _, _, _, rfl, rfl, ⟨e3, rfl, h3⟩, w4, _, _, _, rfl, rfl, ⟨e4, rfl, h4⟩, w5, _, _, _, rfl, rfl, ⟨e5, rfl, h5⟩, rfl, rfl⟩ := h
  obtain ⟨k0, t0⟩ := l0
  obtain rfl := code_inj (k' := .SELECT) hk0
  refine ⟨_, ⟨_, _, _, rfl, fun st => rfl⟩, _, rfl, ?_⟩
  exact (Gr.selectCore_2 (t0 := t0) h1 h2 h3 (.optSome h4) (.optSome h5)).cast (by simp)

theorem prod_164 : ProdOk 164 := by
  intro w vs h
  obtain ⟨w0, _, _, _, rfl, rfl, ⟨l0, rfl, hk0, rfl, hq0⟩, w1, _, _, _, rfl, rfl, ⟨e1, rfl, h1⟩, w2, _, _, _, rfl, rfl, ⟨e2, rfl, h2⟩, w3, _, _, _, rfl, rfl, ⟨e3, rfl, h3⟩, w4, _, _, _, rfl, rfl, ⟨e4, rfl, h4⟩, rfl, rfl⟩ := h
  obtain ⟨k0, t0⟩ := l0
  obtain rfl := code_inj (k' := .SELECT) hk0
  refine ⟨_, ⟨_, _, _, rfl, fun st => rfl⟩, _, rfl, ?_⟩
  exact (Gr.selectCore_2 (t0 := t0) h1 h2 h3 .optNone (.optSome h4)).cast (by simp)

theorem prod_165 : ProdOk 165 := by
  intro w vs h
  obtain ⟨w0, _, _, _, rfl, rfl, ⟨l0, rfl, hk0, rfl, hq0⟩, w1, _, _, _, rfl, rfl, ⟨e1, rfl, h1⟩, w2, _, _, _, rfl, rfl, ⟨e2, rfl, h2⟩, w3, _, _, _, rfl, rfl, ⟨e3, rfl, h3⟩, w4, _, _, _, rfl, rfl, ⟨e4, rfl, h4⟩, rfl, rfl⟩ := h
  obtain ⟨k0, t0⟩ := l0
  obtain rfl := code_inj (k' := .SELECT) hk0
  refine ⟨_, ⟨_, _, _, rfl, fun st => rfl⟩, _, rfl, ?_⟩
  exact (Gr.selectCore_2 (t0 := t0) h1 h2 h3 (.optSome h4) .optNone).cast (by simp)

theorem prod_166 : ProdOk 166 := by
  intro w vs h
  obtain ⟨w0, _, _, _, rfl, rfl, ⟨l0, rfl, hk0, rfl, hq0⟩, w1, _, _, _, rfl, rfl, ⟨e1, rfl, h1⟩, w2, _, _, _, rfl, rfl, ⟨e2, rfl, h2⟩, w3, _, _, _, rfl, rfl, ⟨e3, rfl, h3⟩, rfl, rfl⟩ := h
  obtain ⟨k0, t0⟩ := l0
  obtain rfl := code_inj (k' := .SELECT) hk0
  refine ⟨_, ⟨_, _, _, rfl, fun st => rfl⟩, _, rfl, ?_⟩
  exact (Gr.selectCore_2 (t0 := t0) h1 h2 h3 .optNone .optNone).cast (by simp)

theorem prod_167 : ProdOk 167 := by
  intro w vs h
  obtain ⟨w0, _, _, _, rfl, rfl, ⟨l0, rfl, hk0, rfl, hq0⟩, w1, _, _, _, rfl, rfl, ⟨e1, rfl, h1⟩, rfl, rfl⟩ := h
  obtain ⟨k0, t0⟩ := l0
  obtain rfl := code_inj (k' := .VALUES) hk0
  refine ⟨_, ⟨_, _, _, rfl, fun st => rfl⟩, _, rfl, ?_⟩
  exact (Gr.selectCore_3 (t0 := t0) h1).cast (by simp)

theorem prod_168 : ProdOk 168 := by
  intro w vs h
  obtain ⟨w0, _, _, _, rfl, rfl, ⟨e0, rfl, h0⟩, rfl, rfl⟩ := h
  refine ⟨_, ⟨_, _, _, rfl, fun st => rfl⟩, _, rfl, ?_⟩
  exact (Gr.selectCoreList_1 h0).cast (by simp)

theorem prod_169 : ProdOk 169 := by
  intro w vs h
  obtain ⟨w0, _, _, _, rfl, rfl, ⟨e0, rfl, h0⟩, w1, _, _, _, rfl, rfl, ⟨e1, rfl, h1⟩, w2, _, _, _, rfl, rfl, ⟨e2, rfl, h2⟩, rfl, rfl⟩ := h
  refine ⟨_, ⟨_, _, _, rfl, fun st => rfl⟩, _, rfl, ?_⟩
  exact (Gr.selectCoreList_2 h0 h1 h2).cast (by simp)

theorem prod_170 : ProdOk 170 := by
  intro w vs h
  obtain ⟨w0, _, _, _, rfl, rfl, ⟨l0, rfl, hk0, rfl, hq0⟩, rfl, rfl⟩ := h
  obtain ⟨k0, t0⟩ := l0
  obtain rfl := code_inj (k' := .ALL) hk0
  refine ⟨_, ⟨_, _, _, rfl, fun st => rfl⟩, _, rfl, ?_⟩
  exact (Gr.selectMode_1 (.optSome (.tok (t := t0)))).cast (by simp)

theorem prod_171 : ProdOk 171 := by
  intro w vs h
  obtain ⟨rfl, rfl⟩ := h
  refine ⟨_, ⟨_, _, _, rfl, fun st => rfl⟩, _, rfl, ?_⟩
  exact (Gr.selectMode_1 .optNone).cast (by simp)

theorem prod_172 : ProdOk 172 := by
  intro w vs h
  obtain ⟨w0, _, _, _, rfl, rfl, ⟨l0, rfl, hk0, rfl, hq0⟩, rfl, rfl⟩ := h
  obtain ⟨k0, t0⟩ := l0
  obtain rfl := code_inj (k' := .DISTINCT) hk0
  refine ⟨_, ⟨_, _, _, rfl, fun st => rfl⟩, _, rfl, ?_⟩
  exact (Gr.selectMode_2 (t0 := t0)).cast (by simp)

theorem prod_173 : ProdOk 173 := by
  intro w vs h
  obtain ⟨w0, _, _, _, rfl, rfl, ⟨e0, rfl, h0⟩, w1, _, _, _, rfl, rfl, ⟨e1, rfl, h1⟩, w2, _, _, _, rfl, rfl, ⟨e2, rfl, h2⟩, w3, _, _, _, rfl, rfl, ⟨e3, rfl, h3⟩, rfl, rfl⟩ := h
  refine ⟨_, ⟨_, _, _, rfl, fun st => rfl⟩, _, rfl, ?_⟩
  exact (Gr.selectStatement_1 h0 h1 (.optSome h2) (.optSome h3)).cast (by simp)

theorem prod_174 : ProdOk 174 := by
  intro w vs h
  obtain ⟨w0, _, _, _, rfl, rfl, ⟨e0, rfl, h0⟩, w1, _, _, _, rfl, rfl, ⟨e1, rfl, h1⟩, w2, _, _, _, rfl, rfl, ⟨e2, rfl, h2⟩, rfl, rfl⟩ := h
  refine ⟨_, ⟨_, _, _, rfl, fun st => rfl⟩, _, rfl, ?_⟩
  exact (Gr.selectStatement_1 h0 h1 .optNone (.optSome h2)).cast (by simp)

theorem prod_175 : ProdOk 175 := by
  intro w vs h
  obtain ⟨w0, _, _, _, rfl, rfl, ⟨e0, rfl, h0⟩, w1, _, _, _, rfl, rfl, ⟨e1, rfl, h1⟩, w2, _, _, _, rfl, rfl, ⟨e2, rfl, h2⟩, rfl, rfl⟩ := h
  refine ⟨_, ⟨_, _, _, rfl, fun st => rfl⟩, _, rfl, ?_⟩
  exact (Gr.selectStatement_1 h0 h1 (.optSome h2) .optNone).cast (by simp)

theorem prod_176 : ProdOk 176 := by
  intro w vs h
  obtain ⟨w0, _, _, _, rfl, rfl, ⟨e0, rfl, h0⟩, w1, _, _, _, rfl, rfl, ⟨e1, rfl, h1⟩, rfl, rfl⟩ := h
  refine ⟨_, ⟨_, _, _, rfl, fun st => rfl⟩, _, rfl, ?_⟩
  exact (Gr.selectStatement_1 h0 h1 .optNone .optNone).cast (by simp)

theorem prod_177 : ProdOk 177 := by
  intro w vs h
  obtain ⟨w0, _, _, _, rfl, rfl, ⟨e0, rfl, h0⟩, w1, _, _, _, rfl, rfl, ⟨e1, rfl, h1⟩, w2, _, _, _, rfl, rfl, ⟨e2, rfl, h2⟩, rfl, rfl⟩ := h
  refine ⟨_, ⟨_, _, _, rfl, fun st => rfl⟩, _, rfl, ?_⟩
  exact (Gr.selectStatement_2 h0 (.optSome h1) (.optSome h2)).cast (by simp)

theorem prod_178 : ProdOk 178 := by
  intro w vs h
  obtain ⟨w0, _, _, _, rfl, rfl, ⟨e0, rfl, h0⟩, w1, _, _, _, rfl, rfl, ⟨e1, rfl, h1⟩, rfl, rfl⟩ := h
  refine ⟨_, ⟨_, _, _, rfl, fun st => rfl⟩, _, rfl, ?_⟩
  exact (Gr.selectStatement_2 h0 .optNone (.optSome h1)).cast (by simp)

theorem prod_179 : ProdOk 179 := by
  intro w vs h
  obtain ⟨w0, _, _, _, rfl, rfl, ⟨e0, rfl, h0⟩, w1, _, _, _, rfl, rfl, ⟨e1, rfl, h1⟩, rfl, rfl⟩ := h
  refine ⟨_, ⟨_, _, _, rfl, fun st => rfl⟩, _, rfl, ?_⟩
  exact (Gr.selectStatement_2 h0 (.optSome h1) .optNone).cast (by simp)

theorem prod_180 : ProdOk 180 := by
  intro w vs h
  obtain ⟨w0, _, _, _, rfl, rfl, ⟨e0, rfl, h0⟩, rfl, rfl⟩ := h
  refine ⟨_, ⟨_, _, _, rfl, fun st => rfl⟩, _, rfl, ?_⟩
  exact (Gr.selectStatement_2 h0 .optNone .optNone).cast (by simp)

theorem prod_181 : ProdOk 181 := by
  intro w vs h
  obtain ⟨w0, _, _, _, rfl, rfl, ⟨e0, rfl, h0⟩, rfl, rfl⟩ := h
  refine ⟨_, ⟨_, _, _, rfl, fun st => rfl⟩, _, rfl, ?_⟩
  exact (Gr.sqlStatement_1 h0).cast (by simp)

theorem prod_182 : ProdOk 182 := by
  intro w vs h
  obtain ⟨w0, _, _, _, rfl, rfl, ⟨l0, rfl, hk0, rfl, hq0⟩, w1, _, _, _, rfl, rfl, ⟨l1, rfl, hk1, rfl, hq1⟩, w2, _, _, _, rfl, rfl, ⟨l2, rfl, hk2, rfl, hq2⟩, w3, _, _, _, rfl, rfl, ⟨e3, rfl, h3⟩, rfl, rfl⟩ := h
  obtain ⟨k0, t0⟩ := l0
  obtain rfl := code_inj (k' := .EXPLAIN) hk0
  obtain ⟨k1, t1⟩ := l1
  obtain rfl := code_inj (k' := .QUERY) hk1
  obtain ⟨k2, t2⟩ := l2
  obtain rfl := code_inj (k' := .PLAN) hk2
  refine ⟨_, ⟨_, _, _, rfl, fun st => rfl⟩, _, rfl, ?_⟩
  exact (Gr.sqlStatement_3 (t2 := t2) (t1 := t1) (t0 := t0) h3).cast (by simp)

theorem prod_183 : ProdOk 183 := by
  intro w vs h
  obtain ⟨w0, _, _, _, rfl, rfl, ⟨l0, rfl, hk0, rfl, hq0⟩, w1, _, _, _, rfl, rfl, ⟨e1, rfl, h1⟩, rfl, rfl⟩ := h
  obtain ⟨k0, t0⟩ := l0
  obtain rfl := code_inj (k' := .EXPLAIN) hk0
  refine ⟨_, ⟨_, _, _, rfl, fun st => rfl⟩, _, rfl, ?_⟩
  exact (Gr.sqlStatement_2 (t0 := t0) h1).cast (by simp)

theorem prod_184 : ProdOk 184 := by
  intro w vs h
  obtain ⟨w0, _, _, _, rfl, rfl, ⟨e0, rfl, h0⟩, rfl, rfl⟩ := h
  refine ⟨_, ⟨_, _, _, rfl, fun st => rfl⟩, _, rfl, ?_⟩
  exact (Gr.sqlStatement_4 h0).cast (by simp)

theorem prod_185 : ProdOk 185 := by
  intro w vs h
  obtain ⟨w0, _, _, _, rfl, rfl, ⟨e0, rfl, h0⟩, rfl, rfl⟩ := h
  refine ⟨_, ⟨_, _, _, rfl, fun st => rfl⟩, _, rfl, ?_⟩
  exact (Gr.sqlStatement_5 h0).cast (by simp)

theorem prod_186 : ProdOk 186 := by
  intro w vs h
  obtain ⟨w0, _, _, _, rfl, rfl, ⟨e0, rfl, h0⟩, rfl, rfl⟩ := h
  refine ⟨_, ⟨_, _, _, rfl, fun st => rfl⟩, _, rfl, ?_⟩
  exact (Gr.statement_1 h0).cast (by simp)

theorem prod_187 : ProdOk 187 := by
  intro w vs h
  obtain ⟨w0, _, _, _, rfl, rfl, ⟨e0, rfl, h0⟩, rfl, rfl⟩ := h
  refine ⟨_, ⟨_, _, _, rfl, fun st => rfl⟩, _, rfl, ?_⟩
  exact (Gr.statement_2 h0).cast (by simp)

theorem prod_188 : ProdOk 188 := by
  intro w vs h
  obtain ⟨w0, _, _, _, rfl, rfl, ⟨e0, rfl, h0⟩, rfl, rfl⟩ := h
  refine ⟨_, ⟨_, _, _, rfl, fun st => rfl⟩, _, rfl, ?_⟩
  exact (Gr.statement_3 h0).cast (by simp)

theorem prod_189 : ProdOk 189 := by
  intro w vs h
  obtain ⟨w0, _, _, _, rfl, rfl, ⟨e0, rfl, h0⟩, rfl, rfl⟩ := h
  refine ⟨_, ⟨_, _, _, rfl, fun st => rfl⟩, _, rfl, ?_⟩
  exact (Gr.statement_4 h0).cast (by simp)

theorem prod_190 : ProdOk 190 := by
  intro w vs h
  obtain ⟨w0, _, _, _, rfl, rfl, ⟨l0, rfl, hk0, rfl, hq0⟩, rfl, rfl⟩ := h
  obtain ⟨k0, t0⟩ := l0
  obtain rfl := code_inj (k' := .STRING_LIT) hk0
  obtain ⟨s, hs⟩ := hq0 rfl
  simp only at hs
  subst hs
  exact ⟨_, ⟨_, _, _, rfl, fun st => by
    simp [reduce190, pop0, action147, stringBody_quoted, bind, Except.bind]; rfl⟩, s, rfl, .stringLiteral_1⟩

theorem prod_191 : ProdOk 191 := by
  intro w vs h
  obtain ⟨w0, _, _, _, rfl, rfl, ⟨l0, rfl, hk0, rfl, hq0⟩, w1, _, _, _, rfl, rfl, ⟨e1, rfl, h1⟩, rfl, rfl⟩ := h
  obtain ⟨k0, t0⟩ := l0
  obtain rfl := code_inj (k' := .AS) hk0
  refine ⟨_, ⟨_, _, _, rfl, fun st => rfl⟩, _, rfl, ?_⟩
  exact (Gr.tableAlias_1 (.optSome (.tok (t := t0))) h1).cast (by simp)

theorem prod_192 : ProdOk 192 := by
  intro w vs h
  obtain ⟨w0, _, _, _, rfl, rfl, ⟨e0, rfl, h0⟩, rfl, rfl⟩ := h
  refine ⟨_, ⟨_, _, _, rfl, fun st => rfl⟩, _, rfl, ?_⟩
  exact (Gr.tableAlias_1 .optNone h0).cast (by simp)

theorem prod_195 : ProdOk 195 := by
  intro w vs h
  obtain ⟨w0, _, _, _, rfl, rfl, ⟨e0, rfl, h0⟩, rfl, rfl⟩ := h
  refine ⟨_, ⟨_, _, _, rfl, fun st => rfl⟩, _, rfl, ?_⟩
  exact (Gr.tableExpression_1 h0).cast (by simp)

theorem prod_196 : ProdOk 196 := by
  intro w vs h
  obtain ⟨w0, _, _, _, rfl, rfl, ⟨e0, rfl, h0⟩, w1, _, _, _, rfl, rfl, ⟨e1, rfl, h1⟩, w2, _, _, _, rfl, rfl, ⟨e2, rfl, h2⟩, w3, _, _, _, rfl, rfl, ⟨e3, rfl, h3⟩, rfl, rfl⟩ := h
  refine ⟨_, ⟨_, _, _, rfl, fun st => rfl⟩, _, rfl, ?_⟩
  exact (Gr.tableExpression_2 h0 h1 h2 h3).cast (by simp)

theorem prod_197 : ProdOk 197 := by
  intro w vs h
  obtain ⟨w0, _, _, _, rfl, rfl, ⟨e0, rfl, h0⟩, rfl, rfl⟩ := h
  refine ⟨_, ⟨_, _, _, rfl, fun st => rfl⟩, _, rfl, ?_⟩
  exact (Gr.tableExpressionList_1 h0).cast (by simp)

theorem prod_198 : ProdOk 198 := by
  intro w vs h
  obtain ⟨w0, _, _, _, rfl, rfl, ⟨e0, rfl, h0⟩, w1, _, _, _, rfl, rfl, ⟨l1, rfl, hk1, rfl, hq1⟩, w2, _, _, _, rfl, rfl, ⟨e2, rfl, h2⟩, rfl, rfl⟩ := h
  obtain ⟨k1, t1⟩ := l1
  obtain rfl := code_inj (k' := .comma) hk1
  refine ⟨_, ⟨_, _, _, rfl, fun st => rfl⟩, _, rfl, ?_⟩
  exact (Gr.tableExpressionList_2 (t1 := t1) h0 h2).cast (by simp)

theorem prod_199 : ProdOk 199 := by
  intro w vs h
  obtain ⟨w0, _, _, _, rfl, rfl, ⟨l0, rfl, hk0, rfl, hq0⟩, w1, _, _, _, rfl, rfl, ⟨e1, rfl, h1⟩, rfl, rfl⟩ := h
  obtain ⟨k0, t0⟩ := l0
  obtain rfl := code_inj (k' := .WITH) hk0
  refine ⟨_, ⟨_, _, _, rfl, fun st => rfl⟩, _, rfl, ?_⟩
  exact (Gr.tableExpressions_1 (t0 := t0) h1).cast (by simp)

theorem prod_202 : ProdOk 202 := by
  intro w vs h
  obtain ⟨w0, _, _, _, rfl, rfl, ⟨e0, rfl, h0⟩, w1, _, _, _, rfl, rfl, ⟨e1, rfl, h1⟩, rfl, rfl⟩ := h
  refine ⟨_, ⟨_, _, _, rfl, fun st => rfl⟩, _, rfl, ?_⟩
  exact (Gr.tableOrSubQuery_1 h0 (.optSome h1)).cast (by simp)

theorem prod_203 : ProdOk 203 := by
  intro w vs h
  obtain ⟨w0, _, _, _, rfl, rfl, ⟨e0, rfl, h0⟩, rfl, rfl⟩ := h
  refine ⟨_, ⟨_, _, _, rfl, fun st => rfl⟩, _, rfl, ?_⟩
  exact (Gr.tableOrSubQuery_1 h0 .optNone).cast (by simp)

theorem prod_204 : ProdOk 204 := by
  intro w vs h
  obtain ⟨w0, _, _, _, rfl, rfl, ⟨l0, rfl, hk0, rfl, hq0⟩, w1, _, _, _, rfl, rfl, ⟨e1, rfl, h1⟩, w2, _, _, _, rfl, rfl, ⟨l2, rfl, hk2, rfl, hq2⟩, w3, _, _, _, rfl, rfl, ⟨e3, rfl, h3⟩, rfl, rfl⟩ := h
  obtain ⟨k0, t0⟩ := l0
  obtain rfl := code_inj (k' := .lpar) hk0
  obtain ⟨k2, t2⟩ := l2
  obtain rfl := code_inj (k' := .rpar) hk2
  refine ⟨_, ⟨_, _, _, rfl, fun st => rfl⟩, _, rfl, ?_⟩
  exact (Gr.tableOrSubQuery_2 (t2 := t2) (t0 := t0) h1 (.optSome h3)).cast (by simp)

theorem prod_205 : ProdOk 205 := by
  intro w vs h
  obtain ⟨w0, _, _, _, rfl, rfl, ⟨l0, rfl, hk0, rfl, hq0⟩, w1, _, _, _, rfl, rfl, ⟨e1, rfl, h1⟩, w2, _, _, _, rfl, rfl, ⟨l2, rfl, hk2, rfl, hq2⟩, rfl, rfl⟩ := h
  obtain ⟨k0, t0⟩ := l0
  obtain rfl := code_inj (k' := .lpar) hk0
  obtain ⟨k2, t2⟩ := l2
  obtain rfl := code_inj (k' := .rpar) hk2
  refine ⟨_, ⟨_, _, _, rfl, fun st => rfl⟩, _, rfl, ?_⟩
  exact (Gr.tableOrSubQuery_2 (t2 := t2) (t0 := t0) h1 .optNone).cast (by simp)

theorem prod_206 : ProdOk 206 := by
  intro w vs h
  obtain ⟨w0, _, _, _, rfl, rfl, ⟨l0, rfl, hk0, rfl, hq0⟩, w1, _, _, _, rfl, rfl, ⟨e1, rfl, h1⟩, w2, _, _, _, rfl, rfl, ⟨l2, rfl, hk2, rfl, hq2⟩, rfl, rfl⟩ := h
  obtain ⟨k0, t0⟩ := l0
  obtain rfl := code_inj (k' := .lpar) hk0
  obtain ⟨k2, t2⟩ := l2
  obtain rfl := code_inj (k' := .rpar) hk2
  refine ⟨_, ⟨_, _, _, rfl, fun st => rfl⟩, _, rfl, ?_⟩
  exact (Gr.tableOrSubQuery_3 (t2 := t2) (t0 := t0) h1).cast (by simp)

theorem prod_207 : ProdOk 207 := by
  intro w vs h
  obtain ⟨w0, _, _, _, rfl, rfl, ⟨l0, rfl, hk0, rfl, hq0⟩, w1, _, _, _, rfl, rfl, ⟨e1, rfl, h1⟩, w2, _, _, _, rfl, rfl, ⟨l2, rfl, hk2, rfl, hq2⟩, rfl, rfl⟩ := h
  obtain ⟨k0, t0⟩ := l0
  obtain rfl := code_inj (k' := .lpar) hk0
  obtain ⟨k2, t2⟩ := l2
  obtain rfl := code_inj (k' := .rpar) hk2
  refine ⟨_, ⟨_, _, _, rfl, fun st => rfl⟩, _, rfl, ?_⟩
  exact (Gr.tuple_1 (t2 := t2) (t0 := t0) h1).cast (by simp)

theorem prod_208 : ProdOk 208 := by
  intro w vs h
  obtain ⟨w0, _, _, _, rfl, rfl, ⟨e0, rfl, h0⟩, rfl, rfl⟩ := h
  refine ⟨_, ⟨_, _, _, rfl, fun st => rfl⟩, _, rfl, ?_⟩
  exact (Gr.tupleList_1 h0).cast (by simp)

theorem prod_209 : ProdOk 209 := by
  intro w vs h
  obtain ⟨w0, _, _, _, rfl, rfl, ⟨e0, rfl, h0⟩, w1, _, _, _, rfl, rfl, ⟨l1, rfl, hk1, rfl, hq1⟩, w2, _, _, _, rfl, rfl, ⟨e2, rfl, h2⟩, rfl, rfl⟩ := h
  obtain ⟨k1, t1⟩ := l1
  obtain rfl := code_inj (k' := .comma) hk1
  refine ⟨_, ⟨_, _, _, rfl, fun st => rfl⟩, _, rfl, ?_⟩
  exact (Gr.tupleList_2 (t1 := t1) h0 h2).cast (by simp)

theorem prod_210 : ProdOk 210 := by
  intro w vs h
  obtain ⟨w0, _, _, _, rfl, rfl, ⟨e0, rfl, h0⟩, rfl, rfl⟩ := h
  refine ⟨_, ⟨_, _, _, rfl, fun st => rfl⟩, _, rfl, ?_⟩
  exact (Gr.unaryExpression_1 h0).cast (by simp)

theorem prod_211 : ProdOk 211 := by
  intro w vs h
  obtain ⟨w0, _, _, _, rfl, rfl, ⟨l0, rfl, hk0, rfl, hq0⟩, w1, _, _, _, rfl, rfl, ⟨e1, rfl, h1⟩, rfl, rfl⟩ := h
  obtain ⟨k0, t0⟩ := l0
  obtain rfl := code_inj (k' := .plus) hk0
  refine ⟨_, ⟨_, _, _, rfl, fun st => rfl⟩, _, rfl, ?_⟩
  exact (Gr.unaryExpression_2 (t0 := t0) h1).cast (by simp)

theorem prod_212 : ProdOk 212 := by
  intro w vs h
  obtain ⟨w0, _, _, _, rfl, rfl, ⟨l0, rfl, hk0, rfl, hq0⟩, w1, _, _, _, rfl, rfl, ⟨e1, rfl, h1⟩, rfl, rfl⟩ := h
  obtain ⟨k0, t0⟩ := l0
  obtain rfl := code_inj (k' := .minus) hk0
  refine ⟨_, ⟨_, _, _, rfl, fun st => rfl⟩, _, rfl, ?_⟩
  exact (Gr.unaryExpression_3 (t0 := t0) h1).cast (by simp)

theorem prod_213 : ProdOk 213 := by
  intro w vs h
  obtain ⟨w0, _, _, _, rfl, rfl, ⟨e0, rfl, h0⟩, w1, _, _, _, rfl, rfl, ⟨l1, rfl, hk1, rfl, hq1⟩, w2, _, _, _, rfl, rfl, ⟨e2, rfl, h2⟩, w3, _, _, _, rfl, rfl, ⟨l3, rfl, hk3, rfl, hq3⟩, w4, _, _, _, rfl, rfl, ⟨e4, rfl, h4⟩, w5, _, _, _, rfl, rfl, ⟨e5, rfl, h5⟩, rfl, rfl⟩ := h
  obtain ⟨k1, t1⟩ := l1
  obtain rfl := code_inj (k' := .UPDATE) hk1
  obtain ⟨k3, t3⟩ := l3
  obtain rfl := code_inj (k' := .SET) hk3
  refine ⟨_, ⟨_, _, _, rfl, fun st => rfl⟩, _, rfl, ?_⟩
  exact (Gr.updateStatement_1 (t3 := t3) (t1 := t1) (.optSome h0) h2 h4 (.optSome h5)).cast (by simp)

theorem prod_214 : ProdOk 214 := by
  intro w vs h
  obtain ⟨w0, _, _, _, rfl, rfl, ⟨e0, rfl, h0⟩, w1, _, _, _, rfl, rfl, ⟨l1, rfl, hk1, rfl, hq1⟩, w2, _, _, _, rfl, rfl, ⟨e2, rfl, h2⟩, w3, _, _, _, rfl, rfl, ⟨l3, rfl, hk3, rfl, hq3⟩, w4, _, _, _, rfl, rfl, ⟨e4, rfl, h4⟩, rfl, rfl⟩ := h
  obtain ⟨k1, t1⟩ := l1
  obtain rfl := code_inj (k' := .UPDATE) hk1
  obtain ⟨k3, t3⟩ := l3
  obtain rfl := code_inj (k' := .SET) hk3
  refine ⟨_, ⟨_, _, _, rfl, fun st => rfl⟩, _, rfl, ?_⟩
  exact (Gr.updateStatement_1 (t3 := t3) (t1 := t1) (.optSome h0) h2 h4 .optNone).cast (by simp)

theorem prod_215 : ProdOk 215 := by
  intro w vs h
  obtain ⟨w0, _, _, _, rfl, rfl, ⟨l0, rfl, hk0, rfl, hq0⟩, w1, _, _, _, rfl, rfl, ⟨e1, rfl, h1⟩, w2, _, _, _, rfl, rfl, ⟨l2, rfl, hk2, rfl, hq2⟩, w3, _, _, _, rfl, rfl, ⟨e3, rfl, h3⟩, w4, _, _, _, rfl, rfl, ⟨e4, rfl, h4⟩, rfl, rfl⟩ := h
  obtain ⟨k0, t0⟩ := l0
  obtain rfl := code_inj (k' := .UPDATE) hk0
  obtain ⟨k2, t2⟩ := l2
  obtain rfl := code_inj (k' := .SET) hk2
  refine ⟨_, ⟨_, _, _, rfl, fun st => rfl⟩, _, rfl, ?_⟩
  exact (Gr.updateStatement_1 (t3 := t2) (t1 := t0) .optNone h1 h3 (.optSome h4)).cast (by simp)

theorem prod_216 : ProdOk 216 := by
  intro w vs h
  obtain ⟨w0, _, _, _, rfl, rfl, ⟨l0, rfl, hk0, rfl, hq0⟩, w1, _, _, _, rfl, rfl, ⟨e1, rfl, h1⟩, w2, _, _, _, rfl, rfl, ⟨l2, rfl, hk2, rfl, hq2⟩, w3, _, _, _, rfl, rfl, ⟨e3, rfl, h3⟩, rfl, rfl⟩ := h
  obtain ⟨k0, t0⟩ := l0
  obtain rfl := code_inj (k' := .UPDATE) hk0
  obtain ⟨k2, t2⟩ := l2
  obtain rfl := code_inj (k' := .SET) hk2
  refine ⟨_, ⟨_, _, _, rfl, fun st => rfl⟩, _, rfl, ?_⟩
  exact (Gr.updateStatement_1 (t3 := t2) (t1 := t0) .optNone h1 h3 .optNone).cast (by simp)

theorem prod_217 : ProdOk 217 := by
  intro w vs h
  obtain ⟨w0, _, _, _, rfl, rfl, ⟨l0, rfl, hk0, rfl, hq0⟩, w1, _, _, _, rfl, rfl, ⟨e1, rfl, h1⟩, w2, _, _, _, rfl, rfl, ⟨l2, rfl, hk2, rfl, hq2⟩, w3, _, _, _, rfl, rfl, ⟨e3, rfl, h3⟩, rfl, rfl⟩ := h
  obtain ⟨k0, t0⟩ := l0
  obtain rfl := code_inj (k' := .WHEN) hk0
  obtain ⟨k2, t2⟩ := l2
  obtain rfl := code_inj (k' := .THEN) hk2
  refine ⟨_, ⟨_, _, _, rfl, fun st => rfl⟩, _, rfl, ?_⟩
  exact (Gr.whenClause_1 (t2 := t2) (t0 := t0) h1 h3).cast (by simp)

theorem prod_218 : ProdOk 218 := by
  intro w vs h
  obtain ⟨w0, _, _, _, rfl, rfl, ⟨e0, rfl, h0⟩, rfl, rfl⟩ := h
  refine ⟨_, ⟨_, _, _, rfl, fun st => rfl⟩, _, rfl, ?_⟩
  exact (Gr.whenClauses_1 h0).cast (by simp)

theorem prod_219 : ProdOk 219 := by
  intro w vs h
  obtain ⟨w0, _, _, _, rfl, rfl, ⟨e0, rfl, h0⟩, w1, _, _, _, rfl, rfl, ⟨e1, rfl, h1⟩, rfl, rfl⟩ := h
  refine ⟨_, ⟨_, _, _, rfl, fun st => rfl⟩, _, rfl, ?_⟩
  exact (Gr.whenClauses_2 h0 h1).cast (by simp)

theorem prod_220 : ProdOk 220 := by
  intro w vs h
  obtain ⟨w0, _, _, _, rfl, rfl, ⟨l0, rfl, hk0, rfl, hq0⟩, w1, _, _, _, rfl, rfl, ⟨e1, rfl, h1⟩, rfl, rfl⟩ := h
  obtain ⟨k0, t0⟩ := l0
  obtain rfl := code_inj (k' := .WHERE) hk0
  refine ⟨_, ⟨_, _, _, rfl, fun st => rfl⟩, _, rfl, ?_⟩
  exact (Gr.whereClause_1 (t0 := t0) h1).cast (by simp)

theorem prods_ok : ∀ p, p < 223 → optMask.testBit (lhs p) = false → ProdOk p := by
  have h : ∀ b, b < 14 → ∀ i, i < 16 → 16 * b + i < 223 → optMask.testBit (lhs (16 * b + i)) = false →
      ProdOk (16 * b + i) := by
    intro b hb
    match b, hb with
    | 0, _ =>
      intro i hi
      match i, hi with
      | 0, _ => intro _ h; exact absurd h (by decide)
      | 1, _ => intro _ h; exact absurd h (by decide)
      | 2, _ => intro _ h; exact absurd h (by decide)
      | 3, _ => intro _ h; exact absurd h (by decide)
      | 4, _ => intro _ h; exact absurd h (by decide)
      | 5, _ => intro _ h; exact absurd h (by decide)
      | 6, _ => intro _ h; exact absurd h (by decide)
      | 7, _ => intro _ h; exact absurd h (by decide)
      | 8, _ => intro _ h; exact absurd h (by decide)
      | 9, _ => intro _ h; exact absurd h (by decide)
      | 10, _ => intro _ h; exact absurd h (by decide)
      | 11, _ => exact fun _ _ => prod_11
      | 12, _ => exact fun _ _ => prod_12
      | 13, _ => exact fun _ _ => prod_13
      | 14, _ => exact fun _ _ => prod_14
      | 15, _ => exact fun _ _ => prod_15
      | n + 16, h => exact absurd h (by omega)
    | 1, _ =>
      intro i hi
      match i, hi with
      | 0, _ => exact fun _ _ => prod_16
      | 1, _ => exact fun _ _ => prod_17
      | 2, _ => exact fun _ _ => prod_18
      | 3, _ => exact fun _ _ => prod_19
      | 4, _ => exact fun _ _ => prod_20
      | 5, _ => exact fun _ _ => prod_21
      | 6, _ => exact fun _ _ => prod_22
      | 7, _ => exact fun _ _ => prod_23
      | 8, _ => exact fun _ _ => prod_24
      | 9, _ => exact fun _ _ => prod_25
      | 10, _ => exact fun _ _ => prod_26
      | 11, _ => intro _ h; exact absurd h (by decide)
      | 12, _ => intro _ h; exact absurd h (by decide)
      | 13, _ => exact fun _ _ => prod_29
      | 14, _ => exact fun _ _ => prod_30
      | 15, _ => exact fun _ _ => prod_31
      | n + 16, h => exact absurd h (by omega)
    | 2, _ =>
      intro i hi
      match i, hi with
      | 0, _ => exact fun _ _ => prod_32
      | 1, _ => exact fun _ _ => prod_33
      | 2, _ => exact fun _ _ => prod_34
      | 3, _ => exact fun _ _ => prod_35
      | 4, _ => exact fun _ _ => prod_36
      | 5, _ => exact fun _ _ => prod_37
      | 6, _ => exact fun _ _ => prod_38
      | 7, _ => exact fun _ _ => prod_39
      | 8, _ => exact fun _ _ => prod_40
      | 9, _ => exact fun _ _ => prod_41
      | 10, _ => exact fun _ _ => prod_42
      | 11, _ => exact fun _ _ => prod_43
      | 12, _ => exact fun _ _ => prod_44
      | 13, _ => exact fun _ _ => prod_45
      | 14, _ => exact fun _ _ => prod_46
      | 15, _ => exact fun _ _ => prod_47
      | n + 16, h => exact absurd h (by omega)
    | 3, _ =>
      intro i hi
      match i, hi with
      | 0, _ => exact fun _ _ => prod_48
      | 1, _ => exact fun _ _ => prod_49
      | 2, _ => exact fun _ _ => prod_50
      | 3, _ => exact fun _ _ => prod_51
      | 4, _ => exact fun _ _ => prod_52
      | 5, _ => exact fun _ _ => prod_53
      | 6, _ => exact fun _ _ => prod_54
      | 7, _ => exact fun _ _ => prod_55
      | 8, _ => exact fun _ _ => prod_56
      | 9, _ => exact fun _ _ => prod_57
      | 10, _ => exact fun _ _ => prod_58
      | 11, _ => exact fun _ _ => prod_59
      | 12, _ => exact fun _ _ => prod_60
      | 13, _ => exact fun _ _ => prod_61
      | 14, _ => exact fun _ _ => prod_62
      | 15, _ => exact fun _ _ => prod_63
      | n + 16, h => exact absurd h (by omega)
    | 4, _ =>
      intro i hi
      match i, hi with
      | 0, _ => exact fun _ _ => prod_64
      | 1, _ => exact fun _ _ => prod_65
      | 2, _ => exact fun _ _ => prod_66
      | 3, _ => exact fun _ _ => prod_67
      | 4, _ => exact fun _ _ => prod_68
      | 5, _ => intro _ h; exact absurd h (by decide)
      | 6, _ => intro _ h; exact absurd h (by decide)
      | 7, _ => exact fun _ _ => prod_71
      | 8, _ => intro _ h; exact absurd h (by decide)
      | 9, _ => intro _ h; exact absurd h (by decide)
      | 10, _ => exact fun _ _ => prod_74
      | 11, _ => exact fun _ _ => prod_75
      | 12, _ => exact fun _ _ => prod_76
      | 13, _ => exact fun _ _ => prod_77
      | 14, _ => exact fun _ _ => prod_78
      | 15, _ => intro _ h; exact absurd h (by decide)
      | n + 16, h => exact absurd h (by omega)
    | 5, _ =>
      intro i hi
      match i, hi with
      | 0, _ => intro _ h; exact absurd h (by decide)
      | 1, _ => exact fun _ _ => prod_81
      | 2, _ => exact fun _ _ => prod_82
      | 3, _ => exact fun _ _ => prod_83
      | 4, _ => exact fun _ _ => prod_84
      | 5, _ => exact fun _ _ => prod_85
      | 6, _ => exact fun _ _ => prod_86
      | 7, _ => exact fun _ _ => prod_87
      | 8, _ => exact fun _ _ => prod_88
      | 9, _ => exact fun _ _ => prod_89
      | 10, _ => exact fun _ _ => prod_90
      | 11, _ => exact fun _ _ => prod_91
      | 12, _ => exact fun _ _ => prod_92
      | 13, _ => exact fun _ _ => prod_93
      | 14, _ => exact fun _ _ => prod_94
      | 15, _ => exact fun _ _ => prod_95
      | n + 16, h => exact absurd h (by omega)
    | 6, _ =>
      intro i hi
      match i, hi with
      | 0, _ => exact fun _ _ => prod_96
      | 1, _ => exact fun _ _ => prod_97
      | 2, _ => exact fun _ _ => prod_98
      | 3, _ => exact fun _ _ => prod_99
      | 4, _ => exact fun _ _ => prod_100
      | 5, _ => exact fun _ _ => prod_101
      | 6, _ => intro _ h; exact absurd h (by decide)
      | 7, _ => intro _ h; exact absurd h (by decide)
      | 8, _ => exact fun _ _ => prod_104
      | 9, _ => exact fun _ _ => prod_105
      | 10, _ => exact fun _ _ => prod_106
      | 11, _ => intro _ h; exact absurd h (by decide)
      | 12, _ => intro _ h; exact absurd h (by decide)
      | 13, _ => exact fun _ _ => prod_109
      | 14, _ => exact fun _ _ => prod_110
      | 15, _ => exact fun _ _ => prod_111
      | n + 16, h => exact absurd h (by omega)
    | 7, _ =>
      intro i hi
      match i, hi with
      | 0, _ => exact fun _ _ => prod_112
      | 1, _ => exact fun _ _ => prod_113
      | 2, _ => exact fun _ _ => prod_114
      | 3, _ => exact fun _ _ => prod_115
      | 4, _ => exact fun _ _ => prod_116
      | 5, _ => exact fun _ _ => prod_117
      | 6, _ => exact fun _ _ => prod_118
      | 7, _ => exact fun _ _ => prod_119
      | 8, _ => exact fun _ _ => prod_120
      | 9, _ => exact fun _ _ => prod_121
      | 10, _ => exact fun _ _ => prod_122
      | 11, _ => exact fun _ _ => prod_123
      | 12, _ => exact fun _ _ => prod_124
      | 13, _ => exact fun _ _ => prod_125
      | 14, _ => exact fun _ _ => prod_126
      | 15, _ => exact fun _ _ => prod_127
      | n + 16, h => exact absurd h (by omega)
    | 8, _ =>
      intro i hi
      match i, hi with
      | 0, _ => exact fun _ _ => prod_128
      | 1, _ => intro _ h; exact absurd h (by decide)
      | 2, _ => intro _ h; exact absurd h (by decide)
      | 3, _ => exact fun _ _ => prod_131
      | 4, _ => intro _ h; exact absurd h (by decide)
      | 5, _ => intro _ h; exact absurd h (by decide)
      | 6, _ => exact fun _ _ => prod_134
      | 7, _ => exact fun _ _ => prod_135
      | 8, _ => exact fun _ _ => prod_136
      | 9, _ => exact fun _ _ => prod_137
      | 10, _ => exact fun _ _ => prod_138
      | 11, _ => exact fun _ _ => prod_139
      | 12, _ => exact fun _ _ => prod_140
      | 13, _ => exact fun _ _ => prod_141
      | 14, _ => exact fun _ _ => prod_142
      | 15, _ => exact fun _ _ => prod_143
      | n + 16, h => exact absurd h (by omega)
    | 9, _ =>
      intro i hi
      match i, hi with
      | 0, _ => exact fun _ _ => prod_144
      | 1, _ => exact fun _ _ => prod_145
      | 2, _ => exact fun _ _ => prod_146
      | 3, _ => exact fun _ _ => prod_147
      | 4, _ => exact fun _ _ => prod_148
      | 5, _ => exact fun _ _ => prod_149
      | 6, _ => exact fun _ _ => prod_150
      | 7, _ => exact fun _ _ => prod_151
      | 8, _ => exact fun _ _ => prod_152
      | 9, _ => exact fun _ _ => prod_153
      | 10, _ => exact fun _ _ => prod_154
      | 11, _ => exact fun _ _ => prod_155
      | 12, _ => exact fun _ _ => prod_156
      | 13, _ => intro _ h; exact absurd h (by decide)
      | 14, _ => intro _ h; exact absurd h (by decide)
      | 15, _ => exact fun _ _ => prod_159
      | n + 16, h => exact absurd h (by omega)
    | 10, _ =>
      intro i hi
      match i, hi with
      | 0, _ => exact fun _ _ => prod_160
      | 1, _ => exact fun _ _ => prod_161
      | 2, _ => exact fun _ _ => prod_162
      | 3, _ => exact fun _ _ => prod_163
      | 4, _ => exact fun _ _ => prod_164
      | 5, _ => exact fun _ _ => prod_165
      | 6, _ => exact fun _ _ => prod_166
      | 7, _ => exact fun _ _ => prod_167
      | 8, _ => exact fun _ _ => prod_168
      | 9, _ => exact fun _ _ => prod_169
      | 10, _ => exact fun _ _ => prod_170
      | 11, _ => exact fun _ _ => prod_171
      | 12, _ => exact fun _ _ => prod_172
      | 13, _ => exact fun _ _ => prod_173
      | 14, _ => exact fun _ _ => prod_174
      | 15, _ => exact fun _ _ => prod_175
      | n + 16, h => exact absurd h (by omega)
    | 11, _ =>
      intro i hi
      match i, hi with
      | 0, _ => exact fun _ _ => prod_176
      | 1, _ => exact fun _ _ => prod_177
      | 2, _ => exact fun _ _ => prod_178
      | 3, _ => exact fun _ _ => prod_179
      | 4, _ => exact fun _ _ => prod_180
      | 5, _ => exact fun _ _ => prod_181
      | 6, _ => exact fun _ _ => prod_182
      | 7, _ => exact fun _ _ => prod_183
      | 8, _ => exact fun _ _ => prod_184
      | 9, _ => exact fun _ _ => prod_185
      | 10, _ => exact fun _ _ => prod_186
      | 11, _ => exact fun _ _ => prod_187
      | 12, _ => exact fun _ _ => prod_188
      | 13, _ => exact fun _ _ => prod_189
      | 14, _ => exact fun _ _ => prod_190
      | 15, _ => exact fun _ _ => prod_191
      | n + 16, h => exact absurd h (by omega)
    | 12, _ =>
      intro i hi
      match i, hi with
      | 0, _ => exact fun _ _ => prod_192
      | 1, _ => intro _ h; exact absurd h (by decide)
      | 2, _ => intro _ h; exact absurd h (by decide)
      | 3, _ => exact fun _ _ => prod_195
      | 4, _ => exact fun _ _ => prod_196
      | 5, _ => exact fun _ _ => prod_197
      | 6, _ => exact fun _ _ => prod_198
      | 7, _ => exact fun _ _ => prod_199
      | 8, _ => intro _ h; exact absurd h (by decide)
      | 9, _ => intro _ h; exact absurd h (by decide)
      | 10, _ => exact fun _ _ => prod_202
      | 11, _ => exact fun _ _ => prod_203
      | 12, _ => exact fun _ _ => prod_204
      | 13, _ => exact fun _ _ => prod_205
      | 14, _ => exact fun _ _ => prod_206
      | 15, _ => exact fun _ _ => prod_207
      | n + 16, h => exact absurd h (by omega)
    | 13, _ =>
      intro i hi
      match i, hi with
      | 0, _ => exact fun _ _ => prod_208
      | 1, _ => exact fun _ _ => prod_209
      | 2, _ => exact fun _ _ => prod_210
      | 3, _ => exact fun _ _ => prod_211
      | 4, _ => exact fun _ _ => prod_212
      | 5, _ => exact fun _ _ => prod_213
      | 6, _ => exact fun _ _ => prod_214
      | 7, _ => exact fun _ _ => prod_215
      | 8, _ => exact fun _ _ => prod_216
      | 9, _ => exact fun _ _ => prod_217
      | 10, _ => exact fun _ _ => prod_218
      | 11, _ => exact fun _ _ => prod_219
      | 12, _ => exact fun _ _ => prod_220
      | 13, _ => intro _ h; exact absurd h (by decide)
      | 14, _ => intro _ h; exact absurd h (by decide)
      | 15, _ => intro h; omega
      | n + 16, h => exact absurd h (by omega)
    | n + 14, h => exact absurd h (by omega)
  intro p hp ho
  have e : 16 * (p / 16) + p % 16 = p := by omega
  have := h (p / 16) (by omega) (p % 16) (by omega)
  rw [e] at this
  exact this hp ho

end Verif.Sql.Parser
