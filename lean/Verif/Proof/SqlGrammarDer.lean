import Verif.Proof.SqlLrComplete
/-!
# From the grammar to derivations of the generated parser

Every derivation of the grammar (`Verif/Spec/SqlGrammar.lean`) is one with the productions of the parser, where
optional parts have been expanded, and the reductions compute the value the grammar gives.
-/

namespace Verif.Sql.Parser
open Grammar

theorem Ders.cast {Xs w w' vs} (h : Ders Xs w vs) (e : w = w') : Ders Xs w' vs := e ▸ h

/-- What a derivation of the grammar is for the parser. -/
def DerOf : (s : Nt) → List Lexeme → Grammar.Ty s → Prop
  | .sqlStatement, w, v => Ders [.n 61] w [.variant41 v]
  | .statement, w, v => Ders [.n 62] w [.variant42 v]
  | .insertStatement, w, v => Ders [.n 31] w [.variant21 v]
  | .columnNameList, w, v => Ders [.n 12] w [.variant8 v]
  | .deleteStatement, w, v => Ders [.n 19] w [.variant13 v]
  | .updateStatement, w, v => Ders [.n 74] w [.variant46 v]
  | .assignments, w, v => Ders [.n 9] w [.variant6 v]
  | .assignment, w, v => Ders [.n 8] w [.variant5 v]
  | .selectStatement, w, v => Ders [.n 60] w [.variant40 v]
  | .tableExpressions, w, v => Ders [.n 68] w [.variant11 v]
  | .commonTableExpressionList, w, v => Ders [.n 15] w [.variant11 v]
  | .commonTableExpression, w, v => Ders [.n 14] w [.variant10 v]
  | .selectCoreList, w, v => Ders [.n 58] w [.variant38 v]
  | .compoundOperator, w, v => Ders [.n 18] w [.variant12 v]
  | .selectCore, w, v => Ders [.n 57] w [.variant38 v]
  | .selectMode, w, v => Ders [.n 59] w [.variant39 v]
  | .tupleList, w, v => Ders [.n 72] w [.variant45 v]
  | .tuple, w, v => Ders [.n 71] w [.variant16 v]
  | .resultColumns, w, v => Ders [.n 54] w [.variant37 v]
  | .resultColumnList, w, v => Ders [.n 53] w [.variant36 v]
  | .resultColumn, w, v => Ders [.n 52] w [.variant35 v]
  | .qualifiedIdentifier, w, v => Ders [.n 51] w [.variant8 v]
  | .fromClause, w, v => Ders [.n 26] w [.variant17 v]
  | .tableExpressionList, w, v => Ders [.n 67] w [.variant17 v]
  | .tableExpression, w, v => Ders [.n 66] w [.variant43 v]
  | .tableOrSubQuery, w, v => Ders [.n 70] w [.variant43 v]
  | .tableAlias, w, v => Ders [.n 64] w [.variant20 v]
  | .joinOperator, w, v => Ders [.n 33] w [.variant23 v]
  | .joinType, w, v => Ders [.n 34] w [.variant24 v]
  | .joinConstraint, w, v => Ders [.n 32] w [.variant22 v]
  | .identifierList, w, v => Ders [.n 30] w [.variant8 v]
  | .whereClause, w, v => Ders [.n 77] w [.variant4 v]
  | .groupByClause, w, v => Ders [.n 27] w [.variant18 v]
  | .orderByClause, w, v => Ders [.n 43] w [.variant30 v]
  | .orderingTermList, w, v => Ders [.n 49] w [.variant30 v]
  | .orderingTerm, w, v => Ders [.n 48] w [.variant34 v]
  | .orderingCollation, w, v => Ders [.n 45] w [.variant20 v]
  | .orderingDirection, w, v => Ders [.n 47] w [.variant33 v]
  | .limitClause, w, v => Ders [.n 36] w [.variant26 v]
  | .attachStatement, w, v => Ders [.n 10] w [.variant7 v]
  | .describeStatement, w, v => Ders [.n 20] w [.variant14 v]
  | .schemaName, w, v => Ders [.n 55] w [.variant20 v]
  | .expressionList, w, v => Ders [.n 25] w [.variant16 v]
  | .primaryExpression, w, v => Ders [.n 50] w [.variant4 v]
  | .unaryExpression, w, v => Ders [.n 73] w [.variant4 v]
  | .multiplicativeExpression, w, v => Ders [.n 39] w [.variant4 v]
  | .additiveExpression, w, v => Ders [.n 6] w [.variant4 v]
  | .comparativeExpression, w, v => Ders [.n 16] w [.variant4 v]
  | .complexExpression, w, v => Ders [.n 17] w [.variant4 v]
  | .caseExpression, w, v => Ders [.n 11] w [.variant4 v]
  | .whenClauses, w, v => Ders [.n 76] w [.variant48 v]
  | .whenClause, w, v => Ders [.n 75] w [.variant47 v]
  | .elseClause, w, v => Ders [.n 21] w [.variant4 v]
  | .notExpression, w, v => Ders [.n 40] w [.variant4 v]
  | .andExpression, w, v => Ders [.n 7] w [.variant4 v]
  | .orExpression, w, v => Ders [.n 42] w [.variant4 v]
  | .expression, w, v => Ders [.n 23] w [.variant4 v]
  | .literalValue, w, v => Ders [.n 38] w [.variant28 v]
  | .identifier, w, v => Ders [.n 29] w [.variant20 v]
  | .numericLiteral, w, v => Ders [.n 41] w [.variant29 v]
  | .stringLiteral, w, v => Ders [.n 63] w [.variant29 v]
  | .tok k, w, v => w = [(k, v)]
  | .opt s, w, v => (w = [] ∧ v = none) ∨ ∃ x, v = some x ∧ DerOf s w x

theorem stringBody_quoted (s : Str) : stringBody ('\'' :: (s ++ ['\''])) = .ok s := by
  cases s with
  | nil => rfl
  | cons c r =>
    have h1 : ((c :: r) ++ ['\'']).getLast (by simp) = '\'' := List.getLast_concat
    have h2 : ((c :: r) ++ ['\'']).dropLast = c :: r := List.dropLast_concat
    simp only [List.cons_append] at h1 h2
    simp only [List.cons_append, stringBody, h1, h2]
    rfl

theorem gr_ders {s : Nt} {w : List Lexeme} {v : Grammar.Ty s} (h : Gr s w v) : DerOf s w v := by
  induction h with
  | tok => exact rfl
  | optNone => exact .inl ⟨rfl, rfl⟩
  | optSome _ ih => exact .inr ⟨_, rfl, ih⟩
  | @sqlStatement_1 _ _ _ ih0 =>
    exact (Ders.single 181 (by decide) ih0 ⟨_, _, _, rfl, fun st => rfl⟩).cast (by simp)
  | @sqlStatement_2 _ t0 _ _ ih1 =>
    exact (Ders.single 183 (by decide) ((Ders.word (k := .EXPLAIN) (t := t0)).append ih1) ⟨_, _, _, rfl, fun st => rfl⟩).cast (by simp)
  | @sqlStatement_3 _ t0 t1 t2 _ _ ih3 =>
    exact (Ders.single 182 (by decide) ((Ders.word (k := .EXPLAIN) (t := t0)).append ((Ders.word (k := .QUERY) (t := t1)).append ((Ders.word (k := .PLAN) (t := t2)).append ih3))) ⟨_, _, _, rfl, fun st => rfl⟩).cast (by simp)
  | @sqlStatement_4 _ _ _ ih0 =>
    exact (Ders.single 184 (by decide) ih0 ⟨_, _, _, rfl, fun st => rfl⟩).cast (by simp)
  | @sqlStatement_5 _ _ _ ih0 =>
    exact (Ders.single 185 (by decide) ih0 ⟨_, _, _, rfl, fun st => rfl⟩).cast (by simp)
  | @statement_1 _ _ _ ih0 =>
    exact (Ders.single 186 (by decide) ih0 ⟨_, _, _, rfl, fun st => rfl⟩).cast (by simp)
  | @statement_2 _ _ _ ih0 =>
    exact (Ders.single 187 (by decide) ih0 ⟨_, _, _, rfl, fun st => rfl⟩).cast (by simp)
  | @statement_3 _ _ _ ih0 =>
    exact (Ders.single 188 (by decide) ih0 ⟨_, _, _, rfl, fun st => rfl⟩).cast (by simp)
  | @statement_4 _ _ _ ih0 =>
    exact (Ders.single 189 (by decide) ih0 ⟨_, _, _, rfl, fun st => rfl⟩).cast (by simp)
  | @insertStatement_1 _ _ _ _ t1 t2 _ _ _ _ _ _ _ _ ih0 ih3 ih4 ih5 =>
    rcases ih0 with ⟨rfl, rfl⟩ | ⟨x0, rfl, ih0⟩
    · rcases ih4 with ⟨rfl, rfl⟩ | ⟨x4, rfl, ih4⟩
      · exact (Ders.single 87 (by decide) ((Ders.word (k := .INSERT) (t := t1)).append ((Ders.word (k := .INTO) (t := t2)).append (ih3.append ih5))) ⟨_, _, _, rfl, fun st => rfl⟩).cast (by simp)
      · exact (Ders.single 85 (by decide) ((Ders.word (k := .INSERT) (t := t1)).append ((Ders.word (k := .INTO) (t := t2)).append (ih3.append (ih4.append ih5)))) ⟨_, _, _, rfl, fun st => rfl⟩).cast (by simp)
    · rcases ih4 with ⟨rfl, rfl⟩ | ⟨x4, rfl, ih4⟩
      · exact (Ders.single 86 (by decide) (ih0.append ((Ders.word (k := .INSERT) (t := t1)).append ((Ders.word (k := .INTO) (t := t2)).append (ih3.append ih5)))) ⟨_, _, _, rfl, fun st => rfl⟩).cast (by simp)
      · exact (Ders.single 84 (by decide) (ih0.append ((Ders.word (k := .INSERT) (t := t1)).append ((Ders.word (k := .INTO) (t := t2)).append (ih3.append (ih4.append ih5))))) ⟨_, _, _, rfl, fun st => rfl⟩).cast (by simp)
  | @columnNameList_1 _ t0 t2 _ _ ih1 =>
    exact (Ders.single 26 (by decide) ((Ders.word (k := .lpar) (t := t0)).append (ih1.append (Ders.word (k := .rpar) (t := t2)))) ⟨_, _, _, rfl, fun st => rfl⟩).cast (by simp)
  | @deleteStatement_1 _ _ _ t1 t2 _ _ _ _ _ _ ih0 ih3 ih4 =>
    rcases ih0 with ⟨rfl, rfl⟩ | ⟨x0, rfl, ih0⟩
    · rcases ih4 with ⟨rfl, rfl⟩ | ⟨x4, rfl, ih4⟩
      · exact (Ders.single 65 (by decide) ((Ders.word (k := .DELETE) (t := t1)).append ((Ders.word (k := .FROM) (t := t2)).append ih3)) ⟨_, _, _, rfl, fun st => rfl⟩).cast (by simp)
      · exact (Ders.single 64 (by decide) ((Ders.word (k := .DELETE) (t := t1)).append ((Ders.word (k := .FROM) (t := t2)).append (ih3.append ih4))) ⟨_, _, _, rfl, fun st => rfl⟩).cast (by simp)
    · rcases ih4 with ⟨rfl, rfl⟩ | ⟨x4, rfl, ih4⟩
      · exact (Ders.single 63 (by decide) (ih0.append ((Ders.word (k := .DELETE) (t := t1)).append ((Ders.word (k := .FROM) (t := t2)).append ih3))) ⟨_, _, _, rfl, fun st => rfl⟩).cast (by simp)
      · exact (Ders.single 62 (by decide) (ih0.append ((Ders.word (k := .DELETE) (t := t1)).append ((Ders.word (k := .FROM) (t := t2)).append (ih3.append ih4)))) ⟨_, _, _, rfl, fun st => rfl⟩).cast (by simp)
  | @updateStatement_1 _ _ _ _ t1 t3 _ _ _ _ _ _ _ _ ih0 ih2 ih4 ih5 =>
    rcases ih0 with ⟨rfl, rfl⟩ | ⟨x0, rfl, ih0⟩
    · rcases ih5 with ⟨rfl, rfl⟩ | ⟨x5, rfl, ih5⟩
      · exact (Ders.single 216 (by decide) ((Ders.word (k := .UPDATE) (t := t1)).append (ih2.append ((Ders.word (k := .SET) (t := t3)).append ih4))) ⟨_, _, _, rfl, fun st => rfl⟩).cast (by simp)
      · exact (Ders.single 215 (by decide) ((Ders.word (k := .UPDATE) (t := t1)).append (ih2.append ((Ders.word (k := .SET) (t := t3)).append (ih4.append ih5)))) ⟨_, _, _, rfl, fun st => rfl⟩).cast (by simp)
    · rcases ih5 with ⟨rfl, rfl⟩ | ⟨x5, rfl, ih5⟩
      · exact (Ders.single 214 (by decide) (ih0.append ((Ders.word (k := .UPDATE) (t := t1)).append (ih2.append ((Ders.word (k := .SET) (t := t3)).append ih4)))) ⟨_, _, _, rfl, fun st => rfl⟩).cast (by simp)
      · exact (Ders.single 213 (by decide) (ih0.append ((Ders.word (k := .UPDATE) (t := t1)).append (ih2.append ((Ders.word (k := .SET) (t := t3)).append (ih4.append ih5))))) ⟨_, _, _, rfl, fun st => rfl⟩).cast (by simp)
  | @assignments_1 _ _ _ ih0 =>
    exact (Ders.single 18 (by decide) ih0 ⟨_, _, _, rfl, fun st => rfl⟩).cast (by simp)
  | @assignments_2 _ _ t1 _ _ _ _ ih0 ih2 =>
    exact (Ders.single 19 (by decide) (ih0.append ((Ders.word (k := .comma) (t := t1)).append ih2)) ⟨_, _, _, rfl, fun st => rfl⟩).cast (by simp)
  | @assignment_1 _ _ t1 _ _ _ _ ih0 ih2 =>
    exact (Ders.single 17 (by decide) (ih0.append ((Ders.word (k := .eq) (t := t1)).append ih2)) ⟨_, _, _, rfl, fun st => rfl⟩).cast (by simp)
  | @selectStatement_1 _ _ _ _ _ _ _ _ _ _ _ _ ih0 ih1 ih2 ih3 =>
    rcases ih2 with ⟨rfl, rfl⟩ | ⟨x2, rfl, ih2⟩
    · rcases ih3 with ⟨rfl, rfl⟩ | ⟨x3, rfl, ih3⟩
      · exact (Ders.single 176 (by decide) (ih0.append ih1) ⟨_, _, _, rfl, fun st => rfl⟩).cast (by simp)
      · exact (Ders.single 174 (by decide) (ih0.append (ih1.append ih3)) ⟨_, _, _, rfl, fun st => rfl⟩).cast (by simp)
    · rcases ih3 with ⟨rfl, rfl⟩ | ⟨x3, rfl, ih3⟩
      · exact (Ders.single 175 (by decide) (ih0.append (ih1.append ih2)) ⟨_, _, _, rfl, fun st => rfl⟩).cast (by simp)
      · exact (Ders.single 173 (by decide) (ih0.append (ih1.append (ih2.append ih3))) ⟨_, _, _, rfl, fun st => rfl⟩).cast (by simp)
  | @selectStatement_2 _ _ _ _ _ _ _ _ _ ih0 ih1 ih2 =>
    rcases ih1 with ⟨rfl, rfl⟩ | ⟨x1, rfl, ih1⟩
    · rcases ih2 with ⟨rfl, rfl⟩ | ⟨x2, rfl, ih2⟩
      · exact (Ders.single 180 (by decide) ih0 ⟨_, _, _, rfl, fun st => rfl⟩).cast (by simp)
      · exact (Ders.single 178 (by decide) (ih0.append ih2) ⟨_, _, _, rfl, fun st => rfl⟩).cast (by simp)
    · rcases ih2 with ⟨rfl, rfl⟩ | ⟨x2, rfl, ih2⟩
      · exact (Ders.single 179 (by decide) (ih0.append ih1) ⟨_, _, _, rfl, fun st => rfl⟩).cast (by simp)
      · exact (Ders.single 177 (by decide) (ih0.append (ih1.append ih2)) ⟨_, _, _, rfl, fun st => rfl⟩).cast (by simp)
  | @tableExpressions_1 _ t0 _ _ ih1 =>
    exact (Ders.single 199 (by decide) ((Ders.word (k := .WITH) (t := t0)).append ih1) ⟨_, _, _, rfl, fun st => rfl⟩).cast (by simp)
  | @commonTableExpressionList_1 _ _ _ ih0 =>
    exact (Ders.single 31 (by decide) ih0 ⟨_, _, _, rfl, fun st => rfl⟩).cast (by simp)
  | @commonTableExpressionList_2 _ _ t1 _ _ _ _ ih0 ih2 =>
    exact (Ders.single 32 (by decide) (ih0.append ((Ders.word (k := .comma) (t := t1)).append ih2)) ⟨_, _, _, rfl, fun st => rfl⟩).cast (by simp)
  | @commonTableExpression_1 _ _ t1 t2 t4 _ _ _ _ ih0 ih3 =>
    exact (Ders.single 29 (by decide) (ih0.append ((Ders.word (k := .AS) (t := t1)).append ((Ders.word (k := .lpar) (t := t2)).append (ih3.append (Ders.word (k := .rpar) (t := t4)))))) ⟨_, _, _, rfl, fun st => rfl⟩).cast (by simp)
  | @commonTableExpression_2 _ _ _ t1 t3 t4 t5 t7 _ _ _ _ _ _ ih0 ih2 ih6 =>
    exact (Ders.single 30 (by decide) (ih0.append ((Ders.word (k := .lpar) (t := t1)).append (ih2.append ((Ders.word (k := .rpar) (t := t3)).append ((Ders.word (k := .AS) (t := t4)).append ((Ders.word (k := .lpar) (t := t5)).append (ih6.append (Ders.word (k := .rpar) (t := t7))))))))) ⟨_, _, _, rfl, fun st => rfl⟩).cast (by simp)
  | @selectCoreList_1 _ _ _ ih0 =>
    exact (Ders.single 168 (by decide) ih0 ⟨_, _, _, rfl, fun st => rfl⟩).cast (by simp)
  | @selectCoreList_2 _ _ _ _ _ _ _ _ _ ih0 ih1 ih2 =>
    exact (Ders.single 169 (by decide) (ih0.append (ih1.append ih2)) ⟨_, _, _, rfl, fun st => rfl⟩).cast (by simp)
  | @compoundOperator_1 t0 =>
    exact (Ders.single 58 (by decide) (Ders.word (k := .UNION) (t := t0)) ⟨_, _, _, rfl, fun st => rfl⟩).cast (by simp)
  | @compoundOperator_2 t0 t1 =>
    exact (Ders.single 59 (by decide) ((Ders.word (k := .UNION) (t := t0)).append (Ders.word (k := .ALL) (t := t1))) ⟨_, _, _, rfl, fun st => rfl⟩).cast (by simp)
  | @compoundOperator_3 t0 =>
    exact (Ders.single 60 (by decide) (Ders.word (k := .INTERSECT) (t := t0)) ⟨_, _, _, rfl, fun st => rfl⟩).cast (by simp)
  | @compoundOperator_4 t0 =>
    exact (Ders.single 61 (by decide) (Ders.word (k := .EXCEPT) (t := t0)) ⟨_, _, _, rfl, fun st => rfl⟩).cast (by simp)
  | @selectCore_1 _ _ _ _ t0 _ _ _ _ _ _ _ _ ih1 ih2 ih3 ih4 =>
    rcases ih3 with ⟨rfl, rfl⟩ | ⟨x3, rfl, ih3⟩
    · rcases ih4 with ⟨rfl, rfl⟩ | ⟨x4, rfl, ih4⟩
      · exact (Ders.single 162 (by decide) ((Ders.word (k := .SELECT) (t := t0)).append (ih1.append ih2)) ⟨_, _, _, rfl, fun st => rfl⟩).cast (by simp)
      · exact (Ders.single 160 (by decide) ((Ders.word (k := .SELECT) (t := t0)).append (ih1.append (ih2.append ih4))) ⟨_, _, _, rfl, fun st => rfl⟩).cast (by simp)
    · rcases ih4 with ⟨rfl, rfl⟩ | ⟨x4, rfl, ih4⟩
      · exact (Ders.single 161 (by decide) ((Ders.word (k := .SELECT) (t := t0)).append (ih1.append (ih2.append ih3))) ⟨_, _, _, rfl, fun st => rfl⟩).cast (by simp)
      · exact (Ders.single 159 (by decide) ((Ders.word (k := .SELECT) (t := t0)).append (ih1.append (ih2.append (ih3.append ih4)))) ⟨_, _, _, rfl, fun st => rfl⟩).cast (by simp)
  | @selectCore_2 _ _ _ _ _ t0 _ _ _ _ _ _ _ _ _ _ ih1 ih2 ih3 ih4 ih5 =>
    rcases ih4 with ⟨rfl, rfl⟩ | ⟨x4, rfl, ih4⟩
    · rcases ih5 with ⟨rfl, rfl⟩ | ⟨x5, rfl, ih5⟩
      · exact (Ders.single 166 (by decide) ((Ders.word (k := .SELECT) (t := t0)).append (ih1.append (ih2.append ih3))) ⟨_, _, _, rfl, fun st => rfl⟩).cast (by simp)
      · exact (Ders.single 164 (by decide) ((Ders.word (k := .SELECT) (t := t0)).append (ih1.append (ih2.append (ih3.append ih5)))) ⟨_, _, _, rfl, fun st => rfl⟩).cast (by simp)
    · rcases ih5 with ⟨rfl, rfl⟩ | ⟨x5, rfl, ih5⟩
      · exact (Ders.single 165 (by decide) ((Ders.word (k := .SELECT) (t := t0)).append (ih1.append (ih2.append (ih3.append ih4)))) ⟨_, _, _, rfl, fun st => rfl⟩).cast (by simp)
      · exact (Ders.single 163 (by decide) ((Ders.word (k := .SELECT) (t := t0)).append (ih1.append (ih2.append (ih3.append (ih4.append ih5))))) ⟨_, _, _, rfl, fun st => rfl⟩).cast (by simp)
  | @selectCore_3 _ t0 _ _ ih1 =>
    exact (Ders.single 167 (by decide) ((Ders.word (k := .VALUES) (t := t0)).append ih1) ⟨_, _, _, rfl, fun st => rfl⟩).cast (by simp)
  | @selectMode_1 _ _ _ ih0 =>
    rcases ih0 with ⟨rfl, rfl⟩ | ⟨x0, rfl, ih0⟩
    · exact (Ders.single 171 (by decide) Ders.nil ⟨_, _, _, rfl, fun st => rfl⟩).cast (by simp)
    · obtain rfl := ih0
      have T0 : Ders [.t (code .ALL)] _ _ := Ders.word (k := .ALL) (t := x0)
      exact (Ders.single 170 (by decide) T0 ⟨_, _, _, rfl, fun st => rfl⟩).cast (by simp)
  | @selectMode_2 t0 =>
    exact (Ders.single 172 (by decide) (Ders.word (k := .DISTINCT) (t := t0)) ⟨_, _, _, rfl, fun st => rfl⟩).cast (by simp)
  | @tupleList_1 _ _ _ ih0 =>
    exact (Ders.single 208 (by decide) ih0 ⟨_, _, _, rfl, fun st => rfl⟩).cast (by simp)
  | @tupleList_2 _ _ t1 _ _ _ _ ih0 ih2 =>
    exact (Ders.single 209 (by decide) (ih0.append ((Ders.word (k := .comma) (t := t1)).append ih2)) ⟨_, _, _, rfl, fun st => rfl⟩).cast (by simp)
  | @tuple_1 _ t0 t2 _ _ ih1 =>
    exact (Ders.single 207 (by decide) ((Ders.word (k := .lpar) (t := t0)).append (ih1.append (Ders.word (k := .rpar) (t := t2)))) ⟨_, _, _, rfl, fun st => rfl⟩).cast (by simp)
  | @resultColumns_1 t0 =>
    exact (Ders.single 154 (by decide) (Ders.word (k := .star) (t := t0)) ⟨_, _, _, rfl, fun st => rfl⟩).cast (by simp)
  | @resultColumns_2 _ _ _ ih0 =>
    exact (Ders.single 155 (by decide) ih0 ⟨_, _, _, rfl, fun st => rfl⟩).cast (by simp)
  | @resultColumnList_1 _ _ _ ih0 =>
    exact (Ders.single 152 (by decide) ih0 ⟨_, _, _, rfl, fun st => rfl⟩).cast (by simp)
  | @resultColumnList_2 _ _ t1 _ _ _ _ ih0 ih2 =>
    exact (Ders.single 153 (by decide) (ih0.append ((Ders.word (k := .comma) (t := t1)).append ih2)) ⟨_, _, _, rfl, fun st => rfl⟩).cast (by simp)
  | @resultColumn_1 _ _ _ ih0 =>
    exact (Ders.single 148 (by decide) ih0 ⟨_, _, _, rfl, fun st => rfl⟩).cast (by simp)
  | @resultColumn_2 _ _ _ _ _ _ _ _ _ ih0 ih1 ih2 =>
    rcases ih1 with ⟨rfl, rfl⟩ | ⟨x1, rfl, ih1⟩
    · exact (Ders.single 150 (by decide) (ih0.append ih2) ⟨_, _, _, rfl, fun st => rfl⟩).cast (by simp)
    · obtain rfl := ih1
      have T1 : Ders [.t (code .AS)] _ _ := Ders.word (k := .AS) (t := x1)
      exact (Ders.single 149 (by decide) (ih0.append (T1.append ih2)) ⟨_, _, _, rfl, fun st => rfl⟩).cast (by simp)
  | @resultColumn_3 _ t1 t2 _ _ ih0 =>
    exact (Ders.single 151 (by decide) (ih0.append ((Ders.word (k := .dot) (t := t1)).append (Ders.word (k := .star) (t := t2)))) ⟨_, _, _, rfl, fun st => rfl⟩).cast (by simp)
  | @qualifiedIdentifier_1 _ _ _ ih0 =>
    exact (Ders.single 145 (by decide) ih0 ⟨_, _, _, rfl, fun st => rfl⟩).cast (by simp)
  | @qualifiedIdentifier_2 _ _ t1 _ _ _ _ ih0 ih2 =>
    exact (Ders.single 146 (by decide) (ih0.append ((Ders.word (k := .dot) (t := t1)).append ih2)) ⟨_, _, _, rfl, fun st => rfl⟩).cast (by simp)
  | @qualifiedIdentifier_3 _ _ _ t1 t3 _ _ _ _ _ _ ih0 ih2 ih4 =>
    exact (Ders.single 147 (by decide) (ih0.append ((Ders.word (k := .dot) (t := t1)).append (ih2.append ((Ders.word (k := .dot) (t := t3)).append ih4)))) ⟨_, _, _, rfl, fun st => rfl⟩).cast (by simp)
  | @fromClause_1 _ t0 _ _ ih1 =>
    exact (Ders.single 76 (by decide) ((Ders.word (k := .FROM) (t := t0)).append ih1) ⟨_, _, _, rfl, fun st => rfl⟩).cast (by simp)
  | @tableExpressionList_1 _ _ _ ih0 =>
    exact (Ders.single 197 (by decide) ih0 ⟨_, _, _, rfl, fun st => rfl⟩).cast (by simp)
  | @tableExpressionList_2 _ _ t1 _ _ _ _ ih0 ih2 =>
    exact (Ders.single 198 (by decide) (ih0.append ((Ders.word (k := .comma) (t := t1)).append ih2)) ⟨_, _, _, rfl, fun st => rfl⟩).cast (by simp)
  | @tableExpression_1 _ _ _ ih0 =>
    exact (Ders.single 195 (by decide) ih0 ⟨_, _, _, rfl, fun st => rfl⟩).cast (by simp)
  | @tableExpression_2 _ _ _ _ _ _ _ _ _ _ _ _ ih0 ih1 ih2 ih3 =>
    exact (Ders.single 196 (by decide) (ih0.append (ih1.append (ih2.append ih3))) ⟨_, _, _, rfl, fun st => rfl⟩).cast (by simp)
  | @tableOrSubQuery_1 _ _ _ _ _ _ ih0 ih1 =>
    rcases ih1 with ⟨rfl, rfl⟩ | ⟨x1, rfl, ih1⟩
    · exact (Ders.single 203 (by decide) ih0 ⟨_, _, _, rfl, fun st => rfl⟩).cast (by simp)
    · exact (Ders.single 202 (by decide) (ih0.append ih1) ⟨_, _, _, rfl, fun st => rfl⟩).cast (by simp)
  | @tableOrSubQuery_2 _ _ t0 t2 _ _ _ _ ih1 ih3 =>
    rcases ih3 with ⟨rfl, rfl⟩ | ⟨x3, rfl, ih3⟩
    · exact (Ders.single 205 (by decide) ((Ders.word (k := .lpar) (t := t0)).append (ih1.append (Ders.word (k := .rpar) (t := t2)))) ⟨_, _, _, rfl, fun st => rfl⟩).cast (by simp)
    · exact (Ders.single 204 (by decide) ((Ders.word (k := .lpar) (t := t0)).append (ih1.append ((Ders.word (k := .rpar) (t := t2)).append ih3))) ⟨_, _, _, rfl, fun st => rfl⟩).cast (by simp)
  | @tableOrSubQuery_3 _ t0 t2 _ _ ih1 =>
    exact (Ders.single 206 (by decide) ((Ders.word (k := .lpar) (t := t0)).append (ih1.append (Ders.word (k := .rpar) (t := t2)))) ⟨_, _, _, rfl, fun st => rfl⟩).cast (by simp)
  | @tableAlias_1 _ _ _ _ _ _ ih0 ih1 =>
    rcases ih0 with ⟨rfl, rfl⟩ | ⟨x0, rfl, ih0⟩
    · exact (Ders.single 192 (by decide) ih1 ⟨_, _, _, rfl, fun st => rfl⟩).cast (by simp)
    · obtain rfl := ih0
      have T0 : Ders [.t (code .AS)] _ _ := Ders.word (k := .AS) (t := x0)
      exact (Ders.single 191 (by decide) (T0.append ih1) ⟨_, _, _, rfl, fun st => rfl⟩).cast (by simp)
  | @joinOperator_1 _ t1 _ _ ih0 =>
    rcases ih0 with ⟨rfl, rfl⟩ | ⟨x0, rfl, ih0⟩
    · exact (Ders.single 91 (by decide) (Ders.word (k := .JOIN) (t := t1)) ⟨_, _, _, rfl, fun st => rfl⟩).cast (by simp)
    · exact (Ders.single 90 (by decide) (ih0.append (Ders.word (k := .JOIN) (t := t1))) ⟨_, _, _, rfl, fun st => rfl⟩).cast (by simp)
  | @joinOperator_2 _ t0 t2 _ _ ih1 =>
    rcases ih1 with ⟨rfl, rfl⟩ | ⟨x1, rfl, ih1⟩
    · exact (Ders.single 93 (by decide) ((Ders.word (k := .NATURAL) (t := t0)).append (Ders.word (k := .JOIN) (t := t2))) ⟨_, _, _, rfl, fun st => rfl⟩).cast (by simp)
    · exact (Ders.single 92 (by decide) ((Ders.word (k := .NATURAL) (t := t0)).append (ih1.append (Ders.word (k := .JOIN) (t := t2)))) ⟨_, _, _, rfl, fun st => rfl⟩).cast (by simp)
  | @joinOperator_3 t0 t1 =>
    exact (Ders.single 94 (by decide) ((Ders.word (k := .CROSS) (t := t0)).append (Ders.word (k := .JOIN) (t := t1))) ⟨_, _, _, rfl, fun st => rfl⟩).cast (by simp)
  | @joinType_1 _ t0 _ _ ih1 =>
    rcases ih1 with ⟨rfl, rfl⟩ | ⟨x1, rfl, ih1⟩
    · exact (Ders.single 96 (by decide) (Ders.word (k := .LEFT) (t := t0)) ⟨_, _, _, rfl, fun st => rfl⟩).cast (by simp)
    · obtain rfl := ih1
      have T1 : Ders [.t (code .OUTER)] _ _ := Ders.word (k := .OUTER) (t := x1)
      exact (Ders.single 95 (by decide) ((Ders.word (k := .LEFT) (t := t0)).append T1) ⟨_, _, _, rfl, fun st => rfl⟩).cast (by simp)
  | @joinType_2 _ t0 _ _ ih1 =>
    rcases ih1 with ⟨rfl, rfl⟩ | ⟨x1, rfl, ih1⟩
    · exact (Ders.single 98 (by decide) (Ders.word (k := .RIGHT) (t := t0)) ⟨_, _, _, rfl, fun st => rfl⟩).cast (by simp)
    · obtain rfl := ih1
      have T1 : Ders [.t (code .OUTER)] _ _ := Ders.word (k := .OUTER) (t := x1)
      exact (Ders.single 97 (by decide) ((Ders.word (k := .RIGHT) (t := t0)).append T1) ⟨_, _, _, rfl, fun st => rfl⟩).cast (by simp)
  | @joinType_3 _ t0 _ _ ih1 =>
    rcases ih1 with ⟨rfl, rfl⟩ | ⟨x1, rfl, ih1⟩
    · exact (Ders.single 100 (by decide) (Ders.word (k := .FULL) (t := t0)) ⟨_, _, _, rfl, fun st => rfl⟩).cast (by simp)
    · obtain rfl := ih1
      have T1 : Ders [.t (code .OUTER)] _ _ := Ders.word (k := .OUTER) (t := x1)
      exact (Ders.single 99 (by decide) ((Ders.word (k := .FULL) (t := t0)).append T1) ⟨_, _, _, rfl, fun st => rfl⟩).cast (by simp)
  | @joinType_4 t0 =>
    exact (Ders.single 101 (by decide) (Ders.word (k := .INNER) (t := t0)) ⟨_, _, _, rfl, fun st => rfl⟩).cast (by simp)
  | @joinConstraint_1 _ t0 _ _ ih1 =>
    exact (Ders.single 88 (by decide) ((Ders.word (k := .ON) (t := t0)).append ih1) ⟨_, _, _, rfl, fun st => rfl⟩).cast (by simp)
  | @joinConstraint_2 _ t0 t1 t3 _ _ ih2 =>
    exact (Ders.single 89 (by decide) ((Ders.word (k := .USING) (t := t0)).append ((Ders.word (k := .lpar) (t := t1)).append (ih2.append (Ders.word (k := .rpar) (t := t3))))) ⟨_, _, _, rfl, fun st => rfl⟩).cast (by simp)
  | @identifierList_1 _ _ _ ih0 =>
    exact (Ders.single 82 (by decide) ih0 ⟨_, _, _, rfl, fun st => rfl⟩).cast (by simp)
  | @identifierList_2 _ _ t1 _ _ _ _ ih0 ih2 =>
    exact (Ders.single 83 (by decide) (ih0.append ((Ders.word (k := .comma) (t := t1)).append ih2)) ⟨_, _, _, rfl, fun st => rfl⟩).cast (by simp)
  | @whereClause_1 _ t0 _ _ ih1 =>
    exact (Ders.single 220 (by decide) ((Ders.word (k := .WHERE) (t := t0)).append ih1) ⟨_, _, _, rfl, fun st => rfl⟩).cast (by simp)
  | @groupByClause_1 _ t0 t1 _ _ ih2 =>
    exact (Ders.single 77 (by decide) ((Ders.word (k := .GROUP) (t := t0)).append ((Ders.word (k := .BY) (t := t1)).append ih2)) ⟨_, _, _, rfl, fun st => rfl⟩).cast (by simp)
  | @groupByClause_2 _ _ t0 t1 t3 _ _ _ _ ih2 ih4 =>
    exact (Ders.single 78 (by decide) ((Ders.word (k := .GROUP) (t := t0)).append ((Ders.word (k := .BY) (t := t1)).append (ih2.append ((Ders.word (k := .HAVING) (t := t3)).append ih4)))) ⟨_, _, _, rfl, fun st => rfl⟩).cast (by simp)
  | @orderByClause_1 _ t0 t1 _ _ ih2 =>
    exact (Ders.single 128 (by decide) ((Ders.word (k := .ORDER) (t := t0)).append ((Ders.word (k := .BY) (t := t1)).append ih2)) ⟨_, _, _, rfl, fun st => rfl⟩).cast (by simp)
  | @orderingTermList_1 _ _ _ ih0 =>
    exact (Ders.single 139 (by decide) ih0 ⟨_, _, _, rfl, fun st => rfl⟩).cast (by simp)
  | @orderingTermList_2 _ _ t1 _ _ _ _ ih0 ih2 =>
    exact (Ders.single 140 (by decide) (ih0.append ((Ders.word (k := .comma) (t := t1)).append ih2)) ⟨_, _, _, rfl, fun st => rfl⟩).cast (by simp)
  | @orderingTerm_1 _ _ _ _ _ _ _ _ _ ih0 ih1 ih2 =>
    rcases ih1 with ⟨rfl, rfl⟩ | ⟨x1, rfl, ih1⟩
    · exact (Ders.single 138 (by decide) (ih0.append ih2) ⟨_, _, _, rfl, fun st => rfl⟩).cast (by simp)
    · exact (Ders.single 137 (by decide) (ih0.append (ih1.append ih2)) ⟨_, _, _, rfl, fun st => rfl⟩).cast (by simp)
  | @orderingCollation_1 _ t0 _ _ ih1 =>
    exact (Ders.single 131 (by decide) ((Ders.word (k := .COLLATE) (t := t0)).append ih1) ⟨_, _, _, rfl, fun st => rfl⟩).cast (by simp)
  | @orderingDirection_1 _ _ _ ih0 =>
    rcases ih0 with ⟨rfl, rfl⟩ | ⟨x0, rfl, ih0⟩
    · exact (Ders.single 135 (by decide) Ders.nil ⟨_, _, _, rfl, fun st => rfl⟩).cast (by simp)
    · obtain rfl := ih0
      have T0 : Ders [.t (code .ASC)] _ _ := Ders.word (k := .ASC) (t := x0)
      exact (Ders.single 134 (by decide) T0 ⟨_, _, _, rfl, fun st => rfl⟩).cast (by simp)
  | @orderingDirection_2 t0 =>
    exact (Ders.single 136 (by decide) (Ders.word (k := .DESC) (t := t0)) ⟨_, _, _, rfl, fun st => rfl⟩).cast (by simp)
  | @limitClause_1 _ t0 _ _ ih1 =>
    exact (Ders.single 104 (by decide) ((Ders.word (k := .LIMIT) (t := t0)).append ih1) ⟨_, _, _, rfl, fun st => rfl⟩).cast (by simp)
  | @limitClause_2 _ _ t0 t2 _ _ _ _ ih1 ih3 =>
    exact (Ders.single 105 (by decide) ((Ders.word (k := .LIMIT) (t := t0)).append (ih1.append ((Ders.word (k := .comma) (t := t2)).append ih3))) ⟨_, _, _, rfl, fun st => rfl⟩).cast (by simp)
  | @limitClause_3 _ _ t0 t2 _ _ _ _ ih1 ih3 =>
    exact (Ders.single 106 (by decide) ((Ders.word (k := .LIMIT) (t := t0)).append (ih1.append ((Ders.word (k := .OFFSET) (t := t2)).append ih3))) ⟨_, _, _, rfl, fun st => rfl⟩).cast (by simp)
  | @attachStatement_1 _ _ _ t0 t1 t3 _ _ _ _ _ _ ih2 ih4 ih5 =>
    rcases ih4 with ⟨rfl, rfl⟩ | ⟨x4, rfl, ih4⟩
    · exact (Ders.single 21 (by decide) ((Ders.word (k := .ATTACH) (t := t0)).append ((Ders.word (k := .FILE) (t := t1)).append (ih2.append ((Ders.word (k := .AS) (t := t3)).append ih5)))) ⟨_, _, _, rfl, fun st => rfl⟩).cast (by simp)
    · exact (Ders.single 20 (by decide) ((Ders.word (k := .ATTACH) (t := t0)).append ((Ders.word (k := .FILE) (t := t1)).append (ih2.append ((Ders.word (k := .AS) (t := t3)).append (ih4.append ih5))))) ⟨_, _, _, rfl, fun st => rfl⟩).cast (by simp)
  | @describeStatement_1 _ _ t0 _ _ _ _ ih1 ih2 =>
    rcases ih1 with ⟨rfl, rfl⟩ | ⟨x1, rfl, ih1⟩
    · exact (Ders.single 67 (by decide) ((Ders.word (k := .DESCRIBE) (t := t0)).append ih2) ⟨_, _, _, rfl, fun st => rfl⟩).cast (by simp)
    · exact (Ders.single 66 (by decide) ((Ders.word (k := .DESCRIBE) (t := t0)).append (ih1.append ih2)) ⟨_, _, _, rfl, fun st => rfl⟩).cast (by simp)
  | @schemaName_1 _ t1 _ _ ih0 =>
    exact (Ders.single 156 (by decide) (ih0.append (Ders.word (k := .dot) (t := t1))) ⟨_, _, _, rfl, fun st => rfl⟩).cast (by simp)
  | @expressionList_1 _ _ _ ih0 =>
    exact (Ders.single 74 (by decide) ih0 ⟨_, _, _, rfl, fun st => rfl⟩).cast (by simp)
  | @expressionList_2 _ _ t1 _ _ _ _ ih0 ih2 =>
    exact (Ders.single 75 (by decide) (ih0.append ((Ders.word (k := .comma) (t := t1)).append ih2)) ⟨_, _, _, rfl, fun st => rfl⟩).cast (by simp)
  | @primaryExpression_1 _ t0 t2 _ _ ih1 =>
    exact (Ders.single 141 (by decide) ((Ders.word (k := .lpar) (t := t0)).append (ih1.append (Ders.word (k := .rpar) (t := t2)))) ⟨_, _, _, rfl, fun st => rfl⟩).cast (by simp)
  | @primaryExpression_2 _ t0 t2 es _ hc ih1 =>
    exact (Ders.single 141 (by decide) ((Ders.word (k := .lpar) (t := t0)).append (ih1.append (Ders.word (k := .rpar) (t := t2)))) ⟨_, _, _, rfl, fun st => by
        match es, hc with
        | [], _ => rfl
        | [_], hc => exact absurd rfl hc
        | _ :: _ :: _, _ => rfl⟩).cast (by simp)
  | @primaryExpression_3 _ t0 t2 _ _ ih1 =>
    exact (Ders.single 142 (by decide) ((Ders.word (k := .lpar) (t := t0)).append (ih1.append (Ders.word (k := .rpar) (t := t2)))) ⟨_, _, _, rfl, fun st => rfl⟩).cast (by simp)
  | @primaryExpression_4 _ _ _ ih0 =>
    exact (Ders.single 143 (by decide) ih0 ⟨_, _, _, rfl, fun st => rfl⟩).cast (by simp)
  | @primaryExpression_5 _ _ _ ih0 =>
    exact (Ders.single 144 (by decide) ih0 ⟨_, _, _, rfl, fun st => rfl⟩).cast (by simp)
  | @unaryExpression_1 _ _ _ ih0 =>
    exact (Ders.single 210 (by decide) ih0 ⟨_, _, _, rfl, fun st => rfl⟩).cast (by simp)
  | @unaryExpression_2 _ t0 _ _ ih1 =>
    exact (Ders.single 211 (by decide) ((Ders.word (k := .plus) (t := t0)).append ih1) ⟨_, _, _, rfl, fun st => rfl⟩).cast (by simp)
  | @unaryExpression_3 _ t0 _ _ ih1 =>
    exact (Ders.single 212 (by decide) ((Ders.word (k := .minus) (t := t0)).append ih1) ⟨_, _, _, rfl, fun st => rfl⟩).cast (by simp)
  | @multiplicativeExpression_1 _ _ _ ih0 =>
    exact (Ders.single 118 (by decide) ih0 ⟨_, _, _, rfl, fun st => rfl⟩).cast (by simp)
  | @multiplicativeExpression_2 _ _ t1 _ _ _ _ ih0 ih2 =>
    exact (Ders.single 119 (by decide) (ih0.append ((Ders.word (k := .star) (t := t1)).append ih2)) ⟨_, _, _, rfl, fun st => rfl⟩).cast (by simp)
  | @multiplicativeExpression_3 _ _ t1 _ _ _ _ ih0 ih2 =>
    exact (Ders.single 120 (by decide) (ih0.append ((Ders.word (k := .slash) (t := t1)).append ih2)) ⟨_, _, _, rfl, fun st => rfl⟩).cast (by simp)
  | @additiveExpression_1 _ _ _ ih0 =>
    exact (Ders.single 11 (by decide) ih0 ⟨_, _, _, rfl, fun st => rfl⟩).cast (by simp)
  | @additiveExpression_2 _ _ t1 _ _ _ _ ih0 ih2 =>
    exact (Ders.single 12 (by decide) (ih0.append ((Ders.word (k := .plus) (t := t1)).append ih2)) ⟨_, _, _, rfl, fun st => rfl⟩).cast (by simp)
  | @additiveExpression_3 _ _ t1 _ _ _ _ ih0 ih2 =>
    exact (Ders.single 13 (by decide) (ih0.append ((Ders.word (k := .minus) (t := t1)).append ih2)) ⟨_, _, _, rfl, fun st => rfl⟩).cast (by simp)
  | @additiveExpression_4 _ _ t1 _ _ _ _ ih0 ih2 =>
    exact (Ders.single 14 (by decide) (ih0.append ((Ders.word (k := .bars) (t := t1)).append ih2)) ⟨_, _, _, rfl, fun st => rfl⟩).cast (by simp)
  | @comparativeExpression_1 _ _ _ ih0 =>
    exact (Ders.single 33 (by decide) ih0 ⟨_, _, _, rfl, fun st => rfl⟩).cast (by simp)
  | @comparativeExpression_2 _ _ t1 _ _ _ _ ih0 ih2 =>
    exact (Ders.single 34 (by decide) (ih0.append ((Ders.word (k := .eq) (t := t1)).append ih2)) ⟨_, _, _, rfl, fun st => rfl⟩).cast (by simp)
  | @comparativeExpression_3 _ _ t1 _ _ _ _ ih0 ih2 =>
    exact (Ders.single 35 (by decide) (ih0.append ((Ders.word (k := .ne) (t := t1)).append ih2)) ⟨_, _, _, rfl, fun st => rfl⟩).cast (by simp)
  | @comparativeExpression_4 _ _ t1 _ _ _ _ ih0 ih2 =>
    exact (Ders.single 36 (by decide) (ih0.append ((Ders.word (k := .lt) (t := t1)).append ih2)) ⟨_, _, _, rfl, fun st => rfl⟩).cast (by simp)
  | @comparativeExpression_5 _ _ t1 _ _ _ _ ih0 ih2 =>
    exact (Ders.single 37 (by decide) (ih0.append ((Ders.word (k := .gt) (t := t1)).append ih2)) ⟨_, _, _, rfl, fun st => rfl⟩).cast (by simp)
  | @comparativeExpression_6 _ _ t1 _ _ _ _ ih0 ih2 =>
    exact (Ders.single 38 (by decide) (ih0.append ((Ders.word (k := .le) (t := t1)).append ih2)) ⟨_, _, _, rfl, fun st => rfl⟩).cast (by simp)
  | @comparativeExpression_7 _ _ t1 _ _ _ _ ih0 ih2 =>
    exact (Ders.single 39 (by decide) (ih0.append ((Ders.word (k := .ge) (t := t1)).append ih2)) ⟨_, _, _, rfl, fun st => rfl⟩).cast (by simp)
  | @comparativeExpression_8 _ t1 t2 _ _ ih0 =>
    exact (Ders.single 40 (by decide) (ih0.append ((Ders.word (k := .IS) (t := t1)).append (Ders.word (k := .NULL) (t := t2)))) ⟨_, _, _, rfl, fun st => rfl⟩).cast (by simp)
  | @comparativeExpression_9 _ t1 t2 t3 _ _ ih0 =>
    exact (Ders.single 41 (by decide) (ih0.append ((Ders.word (k := .IS) (t := t1)).append ((Ders.word (k := .NOT) (t := t2)).append (Ders.word (k := .NULL) (t := t3))))) ⟨_, _, _, rfl, fun st => rfl⟩).cast (by simp)
  | @comparativeExpression_10 _ _ t1 _ _ _ _ ih0 ih2 =>
    exact (Ders.single 42 (by decide) (ih0.append ((Ders.word (k := .LIKE) (t := t1)).append ih2)) ⟨_, _, _, rfl, fun st => rfl⟩).cast (by simp)
  | @comparativeExpression_11 _ t1 _ _ ih0 =>
    exact (Ders.single 43 (by decide) (ih0.append (Ders.word (k := .ISNULL) (t := t1))) ⟨_, _, _, rfl, fun st => rfl⟩).cast (by simp)
  | @comparativeExpression_12 _ t1 _ _ ih0 =>
    exact (Ders.single 44 (by decide) (ih0.append (Ders.word (k := .NOTNULL) (t := t1))) ⟨_, _, _, rfl, fun st => rfl⟩).cast (by simp)
  | @comparativeExpression_13 _ t1 t2 _ _ ih0 =>
    exact (Ders.single 45 (by decide) (ih0.append ((Ders.word (k := .NOT) (t := t1)).append (Ders.word (k := .NULL) (t := t2)))) ⟨_, _, _, rfl, fun st => rfl⟩).cast (by simp)
  | @comparativeExpression_14 _ t1 t2 t3 _ _ ih0 =>
    exact (Ders.single 46 (by decide) (ih0.append ((Ders.word (k := .IN) (t := t1)).append ((Ders.word (k := .lpar) (t := t2)).append (Ders.word (k := .rpar) (t := t3))))) ⟨_, _, _, rfl, fun st => rfl⟩).cast (by simp)
  | @comparativeExpression_15 _ t1 t2 t3 t4 _ _ ih0 =>
    exact (Ders.single 47 (by decide) (ih0.append ((Ders.word (k := .NOT) (t := t1)).append ((Ders.word (k := .IN) (t := t2)).append ((Ders.word (k := .lpar) (t := t3)).append (Ders.word (k := .rpar) (t := t4)))))) ⟨_, _, _, rfl, fun st => rfl⟩).cast (by simp)
  | @comparativeExpression_16 _ _ t1 t2 t4 _ _ _ _ ih0 ih3 =>
    exact (Ders.single 48 (by decide) (ih0.append ((Ders.word (k := .IN) (t := t1)).append ((Ders.word (k := .lpar) (t := t2)).append (ih3.append (Ders.word (k := .rpar) (t := t4)))))) ⟨_, _, _, rfl, fun st => rfl⟩).cast (by simp)
  | @comparativeExpression_17 _ _ t1 t2 t3 t5 _ _ _ _ ih0 ih4 =>
    exact (Ders.single 49 (by decide) (ih0.append ((Ders.word (k := .NOT) (t := t1)).append ((Ders.word (k := .IN) (t := t2)).append ((Ders.word (k := .lpar) (t := t3)).append (ih4.append (Ders.word (k := .rpar) (t := t5))))))) ⟨_, _, _, rfl, fun st => rfl⟩).cast (by simp)
  | @comparativeExpression_18 _ _ t1 t2 t4 _ _ _ _ ih0 ih3 =>
    exact (Ders.single 50 (by decide) (ih0.append ((Ders.word (k := .IN) (t := t1)).append ((Ders.word (k := .lpar) (t := t2)).append (ih3.append (Ders.word (k := .rpar) (t := t4)))))) ⟨_, _, _, rfl, fun st => rfl⟩).cast (by simp)
  | @comparativeExpression_19 _ _ t1 t2 t3 t5 _ _ _ _ ih0 ih4 =>
    exact (Ders.single 51 (by decide) (ih0.append ((Ders.word (k := .NOT) (t := t1)).append ((Ders.word (k := .IN) (t := t2)).append ((Ders.word (k := .lpar) (t := t3)).append (ih4.append (Ders.word (k := .rpar) (t := t5))))))) ⟨_, _, _, rfl, fun st => rfl⟩).cast (by simp)
  | @comparativeExpression_20 _ _ t1 _ _ _ _ ih0 ih2 =>
    exact (Ders.single 52 (by decide) (ih0.append ((Ders.word (k := .IN) (t := t1)).append ih2)) ⟨_, _, _, rfl, fun st => rfl⟩).cast (by simp)
  | @comparativeExpression_21 _ _ t1 t2 _ _ _ _ ih0 ih3 =>
    exact (Ders.single 53 (by decide) (ih0.append ((Ders.word (k := .NOT) (t := t1)).append ((Ders.word (k := .IN) (t := t2)).append ih3))) ⟨_, _, _, rfl, fun st => rfl⟩).cast (by simp)
  | @comparativeExpression_22 _ _ _ t1 t3 _ _ _ _ _ _ ih0 ih2 ih4 =>
    exact (Ders.single 54 (by decide) (ih0.append ((Ders.word (k := .BETWEEN) (t := t1)).append (ih2.append ((Ders.word (k := .AND) (t := t3)).append ih4)))) ⟨_, _, _, rfl, fun st => rfl⟩).cast (by simp)
  | @comparativeExpression_23 _ _ _ t1 t2 t4 _ _ _ _ _ _ ih0 ih3 ih5 =>
    exact (Ders.single 55 (by decide) (ih0.append ((Ders.word (k := .NOT) (t := t1)).append ((Ders.word (k := .BETWEEN) (t := t2)).append (ih3.append ((Ders.word (k := .AND) (t := t4)).append ih5))))) ⟨_, _, _, rfl, fun st => rfl⟩).cast (by simp)
  | @complexExpression_1 _ _ _ ih0 =>
    exact (Ders.single 56 (by decide) ih0 ⟨_, _, _, rfl, fun st => rfl⟩).cast (by simp)
  | @complexExpression_2 _ _ _ ih0 =>
    exact (Ders.single 57 (by decide) ih0 ⟨_, _, _, rfl, fun st => rfl⟩).cast (by simp)
  | @caseExpression_1 _ _ _ t0 t4 _ _ _ _ _ _ ih1 ih2 ih3 =>
    rcases ih1 with ⟨rfl, rfl⟩ | ⟨x1, rfl, ih1⟩
    · rcases ih3 with ⟨rfl, rfl⟩ | ⟨x3, rfl, ih3⟩
      · exact (Ders.single 25 (by decide) ((Ders.word (k := .CASE) (t := t0)).append (ih2.append (Ders.word (k := .END) (t := t4)))) ⟨_, _, _, rfl, fun st => rfl⟩).cast (by simp)
      · exact (Ders.single 23 (by decide) ((Ders.word (k := .CASE) (t := t0)).append (ih2.append (ih3.append (Ders.word (k := .END) (t := t4))))) ⟨_, _, _, rfl, fun st => rfl⟩).cast (by simp)
    · rcases ih3 with ⟨rfl, rfl⟩ | ⟨x3, rfl, ih3⟩
      · exact (Ders.single 24 (by decide) ((Ders.word (k := .CASE) (t := t0)).append (ih1.append (ih2.append (Ders.word (k := .END) (t := t4))))) ⟨_, _, _, rfl, fun st => rfl⟩).cast (by simp)
      · exact (Ders.single 22 (by decide) ((Ders.word (k := .CASE) (t := t0)).append (ih1.append (ih2.append (ih3.append (Ders.word (k := .END) (t := t4)))))) ⟨_, _, _, rfl, fun st => rfl⟩).cast (by simp)
  | @whenClauses_1 _ _ _ ih0 =>
    exact (Ders.single 218 (by decide) ih0 ⟨_, _, _, rfl, fun st => rfl⟩).cast (by simp)
  | @whenClauses_2 _ _ _ _ _ _ ih0 ih1 =>
    exact (Ders.single 219 (by decide) (ih0.append ih1) ⟨_, _, _, rfl, fun st => rfl⟩).cast (by simp)
  | @whenClause_1 _ _ t0 t2 _ _ _ _ ih1 ih3 =>
    exact (Ders.single 217 (by decide) ((Ders.word (k := .WHEN) (t := t0)).append (ih1.append ((Ders.word (k := .THEN) (t := t2)).append ih3))) ⟨_, _, _, rfl, fun st => rfl⟩).cast (by simp)
  | @elseClause_1 _ t0 _ _ ih1 =>
    exact (Ders.single 68 (by decide) ((Ders.word (k := .ELSE) (t := t0)).append ih1) ⟨_, _, _, rfl, fun st => rfl⟩).cast (by simp)
  | @notExpression_1 _ _ _ ih0 =>
    exact (Ders.single 121 (by decide) ih0 ⟨_, _, _, rfl, fun st => rfl⟩).cast (by simp)
  | @notExpression_2 _ t0 _ _ ih1 =>
    exact (Ders.single 122 (by decide) ((Ders.word (k := .NOT) (t := t0)).append ih1) ⟨_, _, _, rfl, fun st => rfl⟩).cast (by simp)
  | @andExpression_1 _ _ _ ih0 =>
    exact (Ders.single 15 (by decide) ih0 ⟨_, _, _, rfl, fun st => rfl⟩).cast (by simp)
  | @andExpression_2 _ _ t1 _ _ _ _ ih0 ih2 =>
    exact (Ders.single 16 (by decide) (ih0.append ((Ders.word (k := .AND) (t := t1)).append ih2)) ⟨_, _, _, rfl, fun st => rfl⟩).cast (by simp)
  | @orExpression_1 _ _ _ ih0 =>
    exact (Ders.single 126 (by decide) ih0 ⟨_, _, _, rfl, fun st => rfl⟩).cast (by simp)
  | @orExpression_2 _ _ t1 _ _ _ _ ih0 ih2 =>
    exact (Ders.single 127 (by decide) (ih0.append ((Ders.word (k := .OR) (t := t1)).append ih2)) ⟨_, _, _, rfl, fun st => rfl⟩).cast (by simp)
  | @expression_1 _ _ _ ih0 =>
    exact (Ders.single 71 (by decide) ih0 ⟨_, _, _, rfl, fun st => rfl⟩).cast (by simp)
  | @literalValue_1 _ _ _ ih0 =>
    exact (Ders.single 109 (by decide) ih0 ⟨_, _, _, rfl, fun st => rfl⟩).cast (by simp)
  | @literalValue_2 _ _ _ ih0 =>
    exact (Ders.single 110 (by decide) ih0 ⟨_, _, _, rfl, fun st => rfl⟩).cast (by simp)
  | @literalValue_3 t0 =>
    exact (Ders.single 111 (by decide) (Ders.word (k := .NULL) (t := t0)) ⟨_, _, _, rfl, fun st => rfl⟩).cast (by simp)
  | @literalValue_4 t0 =>
    exact (Ders.single 112 (by decide) (Ders.word (k := .CURRENT_TIME) (t := t0)) ⟨_, _, _, rfl, fun st => rfl⟩).cast (by simp)
  | @literalValue_5 t0 =>
    exact (Ders.single 113 (by decide) (Ders.word (k := .CURRENT_DATE) (t := t0)) ⟨_, _, _, rfl, fun st => rfl⟩).cast (by simp)
  | @literalValue_6 t0 =>
    exact (Ders.single 114 (by decide) (Ders.word (k := .CURRENT_TIMESTAMP) (t := t0)) ⟨_, _, _, rfl, fun st => rfl⟩).cast (by simp)
  | @literalValue_7 _ t0 _ _ ih1 =>
    exact (Ders.single 115 (by decide) ((Ders.word (k := .DATE) (t := t0)).append ih1) ⟨_, _, _, rfl, fun st => rfl⟩).cast (by simp)
  | @literalValue_8 _ t0 _ _ ih1 =>
    exact (Ders.single 116 (by decide) ((Ders.word (k := .TIME) (t := t0)).append ih1) ⟨_, _, _, rfl, fun st => rfl⟩).cast (by simp)
  | @literalValue_9 _ t0 _ _ ih1 =>
    exact (Ders.single 117 (by decide) ((Ders.word (k := .TIMESTAMP) (t := t0)).append ih1) ⟨_, _, _, rfl, fun st => rfl⟩).cast (by simp)
  | @identifier_1 t0 =>
    exact (Ders.single 81 (by decide) (Ders.word (k := .ID) (t := t0)) ⟨_, _, _, rfl, fun st => rfl⟩).cast (by simp)
  | @numericLiteral_1 t0 =>
    exact (Ders.single 123 (by decide) (Ders.word (k := .NUMERIC_LIT_1) (t := t0)) ⟨_, _, _, rfl, fun st => rfl⟩).cast (by simp)
  | @numericLiteral_2 t0 =>
    exact (Ders.single 124 (by decide) (Ders.word (k := .NUMERIC_LIT_2) (t := t0)) ⟨_, _, _, rfl, fun st => rfl⟩).cast (by simp)
  | @numericLiteral_3 t0 =>
    exact (Ders.single 125 (by decide) (Ders.word (k := .HEX_LIT) (t := t0)) ⟨_, _, _, rfl, fun st => rfl⟩).cast (by simp)
  | @stringLiteral_1 t0 =>
    exact (Ders.single 190 (by decide) (Ders.word (k := .STRING_LIT) (t := '\'' :: (t0 ++ ['\'']))) ⟨_, _, _, rfl, fun st => by simp [reduce190, pop0, action147, stringBody_quoted, bind, Except.bind]⟩).cast (by simp)

end Verif.Sql.Parser
