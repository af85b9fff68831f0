import Verif.Proof.SqlOutline
import Verif.Props.SqlPanic

namespace Verif.Props

open Verif Sql Chk

/-- **C131.**  Statements with the same outline (`Spec/SqlOutline.lean`) have the same outcome of type checking, be it
acceptance, an error or a panic: the contents of literals, the choice among operators of one kind, the kind and
condition of joins, DISTINCT, the set operator, collations, directions and the aliases of subqueries have no
influence. -/
theorem C131_outline {N : Type} (ops : NameOps N) (ctx : SetContext N) (s t : SqlStatement N)
    (h : s.outline = t.outline) : s.validateType ops ctx = t.validateType ops ctx := by
  rw [← sqlStatement_outline ops ctx s, h, sqlStatement_outline]

/-- **C131**, for expressions: their types are the same as well. -/
theorem C131_expression {N : Type} (ops : NameOps N) (sc : ScalarContext N) (e f : Expr N)
    (h : e.outline = f.outline) : inferExpr ops sc e = inferExpr ops sc f := by
  rw [← inferExpr_outline ops sc e, h, inferExpr_outline]

/-- **C131**, for queries: so are the columns. -/
theorem C131_query {N : Type} (ops : NameOps N) (ctx : SetContext N) (s t : Select N)
    (h : s.outline = t.outline) : inferSelect ops ctx s = inferSelect ops ctx t := by
  rw [← inferSelect_outline ops ctx s, h, inferSelect_outline]

/-- **C131**, in the other direction for literals: none of the distinctions that are left can be dropped. -/
theorem C131_literals (l m : Literal) : l.inferType = m.inferType ↔ l.outline = m.outline :=
  ⟨by cases l <;> cases m <;> simp [Literal.inferType, Literal.outline],
    fun h => by rw [← literal_outline l, h, literal_outline]⟩

/-- **C131**, in the other direction for binary operators. -/
theorem C131_operators (o p : BinaryOperator) :
    (∀ l r, binaryType o l r = binaryType p l r) ↔ o.outline = p.outline := by
  refine ⟨fun h => ?_, fun h l r => by rw [← binary_outline o, h, binary_outline]⟩
  have h1 := h (.scalar .numeric false) (.scalar .numeric false)
  have h2 := h (.scalar .logical false) (.scalar .logical false)
  have h3 := h (.scalar .varchar false) (.scalar .varchar false)
  revert h1 h2 h3
  clear h
  cases o <;> cases p <;> simp [binaryType, BinaryOperator.outline, Sql.err]

/-- **C131**, in the other direction for comparisons. -/
theorem C131_comparisons (o p : ComparisonOperator) :
    (∀ l r, comparisonType o l r = comparisonType p l r) ↔ o.outline = p.outline := by
  refine ⟨fun h => ?_, fun h l r => by rw [← comparison_outline o, h, comparison_outline]⟩
  have h1 := h (.scalar .numeric false) (.scalar .numeric false)
  have h2 := h (.scalar .logical false) (.scalar .logical false)
  have h3 := h (.scalar .varchar false) (.scalar .varchar false)
  revert h1 h2 h3
  clear h
  cases o <;> cases p <;> simp [comparisonType, ComparisonOperator.outline, ScalarType.isCompatible,
    DataType.isOrdered, Sql.err, bind, Except.bind, pure, Except.pure]

/-- `SELECT DISTINCT users.id * 7 AS n FROM users LEFT JOIN users AS u ON nosuchcolumn
WHERE u.name <> 'x' ORDER BY 1 COLLATE c DESC` -/
def outlinedOne : SqlStatement Name :=
  .statement (.select (.mk [] (.query .distinct
    (.list [.expr (.binary .multiply (.ident [Name.ofString "users", Name.ofString "id"])
      (.literal (.numeric ['7']))) (some (Name.ofString "n"))])
    [.join (.named [Name.ofString "users"] none) (.named [Name.ofString "users"] (some (Name.ofString "u")))
      (.join .left) (.expr (.ident [Name.ofString "nosuchcolumn"]))]
    (some (.comparison .notEqual (.ident [Name.ofString "u", Name.ofString "name"]) (.literal (.string ['x'])))) none)
    [.mk sqlOne (some (Name.ofString "c")) .descending] none))

/-- `EXPLAIN QUERY PLAN SELECT users.id - 1 AS n FROM users AS users CROSS JOIN users AS u
WHERE u.name = '' ORDER BY 1` -/
def outlinedTwo : SqlStatement Name :=
  .explainQueryPlan (.select (.mk [] (.query .all
    (.list [.expr (.binary .subtract (.ident [Name.ofString "users", Name.ofString "id"])
      (.literal (.numeric ['1']))) (some (Name.ofString "n"))])
    [.join (.named [Name.ofString "users"] (some (Name.ofString "users")))
      (.named [Name.ofString "users"] (some (Name.ofString "u"))) .cross (.columns [])]
    (some (.comparison .equal (.ident [Name.ofString "u", Name.ofString "name"]) (.literal (.string [])))) none)
    [.mk sqlOne none .ascending] none))

/-- The two have the same outline, and are different. -/
example : outlinedOne.outline = outlinedTwo.outline ∧ outlinedOne ≠ outlinedTwo :=
  ⟨rfl, fun h => nomatch h⟩

example : outlinedOne.validateType (nameOps asciiUp) sampleCtx = outlinedTwo.validateType (nameOps asciiUp) sampleCtx :=
  C131_outline _ _ _ _ rfl

/-- A condition of a join that names no column is accepted, the same condition in WHERE is not. -/
example : outlinedTwo.validateType (nameOps asciiUp) sampleCtx = .ok () ∧
    (SqlStatement.statement (.select (.mk [] (.query .all .all [.named [Name.ofString "users"] none]
      (some (.ident [Name.ofString "nosuchcolumn"])) none) [] none))).validateType (nameOps asciiUp) sampleCtx =
      .error (.err .undefinedAttribute) := by
  decide +kernel

/-- `1 + 2` and `3 / 4`; `1 || 2` has another outline and another outcome. -/
example : (Expr.binary .add sqlOne sqlOne : Expr Name).outline = (Expr.binary .divide sqlOne sqlOne).outline ∧
    inferExpr (nameOps asciiUp) (ScalarContext.new sampleCtx) (.binary .add sqlOne sqlOne) ≠
      inferExpr (nameOps asciiUp) (ScalarContext.new sampleCtx) (.binary .concat sqlOne sqlOne) :=
  ⟨rfl, fun h => nomatch h⟩

/-- The hypotheses of `C131_query`: `VALUES (1) UNION VALUES (1)` and `VALUES (1) EXCEPT VALUES (1)`. -/
example : inferSelect (nameOps asciiUp) sampleCtx
      (.mk [] (.op .union (.values [[sqlOne]]) (.values [[sqlOne]])) [] none) =
    inferSelect (nameOps asciiUp) sampleCtx (.mk [] (.op .except (.values [[sqlOne]]) (.values [[sqlOne]])) [] none) :=
  C131_query _ _ _ _ rfl

end Verif.Props
