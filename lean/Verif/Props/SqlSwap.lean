import Verif.Proof.SqlSwap
import Verif.Props.SqlExpr

namespace Verif.Props

open Verif Sql Chk

/-- **C137**, as far as it holds.  Statements that differ in the order of operands only are both accepted or both not
accepted, if one of them is without the constructions that panic (`Safe`, C64).  Missing: statements that are not `Safe`,
for which this is false (`C137_panic_refuted`). -/
theorem C137_statement_partial (up : Char → List Char) (ctx : SetContext Name) (hd : ctx.HasDefault up)
    (s s' : SqlStatement Name) (h : s.Swap s') (hs : s.Safe) :
    s.validateType (nameOps up) ctx = .ok () ↔ s'.validateType (nameOps up) ctx = .ok () := by
  refine sqlStatement_swap (fun hn => ?_) h hs (sqlStatement_safe h hs) ()
  obtain ⟨o, ho⟩ := hd
  exact (get_none_iff up).1 hn o ho

/-- **C137** for queries, as far as it holds: they have the same columns.  Missing: as above. -/
theorem C137_query_partial (up : Char → List Char) (ctx : SetContext Name) (hd : ctx.HasDefault up)
    (s s' : Select Name) (h : s.Swap s') (hs : s.Safe) (r : RowType Name) :
    inferSelect (nameOps up) ctx s = .ok r ↔ inferSelect (nameOps up) ctx s' = .ok r := by
  refine select_swap (fun hn => ?_) s s' h hs (select_safe s s' h hs) r
  obtain ⟨o, ho⟩ := hd
  exact (get_none_iff up).1 hn o ho

/-- **C137** for expressions, as far as it holds: they have the same type.  Missing: as above. -/
theorem C137_expression_partial (up : Char → List Char) (sc : ScalarContext Name)
    (hd : sc.setContext.HasDefault up) (hp : sc.symbols.All Symbol.Plain) (e e' : Expr Name) (h : e.Swap e')
    (hs : e.Safe) (t : ScalarType) :
    inferExpr (nameOps up) sc e = .ok t ↔ inferExpr (nameOps up) sc e' = .ok t := by
  refine expr_swap ⟨hp, fun hn => ?_⟩ e e' h hs (expr_safe e e' h hs) t
  obtain ⟨o, ho⟩ := hd
  exact (get_none_iff up).1 hn o ho

/-- **C137** for one exchange that is not inside of anything, and without a condition: operands of a binary operator,
sides of a comparison, bounds of BETWEEN, elements after IN, and rows of the same length. -/
theorem C137_exchange (up : Char → List Char) (sc : ScalarContext Name) (l r e : Expr Name)
    (es es' : List (Expr Name)) (he : es.Perm es') (rows rows' : List (List (Expr Name))) (hr : rows.Perm rows')
    (k : Nat) (hk : ∀ row ∈ rows, row.length = k) :
    (∀ op t, inferExpr (nameOps up) sc (.binary op l r) = .ok t ↔
      inferExpr (nameOps up) sc (.binary op r l) = .ok t) ∧
    (∀ op t, inferExpr (nameOps up) sc (.comparison op l r) = .ok t ↔
      inferExpr (nameOps up) sc (.comparison op.mirror r l) = .ok t) ∧
    (∀ t, inferExpr (nameOps up) sc (.between e l r) = .ok t ↔
      inferExpr (nameOps up) sc (.between e r l) = .ok t) ∧
    (∀ t, inferExpr (nameOps up) sc (.inSet e (.list es)) = .ok t ↔
      inferExpr (nameOps up) sc (.inSet e (.list es')) = .ok t) ∧
    (∀ as, inferValues (nameOps up) sc rows = .ok as ↔ inferValues (nameOps up) sc rows' = .ok as) := by
  refine ⟨fun op => ?_, fun op => ?_, ?_, ?_, inferValues_perm hr hk⟩
  · rw [inferExpr, inferExpr]
    exact Chk.Same.trans (.bind .refl fun _ _ => .bind .refl fun _ _ => .of_eq (binaryType_comm op _ _)) .exchange
  · rw [inferExpr, inferExpr]
    exact Chk.Same.trans (.bind .refl fun _ _ => .bind .refl fun _ _ => .of_eq (comparisonType_mirror op _ _)) .exchange
  · rw [inferExpr, inferExpr]
    exact Chk.Same.bind .refl fun _ _ => Chk.Same.trans (.bind .refl fun _ _ => .bind .refl fun _ _ =>
      .of_eq (betweenType_swap _ _ _)) .exchange
  · rw [inferExpr, inferExpr]
    exact Chk.Same.bind .refl fun _ _ => .bind (inferSet_perm he) fun _ _ => .refl

/-- **C137** for UNION, INTERSECT, EXCEPT: with the operands exchanged the columns have the same types; only their names,
those of the first operand, change. -/
theorem C137_set_operation (up : Char → List Char) (ctx : SetContext Name) (o o' : SetOperator) (l r : SetExpr Name)
    (t : RowType Name) (h : inferSetExpr (nameOps up) ctx (.op o l r) = .ok t) :
    ∃ t', inferSetExpr (nameOps up) ctx (.op o' r l) = .ok t' ∧
      t'.attributes.map (fun a => (a.typ, a.isNull)) = t.attributes.map (fun a => (a.typ, a.isNull)) := by
  rw [inferSetExpr] at h
  obtain ⟨lt, h1, h⟩ := Chk.bind_eq_ok.1 h
  obtain ⟨rt, h2, h⟩ := Chk.bind_eq_ok.1 h
  obtain ⟨as, h3, h⟩ := Chk.bind_eq_ok.1 h
  cases h
  obtain ⟨bs, h4, h5⟩ := unifyAttributes_exchange _ _ _ h3
  refine ⟨.plain bs, ?_, ?_⟩
  · rw [inferSetExpr, h1, h2]
    simp only [Chk.bind_ok, h4]
    rfl
  · have := congrArg (List.map fun t : ScalarType =>
      match t with | .scalar a n => (a, n) | .tuple _ => (.numeric, true)) h5
    simpa [Attribute.scalar, RowType.plain, Function.comp_def] using this

/-- `CASE WHEN a AND b THEN 1 END` for the two orders of `nosuchcolumn` and `CASE WHEN 1 THEN (1, 1) END`. -/
def guardPanics (exchanged : Bool) : Expr Name :=
  let a : Expr Name := .ident [Name.ofString "nosuchcolumn"]
  let b : Expr Name := .case none [.mk sqlOne (.tuple [sqlOne, sqlOne])] none
  .case none [.mk (if exchanged then .binary .and b a else .binary .and a b) sqlOne] none

/-- **C137**, refuted for all statements: the first expression is accepted, the second, with the operands of AND
exchanged, panics. -/
theorem C137_panic_refuted :
    (guardPanics false).Swap (guardPanics true) ∧
    inferExpr (nameOps asciiUp) (ScalarContext.new sampleCtx) (guardPanics false) = .ok (.scalar .numeric true) ∧
    inferExpr (nameOps asciiUp) (ScalarContext.new sampleCtx) (guardPanics true) = .error .panic := by
  refine ⟨?_, rfl, rfl⟩
  simp [guardPanics, Expr.Swap, exprSwap, whensSwap, exprsSwap, sqlOne]

/-- Rows of different lengths cannot be exchanged: what is after the end of a shorter row is ignored, unless it is in the
first row. -/
example :
    inferValues (nameOps asciiUp) (ScalarContext.new sampleCtx) [[sqlOne], [sqlOne, .ident [Name.ofString "x"]]] =
      .ok [⟨Name.ofString "_col0", .numeric, false⟩] ∧
    inferValues (nameOps asciiUp) (ScalarContext.new sampleCtx) [[sqlOne, .ident [Name.ofString "x"]], [sqlOne]] =
      .error (.err .undefinedAttribute) := ⟨rfl, rfl⟩

/-- `SELECT id FROM users WHERE id < 1 AND name IN ('x', name)`, and `… WHERE name IN (name, 'x') AND 1 > id`. -/
def swappedQuery (exchanged : Bool) : Select Name :=
  let id : Expr Name := .ident [Name.ofString "id"]
  let name : Expr Name := .ident [Name.ofString "name"]
  .mk [] (.query .all (.list [.expr id none]) [.named [Name.ofString "users"] none]
    (some (if exchanged then .binary .and (.inSet name (.list [name, sqlText])) (.comparison .greaterThan sqlOne id)
      else .binary .and (.comparison .lessThan id sqlOne) (.inSet name (.list [sqlText, name])))) none) [] none

theorem swappedQuery_swap : (swappedQuery false).Swap (swappedQuery true) := by
  simp [swappedQuery, Select.Swap, SetExpr.Swap, ResultColumns.Swap, columnsSwap, tablesSwap, TableExpr.Swap, Expr.Swap,
    exprSwap, groupSwap, ctesSwap, termsSwap, limitSwap, SetSpec.Swap, sqlOne, sqlText,
    ComparisonOperator.mirror]
  refine ⟨[.literal (.string "x".toList), .ident [Name.ofString "name"]], ?_, List.Perm.swap _ _ _⟩
  simp [exprsSwap, Expr.Swap]

theorem swappedQuery_safe : (swappedQuery false).Safe := by
  simp [swappedQuery, Select.Safe, SetExpr.Safe, ResultColumns.Safe, ResultColumn.AllSafe, TableExpr.AllSafe,
    TableExpr.Safe, Expr.Safe, Expr.OptionSafe, GroupBy.OptionSafe, Cte.AllSafe, OrderTerm.AllSafe, Limit.OptionSafe,
    SetSpec.Safe, Expr.AllSafe, sqlOne, sqlText]

/-- The hypotheses of `C137_query_partial` hold of it, and the queries are accepted. -/
example : inferSelect (nameOps asciiUp) sampleCtx (swappedQuery true) =
    .ok (.plain [⟨Name.ofString "col", .numeric, false⟩]) :=
  (C137_query_partial asciiUp sampleCtx sampleCtx_default _ _ swappedQuery_swap swappedQuery_safe _).1
    (by decide +kernel)

/-- The hypotheses of `C137_statement_partial` hold of it. -/
example : SqlStatement.validateType (nameOps asciiUp) sampleCtx (.statement (.select (swappedQuery true))) = .ok () :=
  (C137_statement_partial asciiUp sampleCtx sampleCtx_default (.statement (.select (swappedQuery false)))
    (.statement (.select (swappedQuery true))) swappedQuery_swap swappedQuery_safe).1 (by decide +kernel)

/-- The hypotheses of `C137_expression_partial` hold of `1 < (SELECT …)` and `(SELECT …) > 1`. -/
example : inferExpr (nameOps asciiUp) (ScalarContext.new sampleCtx)
    (.comparison .greaterThan (.select (swappedQuery true)) sqlOne) = .ok (.scalar .logical false) := by
  refine (C137_expression_partial asciiUp (ScalarContext.new sampleCtx) sampleCtx_default
    (C64_contexts asciiUp sampleCtx).1 (.comparison .lessThan sqlOne (.select (swappedQuery false))) _ ?_ ?_ _).1 rfl
  · simp only [Expr.Swap, ComparisonOperator.mirror, sqlOne]
    exact Or.inr ⟨trivial, trivial, swappedQuery_swap⟩
  · simp only [Expr.Safe, sqlOne]
    exact ⟨trivial, swappedQuery_safe⟩

/-- The hypotheses of `C137_exchange` hold of `VALUES (1, 'x'), (1, 1)` (which is rejected in either order) and of
`1 IN (1, 'x')`. -/
example : inferValues (nameOps asciiUp) (ScalarContext.new sampleCtx) [[sqlOne, sqlOne], [sqlOne, sqlText]] ≠
    .ok [⟨Name.ofString "_col0", .numeric, false⟩, ⟨Name.ofString "_col1", .varchar, false⟩] := by
  intro h
  exact absurd (((C137_exchange asciiUp (ScalarContext.new sampleCtx) sqlOne sqlOne sqlOne _ _
    (List.Perm.swap sqlOne sqlText []) _ _ (List.Perm.swap [sqlOne, sqlText] [sqlOne, sqlOne] []) 2
    (by simp)).2.2.2.2 _).1 h) (by decide +kernel)

/-- The hypothesis of `C137_set_operation` holds of `SELECT id FROM users UNION VALUES (1)`. -/
example : ∃ t, inferSetExpr (nameOps asciiUp) sampleCtx (.op .union (.values [[sqlOne]]) (.query .all
      (.list [.expr (.ident [Name.ofString "id"]) none]) [.named [Name.ofString "users"] none] none none)) = .ok t ∧
    t.attributes.map (fun a => (a.typ, a.isNull)) = [(.numeric, false)] :=
  C137_set_operation asciiUp sampleCtx .union .union (.query .all
    (.list [.expr (.ident [Name.ofString "id"]) none]) [.named [Name.ofString "users"] none] none none)
    (.values [[sqlOne]]) (.plain [⟨Name.ofString "col", .numeric, false⟩]) (by decide +kernel)

end Verif.Props
