import Verif.Model.SqlTyping
import Verif.Spec.SqlOutline

/-! # Type checking a statement is type checking its outline -/

namespace Verif.Sql

variable {N : Type} (ops : NameOps N)

theorem literal_outline (l : Literal) : l.outline.inferType = l.inferType := by cases l <;> rfl

theorem binary_outline (op : BinaryOperator) (l r : ScalarType) : binaryType op.outline l r = binaryType op l r := by
  cases op <;> rfl

theorem comparison_outline (op : ComparisonOperator) (l r : ScalarType) :
    comparisonType op.outline l r = comparisonType op l r := by
  cases op <;> rfl

theorem relationName_outline (name : List N) (alias : Option N) :
    relationName name (aliasOutline name alias) = relationName name alias := by
  cases alias with
  | some a => rfl
  | none =>
    simp only [aliasOutline]
    cases h : name.getLast? with
    | none => rfl
    | some n => simp only [relationName, h]

mutual
theorem inferExpr_outline (sc : ScalarContext N) : ∀ e : Expr N, inferExpr ops sc e.outline = inferExpr ops sc e
  | .literal l => by simp only [Expr.outline, inferExpr, literal_outline]
  | .ident q => by simp only [Expr.outline]
  | .tuple es => by simp only [Expr.outline, inferExpr, inferExprs_outline sc es]
  | .select s => by simp only [Expr.outline, inferExpr, inferSelect_outline sc.setContext s]
  | .unary op e => by simp only [Expr.outline, inferExpr, inferExpr_outline sc e]
  | .binary op l r => by
    simp only [Expr.outline, inferExpr, inferExpr_outline sc l, inferExpr_outline sc r, binary_outline]
  | .comparison op l r => by
    simp only [Expr.outline, inferExpr, inferExpr_outline sc l, inferExpr_outline sc r, comparison_outline]
  | .inSet e set => by simp only [Expr.outline, inferExpr, inferExpr_outline sc e, inferSet_outline sc set]
  | .between e l u => by
    simp only [Expr.outline, inferExpr, inferExpr_outline sc e, inferExpr_outline sc l, inferExpr_outline sc u]
  | .case none whens els => by
    simp only [Expr.outline, Expr.outlineOption, inferExpr, checkGuards_outline sc _ whens,
      inferBodies_outline sc whens, inferElse_outline sc _ els]
  | .case (some e) whens els => by
    simp only [Expr.outline, Expr.outlineOption, inferExpr, inferExpr_outline sc e, checkGuards_outline sc _ whens,
      inferBodies_outline sc whens, inferElse_outline sc _ els]
theorem inferExprs_outline (sc : ScalarContext N) : ∀ es : List (Expr N),
    inferExprs ops sc (Expr.outlines es) = inferExprs ops sc es
  | [] => by simp only [Expr.outlines]
  | e :: es => by simp only [Expr.outlines, inferExprs, inferExpr_outline sc e, inferExprs_outline sc es]
theorem checkGuards_outline (sc : ScalarContext N) (check : ScalarType → Chk Unit) : ∀ ws : List (When N),
    checkGuards ops sc check (When.outlines ws) = checkGuards ops sc check ws
  | [] => by simp only [When.outlines]
  | .mk guard body :: ws => by
    simp only [When.outlines, checkGuards, inferExpr_outline sc guard, checkGuards_outline sc check ws]
theorem inferBodies_outline (sc : ScalarContext N) : ∀ ws : List (When N),
    inferBodies ops sc (When.outlines ws) = inferBodies ops sc ws
  | [] => by simp only [When.outlines]
  | .mk guard body :: ws => by
    simp only [When.outlines, inferBodies, inferExpr_outline sc body, foldBodies_outline sc _ ws]
theorem foldBodies_outline (sc : ScalarContext N) (typ : ScalarType) : ∀ ws : List (When N),
    foldBodies ops sc typ (When.outlines ws) = foldBodies ops sc typ ws
  | [] => by simp only [When.outlines]
  | .mk guard body :: ws => by
    simp only [When.outlines, foldBodies, inferExpr_outline sc body, foldBodies_outline sc _ ws]
theorem inferElse_outline (sc : ScalarContext N) (result : ScalarType) : ∀ e : Option (Expr N),
    inferElse ops sc result (Expr.outlineOption e) = inferElse ops sc result e
  | none => by simp only [Expr.outlineOption]
  | some e => by simp only [Expr.outlineOption, inferElse, inferExpr_outline sc e]
theorem inferSet_outline (sc : ScalarContext N) : ∀ s : SetSpec N, inferSet ops sc s.outline = inferSet ops sc s
  | .select s => by simp only [SetSpec.outline, inferSet, inferSelect_outline sc.setContext s]
  | .list es => by simp only [SetSpec.outline, inferSet, inferList_outline sc es]
  | .name q => by simp only [SetSpec.outline]
theorem inferList_outline (sc : ScalarContext N) : ∀ es : List (Expr N),
    inferList ops sc (Expr.outlines es) = inferList ops sc es
  | [] => by simp only [Expr.outlines]
  | e :: es => by simp only [Expr.outlines, inferList, inferExpr_outline sc e, foldList_outline sc _ es]
theorem foldList_outline (sc : ScalarContext N) (typ : Chk ScalarType) : ∀ es : List (Expr N),
    foldList ops sc typ (Expr.outlines es) = foldList ops sc typ es
  | [] => by simp only [Expr.outlines]
  | e :: es => by
    simp only [Expr.outlines, foldList]
    cases typ with
    | ok t => simp only [inferExpr_outline sc e, foldList_outline sc _ es]
    | error x =>
      cases x with
      | panic => rfl
      | err x => simp only [inferExpr_outline sc e, foldList_outline sc _ es]
theorem inferSelect_outline (ctx : SetContext N) : ∀ s : Select N,
    inferSelect ops ctx s.outline = inferSelect ops ctx s
  | .mk common expr orderBy limit => by
    simp only [Select.outline, inferSelect, addCommon_outline ctx _ common, inferSetExpr_outline ctx expr,
      checkOrder_outline _ orderBy, checkLimit_outline _ limit]
theorem addCommon_outline (ctx : SetContext N) (sc : ScalarContext N) : ∀ cs : List (Cte N),
    addCommon ops ctx sc (Cte.outlines cs) = addCommon ops ctx sc cs
  | [] => by simp only [Cte.outlines]
  | .mk n names query :: cs => by
    simp only [Cte.outlines, addCommon, inferCte, inferSelect_outline ctx query, addCommon_outline ctx _ cs]
theorem checkOrder_outline (sc : ScalarContext N) : ∀ ts : List (OrderTerm N),
    checkOrder ops sc (OrderTerm.outlines ts) = checkOrder ops sc ts
  | [] => by simp only [OrderTerm.outlines]
  | .mk e _ _ :: ts => by
    simp only [OrderTerm.outlines, checkOrder, inferExpr_outline sc e, checkOrder_outline sc ts]
theorem checkLimit_outline (ctx : SetContext N) : ∀ l : Option (Limit N),
    checkLimit ops ctx (Limit.outlineOption l) = checkLimit ops ctx l
  | none => by simp only [Limit.outlineOption]
  | some (.mk rows offset) => by
    simp only [Limit.outlineOption, checkLimit, inferExpr_outline _ rows, checkOffset_outline _ offset]
theorem checkOffset_outline (sc : ScalarContext N) : ∀ e : Option (Expr N),
    checkOffset ops sc (Expr.outlineOption e) = checkOffset ops sc e
  | none => by simp only [Expr.outlineOption]
  | some e => by simp only [Expr.outlineOption, checkOffset, inferExpr_outline sc e]
theorem inferSetExpr_outline (ctx : SetContext N) : ∀ s : SetExpr N,
    inferSetExpr ops ctx s.outline = inferSetExpr ops ctx s
  | .values rows => by simp only [SetExpr.outline, inferSetExpr, inferValues_outline _ rows]
  | .query _ columns froms wher groupBy => by
    simp only [SetExpr.outline, inferSetExpr, inferFrom_outline _ froms, checkPredicate_outline _ _ wher,
      checkGroupBy_outline _ groupBy, inferColumns_outline _ _ columns]
  | .op _ l r => by simp only [SetExpr.outline, inferSetExpr, inferSetExpr_outline ctx l, inferSetExpr_outline ctx r]
theorem inferValues_outline (sc : ScalarContext N) : ∀ rows : List (List (Expr N)),
    inferValues ops sc (Expr.outlineRows rows) = inferValues ops sc rows
  | [] => by simp only [Expr.outlineRows]
  | row :: rows => by
    simp only [Expr.outlineRows, inferValues, inferFirstRow_outline sc 0 row, foldRows_outline sc _ rows]
theorem inferFirstRow_outline (sc : ScalarContext N) (count : Nat) : ∀ es : List (Expr N),
    inferFirstRow ops sc count (Expr.outlines es) = inferFirstRow ops sc count es
  | [] => by simp only [Expr.outlines]
  | e :: es => by
    simp only [Expr.outlines, inferFirstRow, inferExpr_outline sc e, inferFirstRow_outline sc (count + 1) es]
theorem foldRows_outline (sc : ScalarContext N) (types : List (Attribute N)) : ∀ rows : List (List (Expr N)),
    foldRows ops sc types (Expr.outlineRows rows) = foldRows ops sc types rows
  | [] => by simp only [Expr.outlineRows]
  | row :: rows => by
    simp only [Expr.outlineRows, foldRows, unifyRow_outline sc _ row, foldRows_outline sc _ rows]
theorem unifyRow_outline (sc : ScalarContext N) : ∀ (as : List (Attribute N)) (es : List (Expr N)),
    unifyRow ops sc as (Expr.outlines es) = unifyRow ops sc as es
  | as, [] => by simp only [Expr.outlines]
  | [], e :: es => by simp only [Expr.outlines, unifyRow]
  | a :: as, e :: es => by
    simp only [Expr.outlines, unifyRow, inferExpr_outline sc e, unifyRow_outline sc as es]
theorem inferFrom_outline (sc : ScalarContext N) : ∀ ts : List (TableExpr N),
    inferFrom ops sc (TableExpr.outlines ts) = inferFrom ops sc ts
  | [] => by simp only [TableExpr.outlines]
  | t :: ts => by simp only [TableExpr.outlines, inferFrom, inferTable_outline sc t, inferFrom_outline _ ts]
theorem inferTable_outline (sc : ScalarContext N) : ∀ t : TableExpr N,
    inferTable ops sc t.outline = inferTable ops sc t
  | .named name alias => by simp only [TableExpr.outline, inferTable, relationName_outline]
  | .select s _ => by simp only [TableExpr.outline, inferTable, inferSelect_outline sc.setContext s]
  | .join l r _ _ => by simp only [TableExpr.outline, inferTable, inferTable_outline _ l, inferTable_outline _ r]
theorem checkPredicate_outline (sc : ScalarContext N) (msg : SqlError) : ∀ e : Option (Expr N),
    checkPredicate ops sc msg (Expr.outlineOption e) = checkPredicate ops sc msg e
  | none => by simp only [Expr.outlineOption]
  | some e => by simp only [Expr.outlineOption, checkPredicate, inferExpr_outline sc e]
theorem checkGroupBy_outline (sc : ScalarContext N) : ∀ g : Option (GroupBy N),
    checkGroupBy ops sc (GroupBy.outlineOption g) = checkGroupBy ops sc g
  | none => by simp only [GroupBy.outlineOption]
  | some (.mk groupings having) => by
    simp only [GroupBy.outlineOption, checkGroupBy, inferExprs_outline sc groupings, checkPredicate_outline sc _ having]
theorem inferColumns_outline (sc : ScalarContext N) (as : List (Attribute N)) : ∀ c : ResultColumns N,
    inferColumns ops sc as c.outline = inferColumns ops sc as c
  | .all => by simp only [ResultColumns.outline]
  | .list cs => by simp only [ResultColumns.outline, inferColumns, inferColumnList_outline sc _ cs]
theorem inferColumnList_outline (sc : ScalarContext N) (g : TMap N Nat) : ∀ cs : List (ResultColumn N),
    inferColumnList ops sc g (ResultColumn.outlines cs) = inferColumnList ops sc g cs
  | [] => by simp only [ResultColumn.outlines]
  | .allFrom n :: cs => by
    simp only [ResultColumn.outlines, inferColumnList, inferColumnList_outline sc _ cs]
  | .expr e rename :: cs => by
    simp only [ResultColumn.outlines, inferColumnList, inferExpr_outline sc e, inferColumnList_outline sc _ cs]
end

theorem updateAssignments_outline (sc : ScalarContext N) (map : TMap N (DataType × Bool)) (as : List (Assignment N)) :
    ∀ assigned, updateAssignments ops sc map assigned (as.map fun a => { a with expr := a.expr.outline }) =
      updateAssignments ops sc map assigned as := by
  induction as with
  | nil => intro _; rfl
  | cons a as ih => intro assigned; simp only [List.map_cons, updateAssignments, inferExpr_outline, ih]

theorem statement_outline (ctx : SetContext N) (s : Statement N) :
    s.outline.validateType ops ctx = s.validateType ops ctx := by
  cases s with
  | select s => simp only [Statement.outline, Statement.validateType, inferSelect_outline]
  | insert s =>
    simp only [Statement.outline, Statement.validateType, InsertStatement.validateType, inferSetExpr_outline]
  | delete s =>
    simp only [Statement.outline, Statement.validateType, DeleteStatement.validateType, checkPredicate_outline]
  | update s =>
    simp only [Statement.outline, Statement.validateType, UpdateStatement.validateType, checkPredicate_outline,
      updateAssignments_outline]

theorem sqlStatement_outline (ctx : SetContext N) (s : SqlStatement N) :
    s.outline.validateType ops ctx = s.validateType ops ctx := by
  cases s with
  | statement s => exact statement_outline ops ctx s
  | explainQueryPlan s => exact statement_outline ops ctx s
  | attach s => rfl
  | describe s => rfl

end Verif.Sql
