import Verif.Model.SqlCalls
import Verif.Spec.SqlCalls
/-! # The number of calls of inference -/

namespace Verif.Sql

/-- The outcome is the same, and there were at most `k` calls. -/
def Cost {α : Type} (k : Nat) (x : Counted α) (c : Chk α) : Prop := x.result = c ∧ x.calls ≤ k

namespace Cost

theorem free {c : Chk α} : Cost 0 (Sql.free c) c := ⟨rfl, Nat.le_refl _⟩

theorem pure {a : α} : Cost 0 (Pure.pure a) (.ok a) := ⟨rfl, Nat.le_refl _⟩

theorem free' {c : Chk α} : Cost k (Sql.free c) c := ⟨rfl, Nat.zero_le _⟩

theorem pure' {a : α} : Cost k (Pure.pure a) (.ok a) := ⟨rfl, Nat.zero_le _⟩

theorem mono {k k' : Nat} {x : Counted α} {c : Chk α} (h : Cost k x c) (hk : k ≤ k') : Cost k' x c :=
  ⟨h.1, Nat.le_trans h.2 hk⟩

theorem bind {k k' : Nat} {x : Counted α} {c : Chk α} {f : α → Counted β} {g : α → Chk β} (h : Cost k x c)
    (hf : ∀ a, Cost k' (f a) (g a)) : Cost (k + k') (x >>= f) (c >>= g) := by
  obtain ⟨r, n⟩ := x
  obtain ⟨rfl, hn⟩ := h
  cases r with
  | ok a => exact ⟨(hf a).1, Nat.add_le_add hn (hf a).2⟩
  | error e => exact ⟨rfl, Nat.le_trans hn (Nat.le_add_right _ _)⟩

theorem ignored {k : Nat} {x : Counted α} {c : Chk α} (h : Cost k x c) : Cost k (ignoredC x) (Sql.ignored c) :=
  ⟨congrArg Sql.ignored h.1, h.2⟩

theorem call {k : Nat} {x : Counted α} {c : Chk α} (h : Cost k x c) : Cost (k + 1) (Sql.call x) c :=
  ⟨h.1, Nat.succ_le_succ h.2⟩

theorem more {k n n' : Nat} {x : Counted α} {c : Chk α} (h : Cost k x c) (hn : n ≤ n') :
    Cost (n' + k) (Sql.more n x) c := ⟨h.1, Nat.add_le_add hn h.2⟩

end Cost

variable {N : Type} {ops : NameOps N}

def guardsParts : List (When N) → Nat
  | [] => 0
  | .mk g _ :: ws => g.parts + guardsParts ws

def bodiesParts : List (When N) → Nat
  | [] => 0
  | .mk _ b :: ws => b.parts + bodiesParts ws

theorem whensParts_eq : ∀ ws : List (When N), whensParts ws = guardsParts ws + bodiesParts ws
  | [] => by rw [whensParts]; rfl
  | .mk g b :: ws => by rw [whensParts, guardsParts, bodiesParts, whensParts_eq ws]; omega

mutual

theorem inferExpr_cost (sc : ScalarContext N) (e : Expr N) :
    Cost e.parts (inferExprC ops sc e) (inferExpr ops sc e) := by
  cases e with
  | literal l => rw [inferExprC, inferExpr, Expr.parts]; exact .mono (.call <| .pure) (by omega)
  | ident q => rw [inferExprC, inferExpr, Expr.parts]; exact .mono (.call <| .free) (by omega)
  | tuple es =>
    rw [inferExprC, inferExpr, Expr.parts]
    exact .mono (.call <| .bind (inferExprs_cost sc es) fun a => .pure) (by omega)
  | unary op e =>
    rw [inferExprC, inferExpr, Expr.parts]
    exact .mono (.call <| .bind (inferExpr_cost sc e) fun a => .free) (by omega)
  | binary op l r =>
    rw [inferExprC, inferExpr, Expr.parts]
    exact .mono (.call <| .bind (inferExpr_cost sc l) fun a =>
      .bind (inferExpr_cost sc r) fun b => .free) (by omega)
  | comparison op l r =>
    rw [inferExprC, inferExpr, Expr.parts]
    exact .mono (.call <| .bind (inferExpr_cost sc l) fun a =>
      .bind (inferExpr_cost sc r) fun b => .free) (by omega)
  | between e l r =>
    rw [inferExprC, inferExpr, Expr.parts]
    exact .mono (.call <| .bind (inferExpr_cost sc e) fun a =>
      .bind (inferExpr_cost sc l) fun a =>
      .bind (inferExpr_cost sc r) fun b => .free) (by omega)
  | case o ws els =>
    cases o with
    | none =>
      rw [inferExprC, inferExpr, Expr.parts, exprParts]
      exact .mono (.call <| .bind (.ignored (checkGuards_cost sc _ ws)) fun _ =>
        .bind (inferBodies_cost sc ws) fun t => inferElse_cost sc t els)
        (by have := whensParts_eq ws; omega)
    | some e =>
      rw [inferExprC, inferExpr, Expr.parts, exprParts]
      exact .mono (.call <| .bind (inferExpr_cost sc e) fun et =>
        .bind (.ignored (checkGuards_cost sc _ ws)) fun _ =>
        .bind (inferBodies_cost sc ws) fun t => inferElse_cost sc t els)
        (by have := whensParts_eq ws; omega)
  | inSet e set =>
    rw [inferExprC, inferExpr, Expr.parts]
    refine .mono (.call <| .bind (inferExpr_cost sc e) fun et => .bind (inferSet_cost sc set) fun r =>
      .bind .free fun ct => .bind (k' := 0) .free fun b => ?_) (by omega)
    cases b
    · exact .free (c := err .inIncompatible)
    · exact .pure
  | select s =>
    rw [inferExprC, inferExpr, Expr.parts]
    exact .mono (.call <| .bind (inferSelect_cost _ s) fun a => .free) (by omega)

theorem inferExprs_cost (sc : ScalarContext N) (es : List (Expr N)) :
    Cost (exprsParts es) (inferExprsC ops sc es) (inferExprs ops sc es) := by
  cases es with
  | nil => rw [inferExprsC, inferExprs]; exact .pure
  | cons e es =>
    rw [inferExprsC, inferExprs, exprsParts]
    exact .mono (.bind (inferExpr_cost sc e) fun a =>
      .bind (inferExprs_cost sc es) fun b => .pure) (by omega)

theorem checkGuards_cost (sc : ScalarContext N) (check : ScalarType → Chk Unit) (ws : List (When N)) :
    Cost (guardsParts ws) (checkGuardsC ops sc check ws) (checkGuards ops sc check ws) := by
  cases ws with
  | nil => rw [checkGuardsC, checkGuards]; exact .pure
  | cons w ws =>
    obtain ⟨g, b⟩ := w
    rw [checkGuardsC, checkGuards, guardsParts]
    exact .mono (.bind (inferExpr_cost sc g) fun a => .bind .free fun _ =>
      checkGuards_cost sc check ws) (by omega)

theorem inferBodies_cost (sc : ScalarContext N) (ws : List (When N)) :
    Cost (bodiesParts ws) (inferBodiesC ops sc ws) (inferBodies ops sc ws) := by
  cases ws with
  | nil => rw [inferBodiesC, inferBodies]; exact .free
  | cons w ws =>
    obtain ⟨g, b⟩ := w
    rw [inferBodiesC, inferBodies, bodiesParts]
    exact .mono (.bind (inferExpr_cost sc b) fun a => foldBodies_cost sc a ws) (by omega)

theorem foldBodies_cost (sc : ScalarContext N) (typ : ScalarType) (ws : List (When N)) :
    Cost (bodiesParts ws) (foldBodiesC ops sc typ ws) (foldBodies ops sc typ ws) := by
  cases ws with
  | nil => rw [foldBodiesC, foldBodies]; exact .pure
  | cons w ws =>
    obtain ⟨g, b⟩ := w
    rw [foldBodiesC, foldBodies, bodiesParts]
    exact .mono (.bind (inferExpr_cost sc b) fun a => .bind .free fun t =>
      foldBodies_cost sc t ws) (by omega)

theorem inferElse_cost (sc : ScalarContext N) (t : ScalarType) (els : Option (Expr N)) :
    Cost (exprParts els) (inferElseC ops sc t els) (inferElse ops sc t els) := by
  cases els with
  | none =>
    cases t <;> rw [inferElseC, inferElse]
    · exact .free
    · exact .pure
  | some e =>
    cases t <;> rw [inferElseC, inferElse, exprParts]
    · exact .free'
    · exact .bind (inferExpr_cost sc e) fun a => .bind .free fun _ => .pure

theorem inferSet_cost (sc : ScalarContext N) (s : SetSpec N) :
    Cost s.parts (inferSetC ops sc s) (inferSet ops sc s) := by
  cases s with
  | select s => rw [inferSetC, inferSet, SetSpec.parts]; exact .mono (.call <| inferSelect_cost _ s) (by omega)
  | name q => rw [inferSetC, inferSet, SetSpec.parts]; exact .mono (.call <| .free) (by omega)
  | list es =>
    rw [inferSetC, inferSet, SetSpec.parts]
    refine .call <| .bind (k' := 0) (inferList_cost sc es) fun t => ?_
    cases t
    · exact .free
    · exact .pure

theorem inferList_cost (sc : ScalarContext N) (es : List (Expr N)) :
    Cost (exprsParts es) (inferListC ops sc es) (inferList ops sc es) := by
  cases es with
  | nil => rw [inferListC, inferList]; exact .free
  | cons e es =>
    rw [inferListC, inferList, exprsParts]
    exact foldList_cost sc _ _ (inferExpr_cost sc e) es

theorem foldList_cost {k : Nat} (sc : ScalarContext N) (x : Counted ScalarType) (c : Chk ScalarType)
    (hx : Cost k x c) (es : List (Expr N)) :
    Cost (k + exprsParts es) (foldListC ops sc x es) (foldList ops sc c es) := by
  cases es with
  | nil => rw [foldListC, foldList]; exact hx.mono (by omega)
  | cons e es =>
    obtain ⟨rfl, hn⟩ := hx
    rw [exprsParts, foldListC, foldList.eq_def]
    match x.result with
    | .ok t =>
      exact .mono (foldList_cost sc _ _ (.more (.bind (inferExpr_cost sc e) fun _ => .free) hn) es) (by omega)
    | .error (.err y) =>
      exact .mono (foldList_cost sc _ _ (.more (.bind (inferExpr_cost sc e) fun _ => .free) hn) es) (by omega)
    | .error .panic => exact ⟨rfl, by show x.calls ≤ _; omega⟩

theorem inferSelect_cost (ctx : SetContext N) (s : Select N) :
    Cost s.parts (inferSelectC ops ctx s) (inferSelect ops ctx s) := by
  obtain ⟨common, x, orderBy, limit⟩ := s
  rw [inferSelectC, inferSelect, Select.parts]
  exact .mono (.call <| .bind (addCommon_cost ctx _ common) fun sc =>
    .bind (inferSetExpr_cost ctx x) fun r =>
    .bind (checkOrder_cost sc orderBy) fun _ =>
    .bind (checkLimit_cost _ limit) fun _ => .pure) (by omega)

theorem addCommon_cost (ctx : SetContext N) (sc : ScalarContext N) (cs : List (Cte N)) :
    Cost (ctesParts cs) (addCommonC ops ctx sc cs) (addCommon ops ctx sc cs) := by
  cases cs with
  | nil => rw [addCommonC, addCommon]; exact .pure
  | cons c cs =>
    obtain ⟨i, names, q⟩ := c
    rw [addCommonC, addCommon, ctesParts]
    refine .mono (.bind (k := q.parts + 1) ?_ fun t => .bind .free fun sc => addCommon_cost ctx sc cs) (by omega)
    rw [inferCteC, inferCte]
    refine .call <| .bind (k' := 0) (inferSelect_cost ctx q) fun t => ?_
    cases names
    · exact .pure
    · exact .bind .free fun _ => .pure

theorem checkOrder_cost (sc : ScalarContext N) (ts : List (OrderTerm N)) :
    Cost (termsParts ts) (checkOrderC ops sc ts) (checkOrder ops sc ts) := by
  cases ts with
  | nil => rw [checkOrderC, checkOrder]; exact .pure
  | cons t ts =>
    obtain ⟨e, c, d⟩ := t
    rw [checkOrderC, checkOrder, termsParts, ← bind_assoc]
    refine .bind ?_ fun _ => checkOrder_cost sc ts
    exact .mono (.call <| .bind (inferExpr_cost sc e) fun _ => .free) (by omega)

theorem checkLimit_cost (ctx : SetContext N) (l : Option (Limit N)) :
    Cost (limitParts l) (checkLimitC ops ctx l) (checkLimit ops ctx l) := by
  cases l with
  | none => rw [checkLimitC, checkLimit]; exact .pure
  | some l =>
    obtain ⟨e, o⟩ := l
    rw [checkLimitC, checkLimit, limitParts]
    exact .mono (.call <| .bind (inferExpr_cost _ e) fun _ => .bind .free fun _ =>
      checkOffset_cost _ o) (by omega)

theorem checkOffset_cost (sc : ScalarContext N) (o : Option (Expr N)) :
    Cost (exprParts o) (checkOffsetC ops sc o) (checkOffset ops sc o) := by
  cases o with
  | none => rw [checkOffsetC, checkOffset]; exact .pure
  | some e =>
    rw [checkOffsetC, checkOffset, exprParts]
    exact .mono (.bind (inferExpr_cost sc e) fun _ => .free) (by omega)

theorem inferSetExpr_cost (ctx : SetContext N) (x : SetExpr N) :
    Cost x.parts (inferSetExprC ops ctx x) (inferSetExpr ops ctx x) := by
  cases x with
  | values rows =>
    rw [inferSetExprC, inferSetExpr, SetExpr.parts]
    exact .mono (.call <| .bind (inferValues_cost _ rows) fun _ => .pure) (by omega)
  | query mode columns froms wher groupBy =>
    rw [inferSetExprC, inferSetExpr, SetExpr.parts]
    exact .mono (.call <| .bind (inferFrom_cost _ froms) fun (sc, as) =>
      .bind (checkPredicate_cost sc _ wher) fun _ =>
      .bind (checkGroupBy_cost sc groupBy) fun _ =>
      inferColumns_cost sc as columns) (by omega)
  | op o l r =>
    rw [inferSetExprC, inferSetExpr, SetExpr.parts]
    exact .mono (.call <| .bind (inferSetExpr_cost ctx l) fun _ =>
      .bind (inferSetExpr_cost ctx r) fun _ => .bind .free fun _ => .pure) (by omega)

theorem inferValues_cost (sc : ScalarContext N) (rows : List (List (Expr N))) :
    Cost (rowsParts rows) (inferValuesC ops sc rows) (inferValues ops sc rows) := by
  cases rows with
  | nil => rw [inferValuesC, inferValues]; exact .free
  | cons r rows =>
    rw [inferValuesC, inferValues, rowsParts]
    exact .mono (.bind (inferFirstRow_cost sc 0 r) fun ts => foldRows_cost sc ts rows) (by omega)

theorem inferFirstRow_cost (sc : ScalarContext N) (count : Nat) (es : List (Expr N)) :
    Cost (exprsParts es) (inferFirstRowC ops sc count es) (inferFirstRow ops sc count es) := by
  cases es with
  | nil => rw [inferFirstRowC, inferFirstRow]; exact .pure
  | cons e es =>
    rw [inferFirstRowC, inferFirstRow, exprsParts]
    refine .bind (inferExpr_cost sc e) fun t => ?_
    cases t
    · exact .free'
    · exact .bind (inferFirstRow_cost sc _ es) fun _ => .pure

theorem foldRows_cost (sc : ScalarContext N) (ts : List (Attribute N)) (rows : List (List (Expr N))) :
    Cost (rowsParts rows) (foldRowsC ops sc ts rows) (foldRows ops sc ts rows) := by
  cases rows with
  | nil => rw [foldRowsC, foldRows]; exact .pure
  | cons r rows =>
    rw [foldRowsC, foldRows, rowsParts]
    exact .mono (.bind (unifyRow_cost sc ts r) fun ts => foldRows_cost sc ts rows) (by omega)

theorem unifyRow_cost (sc : ScalarContext N) (ts : List (Attribute N)) (es : List (Expr N)) :
    Cost (exprsParts es) (unifyRowC ops sc ts es) (unifyRow ops sc ts es) := by
  cases ts with
  | nil => simp only [unifyRowC, unifyRow]; exact .pure'
  | cons a ts =>
    cases es with
    | nil => simp only [unifyRowC, unifyRow]; exact .pure
    | cons e es =>
      rw [unifyRowC, unifyRow, exprsParts]
      refine .mono (.bind (inferExpr_cost sc e) fun t => .bind (k' := exprsParts es) .free fun t => ?_) (by omega)
      cases t
      · exact .free'
      · exact .bind (unifyRow_cost sc _ es) fun _ => .pure

theorem inferFrom_cost (sc : ScalarContext N) (ts : List (TableExpr N)) :
    Cost (tablesParts ts) (inferFromC ops sc ts) (inferFrom ops sc ts) := by
  cases ts with
  | nil => rw [inferFromC, inferFrom]; exact .pure
  | cons t ts =>
    rw [inferFromC, inferFrom, tablesParts]
    exact .mono (.bind (inferTable_cost sc t) fun (sc, _) =>
      .bind (inferFrom_cost sc ts) fun _ => .pure) (by omega)

theorem inferTable_cost (sc : ScalarContext N) (t : TableExpr N) :
    Cost t.parts (inferTableC ops sc t) (inferTable ops sc t) := by
  cases t with
  | named name alias => rw [inferTableC, inferTable, TableExpr.parts]; exact .mono (.call <| .free) (by omega)
  | select s alias =>
    rw [inferTableC, inferTable, TableExpr.parts]
    exact .mono (.call <| .bind (inferSelect_cost _ s) fun _ => .pure) (by omega)
  | join l r o c =>
    rw [inferTableC, inferTable, TableExpr.parts]
    exact .mono (.call <| .bind (inferTable_cost sc l) fun (sc, _) =>
      .bind (inferTable_cost sc r) fun _ => .pure) (by omega)

theorem checkPredicate_cost (sc : ScalarContext N) (msg : SqlError) (o : Option (Expr N)) :
    Cost (exprParts o) (checkPredicateC ops sc msg o) (checkPredicate ops sc msg o) := by
  cases o with
  | none => rw [checkPredicateC, checkPredicate]; exact .pure
  | some e =>
    rw [checkPredicateC, checkPredicate, exprParts]
    exact .mono (.bind (inferExpr_cost sc e) fun _ => .free) (by omega)

theorem checkGroupBy_cost (sc : ScalarContext N) (g : Option (GroupBy N)) :
    Cost (groupParts g) (checkGroupByC ops sc g) (checkGroupBy ops sc g) := by
  cases g with
  | none => rw [checkGroupByC, checkGroupBy]; exact .pure
  | some g =>
    obtain ⟨es, h⟩ := g
    rw [checkGroupByC, checkGroupBy, groupParts]
    exact .mono (.bind (inferExprs_cost sc es) fun _ => checkPredicate_cost sc _ h) (by omega)

theorem inferColumns_cost (sc : ScalarContext N) (as : List (Attribute N)) (cs : ResultColumns N) :
    Cost cs.parts (inferColumnsC ops sc as cs) (inferColumns ops sc as cs) := by
  cases cs with
  | all => rw [inferColumnsC, inferColumns, ResultColumns.parts]; exact .mono (.call <| .pure) (by omega)
  | list cs =>
    rw [inferColumnsC, inferColumns, ResultColumns.parts]
    exact .mono (.call <| .bind (inferColumnList_cost sc [] cs) fun _ => .pure) (by omega)

theorem inferColumnList_cost (sc : ScalarContext N) (g : TMap N Nat) (cs : List (ResultColumn N)) :
    Cost (columnsParts cs) (inferColumnListC ops sc g cs) (inferColumnList ops sc g cs) := by
  cases cs with
  | nil => rw [inferColumnListC, inferColumnList]; exact .pure
  | cons c cs =>
    cases c with
    | allFrom name =>
      rw [inferColumnListC, inferColumnList, columnsParts]
      match TMap.get ops sc.symbols name with
      | none => exact .free'
      | some (.relation fields) =>
        exact .mono (.bind .free fun _ => .bind (inferColumnList_cost sc _ cs) fun _ => .pure) (by omega)
      | some (.attribute _) => exact .free'
      | some .attributeConflict => exact .free'
    | expr e rename =>
      rw [inferColumnListC, inferColumnList, columnsParts]
      refine .bind (inferExpr_cost sc e) fun t => ?_
      cases t
      · exact .free'
      · exact .bind (inferColumnList_cost sc _ cs) fun _ => .pure

end

theorem updateAssignments_cost (sc : ScalarContext N) (map : TMap N (DataType × Bool))
    (as : List (Assignment N)) : ∀ assigned, Cost (assignmentsParts as)
      (updateAssignmentsC ops sc map assigned as) (updateAssignments ops sc map assigned as) := by
  induction as with
  | nil => intro _; rw [updateAssignmentsC, updateAssignments]; exact .pure
  | cons a as ih =>
    intro assigned
    rw [updateAssignmentsC, updateAssignments, assignmentsParts]
    refine .bind (inferExpr_cost sc a.expr) fun t => ?_
    cases t
    · exact .free'
    · exact .mono (.bind .free fun _ => ih _) (by omega)

theorem statement_cost (ctx : SetContext N) (s : Statement N) :
    Cost s.parts (s.validateTypeC ops ctx) (s.validateType ops ctx) := by
  cases s with
  | select s =>
    rw [Statement.validateTypeC, Statement.validateType, Statement.parts]
    exact .mono (.call <| .bind (inferSelect_cost ctx s) fun _ => .pure) (by omega)
  | insert s =>
    rw [Statement.validateTypeC, Statement.validateType, Statement.parts]
    refine .call <| ?_
    rw [InsertStatement.validateTypeC, InsertStatement.validateType]
    exact .mono (.call <| .bind .free fun _ => .bind (inferSetExpr_cost ctx s.source) fun _ => .free) (by omega)
  | update s =>
    rw [Statement.validateTypeC, Statement.validateType, Statement.parts]
    refine .call <| ?_
    rw [UpdateStatement.validateTypeC, UpdateStatement.validateType]
    exact .mono (.call <| .bind .free fun _ => .bind .free fun sc =>
      .bind (updateAssignments_cost sc _ s.assignments _) fun _ =>
      checkPredicate_cost sc _ s.wher) (by omega)
  | delete s =>
    rw [Statement.validateTypeC, Statement.validateType, Statement.parts]
    refine .call <| ?_
    rw [DeleteStatement.validateTypeC, DeleteStatement.validateType]
    exact .mono (.call <| .bind .free fun _ => .bind .free fun sc => checkPredicate_cost sc _ s.wher) (by omega)

theorem sqlStatement_cost (ctx : SetContext N) (x : SqlStatement N) :
    Cost x.parts (x.validateTypeC ops ctx) (x.validateType ops ctx) := by
  cases x with
  | statement s => exact .call <| statement_cost ctx s
  | explainQueryPlan s => exact .call <| statement_cost ctx s
  | attach a => exact .call <| .call <| .pure
  | describe d => exact .call <| .call <| .free

end Verif.Sql
