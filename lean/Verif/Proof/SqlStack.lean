import Verif.Model.SqlStack
import Verif.Spec.SqlStack
/-! # Inference with a limited stack -/

namespace Verif.Sql

/-- The outcome is that without a limit, or the stack overflows; the latter only if there is room for fewer than `h`
calls. -/
def Fits {α : Type} (h n : Nat) (d : Deep α) (c : Chk α) : Prop :=
  d = deep c ∨ d = .error .overflow ∧ n < h

namespace Fits
variable {h n : Nat}

theorem refl {c : Chk α} : Fits h n (deep c) c := .inl rfl

theorem ok {a : α} : Fits h n (.ok a) (.ok a) := .inl rfl

theorem mono {d : Deep α} {c : Chk α} {h' : Nat} (hd : Fits h n d c) (hh : h ≤ h') : Fits h' n d c :=
  hd.imp id fun ⟨e, hn⟩ => ⟨e, by omega⟩

theorem bind {d : Deep α} {c : Chk α} {f : α → Deep β} {g : α → Chk β} (hd : Fits h n d c)
    (hf : ∀ a, Fits h n (f a) (g a)) : Fits h n (d >>= f) (c >>= g) := by
  rcases hd with rfl | ⟨rfl, hn⟩
  · cases c with
    | ok a => exact hf a
    | error s => exact .inl rfl
  · exact .inr ⟨rfl, hn⟩

theorem ignored {d : Deep α} {c : Chk α} (hd : Fits h n d c) : Fits h n (ignoredD d) (Sql.ignored c) := by
  rcases hd with rfl | ⟨rfl, hn⟩
  · match c with
    | .ok a => exact .inl rfl
    | .error (.err _) => exact .inl rfl
    | .error .panic => exact .inl rfl
  · exact .inr ⟨rfl, hn⟩

theorem enter {f : Nat → Deep α} {c : Chk α} (hf : ∀ m, Fits h m (f m) c) : Fits (h + 1) n (Sql.enter n f) c := by
  cases n with
  | zero => exact .inr ⟨rfl, by omega⟩
  | succ m => exact (hf m).imp id fun ⟨e, hn⟩ => ⟨e, by omega⟩

end Fits

variable {N : Type} {ops : NameOps N}

mutual

theorem inferExpr_fits (n : Nat) (sc : ScalarContext N) (e : Expr N) :
    Fits e.nesting n (inferExprD ops n sc e) (inferExpr ops sc e) := by
  cases e with
  | literal l => rw [inferExprD, inferExpr, Expr.nesting]; exact .enter (h := 0) fun m => .ok
  | ident q => rw [inferExprD, inferExpr, Expr.nesting]; exact .enter (h := 0) fun m => .refl
  | tuple es =>
    rw [inferExprD, inferExpr, Expr.nesting]
    exact .enter fun m => .bind (inferExprs_fits m sc es) fun a => .ok
  | unary op e =>
    rw [inferExprD, inferExpr, Expr.nesting]
    exact .enter fun m => .bind (inferExpr_fits m sc e) fun a => .refl
  | binary op l r =>
    rw [inferExprD, inferExpr, Expr.nesting]
    exact .enter fun m => .bind ((inferExpr_fits m sc l).mono (by omega)) fun a =>
      .bind ((inferExpr_fits m sc r).mono (by omega)) fun b => .refl
  | comparison op l r =>
    rw [inferExprD, inferExpr, Expr.nesting]
    exact .enter fun m => .bind ((inferExpr_fits m sc l).mono (by omega)) fun a =>
      .bind ((inferExpr_fits m sc r).mono (by omega)) fun b => .refl
  | between e l r =>
    rw [inferExprD, inferExpr, Expr.nesting]
    exact .enter fun m => .bind ((inferExpr_fits m sc e).mono (by omega)) fun a =>
      .bind ((inferExpr_fits m sc l).mono (by omega)) fun a =>
      .bind ((inferExpr_fits m sc r).mono (by omega)) fun b => .refl
  | case o ws els =>
    cases o with
    | none =>
      rw [inferExprD, inferExpr, Expr.nesting, exprNesting]
      exact .enter fun m => .bind (.ignored ((checkGuards_fits m sc _ ws).mono (by omega))) fun _ =>
        .bind ((inferBodies_fits m sc ws).mono (by omega)) fun t => (inferElse_fits m sc t els).mono (by omega)
    | some e =>
      rw [inferExprD, inferExpr, Expr.nesting, exprNesting]
      exact .enter fun m => .bind ((inferExpr_fits m sc e).mono (by omega)) fun et =>
        .bind (.ignored ((checkGuards_fits m sc _ ws).mono (by omega))) fun _ =>
        .bind ((inferBodies_fits m sc ws).mono (by omega)) fun t => (inferElse_fits m sc t els).mono (by omega)
  | inSet e set =>
    rw [inferExprD, inferExpr, Expr.nesting]
    refine .enter fun m => .bind ((inferExpr_fits m sc e).mono (by omega)) fun et =>
      .bind ((inferSet_fits m sc set).mono (by omega)) fun r => .bind .refl fun ct => .bind .refl fun b => ?_
    cases b
    · exact .refl (c := err .inIncompatible)
    · exact .ok
  | select s =>
    rw [inferExprD, inferExpr, Expr.nesting]
    exact .enter fun m => .bind (inferSelect_fits m _ s) fun a => .refl

theorem inferExprs_fits (n : Nat) (sc : ScalarContext N) (es : List (Expr N)) :
    Fits (exprsNesting es) n (inferExprsD ops n sc es) (inferExprs ops sc es) := by
  cases es with
  | nil => rw [inferExprsD, inferExprs]; exact .ok
  | cons e es =>
    rw [inferExprsD, inferExprs, exprsNesting]
    exact .bind ((inferExpr_fits n sc e).mono (by omega)) fun a =>
      .bind ((inferExprs_fits n sc es).mono (by omega)) fun b => .ok

theorem checkGuards_fits (n : Nat) (sc : ScalarContext N) (check : ScalarType → Chk Unit) (ws : List (When N)) :
    Fits (whensNesting ws) n (checkGuardsD ops n sc check ws) (checkGuards ops sc check ws) := by
  cases ws with
  | nil => rw [checkGuardsD, checkGuards]; exact .ok
  | cons w ws =>
    obtain ⟨g, b⟩ := w
    rw [checkGuardsD, checkGuards, whensNesting]
    exact .bind ((inferExpr_fits n sc g).mono (by omega)) fun a => .bind .refl fun _ =>
      (checkGuards_fits n sc check ws).mono (by omega)

theorem inferBodies_fits (n : Nat) (sc : ScalarContext N) (ws : List (When N)) :
    Fits (whensNesting ws) n (inferBodiesD ops n sc ws) (inferBodies ops sc ws) := by
  cases ws with
  | nil => rw [inferBodiesD, inferBodies]; exact .refl
  | cons w ws =>
    obtain ⟨g, b⟩ := w
    rw [inferBodiesD, inferBodies, whensNesting]
    exact .bind ((inferExpr_fits n sc b).mono (by omega)) fun a => (foldBodies_fits n sc a ws).mono (by omega)

theorem foldBodies_fits (n : Nat) (sc : ScalarContext N) (typ : ScalarType) (ws : List (When N)) :
    Fits (whensNesting ws) n (foldBodiesD ops n sc typ ws) (foldBodies ops sc typ ws) := by
  cases ws with
  | nil => rw [foldBodiesD, foldBodies]; exact .ok
  | cons w ws =>
    obtain ⟨g, b⟩ := w
    rw [foldBodiesD, foldBodies, whensNesting]
    exact .bind ((inferExpr_fits n sc b).mono (by omega)) fun a => .bind .refl fun t =>
      (foldBodies_fits n sc t ws).mono (by omega)

theorem inferElse_fits (n : Nat) (sc : ScalarContext N) (t : ScalarType) (els : Option (Expr N)) :
    Fits (exprNesting els) n (inferElseD ops n sc t els) (inferElse ops sc t els) := by
  cases els with
  | none =>
    cases t <;> rw [inferElseD, inferElse]
    · exact .refl
    · exact .ok
  | some e =>
    cases t <;> rw [inferElseD, inferElse, exprNesting]
    · exact .refl
    · exact .bind (inferExpr_fits n sc e) fun a => .bind .refl fun _ => .ok

theorem inferSet_fits (n : Nat) (sc : ScalarContext N) (s : SetSpec N) :
    Fits s.nesting n (inferSetD ops n sc s) (inferSet ops sc s) := by
  cases s with
  | select s => rw [inferSetD, inferSet, SetSpec.nesting]; exact .enter fun m => inferSelect_fits m _ s
  | name q => rw [inferSetD, inferSet, SetSpec.nesting]; exact .enter (h := 0) fun m => .refl
  | list es =>
    rw [inferSetD, inferSet, SetSpec.nesting]
    refine .enter fun m => .bind (inferList_fits m sc es) fun t => ?_
    cases t
    · exact .refl
    · exact .ok

theorem inferList_fits (n : Nat) (sc : ScalarContext N) (es : List (Expr N)) :
    Fits (exprsNesting es) n (inferListD ops n sc es) (inferList ops sc es) := by
  cases es with
  | nil => rw [inferListD, inferList]; exact .refl
  | cons e es =>
    rw [inferListD, inferList, exprsNesting]
    exact foldList_fits n sc _ _ ((inferExpr_fits n sc e).mono (by omega)) es (by omega)

theorem foldList_fits {h : Nat} (n : Nat) (sc : ScalarContext N) (d : Deep ScalarType) (c : Chk ScalarType)
    (hd : Fits h n d c) (es : List (Expr N)) (hh : exprsNesting es ≤ h) :
    Fits h n (foldListD ops n sc d es) (foldList ops sc c es) := by
  cases es with
  | nil => rw [foldListD, foldList]; exact hd
  | cons e es =>
    rw [exprsNesting] at hh
    rcases hd with rfl | ⟨rfl, hn⟩
    · match c with
      | .ok t =>
        rw [deep, foldListD, foldList]
        exact foldList_fits n sc _ _ (.bind ((inferExpr_fits n sc e).mono (by omega)) fun _ => .refl) es (by omega)
      | .error (.err x) =>
        rw [deep, foldListD, foldList]
        exact foldList_fits n sc _ _ (.bind ((inferExpr_fits n sc e).mono (by omega)) fun _ => .refl) es (by omega)
      | .error .panic =>
        rw [deep, foldListD, foldList]
        exact .refl
    · rw [foldListD]
      exact .inr ⟨rfl, hn⟩

theorem inferSelect_fits (n : Nat) (ctx : SetContext N) (s : Select N) :
    Fits s.nesting n (inferSelectD ops n ctx s) (inferSelect ops ctx s) := by
  obtain ⟨common, x, orderBy, limit⟩ := s
  rw [inferSelectD, inferSelect, Select.nesting]
  exact .enter fun m => .bind ((addCommon_fits m ctx _ common).mono (by omega)) fun sc =>
    .bind ((inferSetExpr_fits m ctx x).mono (by omega)) fun r =>
    .bind ((checkOrder_fits m sc orderBy).mono (by omega)) fun _ =>
    .bind ((checkLimit_fits m _ limit).mono (by omega)) fun _ => .ok

theorem addCommon_fits (n : Nat) (ctx : SetContext N) (sc : ScalarContext N) (cs : List (Cte N)) :
    Fits (ctesNesting cs) n (addCommonD ops n ctx sc cs) (addCommon ops ctx sc cs) := by
  cases cs with
  | nil => rw [addCommonD, addCommon]; exact .ok
  | cons c cs =>
    obtain ⟨i, names, q⟩ := c
    rw [addCommonD, addCommon, ctesNesting]
    refine .bind (.mono (h := q.nesting + 1) ?_ (by omega)) fun t => .bind .refl fun sc =>
      (addCommon_fits n ctx sc cs).mono (by omega)
    rw [inferCteD, inferCte]
    refine .enter fun m => .bind (inferSelect_fits m ctx q) fun t => ?_
    cases names
    · exact .ok
    · exact .bind .refl fun _ => .ok

theorem checkOrder_fits (n : Nat) (sc : ScalarContext N) (ts : List (OrderTerm N)) :
    Fits (termsNesting ts) n (checkOrderD ops n sc ts) (checkOrder ops sc ts) := by
  cases ts with
  | nil => rw [checkOrderD, checkOrder]; exact .ok
  | cons t ts =>
    obtain ⟨e, c, d⟩ := t
    rw [checkOrderD, checkOrder, termsNesting, ← bind_assoc]
    refine .bind (.mono (h := e.nesting + 1) ?_ (by omega)) fun _ => (checkOrder_fits n sc ts).mono (by omega)
    exact .enter fun m => .bind (inferExpr_fits m sc e) fun _ => .refl

theorem checkLimit_fits (n : Nat) (ctx : SetContext N) (l : Option (Limit N)) :
    Fits (limitNesting l) n (checkLimitD ops n ctx l) (checkLimit ops ctx l) := by
  cases l with
  | none => rw [checkLimitD, checkLimit]; exact .ok
  | some l =>
    obtain ⟨e, o⟩ := l
    rw [checkLimitD, checkLimit, limitNesting]
    exact .enter fun m => .bind ((inferExpr_fits m _ e).mono (by omega)) fun _ => .bind .refl fun _ =>
      (checkOffset_fits m _ o).mono (by omega)

theorem checkOffset_fits (n : Nat) (sc : ScalarContext N) (o : Option (Expr N)) :
    Fits (exprNesting o) n (checkOffsetD ops n sc o) (checkOffset ops sc o) := by
  cases o with
  | none => rw [checkOffsetD, checkOffset]; exact .ok
  | some e =>
    rw [checkOffsetD, checkOffset, exprNesting]
    exact .bind (inferExpr_fits n sc e) fun _ => .refl

theorem inferSetExpr_fits (n : Nat) (ctx : SetContext N) (x : SetExpr N) :
    Fits x.nesting n (inferSetExprD ops n ctx x) (inferSetExpr ops ctx x) := by
  cases x with
  | values rows =>
    rw [inferSetExprD, inferSetExpr, SetExpr.nesting]
    exact .enter fun m => .bind (inferValues_fits m _ rows) fun _ => .ok
  | query mode columns froms wher groupBy =>
    rw [inferSetExprD, inferSetExpr, SetExpr.nesting]
    exact .enter fun m => .bind ((inferFrom_fits m _ froms).mono (by omega)) fun (sc, as) =>
      .bind ((checkPredicate_fits m sc _ wher).mono (by omega)) fun _ =>
      .bind ((checkGroupBy_fits m sc groupBy).mono (by omega)) fun _ =>
      (inferColumns_fits m sc as columns).mono (by omega)
  | op o l r =>
    rw [inferSetExprD, inferSetExpr, SetExpr.nesting]
    exact .enter fun m => .bind ((inferSetExpr_fits m ctx l).mono (by omega)) fun _ =>
      .bind ((inferSetExpr_fits m ctx r).mono (by omega)) fun _ => .bind .refl fun _ => .ok

theorem inferValues_fits (n : Nat) (sc : ScalarContext N) (rows : List (List (Expr N))) :
    Fits (rowsNesting rows) n (inferValuesD ops n sc rows) (inferValues ops sc rows) := by
  cases rows with
  | nil => rw [inferValuesD, inferValues]; exact .refl
  | cons r rows =>
    rw [inferValuesD, inferValues, rowsNesting]
    exact .bind ((inferFirstRow_fits n sc 0 r).mono (by omega)) fun ts => (foldRows_fits n sc ts rows).mono (by omega)

theorem inferFirstRow_fits (n : Nat) (sc : ScalarContext N) (count : Nat) (es : List (Expr N)) :
    Fits (exprsNesting es) n (inferFirstRowD ops n sc count es) (inferFirstRow ops sc count es) := by
  cases es with
  | nil => rw [inferFirstRowD, inferFirstRow]; exact .ok
  | cons e es =>
    rw [inferFirstRowD, inferFirstRow, exprsNesting]
    refine .bind ((inferExpr_fits n sc e).mono (by omega)) fun t => ?_
    cases t
    · exact .refl
    · exact .bind ((inferFirstRow_fits n sc _ es).mono (by omega)) fun _ => .ok

theorem foldRows_fits (n : Nat) (sc : ScalarContext N) (ts : List (Attribute N)) (rows : List (List (Expr N))) :
    Fits (rowsNesting rows) n (foldRowsD ops n sc ts rows) (foldRows ops sc ts rows) := by
  cases rows with
  | nil => rw [foldRowsD, foldRows]; exact .ok
  | cons r rows =>
    rw [foldRowsD, foldRows, rowsNesting]
    exact .bind ((unifyRow_fits n sc ts r).mono (by omega)) fun ts => (foldRows_fits n sc ts rows).mono (by omega)

theorem unifyRow_fits (n : Nat) (sc : ScalarContext N) (ts : List (Attribute N)) (es : List (Expr N)) :
    Fits (exprsNesting es) n (unifyRowD ops n sc ts es) (unifyRow ops sc ts es) := by
  cases ts with
  | nil => simp only [unifyRowD, unifyRow]; exact .ok
  | cons a ts =>
    cases es with
    | nil => simp only [unifyRowD, unifyRow]; exact .ok
    | cons e es =>
      rw [unifyRowD, unifyRow, exprsNesting]
      refine .bind ((inferExpr_fits n sc e).mono (by omega)) fun t => .bind .refl fun t => ?_
      cases t
      · exact .refl
      · exact .bind ((unifyRow_fits n sc _ es).mono (by omega)) fun _ => .ok

theorem inferFrom_fits (n : Nat) (sc : ScalarContext N) (ts : List (TableExpr N)) :
    Fits (tablesNesting ts) n (inferFromD ops n sc ts) (inferFrom ops sc ts) := by
  cases ts with
  | nil => rw [inferFromD, inferFrom]; exact .ok
  | cons t ts =>
    rw [inferFromD, inferFrom, tablesNesting]
    exact .bind ((inferTable_fits n sc t).mono (by omega)) fun (sc, _) =>
      .bind ((inferFrom_fits n sc ts).mono (by omega)) fun _ => .ok

theorem inferTable_fits (n : Nat) (sc : ScalarContext N) (t : TableExpr N) :
    Fits t.nesting n (inferTableD ops n sc t) (inferTable ops sc t) := by
  cases t with
  | named name alias => rw [inferTableD, inferTable, TableExpr.nesting]; exact .enter (h := 0) fun m => .refl
  | select s alias =>
    rw [inferTableD, inferTable, TableExpr.nesting]
    exact .enter fun m => .bind (inferSelect_fits m _ s) fun _ => .ok
  | join l r o c =>
    rw [inferTableD, inferTable, TableExpr.nesting]
    exact .enter fun m => .bind ((inferTable_fits m sc l).mono (by omega)) fun (sc, _) =>
      .bind ((inferTable_fits m sc r).mono (by omega)) fun _ => .ok

theorem checkPredicate_fits (n : Nat) (sc : ScalarContext N) (msg : SqlError) (o : Option (Expr N)) :
    Fits (exprNesting o) n (checkPredicateD ops n sc msg o) (checkPredicate ops sc msg o) := by
  cases o with
  | none => rw [checkPredicateD, checkPredicate]; exact .ok
  | some e =>
    rw [checkPredicateD, checkPredicate, exprNesting]
    exact .bind (inferExpr_fits n sc e) fun _ => .refl

theorem checkGroupBy_fits (n : Nat) (sc : ScalarContext N) (g : Option (GroupBy N)) :
    Fits (groupNesting g) n (checkGroupByD ops n sc g) (checkGroupBy ops sc g) := by
  cases g with
  | none => rw [checkGroupByD, checkGroupBy]; exact .ok
  | some g =>
    obtain ⟨es, h⟩ := g
    rw [checkGroupByD, checkGroupBy, groupNesting]
    exact .bind ((inferExprs_fits n sc es).mono (by omega)) fun _ => (checkPredicate_fits n sc _ h).mono (by omega)

theorem inferColumns_fits (n : Nat) (sc : ScalarContext N) (as : List (Attribute N)) (cs : ResultColumns N) :
    Fits cs.nesting n (inferColumnsD ops n sc as cs) (inferColumns ops sc as cs) := by
  cases cs with
  | all => rw [inferColumnsD, inferColumns, ResultColumns.nesting]; exact .enter (h := 0) fun m => .ok
  | list cs =>
    rw [inferColumnsD, inferColumns, ResultColumns.nesting]
    exact .enter fun m => .bind (inferColumnList_fits m sc [] cs) fun _ => .ok

theorem inferColumnList_fits (n : Nat) (sc : ScalarContext N) (g : TMap N Nat) (cs : List (ResultColumn N)) :
    Fits (columnsNesting cs) n (inferColumnListD ops n sc g cs) (inferColumnList ops sc g cs) := by
  cases cs with
  | nil => rw [inferColumnListD, inferColumnList]; exact .ok
  | cons c cs =>
    cases c with
    | allFrom name =>
      rw [inferColumnListD, inferColumnList, columnsNesting]
      match TMap.get ops sc.symbols name with
      | none => exact .refl
      | some (.relation fields) => exact .bind .refl fun _ => .bind (inferColumnList_fits n sc _ cs) fun _ => .ok
      | some (.attribute _) => exact .refl
      | some .attributeConflict => exact .refl
    | expr e rename =>
      rw [inferColumnListD, inferColumnList, columnsNesting]
      refine .bind ((inferExpr_fits n sc e).mono (by omega)) fun t => ?_
      cases t
      · exact .refl
      · exact .bind ((inferColumnList_fits n sc _ cs).mono (by omega)) fun _ => .ok

end

theorem updateAssignments_fits (n : Nat) (sc : ScalarContext N) (map : TMap N (DataType × Bool))
    (as : List (Assignment N)) : ∀ assigned, Fits (assignmentsNesting as) n
      (updateAssignmentsD ops n sc map assigned as) (updateAssignments ops sc map assigned as) := by
  induction as with
  | nil => intro _; rw [updateAssignmentsD, updateAssignments]; exact .ok
  | cons a as ih =>
    intro assigned
    rw [updateAssignmentsD, updateAssignments, assignmentsNesting]
    refine .bind ((inferExpr_fits n sc a.expr).mono (by omega)) fun t => ?_
    cases t
    · exact .refl
    · exact .bind .refl fun _ => (ih _).mono (by omega)

theorem statement_fits (n : Nat) (ctx : SetContext N) (s : Statement N) :
    Fits s.nesting n (s.validateTypeD ops n ctx) (s.validateType ops ctx) := by
  cases s with
  | select s =>
    rw [Statement.validateTypeD, Statement.validateType, Statement.nesting]
    exact .enter fun m => .bind (inferSelect_fits m ctx s) fun _ => .ok
  | insert s =>
    rw [Statement.validateTypeD, Statement.validateType, Statement.nesting]
    refine .enter fun m => ?_
    rw [InsertStatement.validateTypeD, InsertStatement.validateType]
    exact .enter fun m => .bind .refl fun _ => .bind (inferSetExpr_fits m ctx s.source) fun _ => .refl
  | update s =>
    rw [Statement.validateTypeD, Statement.validateType, Statement.nesting]
    refine .enter fun m => ?_
    rw [UpdateStatement.validateTypeD, UpdateStatement.validateType]
    exact .enter fun m => .bind .refl fun _ => .bind .refl fun sc =>
      .bind ((updateAssignments_fits m sc _ s.assignments _).mono (by omega)) fun _ =>
      (checkPredicate_fits m sc _ s.wher).mono (by omega)
  | delete s =>
    rw [Statement.validateTypeD, Statement.validateType, Statement.nesting]
    refine .enter fun m => ?_
    rw [DeleteStatement.validateTypeD, DeleteStatement.validateType]
    exact .enter fun m => .bind .refl fun _ => .bind .refl fun sc => checkPredicate_fits m sc _ s.wher

theorem sqlStatement_fits (n : Nat) (ctx : SetContext N) (x : SqlStatement N) :
    Fits x.nesting n (x.validateTypeD ops n ctx) (x.validateType ops ctx) := by
  cases x with
  | statement s => exact .enter fun m => statement_fits m ctx s
  | explainQueryPlan s => exact .enter fun m => statement_fits m ctx s
  | attach a => exact .enter fun m => .enter (h := 0) fun _ => .ok
  | describe d => exact .enter fun m => .enter (h := 0) fun _ => .refl

end Verif.Sql
