import Verif.Spec.SqlSteady
import Verif.Proof.SqlCalls
import Verif.Proof.SqlStack
import Verif.Proof.SqlUnify
/-! # How many calls inference makes, and how deep, when every part is looked at -/

namespace Verif.Sql

/-- If the outcome is `Ok`, there were `k` calls, and there must be room for `h` nested ones. -/
def Exact {α : Type} (k h n : Nat) (x : Counted α) (d : Deep α) (c : Chk α) : Prop :=
  ∀ a, c = .ok a → x = ⟨.ok a, k⟩ ∧ d = if n < h then .error .overflow else .ok a

namespace Exact
variable {k h n : Nat}

theorem free {c : Chk α} : Exact 0 0 n (Sql.free c) (deep c) c := by
  rintro a rfl
  exact ⟨rfl, rfl⟩

theorem pure {a : α} : Exact 0 0 n (Pure.pure a) (.ok a) (.ok a) := by
  rintro a ⟨⟩
  exact ⟨rfl, rfl⟩

theorem fail {x : Counted α} {d : Deep α} {e : Stop} : Exact k h n x d (.error e) := nofun

theorem eq {k' h' : Nat} {x : Counted α} {d : Deep α} {c : Chk α} (hx : Exact k h n x d c) (hk : k = k')
    (hh : h = h') : Exact k' h' n x d c := by
  subst hk hh
  exact hx

theorem bind {k' h' : Nat} {x : Counted α} {d : Deep α} {c : Chk α} {f : α → Counted β} {f' : α → Deep β}
    {g : α → Chk β} (hx : Exact k h n x d c) (hf : ∀ a, c = .ok a → Exact k' h' n (f a) (f' a) (g a)) :
    Exact (k + k') (max h h') n (x >>= f) (d >>= f') (c >>= g) := by
  intro b hb
  cases c with
  | error e => cases hb
  | ok a =>
    obtain ⟨rfl, rfl⟩ := hx a rfl
    obtain ⟨h1, h2⟩ := hf a rfl b hb
    constructor
    · show Counted.andThen _ _ = _
      unfold Counted.andThen
      dsimp only
      rw [h1]
    · split
      · rw [if_pos (by omega)]; rfl
      · show f' a = _
        rw [h2]
        split
        · rw [if_pos (by omega)]
        · rw [if_neg (by omega)]

theorem enter {x : Counted α} {f : Nat → Deep α} {c : Chk α} (hf : ∀ m, Exact k h m x (f m) c) :
    Exact (k + 1) (h + 1) n (call x) (Sql.enter n f) c := by
  intro a ha
  constructor
  · rw [call, (hf 0 a ha).1]
  · cases n with
    | zero => rw [if_pos (by omega)]; rfl
    | succ m =>
      show f m = _
      rw [(hf m a ha).2]
      split
      · rw [if_pos (by omega)]
      · rw [if_neg (by omega)]

end Exact

variable {N : Type} {ops : NameOps N}

theorem unifyRow_same {sc : ScalarContext N} : ∀ {ts : List (Attribute N)} {es : List (Expr N)}
    {as : List (Attribute N)}, unifyRow ops sc ts es = .ok as → ts.length = es.length → as.length = es.length
  | [], [], as, h, _ => by rw [unifyRow] at h <;> first | (cases h; rfl) | simp
  | t :: ts, e :: es, as, h, hl => by
    rw [unifyRow] at h
    obtain ⟨u, h1, h⟩ := Chk.bind_eq_ok.1 h
    obtain ⟨u', h2, h⟩ := Chk.bind_eq_ok.1 h
    cases u' with
    | tuple _ => cases h
    | scalar typ isNull =>
      obtain ⟨rest, h3, h⟩ := Chk.bind_eq_ok.1 h
      cases h
      rw [List.length_cons, unifyRow_same h3 (Nat.succ.inj hl)]
      rfl

theorem firstRow_same {sc : ScalarContext N} : ∀ {es : List (Expr N)} {k : Nat} {as : List (Attribute N)},
    inferFirstRow ops sc k es = .ok as → as.length = es.length
  | [], k, as, h => by rw [inferFirstRow] at h; cases h; rfl
  | e :: es, k, as, h => by
    rw [inferFirstRow] at h
    obtain ⟨t, h1, h⟩ := Chk.bind_eq_ok.1 h
    cases t with
    | tuple _ => cases h
    | scalar typ isNull =>
      obtain ⟨rest, h2, h⟩ := Chk.bind_eq_ok.1 h
      cases h
      rw [List.length_cons, firstRow_same h2]
      rfl

mutual

theorem inferExpr_exact (n : Nat) (sc : ScalarContext N) (e : Expr N) (hs : e.Steady) :
    Exact e.parts e.nesting n (inferExprC ops sc e) (inferExprD ops n sc e) (inferExpr ops sc e) := by
  cases e with
  | literal l => rw [inferExprC, inferExprD, inferExpr, Expr.nesting, Expr.parts]; exact .enter (h := 0) fun m => .pure
  | ident q => rw [inferExprC, inferExprD, inferExpr, Expr.nesting, Expr.parts]; exact .enter (h := 0) fun m => .free
  | tuple es =>
    rw [Expr.Steady] at hs
    rw [inferExprC, inferExprD, inferExpr, Expr.nesting, Expr.parts]
    exact .eq (.enter fun m => .bind (inferExprs_exact m sc es hs) fun a _ => .pure) (by omega) (by omega)
  | unary op e =>
    rw [Expr.Steady] at hs
    rw [inferExprC, inferExprD, inferExpr, Expr.nesting, Expr.parts]
    exact .eq (.enter fun m => .bind (inferExpr_exact m sc e hs) fun a _ => .free) (by omega) (by omega)
  | binary op l r =>
    rw [Expr.Steady] at hs
    rw [inferExprC, inferExprD, inferExpr, Expr.nesting, Expr.parts]
    exact .eq (.enter fun m => .bind (inferExpr_exact m sc l hs.1) fun a _ =>
      .bind (inferExpr_exact m sc r hs.2) fun b _ => .free) (by omega) (by omega)
  | comparison op l r =>
    rw [Expr.Steady] at hs
    rw [inferExprC, inferExprD, inferExpr, Expr.nesting, Expr.parts]
    exact .eq (.enter fun m => .bind (inferExpr_exact m sc l hs.1) fun a _ =>
      .bind (inferExpr_exact m sc r hs.2) fun b _ => .free) (by omega) (by omega)
  | between e l r =>
    rw [Expr.Steady] at hs
    rw [inferExprC, inferExprD, inferExpr, Expr.nesting, Expr.parts]
    exact .eq (.enter fun m => .bind (inferExpr_exact m sc e hs.1) fun a _ =>
      .bind (inferExpr_exact m sc l hs.2.1) fun a _ =>
      .bind (inferExpr_exact m sc r hs.2.2) fun b _ => .free) (by omega) (by omega)
  | case o ws els => rw [Expr.Steady] at hs; exact hs.elim
  | inSet e set =>
    rw [Expr.Steady] at hs
    rw [inferExprC, inferExprD, inferExpr, Expr.nesting, Expr.parts]
    refine .eq (.enter fun m => .bind (inferExpr_exact m sc e hs.1) fun et _ =>
      .bind (inferSet_exact m sc set hs.2) fun r _ => .bind .free fun ct _ =>
      .bind (k' := 0) (h' := 0) .free fun b _ => ?_) (by omega) (by omega)
    cases b
    · exact .free (c := err .inIncompatible)
    · exact .pure
  | select s =>
    rw [Expr.Steady] at hs
    rw [inferExprC, inferExprD, inferExpr, Expr.nesting, Expr.parts]
    exact .eq (.enter fun m => .bind (inferSelect_exact m _ s hs) fun a _ => .free) (by omega) (by omega)

theorem inferExprs_exact (n : Nat) (sc : ScalarContext N) (es : List (Expr N)) (hs : exprsSteady es) :
    Exact (exprsParts es) (exprsNesting es) n (inferExprsC ops sc es) (inferExprsD ops n sc es)
      (inferExprs ops sc es) := by
  cases es with
  | nil => rw [inferExprsC, inferExprsD, inferExprs, exprsParts, exprsNesting]; exact .pure
  | cons e es =>
    rw [exprsSteady] at hs
    rw [inferExprsC, inferExprsD, inferExprs, exprsNesting, exprsParts]
    exact .eq (.bind (inferExpr_exact n sc e hs.1) fun a _ =>
      .bind (inferExprs_exact n sc es hs.2) fun b _ => .pure) (by omega) (by omega)

theorem inferSet_exact (n : Nat) (sc : ScalarContext N) (s : SetSpec N) (hs : s.Steady) :
    Exact s.parts s.nesting n (inferSetC ops sc s) (inferSetD ops n sc s) (inferSet ops sc s) := by
  cases s with
  | select s =>
    rw [SetSpec.Steady] at hs
    rw [inferSetC, inferSetD, inferSet, SetSpec.nesting, SetSpec.parts]
    exact .enter fun m => inferSelect_exact m _ s hs
  | name q =>
    rw [inferSetC, inferSetD, inferSet, SetSpec.nesting, SetSpec.parts]
    exact .enter (h := 0) fun m => .free
  | list es =>
    rw [SetSpec.Steady] at hs
    rw [inferSetC, inferSetD, inferSet, SetSpec.nesting, SetSpec.parts]
    refine .eq (.enter fun m => .bind (k' := 0) (h' := 0) (inferList_exact m sc es hs) fun t _ => ?_)
      (by omega) (by omega)
    cases t
    · exact .fail
    · exact .pure

theorem inferList_exact (n : Nat) (sc : ScalarContext N) (es : List (Expr N)) (hs : exprsSteady es) :
    Exact (exprsParts es) (exprsNesting es) n (inferListC ops sc es) (inferListD ops n sc es)
      (inferList ops sc es) := by
  cases es with
  | nil => rw [inferListC, inferListD, inferList]; exact .fail
  | cons e es =>
    rw [exprsSteady] at hs
    rw [inferListC, inferListD, inferList, exprsNesting, exprsParts]
    exact foldList_exact n sc _ _ _ (inferExpr_exact n sc e hs.1) es hs.2

theorem foldList_exact {k h : Nat} (n : Nat) (sc : ScalarContext N) (x : Counted ScalarType) (d : Deep ScalarType)
    (c : Chk ScalarType) (hx : Exact k h n x d c) (es : List (Expr N)) (hs : exprsSteady es) :
    Exact (k + exprsParts es) (max h (exprsNesting es)) n (foldListC ops sc x es) (foldListD ops n sc d es)
      (foldList ops sc c es) := by
  cases c with
  | error s => exact fun a ha => absurd ha (foldList_error sc es s a)
  | ok t =>
    obtain ⟨rfl, rfl⟩ := hx t rfl
    cases es with
    | nil =>
      rw [foldListC, foldListD, foldList, exprsParts, exprsNesting]
      exact hx.eq (by omega) (by omega)
    | cons e es =>
      rw [exprsSteady] at hs
      rw [exprsParts, exprsNesting, foldListC, foldList]
      have h1 : Exact (k + e.parts) e.nesting n (more k (do free (t.unify (← inferExprC ops sc e))))
          (do deep (t.unify (← inferExprD ops n sc e))) (do t.unify (← inferExpr ops sc e)) := by
        have := Exact.bind (inferExpr_exact n sc e hs.1)
          fun a _ => Exact.free (c := t.unify a) (n := n)
        intro a ha
        obtain ⟨h2, h3⟩ := this a ha
        refine ⟨?_, h3.trans (by simp)⟩
        rw [h2, more]
        rfl
      have h2 := foldList_exact n sc _ _ _ h1 es hs.2
      intro a ha
      obtain ⟨h3, h4⟩ := h2 a ha
      refine ⟨h3.trans (by rw [Nat.add_assoc]), ?_⟩
      split
      · rw [foldListD, if_pos (by omega)]
      · rw [foldListD, h4]
        split
        · rw [if_pos (by omega)]
        · rw [if_neg (by omega)]

theorem inferSelect_exact (n : Nat) (ctx : SetContext N) (s : Select N) (hs : s.Steady) :
    Exact s.parts s.nesting n (inferSelectC ops ctx s) (inferSelectD ops n ctx s) (inferSelect ops ctx s) := by
  obtain ⟨common, x, orderBy, limit⟩ := s
  rw [Select.Steady] at hs
  rw [inferSelectC, inferSelectD, inferSelect, Select.nesting, Select.parts]
  exact .eq (.enter fun m => .bind (addCommon_exact m ctx _ common hs.1) fun sc _ =>
    .bind (inferSetExpr_exact m ctx x hs.2.1) fun r _ =>
    .bind (checkOrder_exact m sc orderBy hs.2.2.1) fun _ _ =>
    .bind (checkLimit_exact m _ limit hs.2.2.2) fun _ _ => .pure) (by omega) (by omega)

theorem addCommon_exact (n : Nat) (ctx : SetContext N) (sc : ScalarContext N) (cs : List (Cte N))
    (hs : ctesSteady cs) :
    Exact (ctesParts cs) (ctesNesting cs) n (addCommonC ops ctx sc cs) (addCommonD ops n ctx sc cs)
      (addCommon ops ctx sc cs) := by
  cases cs with
  | nil => rw [addCommonC, addCommonD, addCommon, ctesParts, ctesNesting]; exact .pure
  | cons c cs =>
    obtain ⟨i, names, q⟩ := c
    rw [ctesSteady] at hs
    rw [addCommonC, addCommonD, addCommon, ctesNesting, ctesParts]
    refine .eq (.bind (k := q.parts + 1) (h := q.nesting + 1) ?_ fun t _ => .bind .free fun sc _ =>
      addCommon_exact n ctx sc cs hs.2) (by omega) (by omega)
    rw [inferCteC, inferCteD, inferCte]
    refine .eq (.enter fun m => .bind (k' := 0) (h' := 0) (inferSelect_exact m ctx q hs.1) fun t _ => ?_)
      (by omega) (by omega)
    cases names
    · exact .pure
    · exact .eq (.bind .free fun _ _ => .pure) (by omega) (by omega)

theorem checkOrder_exact (n : Nat) (sc : ScalarContext N) (ts : List (OrderTerm N)) (hs : termsSteady ts) :
    Exact (termsParts ts) (termsNesting ts) n (checkOrderC ops sc ts) (checkOrderD ops n sc ts)
      (checkOrder ops sc ts) := by
  cases ts with
  | nil => rw [checkOrderC, checkOrderD, checkOrder, termsParts, termsNesting]; exact .pure
  | cons t ts =>
    obtain ⟨e, c, d⟩ := t
    rw [termsSteady] at hs
    rw [checkOrderC, checkOrderD, checkOrder, termsNesting, termsParts, ← bind_assoc]
    refine .bind ?_ fun _ _ => checkOrder_exact n sc ts hs.2
    exact .eq (.enter fun m => .bind (inferExpr_exact m sc e hs.1) fun _ _ => .free) (by omega) (by omega)

theorem checkLimit_exact (n : Nat) (ctx : SetContext N) (l : Option (Limit N)) (hs : limitSteady l) :
    Exact (limitParts l) (limitNesting l) n (checkLimitC ops ctx l) (checkLimitD ops n ctx l)
      (checkLimit ops ctx l) := by
  cases l with
  | none => rw [checkLimitC, checkLimitD, checkLimit, limitParts, limitNesting]; exact .pure
  | some l =>
    obtain ⟨e, o⟩ := l
    rw [limitSteady] at hs
    rw [checkLimitC, checkLimitD, checkLimit, limitNesting, limitParts]
    exact .eq (.enter fun m => .bind (inferExpr_exact m _ e hs.1) fun _ _ => .bind .free fun _ _ =>
      checkOffset_exact m _ o hs.2) (by omega) (by omega)

theorem checkOffset_exact (n : Nat) (sc : ScalarContext N) (o : Option (Expr N)) (hs : exprSteady o) :
    Exact (exprParts o) (exprNesting o) n (checkOffsetC ops sc o) (checkOffsetD ops n sc o)
      (checkOffset ops sc o) := by
  cases o with
  | none => rw [checkOffsetC, checkOffsetD, checkOffset, exprParts, exprNesting]; exact .pure
  | some e =>
    rw [exprSteady] at hs
    rw [checkOffsetC, checkOffsetD, checkOffset, exprNesting, exprParts]
    exact .eq (.bind (inferExpr_exact n sc e hs) fun _ _ => .free) (by omega) (by omega)

theorem inferSetExpr_exact (n : Nat) (ctx : SetContext N) (x : SetExpr N) (hs : x.Steady) :
    Exact x.parts x.nesting n (inferSetExprC ops ctx x) (inferSetExprD ops n ctx x) (inferSetExpr ops ctx x) := by
  cases x with
  | values rows =>
    rw [inferSetExprC, inferSetExprD, inferSetExpr, SetExpr.nesting, SetExpr.parts]
    refine .eq (.enter fun m => .bind (k := rowsParts rows) (h := rowsNesting rows) ?_ fun _ _ => .pure)
      (by omega) (by omega)
    cases rows with
    | nil => rw [inferValuesC, inferValuesD, inferValues]; exact .fail
    | cons r rows =>
      rw [SetExpr.Steady] at hs
      rw [inferValuesC, inferValuesD, inferValues, rowsNesting, rowsParts]
      exact .bind (inferFirstRow_exact m _ 0 r hs.1) fun ts h =>
        foldRows_exact m _ ts rows r.length hs.2 (firstRow_same h)
  | query mode columns froms wher groupBy =>
    rw [SetExpr.Steady] at hs
    rw [inferSetExprC, inferSetExprD, inferSetExpr, SetExpr.nesting, SetExpr.parts]
    exact .eq (.enter fun m => .bind (inferFrom_exact m _ froms hs.2.1) fun (sc, as) _ =>
      .bind (checkPredicate_exact m sc _ wher hs.2.2.1) fun _ _ =>
      .bind (checkGroupBy_exact m sc groupBy hs.2.2.2) fun _ _ =>
      inferColumns_exact m sc as columns hs.1) (by omega) (by omega)
  | op o l r =>
    rw [SetExpr.Steady] at hs
    rw [inferSetExprC, inferSetExprD, inferSetExpr, SetExpr.nesting, SetExpr.parts]
    exact .eq (.enter fun m => .bind (inferSetExpr_exact m ctx l hs.1) fun _ _ =>
      .bind (inferSetExpr_exact m ctx r hs.2) fun _ _ => .bind .free fun _ _ => .pure) (by omega) (by omega)

theorem inferFirstRow_exact (n : Nat) (sc : ScalarContext N) (count : Nat) (es : List (Expr N))
    (hs : exprsSteady es) :
    Exact (exprsParts es) (exprsNesting es) n (inferFirstRowC ops sc count es) (inferFirstRowD ops n sc count es)
      (inferFirstRow ops sc count es) := by
  cases es with
  | nil => rw [inferFirstRowC, inferFirstRowD, inferFirstRow, exprsParts, exprsNesting]; exact .pure
  | cons e es =>
    rw [exprsSteady] at hs
    rw [inferFirstRowC, inferFirstRowD, inferFirstRow, exprsNesting, exprsParts]
    refine .bind (inferExpr_exact n sc e hs.1) fun t _ => ?_
    cases t
    · exact .fail
    · exact .eq (.bind (inferFirstRow_exact n sc _ es hs.2) fun _ _ => .pure) (by omega) (by omega)

theorem foldRows_exact (n : Nat) (sc : ScalarContext N) (ts : List (Attribute N)) (rows : List (List (Expr N)))
    (k : Nat) (hs : rowsSteady k rows) (hl : ts.length = k) :
    Exact (rowsParts rows) (rowsNesting rows) n (foldRowsC ops sc ts rows) (foldRowsD ops n sc ts rows)
      (foldRows ops sc ts rows) := by
  cases rows with
  | nil => rw [foldRowsC, foldRowsD, foldRows, rowsParts, rowsNesting]; exact .pure
  | cons r rows =>
    rw [rowsSteady] at hs
    rw [foldRowsC, foldRowsD, foldRows, rowsNesting, rowsParts]
    exact .bind (unifyRow_exact n sc ts r hs.2.1 (by omega)) fun ts' h =>
      foldRows_exact n sc ts' rows k hs.2.2 (by rw [unifyRow_same h (by omega)]; exact hs.1)

theorem unifyRow_exact (n : Nat) (sc : ScalarContext N) (ts : List (Attribute N)) (es : List (Expr N))
    (hs : exprsSteady es) (hl : ts.length = es.length) :
    Exact (exprsParts es) (exprsNesting es) n (unifyRowC ops sc ts es) (unifyRowD ops n sc ts es)
      (unifyRow ops sc ts es) := by
  cases ts with
  | nil =>
    cases es with
    | nil => simp only [unifyRowC, unifyRowD, unifyRow, exprsParts, exprsNesting]; exact .pure
    | cons e es => cases hl
  | cons a ts =>
    cases es with
    | nil => cases hl
    | cons e es =>
      rw [exprsSteady] at hs
      rw [unifyRowC, unifyRowD, unifyRow, exprsNesting, exprsParts]
      refine .eq (.bind (inferExpr_exact n sc e hs.1) fun t _ =>
        .bind (k' := exprsParts es) (h' := exprsNesting es) .free fun t _ => ?_) (by omega) (by omega)
      cases t
      · exact .fail
      · exact .eq (.bind (unifyRow_exact n sc _ es hs.2 (Nat.succ.inj hl)) fun _ _ => .pure) (by omega) (by omega)

theorem inferFrom_exact (n : Nat) (sc : ScalarContext N) (ts : List (TableExpr N)) (hs : tablesSteady ts) :
    Exact (tablesParts ts) (tablesNesting ts) n (inferFromC ops sc ts) (inferFromD ops n sc ts)
      (inferFrom ops sc ts) := by
  cases ts with
  | nil => rw [inferFromC, inferFromD, inferFrom, tablesParts, tablesNesting]; exact .pure
  | cons t ts =>
    rw [tablesSteady] at hs
    rw [inferFromC, inferFromD, inferFrom, tablesNesting, tablesParts]
    exact .eq (.bind (inferTable_exact n sc t hs.1) fun (sc, _) _ =>
      .bind (inferFrom_exact n sc ts hs.2) fun _ _ => .pure) (by omega) (by omega)

theorem inferTable_exact (n : Nat) (sc : ScalarContext N) (t : TableExpr N) (hs : t.Steady) :
    Exact t.parts t.nesting n (inferTableC ops sc t) (inferTableD ops n sc t) (inferTable ops sc t) := by
  cases t with
  | named name alias =>
    rw [inferTableC, inferTableD, inferTable, TableExpr.nesting, TableExpr.parts]
    exact .enter (h := 0) fun m => .free
  | select s alias =>
    rw [TableExpr.Steady] at hs
    rw [inferTableC, inferTableD, inferTable, TableExpr.nesting, TableExpr.parts]
    exact .eq (.enter fun m => .bind (inferSelect_exact m _ s hs) fun _ _ => .pure) (by omega) (by omega)
  | join l r o c =>
    rw [TableExpr.Steady] at hs
    rw [inferTableC, inferTableD, inferTable, TableExpr.nesting, TableExpr.parts]
    exact .eq (.enter fun m => .bind (inferTable_exact m sc l hs.1) fun (sc, _) _ =>
      .bind (inferTable_exact m sc r hs.2) fun _ _ => .pure) (by omega) (by omega)

theorem checkPredicate_exact (n : Nat) (sc : ScalarContext N) (msg : SqlError) (o : Option (Expr N))
    (hs : exprSteady o) :
    Exact (exprParts o) (exprNesting o) n (checkPredicateC ops sc msg o) (checkPredicateD ops n sc msg o)
      (checkPredicate ops sc msg o) := by
  cases o with
  | none => rw [checkPredicateC, checkPredicateD, checkPredicate, exprParts, exprNesting]; exact .pure
  | some e =>
    rw [exprSteady] at hs
    rw [checkPredicateC, checkPredicateD, checkPredicate, exprNesting, exprParts]
    exact .eq (.bind (inferExpr_exact n sc e hs) fun _ _ => .free) (by omega) (by omega)

theorem checkGroupBy_exact (n : Nat) (sc : ScalarContext N) (g : Option (GroupBy N)) (hs : groupSteady g) :
    Exact (groupParts g) (groupNesting g) n (checkGroupByC ops sc g) (checkGroupByD ops n sc g)
      (checkGroupBy ops sc g) := by
  cases g with
  | none => rw [checkGroupByC, checkGroupByD, checkGroupBy, groupParts, groupNesting]; exact .pure
  | some g =>
    obtain ⟨es, h⟩ := g
    rw [groupSteady] at hs
    rw [checkGroupByC, checkGroupByD, checkGroupBy, groupNesting, groupParts]
    exact .bind (inferExprs_exact n sc es hs.1) fun _ _ => checkPredicate_exact n sc _ h hs.2

theorem inferColumns_exact (n : Nat) (sc : ScalarContext N) (as : List (Attribute N)) (cs : ResultColumns N)
    (hs : cs.Steady) :
    Exact cs.parts cs.nesting n (inferColumnsC ops sc as cs) (inferColumnsD ops n sc as cs)
      (inferColumns ops sc as cs) := by
  cases cs with
  | all =>
    rw [inferColumnsC, inferColumnsD, inferColumns, ResultColumns.nesting, ResultColumns.parts]
    exact .enter (h := 0) fun m => .pure
  | list cs =>
    rw [ResultColumns.Steady] at hs
    rw [inferColumnsC, inferColumnsD, inferColumns, ResultColumns.nesting, ResultColumns.parts]
    exact .eq (.enter fun m => .bind (inferColumnList_exact m sc [] cs hs) fun _ _ => .pure) (by omega) (by omega)

theorem inferColumnList_exact (n : Nat) (sc : ScalarContext N) (g : TMap N Nat) (cs : List (ResultColumn N))
    (hs : columnsSteady cs) :
    Exact (columnsParts cs) (columnsNesting cs) n (inferColumnListC ops sc g cs) (inferColumnListD ops n sc g cs)
      (inferColumnList ops sc g cs) := by
  cases cs with
  | nil => rw [inferColumnListC, inferColumnListD, inferColumnList, columnsParts, columnsNesting]; exact .pure
  | cons c cs =>
    cases c with
    | allFrom name =>
      rw [columnsSteady] at hs
      rw [inferColumnListC, inferColumnListD, inferColumnList, columnsNesting, columnsParts]
      match TMap.get ops sc.symbols name with
      | none => exact .fail
      | some (.relation fields) =>
        exact .eq (.bind .free fun _ _ => .bind (inferColumnList_exact n sc _ cs hs) fun _ _ => .pure)
          (by omega) (by omega)
      | some (.attribute _) => exact .fail
      | some .attributeConflict => exact .fail
    | expr e rename =>
      rw [columnsSteady] at hs
      rw [inferColumnListC, inferColumnListD, inferColumnList, columnsNesting, columnsParts]
      refine .bind (inferExpr_exact n sc e hs.1) fun t _ => ?_
      cases t
      · exact .fail
      · exact .eq (.bind (inferColumnList_exact n sc _ cs hs.2) fun _ _ => .pure) (by omega) (by omega)

end

theorem updateAssignments_exact (n : Nat) (sc : ScalarContext N) (map : TMap N (DataType × Bool))
    (as : List (Assignment N)) (hs : assignmentsSteady as) :
    ∀ assigned, Exact (assignmentsParts as) (assignmentsNesting as) n (updateAssignmentsC ops sc map assigned as)
      (updateAssignmentsD ops n sc map assigned as) (updateAssignments ops sc map assigned as) := by
  induction as with
  | nil =>
    intro _
    rw [updateAssignmentsC, updateAssignmentsD, updateAssignments]
    exact .pure
  | cons a as ih =>
    intro assigned
    rw [assignmentsSteady] at hs
    rw [updateAssignmentsC, updateAssignmentsD, updateAssignments, assignmentsNesting, assignmentsParts]
    refine .bind (inferExpr_exact n sc a.expr hs.1) fun t _ => ?_
    cases t
    · exact .fail
    · exact .eq (.bind .free fun _ _ => ih hs.2 _) (by omega) (by omega)

theorem statement_exact (n : Nat) (ctx : SetContext N) (s : Statement N) (hs : s.Steady) :
    Exact s.parts s.nesting n (s.validateTypeC ops ctx) (s.validateTypeD ops n ctx) (s.validateType ops ctx) := by
  cases s with
  | select s =>
    rw [Statement.validateTypeC, Statement.validateTypeD, Statement.validateType, Statement.nesting, Statement.parts]
    exact .eq (.enter fun m => .bind (inferSelect_exact m ctx s hs) fun _ _ => .pure) (by omega) (by omega)
  | insert s =>
    rw [Statement.validateTypeC, Statement.validateTypeD, Statement.validateType, Statement.nesting, Statement.parts]
    refine .enter (k := s.source.parts + 1) (h := s.source.nesting + 1) fun m => ?_
    rw [InsertStatement.validateTypeC, InsertStatement.validateTypeD, InsertStatement.validateType]
    exact .eq (.enter fun m => .bind .free fun _ _ => .bind (inferSetExpr_exact m ctx s.source hs) fun _ _ => .free)
      (by omega) (by omega)
  | update s =>
    rw [Statement.validateTypeC, Statement.validateTypeD, Statement.validateType, Statement.nesting, Statement.parts]
    refine .enter (k := assignmentsParts s.assignments + exprParts s.wher + 1)
      (h := max (assignmentsNesting s.assignments) (exprNesting s.wher) + 1) fun m => ?_
    rw [UpdateStatement.validateTypeC, UpdateStatement.validateTypeD, UpdateStatement.validateType]
    exact .eq (.enter fun m => .bind .free fun _ _ => .bind .free fun sc _ =>
      .bind (updateAssignments_exact m sc _ s.assignments hs.1 _) fun _ _ =>
      checkPredicate_exact m sc _ s.wher hs.2) (by omega) (by omega)
  | delete s =>
    rw [Statement.validateTypeC, Statement.validateTypeD, Statement.validateType, Statement.nesting, Statement.parts]
    refine .enter (k := exprParts s.wher + 1) (h := exprNesting s.wher + 1) fun m => ?_
    rw [DeleteStatement.validateTypeC, DeleteStatement.validateTypeD, DeleteStatement.validateType]
    exact .eq (.enter fun m => .bind .free fun _ _ => .bind .free fun sc _ =>
      checkPredicate_exact m sc _ s.wher hs) (by omega) (by omega)

theorem sqlStatement_exact (n : Nat) (ctx : SetContext N) (x : SqlStatement N) (hs : x.Steady) :
    Exact x.parts x.nesting n (x.validateTypeC ops ctx) (x.validateTypeD ops n ctx) (x.validateType ops ctx) := by
  cases x with
  | statement s => exact .enter fun m => statement_exact m ctx s hs
  | explainQueryPlan s => exact .enter fun m => statement_exact m ctx s hs
  | attach a => exact .enter fun m => .enter (k := 0) (h := 0) fun _ => .pure
  | describe d => exact .enter fun m => .enter (k := 0) (h := 0) fun _ => .free

end Verif.Sql
