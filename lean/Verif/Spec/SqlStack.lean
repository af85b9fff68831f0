import Verif.Model.SqlAst
/-!
# Nesting of statements

How deep the parts of a statement are nested, counting expressions, sets after IN, queries, common table expressions,
operands of set operations, tables, result columns, terms of ORDER BY, and LIMIT.  Join conditions do not count: they
are not looked at (C84).
-/

namespace Verif.Sql

mutual

def Expr.nesting : Expr N → Nat
  | .literal _ => 1
  | .ident _ => 1
  | .tuple es => exprsNesting es + 1
  | .select s => s.nesting + 1
  | .unary _ e => e.nesting + 1
  | .binary _ l r => max l.nesting r.nesting + 1
  | .comparison _ l r => max l.nesting r.nesting + 1
  | .inSet e set => max e.nesting set.nesting + 1
  | .between e l u => max e.nesting (max l.nesting u.nesting) + 1
  | .case o ws els => max (exprNesting o) (max (whensNesting ws) (exprNesting els)) + 1

def exprNesting : Option (Expr N) → Nat
  | none => 0
  | some e => e.nesting

def exprsNesting : List (Expr N) → Nat
  | [] => 0
  | e :: es => max e.nesting (exprsNesting es)

def rowsNesting : List (List (Expr N)) → Nat
  | [] => 0
  | r :: rs => max (exprsNesting r) (rowsNesting rs)

def whensNesting : List (When N) → Nat
  | [] => 0
  | .mk g b :: ws => max (max g.nesting b.nesting) (whensNesting ws)

def SetSpec.nesting : SetSpec N → Nat
  | .select s => s.nesting + 1
  | .list es => exprsNesting es + 1
  | .name _ => 1

def Select.nesting : Select N → Nat
  | .mk common x orderBy limit =>
    max (max (ctesNesting common) x.nesting) (max (termsNesting orderBy) (limitNesting limit)) + 1

def ctesNesting : List (Cte N) → Nat
  | [] => 0
  | .mk _ _ q :: cs => max (q.nesting + 1) (ctesNesting cs)

def termsNesting : List (OrderTerm N) → Nat
  | [] => 0
  | .mk e _ _ :: ts => max (e.nesting + 1) (termsNesting ts)

def limitNesting : Option (Limit N) → Nat
  | none => 0
  | some (.mk e o) => max e.nesting (exprNesting o) + 1

def SetExpr.nesting : SetExpr N → Nat
  | .values rows => rowsNesting rows + 1
  | .query _ columns froms wher groupBy =>
    max (max columns.nesting (tablesNesting froms)) (max (exprNesting wher) (groupNesting groupBy)) + 1
  | .op _ l r => max l.nesting r.nesting + 1

def TableExpr.nesting : TableExpr N → Nat
  | .named _ _ => 1
  | .select s _ => s.nesting + 1
  | .join l r _ _ => max l.nesting r.nesting + 1

def tablesNesting : List (TableExpr N) → Nat
  | [] => 0
  | t :: ts => max t.nesting (tablesNesting ts)

def ResultColumns.nesting : ResultColumns N → Nat
  | .all => 1
  | .list cs => columnsNesting cs + 1

def columnsNesting : List (ResultColumn N) → Nat
  | [] => 0
  | .allFrom _ :: cs => columnsNesting cs
  | .expr e _ :: cs => max e.nesting (columnsNesting cs)

def groupNesting : Option (GroupBy N) → Nat
  | none => 0
  | some (.mk es h) => max (exprsNesting es) (exprNesting h)

end

def assignmentsNesting : List (Assignment N) → Nat
  | [] => 0
  | a :: as => max a.expr.nesting (assignmentsNesting as)

def Statement.nesting : Statement N → Nat
  | .select s => s.nesting + 1
  | .insert s => s.source.nesting + 2
  | .update s => max (assignmentsNesting s.assignments) (exprNesting s.wher) + 2
  | .delete s => exprNesting s.wher + 2

def SqlStatement.nesting : SqlStatement N → Nat
  | .statement s => s.nesting + 1
  | .explainQueryPlan s => s.nesting + 1
  | .attach _ => 2
  | .describe _ => 2

end Verif.Sql
