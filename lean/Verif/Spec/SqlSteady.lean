import Verif.Model.SqlAst
/-!
# Statements of which every part is looked at

No CASE, whose conditions are looked at only up to the first wrong one, and all rows of a VALUES have the same length;
what a longer row has more is not looked at.
-/

namespace Verif.Sql

mutual

def Expr.Steady : Expr N → Prop
  | .literal _ => True
  | .ident _ => True
  | .tuple es => exprsSteady es
  | .select s => s.Steady
  | .unary _ e => e.Steady
  | .binary _ l r => l.Steady ∧ r.Steady
  | .comparison _ l r => l.Steady ∧ r.Steady
  | .inSet e set => e.Steady ∧ set.Steady
  | .between e l u => e.Steady ∧ l.Steady ∧ u.Steady
  | .case _ _ _ => False

def exprSteady : Option (Expr N) → Prop
  | none => True
  | some e => e.Steady

def exprsSteady : List (Expr N) → Prop
  | [] => True
  | e :: es => e.Steady ∧ exprsSteady es

/-- All rows have length `k`. -/
def rowsSteady (k : Nat) : List (List (Expr N)) → Prop
  | [] => True
  | r :: rs => r.length = k ∧ exprsSteady r ∧ rowsSteady k rs

def SetSpec.Steady : SetSpec N → Prop
  | .select s => s.Steady
  | .list es => exprsSteady es
  | .name _ => True

def Select.Steady : Select N → Prop
  | .mk common x orderBy limit => ctesSteady common ∧ x.Steady ∧ termsSteady orderBy ∧ limitSteady limit

def ctesSteady : List (Cte N) → Prop
  | [] => True
  | .mk _ _ q :: cs => q.Steady ∧ ctesSteady cs

def termsSteady : List (OrderTerm N) → Prop
  | [] => True
  | .mk e _ _ :: ts => e.Steady ∧ termsSteady ts

def limitSteady : Option (Limit N) → Prop
  | none => True
  | some (.mk e o) => e.Steady ∧ exprSteady o

def SetExpr.Steady : SetExpr N → Prop
  | .values [] => True
  | .values (row :: rows) => exprsSteady row ∧ rowsSteady row.length rows
  | .query _ columns froms wher groupBy =>
    columns.Steady ∧ tablesSteady froms ∧ exprSteady wher ∧ groupSteady groupBy
  | .op _ l r => l.Steady ∧ r.Steady

def TableExpr.Steady : TableExpr N → Prop
  | .named _ _ => True
  | .select s _ => s.Steady
  | .join l r _ _ => l.Steady ∧ r.Steady

def tablesSteady : List (TableExpr N) → Prop
  | [] => True
  | t :: ts => t.Steady ∧ tablesSteady ts

def ResultColumns.Steady : ResultColumns N → Prop
  | .all => True
  | .list cs => columnsSteady cs

def columnsSteady : List (ResultColumn N) → Prop
  | [] => True
  | .allFrom _ :: cs => columnsSteady cs
  | .expr e _ :: cs => e.Steady ∧ columnsSteady cs

def groupSteady : Option (GroupBy N) → Prop
  | none => True
  | some (.mk es h) => exprsSteady es ∧ exprSteady h

end

def assignmentsSteady : List (Assignment N) → Prop
  | [] => True
  | a :: as => a.expr.Steady ∧ assignmentsSteady as

def Statement.Steady : Statement N → Prop
  | .select s => s.Steady
  | .insert s => s.source.Steady
  | .update s => assignmentsSteady s.assignments ∧ exprSteady s.wher
  | .delete s => exprSteady s.wher

def SqlStatement.Steady : SqlStatement N → Prop
  | .statement s => s.Steady
  | .explainQueryPlan s => s.Steady
  | .attach _ => True
  | .describe _ => True

end Verif.Sql
