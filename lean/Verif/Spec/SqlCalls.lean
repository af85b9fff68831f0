import Verif.Model.SqlAst
/-!
# The parts of statements

How many parts a statement has: expressions, sets after IN, queries, common table expressions, operands of set
operations, tables, lists of result columns, terms of ORDER BY, and LIMIT.  Join conditions do not count: they are not
looked at (C84).
-/

namespace Verif.Sql

mutual

def Expr.parts : Expr N → Nat
  | .literal _ => 1
  | .ident _ => 1
  | .tuple es => exprsParts es + 1
  | .select s => s.parts + 1
  | .unary _ e => e.parts + 1
  | .binary _ l r => l.parts + r.parts + 1
  | .comparison _ l r => l.parts + r.parts + 1
  | .inSet e set => e.parts + set.parts + 1
  | .between e l u => e.parts + l.parts + u.parts + 1
  | .case o ws els => exprParts o + whensParts ws + exprParts els + 1

def exprParts : Option (Expr N) → Nat
  | none => 0
  | some e => e.parts

def exprsParts : List (Expr N) → Nat
  | [] => 0
  | e :: es => e.parts + exprsParts es

def rowsParts : List (List (Expr N)) → Nat
  | [] => 0
  | r :: rs => exprsParts r + rowsParts rs

def whensParts : List (When N) → Nat
  | [] => 0
  | .mk g b :: ws => g.parts + b.parts + whensParts ws

def SetSpec.parts : SetSpec N → Nat
  | .select s => s.parts + 1
  | .list es => exprsParts es + 1
  | .name _ => 1

def Select.parts : Select N → Nat
  | .mk common x orderBy limit => ctesParts common + x.parts + termsParts orderBy + limitParts limit + 1

def ctesParts : List (Cte N) → Nat
  | [] => 0
  | .mk _ _ q :: cs => q.parts + 1 + ctesParts cs

def termsParts : List (OrderTerm N) → Nat
  | [] => 0
  | .mk e _ _ :: ts => e.parts + 1 + termsParts ts

def limitParts : Option (Limit N) → Nat
  | none => 0
  | some (.mk e o) => e.parts + exprParts o + 1

def SetExpr.parts : SetExpr N → Nat
  | .values rows => rowsParts rows + 1
  | .query _ columns froms wher groupBy =>
    columns.parts + tablesParts froms + exprParts wher + groupParts groupBy + 1
  | .op _ l r => l.parts + r.parts + 1

def TableExpr.parts : TableExpr N → Nat
  | .named _ _ => 1
  | .select s _ => s.parts + 1
  | .join l r _ _ => l.parts + r.parts + 1

def tablesParts : List (TableExpr N) → Nat
  | [] => 0
  | t :: ts => t.parts + tablesParts ts

def ResultColumns.parts : ResultColumns N → Nat
  | .all => 1
  | .list cs => columnsParts cs + 1

def columnsParts : List (ResultColumn N) → Nat
  | [] => 0
  | .allFrom _ :: cs => columnsParts cs
  | .expr e _ :: cs => e.parts + columnsParts cs

def groupParts : Option (GroupBy N) → Nat
  | none => 0
  | some (.mk es h) => exprsParts es + exprParts h

end

def assignmentsParts : List (Assignment N) → Nat
  | [] => 0
  | a :: as => a.expr.parts + assignmentsParts as

def Statement.parts : Statement N → Nat
  | .select s => s.parts + 1
  | .insert s => s.source.parts + 2
  | .update s => assignmentsParts s.assignments + exprParts s.wher + 2
  | .delete s => exprParts s.wher + 2

def SqlStatement.parts : SqlStatement N → Nat
  | .statement s => s.parts + 1
  | .explainQueryPlan s => s.parts + 1
  | .attach _ => 2
  | .describe _ => 2

end Verif.Sql
