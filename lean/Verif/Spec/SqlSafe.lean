import Verif.Model.SqlTyping
/-!
# Statements without the constructions that make type inference panic

A list after IN has an element, a CASE has a branch, VALUES has a row, and a CASE with just one branch has
no tuple after THEN.
-/

namespace Verif.Sql

/-- The branches of a CASE: at least one, and not just one with a tuple. -/
def GoodBranches {N : Type} : List (When N) → Prop
  | [] => False
  | [.mk _ body] => ∀ es, body ≠ .tuple es
  | _ => True

mutual

def Expr.Safe {N : Type} : Expr N → Prop
  | .literal _ => True
  | .ident _ => True
  | .tuple es => Expr.AllSafe es
  | .select s => s.Safe
  | .unary _ e => e.Safe
  | .binary _ l r => l.Safe ∧ r.Safe
  | .comparison _ l r => l.Safe ∧ r.Safe
  | .inSet e set => e.Safe ∧ set.Safe
  | .between e l u => e.Safe ∧ l.Safe ∧ u.Safe
  | .case e whens els => Expr.OptionSafe e ∧ GoodBranches whens ∧ When.AllSafe whens ∧ Expr.OptionSafe els

def Expr.AllSafe {N : Type} : List (Expr N) → Prop
  | [] => True
  | e :: es => e.Safe ∧ Expr.AllSafe es

def Expr.OptionSafe {N : Type} : Option (Expr N) → Prop
  | none => True
  | some e => e.Safe

def When.AllSafe {N : Type} : List (When N) → Prop
  | [] => True
  | .mk guard body :: ws => guard.Safe ∧ body.Safe ∧ When.AllSafe ws

def SetSpec.Safe {N : Type} : SetSpec N → Prop
  | .select s => s.Safe
  | .list es => es ≠ [] ∧ Expr.AllSafe es
  | .name _ => True

def Select.Safe {N : Type} : Select N → Prop
  | .mk common expr orderBy limit =>
    Cte.AllSafe common ∧ expr.Safe ∧ OrderTerm.AllSafe orderBy ∧ Limit.OptionSafe limit

def Cte.AllSafe {N : Type} : List (Cte N) → Prop
  | [] => True
  | .mk _ _ query :: cs => query.Safe ∧ Cte.AllSafe cs

def OrderTerm.AllSafe {N : Type} : List (OrderTerm N) → Prop
  | [] => True
  | .mk e _ _ :: ts => e.Safe ∧ OrderTerm.AllSafe ts

def Limit.OptionSafe {N : Type} : Option (Limit N) → Prop
  | none => True
  | some (.mk rows offset) => rows.Safe ∧ Expr.OptionSafe offset

def SetExpr.Safe {N : Type} : SetExpr N → Prop
  | .values rows => rows ≠ [] ∧ Expr.RowsSafe rows
  | .query _ columns froms wher groupBy =>
    columns.Safe ∧ TableExpr.AllSafe froms ∧ Expr.OptionSafe wher ∧ GroupBy.OptionSafe groupBy
  | .op _ l r => l.Safe ∧ r.Safe

def Expr.RowsSafe {N : Type} : List (List (Expr N)) → Prop
  | [] => True
  | row :: rows => Expr.AllSafe row ∧ Expr.RowsSafe rows

def TableExpr.Safe {N : Type} : TableExpr N → Prop
  | .named _ _ => True
  | .select s _ => s.Safe
  | .join l r _ _ => l.Safe ∧ r.Safe

def TableExpr.AllSafe {N : Type} : List (TableExpr N) → Prop
  | [] => True
  | t :: ts => t.Safe ∧ TableExpr.AllSafe ts

def ResultColumns.Safe {N : Type} : ResultColumns N → Prop
  | .all => True
  | .list cs => ResultColumn.AllSafe cs

def ResultColumn.AllSafe {N : Type} : List (ResultColumn N) → Prop
  | [] => True
  | .allFrom _ :: cs => ResultColumn.AllSafe cs
  | .expr e _ :: cs => e.Safe ∧ ResultColumn.AllSafe cs

def GroupBy.OptionSafe {N : Type} : Option (GroupBy N) → Prop
  | none => True
  | some (.mk groupings having) => Expr.AllSafe groupings ∧ Expr.OptionSafe having

end

/-- A safe statement.  Nothing is asked of ATTACH and DESCRIBE. -/
def Statement.Safe {N : Type} : Statement N → Prop
  | .select s => s.Safe
  | .insert s => s.source.Safe
  | .update s => (∀ a ∈ s.assignments, a.expr.Safe) ∧ Expr.OptionSafe s.wher
  | .delete s => Expr.OptionSafe s.wher

def SqlStatement.Safe {N : Type} : SqlStatement N → Prop
  | .statement s => s.Safe
  | .explainQueryPlan s => s.Safe
  | .attach _ => True
  | .describe _ => True

end Verif.Sql
