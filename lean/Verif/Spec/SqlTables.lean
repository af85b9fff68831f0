import Verif.Model.SqlTyping
/-! # The table names in a statement -/

namespace Verif.Sql

variable {N : Type} (P : List N → Prop)

mutual

/-- Every table name in it is such a name: in FROM clauses, on the right of IN, and in all subqueries. -/
def Expr.Tables : Expr N → Prop
  | .literal _ => True
  | .ident _ => True
  | .tuple es => Expr.TablesList es
  | .select s => s.Tables
  | .unary _ e => e.Tables
  | .binary _ l r => l.Tables ∧ r.Tables
  | .comparison _ l r => l.Tables ∧ r.Tables
  | .inSet e set => e.Tables ∧ set.Tables
  | .between e l u => e.Tables ∧ l.Tables ∧ u.Tables
  | .case e whens els => Expr.TablesOption e ∧ When.TablesList whens ∧ Expr.TablesOption els

def Expr.TablesList : List (Expr N) → Prop
  | [] => True
  | e :: es => e.Tables ∧ Expr.TablesList es

def Expr.TablesOption : Option (Expr N) → Prop
  | none => True
  | some e => e.Tables

def When.TablesList : List (When N) → Prop
  | [] => True
  | .mk guard body :: ws => guard.Tables ∧ body.Tables ∧ When.TablesList ws

def SetSpec.Tables : SetSpec N → Prop
  | .select s => s.Tables
  | .list es => Expr.TablesList es
  | .name q => P q

def Select.Tables : Select N → Prop
  | .mk common expr orderBy limit =>
    Cte.TablesList common ∧ expr.Tables ∧ OrderTerm.TablesList orderBy ∧ Limit.TablesOption limit

def Cte.TablesList : List (Cte N) → Prop
  | [] => True
  | .mk _ _ query :: cs => query.Tables ∧ Cte.TablesList cs

def OrderTerm.TablesList : List (OrderTerm N) → Prop
  | [] => True
  | .mk e _ _ :: ts => e.Tables ∧ OrderTerm.TablesList ts

def Limit.TablesOption : Option (Limit N) → Prop
  | none => True
  | some (.mk rows offset) => rows.Tables ∧ Expr.TablesOption offset

def SetExpr.Tables : SetExpr N → Prop
  | .values rows => Expr.TablesRows rows
  | .query _ columns froms wher groupBy =>
    columns.Tables ∧ TableExpr.TablesList froms ∧ Expr.TablesOption wher ∧ GroupBy.TablesOption groupBy
  | .op _ l r => l.Tables ∧ r.Tables

def Expr.TablesRows : List (List (Expr N)) → Prop
  | [] => True
  | row :: rows => Expr.TablesList row ∧ Expr.TablesRows rows

def TableExpr.Tables : TableExpr N → Prop
  | .named q _ => P q
  | .select s _ => s.Tables
  | .join l r _ c => l.Tables ∧ r.Tables ∧ c.Tables

def JoinConstraint.Tables : JoinConstraint N → Prop
  | .expr e => e.Tables
  | .columns _ => True

def TableExpr.TablesList : List (TableExpr N) → Prop
  | [] => True
  | t :: ts => t.Tables ∧ TableExpr.TablesList ts

def ResultColumns.Tables : ResultColumns N → Prop
  | .all => True
  | .list cs => ResultColumn.TablesList cs

def ResultColumn.TablesList : List (ResultColumn N) → Prop
  | [] => True
  | .allFrom _ :: cs => ResultColumn.TablesList cs
  | .expr e _ :: cs => e.Tables ∧ ResultColumn.TablesList cs

def GroupBy.TablesOption : Option (GroupBy N) → Prop
  | none => True
  | some (.mk groupings having) => Expr.TablesList groupings ∧ Expr.TablesOption having

end

def Statement.Tables : Statement N → Prop
  | .select s => s.Tables P
  | .insert s => P s.tableName ∧ s.source.Tables P
  | .delete s => P s.tableName ∧ Expr.TablesOption P s.wher
  | .update s => P s.tableName ∧ (∀ a ∈ s.assignments, a.expr.Tables P) ∧ Expr.TablesOption P s.wher

/-- ATTACH names a table to be, not one of the catalogue. -/
def SqlStatement.Tables : SqlStatement N → Prop
  | .statement s => s.Tables P
  | .explainQueryPlan s => s.Tables P
  | .attach _ => True
  | .describe s => P s.qualifiedName

end Verif.Sql
