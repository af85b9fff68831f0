import Verif.Model.SqlTyping

/-!
# Specification: catalogues and types with fewer NULLs

A type is finer than another if they differ at most in that less of it can be NULL.  `Database.Stricter` compares two
catalogues whose columns differ at most in that more of the first are NOT NULL.  `NoIn` says that a part of the syntax
has no IN other than in the WHEN parts of CASE.
-/

namespace Verif.Sql

/-- Lists of the same length whose elements are related one by one. -/
inductive Listwise {α β : Type} (R : α → β → Prop) : List α → List β → Prop where
  | nil : Listwise R [] []
  | cons {a b as bs} : R a b → Listwise R as bs → Listwise R (a :: as) (b :: bs)

mutual
/-- The types are the same, but less of the first can be NULL. -/
inductive Finer : ScalarType → ScalarType → Prop where
  | scalar {t n n'} : (n = true → n' = true) → Finer (.scalar t n) (.scalar t n')
  | tuple {ts ts'} : FinerList ts ts' → Finer (.tuple ts) (.tuple ts')
/-- The same for lists. -/
inductive FinerList : List ScalarType → List ScalarType → Prop where
  | nil : FinerList [] []
  | cons {t t' ts ts'} : Finer t t' → FinerList ts ts' → FinerList (t :: ts) (t' :: ts')
end

/-- The same for columns. -/
def Attribute.Finer {N : Type} (a b : Attribute N) : Prop :=
  a.name = b.name ∧ a.typ = b.typ ∧ (a.isNull = true → b.isNull = true)

/-- The same for rows. -/
def RowType.Finer {N : Type} (r s : RowType N) : Prop := Listwise Attribute.Finer r.attributes s.attributes

/-- The same for a column of the catalogue. -/
def Column.Stricter {N : Type} (c d : Column N) : Prop :=
  c.name = d.name ∧ c.dataType = d.dataType ∧ c.primaryKey = d.primaryKey ∧ (d.notNull = true → c.notNull = true)

/-- A catalogue with the same schemata, tables and columns, of which more are NOT NULL. -/
def Database.Stricter {N : Type} (db db' : Database N) : Prop :=
  Listwise (fun e f => e.1 = f.1 ∧ Listwise (fun o p => o.1 = p.1 ∧
    Listwise Column.Stricter o.2.rowSet.columns p.2.rowSet.columns) e.2.objects f.2.objects) db.schemata db'.schemata

/-- Every name stands for the same table in both contexts, except that less can be NULL, or for none in both. -/
def SetContext.Stricter {N : Type} (ops : NameOps N) (ctx ctx' : SetContext N) : Prop :=
  ∀ q, (∃ r r', ctx.resolveTableName ops q = .ok r ∧ ctx'.resolveTableName ops q = .ok r' ∧ r.Finer r') ∨
    ∃ e, ctx.resolveTableName ops q = .error e ∧ ctx'.resolveTableName ops q = .error e

mutual
/-- There is no IN other than in WHEN parts. -/
def Expr.NoIn {N : Type} : Expr N → Prop
  | .literal _ => True
  | .ident _ => True
  | .tuple es => Expr.NoIns es
  | .select s => s.NoIn
  | .unary _ e => e.NoIn
  | .binary _ l r => l.NoIn ∧ r.NoIn
  | .comparison _ l r => l.NoIn ∧ r.NoIn
  | .inSet _ _ => False
  | .between e l u => e.NoIn ∧ l.NoIn ∧ u.NoIn
  | .case e whens els => Expr.NoInOption e ∧ When.NoIns whens ∧ Expr.NoInOption els
/-- The same for lists. -/
def Expr.NoIns {N : Type} : List (Expr N) → Prop
  | [] => True
  | e :: es => e.NoIn ∧ Expr.NoIns es
/-- The same for optional expressions. -/
def Expr.NoInOption {N : Type} : Option (Expr N) → Prop
  | none => True
  | some e => e.NoIn
/-- The same for the THEN parts of a CASE. -/
def When.NoIns {N : Type} : List (When N) → Prop
  | [] => True
  | .mk _ body :: ws => body.NoIn ∧ When.NoIns ws
/-- The same for queries. -/
def Select.NoIn {N : Type} : Select N → Prop
  | .mk common expr orderBy limit =>
    Cte.NoIns common ∧ expr.NoIn ∧ OrderTerm.NoIns orderBy ∧ Limit.NoInOption limit
/-- The same for common table expressions. -/
def Cte.NoIns {N : Type} : List (Cte N) → Prop
  | [] => True
  | .mk _ _ query :: cs => query.NoIn ∧ Cte.NoIns cs
/-- The same for ORDER BY. -/
def OrderTerm.NoIns {N : Type} : List (OrderTerm N) → Prop
  | [] => True
  | .mk e _ _ :: ts => e.NoIn ∧ OrderTerm.NoIns ts
/-- The same for LIMIT. -/
def Limit.NoInOption {N : Type} : Option (Limit N) → Prop
  | none => True
  | some (.mk rows offset) => rows.NoIn ∧ Expr.NoInOption offset
/-- The same for set expressions. -/
def SetExpr.NoIn {N : Type} : SetExpr N → Prop
  | .values rows => Expr.NoInRows rows
  | .query _ columns froms wher groupBy =>
    columns.NoIn ∧ TableExpr.NoIns froms ∧ Expr.NoInOption wher ∧ GroupBy.NoInOption groupBy
  | .op _ l r => l.NoIn ∧ r.NoIn
/-- The same for the rows of VALUES. -/
def Expr.NoInRows {N : Type} : List (List (Expr N)) → Prop
  | [] => True
  | row :: rows => Expr.NoIns row ∧ Expr.NoInRows rows
/-- The same for tables; the conditions of joins are not looked at. -/
def TableExpr.NoIn {N : Type} : TableExpr N → Prop
  | .named _ _ => True
  | .select s _ => s.NoIn
  | .join l r _ _ => l.NoIn ∧ r.NoIn
/-- The same for FROM. -/
def TableExpr.NoIns {N : Type} : List (TableExpr N) → Prop
  | [] => True
  | t :: ts => t.NoIn ∧ TableExpr.NoIns ts
/-- The same for the columns of a query. -/
def ResultColumns.NoIn {N : Type} : ResultColumns N → Prop
  | .all => True
  | .list cs => ResultColumn.NoIns cs
/-- The same for a list of columns. -/
def ResultColumn.NoIns {N : Type} : List (ResultColumn N) → Prop
  | [] => True
  | .allFrom _ :: cs => ResultColumn.NoIns cs
  | .expr e _ :: cs => e.NoIn ∧ ResultColumn.NoIns cs
/-- The same for GROUP BY. -/
def GroupBy.NoInOption {N : Type} : Option (GroupBy N) → Prop
  | none => True
  | some (.mk groupings having) => Expr.NoIns groupings ∧ Expr.NoInOption having
end

/-- The same for statements. -/
def Statement.NoIn {N : Type} : Statement N → Prop
  | .select s => s.NoIn
  | .insert s => s.source.NoIn
  | .delete s => Expr.NoInOption s.wher
  | .update s => (∀ a ∈ s.assignments, a.expr.NoIn) ∧ Expr.NoInOption s.wher

/-- The same for statements of the language. -/
def SqlStatement.NoIn {N : Type} : SqlStatement N → Prop
  | .statement s => s.NoIn
  | .explainQueryPlan s => s.NoIn
  | .attach _ => True
  | .describe _ => True

/-- The table that an INSERT or UPDATE writes. -/
def SqlStatement.target {N : Type} : SqlStatement N → Option (List N)
  | .statement (.insert s) | .explainQueryPlan (.insert s) => some s.tableName
  | .statement (.update s) | .explainQueryPlan (.update s) => some s.tableName
  | _ => none

end Verif.Sql
