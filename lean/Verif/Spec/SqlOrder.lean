import Verif.Model.SqlAst
/-!
# Specification: the order of tables, assignments and columns
-/

namespace Verif.Sql

/-- The tables and subqueries that are joined, from left to right. -/
def TableExpr.leaves {N : Type} : TableExpr N → List (TableExpr N)
  | .join l r _ _ => l.leaves ++ r.leaves
  | t => [t]

/-- Which column is assigned which expression by an UPDATE. -/
def UpdateStatement.pairs {N : Type} (s : UpdateStatement N) : List (N × Expr N) :=
  s.assignments.flatMap fun a => a.columns.map fun c => (c, a.expr)

/-- `INSERT INTO table (c1, c2, …) VALUES (e1 0, e2 0, …), (e1 1, e2 1, …), …` with `k + 1` rows. -/
def insertRows {N : Type} (table : List N) (k : Nat) (cols : List (N × (Nat → Expr N))) : InsertStatement N :=
  ⟨table, some (cols.map (·.1)), .values ((List.range (k + 1)).map fun i => cols.map fun c => c.2 i)⟩

end Verif.Sql
