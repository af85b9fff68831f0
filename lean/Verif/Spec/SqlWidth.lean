import Verif.Model.SqlAst
/-!
# How many columns a query can have

The number of places of a query that columns come from: the elements of the first row of VALUES, the result columns of a
SELECT, or with `*` the tables of its FROM, where a subquery counts as its own places.  A set operation has the places
of the operand that has fewer.
-/

namespace Verif.Sql

mutual

def Select.places : Select N → Nat
  | .mk _ x _ _ => x.places

def SetExpr.places : SetExpr N → Nat
  | .values [] => 0
  | .values (row :: _) => row.length
  | .query _ .all froms _ _ => tablesPlaces froms
  | .query _ (.list cs) _ _ _ => cs.length
  | .op _ l r => min l.places r.places

def TableExpr.places : TableExpr N → Nat
  | .named _ _ => 1
  | .select s _ => s.places
  | .join l r _ _ => l.places + r.places

def tablesPlaces : List (TableExpr N) → Nat
  | [] => 0
  | t :: ts => t.places + tablesPlaces ts

end

end Verif.Sql
