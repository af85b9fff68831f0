import Verif.Spec.SqlSpelling
import Verif.Model.SqlSchema
/-!
# Specification: choosing other names
-/

namespace Verif.Sql

variable {N : Type}

/-! `starFree`: the statement nowhere has `t.*` as a result column, not in a subquery either.  (What is behind ON is
not looked at.) -/

mutual

def Expr.starFree : Expr N → Prop
  | .literal _ => True
  | .ident _ => True
  | .tuple es => Expr.starFreeList es
  | .select s => s.starFree
  | .unary _ e => e.starFree
  | .binary _ l r => l.starFree ∧ r.starFree
  | .comparison _ l r => l.starFree ∧ r.starFree
  | .inSet e set => e.starFree ∧ set.starFree
  | .between e l u => e.starFree ∧ l.starFree ∧ u.starFree
  | .case e whens els => Expr.starFreeOption e ∧ When.starFreeList whens ∧ Expr.starFreeOption els

def Expr.starFreeList : List (Expr N) → Prop
  | [] => True
  | e :: es => e.starFree ∧ Expr.starFreeList es

def Expr.starFreeOption : Option (Expr N) → Prop
  | none => True
  | some e => e.starFree

def When.starFreeList : List (When N) → Prop
  | [] => True
  | .mk guard body :: ws => guard.starFree ∧ body.starFree ∧ When.starFreeList ws

def SetSpec.starFree : SetSpec N → Prop
  | .select s => s.starFree
  | .list es => Expr.starFreeList es
  | .name _ => True

def Select.starFree : Select N → Prop
  | .mk common expr orderBy limit =>
    Cte.starFreeList common ∧ expr.starFree ∧ OrderTerm.starFreeList orderBy ∧ Limit.starFreeOption limit

def Cte.starFree : Cte N → Prop
  | .mk _ _ query => query.starFree

def Cte.starFreeList : List (Cte N) → Prop
  | [] => True
  | c :: cs => c.starFree ∧ Cte.starFreeList cs

def OrderTerm.starFreeList : List (OrderTerm N) → Prop
  | [] => True
  | .mk e _ _ :: ts => e.starFree ∧ OrderTerm.starFreeList ts

def Limit.starFreeOption : Option (Limit N) → Prop
  | none => True
  | some (.mk rows offset) => rows.starFree ∧ Expr.starFreeOption offset

def SetExpr.starFree : SetExpr N → Prop
  | .values rows => Expr.starFreeRows rows
  | .query _ columns froms wher groupBy =>
    columns.starFree ∧ TableExpr.starFreeList froms ∧ Expr.starFreeOption wher ∧ GroupBy.starFreeOption groupBy
  | .op _ l r => l.starFree ∧ r.starFree

def Expr.starFreeRows : List (List (Expr N)) → Prop
  | [] => True
  | row :: rows => Expr.starFreeList row ∧ Expr.starFreeRows rows

def TableExpr.starFree : TableExpr N → Prop
  | .named _ _ => True
  | .select s _ => s.starFree
  | .join l r _ _ => l.starFree ∧ r.starFree

def TableExpr.starFreeList : List (TableExpr N) → Prop
  | [] => True
  | t :: ts => t.starFree ∧ TableExpr.starFreeList ts

def ResultColumns.starFree : ResultColumns N → Prop
  | .all => True
  | .list cs => ResultColumn.starFreeList cs

def ResultColumn.starFreeList : List (ResultColumn N) → Prop
  | [] => True
  | .allFrom _ :: _ => False
  | .expr e _ :: cs => e.starFree ∧ ResultColumn.starFreeList cs

def GroupBy.starFreeOption : Option (GroupBy N) → Prop
  | none => True
  | some (.mk groupings having) => Expr.starFreeList groupings ∧ Expr.starFreeOption having

end

def Statement.starFree : Statement N → Prop
  | .select s => s.starFree
  | .insert s => s.source.starFree
  | .delete s => Expr.starFreeOption s.wher
  | .update s => (∀ a ∈ s.assignments, a.expr.starFree) ∧ Expr.starFreeOption s.wher

def SqlStatement.starFree : SqlStatement N → Prop
  | .statement s => s.starFree
  | .explainQueryPlan s => s.starFree
  | .attach _ => True
  | .describe _ => True

/-- Other names for all names, where different names (but for case) stay different.  Names made by appending a number
are to be renamed like the name without the number; and the names given to unnamed columns, `col` and `_col`, are to
stay. -/
structure Renaming (up : Char → List Char) (f : Name → Name) : Prop where
  same : ∀ a b : Name, (f a).upper up = (f b).upper up ↔ a.upper up = b.upper up
  numbered : ∀ (n : Name) (k : Nat), f (n.numbered k) = (f n).numbered k
  col : f (Name.ofString "col") = Name.ofString "col"
  first : f (Name.ofString "_col") = Name.ofString "_col"

/-- The tables are the same but for their names and those of their columns. -/
def SetContext.Renamed (up : Char → List Char) (f : Name → Name) (ctx ctx' : SetContext Name) : Prop :=
  ∀ (q : List Name), match ctx.resolveTableName (nameOps up) q with
    | .ok r => ctx'.resolveTableName (nameOps up) (q.map f) = .ok (r.map f)
    | .error e => ctx'.resolveTableName (nameOps up) (q.map f) = .error e

/-- A database with the same schemata and the same tables under other names: it describes each table or view under its
new name, as it was described before but for the names of its columns. -/
def Database.Renamed (up : Char → List Char) (f : Name → Name) (db db' : Database Name) : Prop :=
  ∀ s t : Name, match db.describe (nameOps up) s t with
    | .ok rows => db'.describe (nameOps up) (f s) (f t) = .ok (rows.map f)
    | .error e => db'.describe (nameOps up) (f s) (f t) = .error e

end Verif.Sql
