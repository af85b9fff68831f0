import Verif.Model.SqlAst

/-!
# Specification: the outline of a statement

What is left of a statement if the parts are replaced that have no influence on types: the contents of literals, the
operator among those of one kind, the kind and condition of a join, ALL and DISTINCT, the set operator, the collation
and direction of an ordering, the alias of a subquery, EXPLAIN QUERY PLAN, and what ATTACH attaches.
-/

namespace Verif.Sql

/-- A literal of the same kind; a date, time or timestamp may also be the current one. -/
def Literal.outline : Literal → Literal
  | .string _ => .string []
  | .numeric _ => .numeric []
  | .null => .null
  | .currentTime | .time _ => .currentTime
  | .currentDate | .date _ => .currentDate
  | .currentTimestamp | .timestamp _ => .currentTimestamp

/-- One operator for each of arithmetic, concatenation and logic. -/
def BinaryOperator.outline : BinaryOperator → BinaryOperator
  | .multiply | .divide | .add | .subtract => .add
  | .concat => .concat
  | .and | .or => .and

/-- One operator for each of equality, order and LIKE. -/
def ComparisonOperator.outline : ComparisonOperator → ComparisonOperator
  | .equal | .notEqual => .equal
  | .lessThan | .lessEqual | .greaterThan | .greaterEqual => .lessThan
  | .like => .like

/-- A table without alias has its own name as alias. -/
def aliasOutline {N : Type} (name : List N) : Option N → Option N
  | some a => some a
  | none => name.getLast?

mutual
/-- The outline of an expression. -/
def Expr.outline {N : Type} : Expr N → Expr N
  | .literal l => .literal l.outline
  | .ident q => .ident q
  | .tuple es => .tuple (Expr.outlines es)
  | .select s => .select s.outline
  | .unary op e => .unary op e.outline
  | .binary op l r => .binary op.outline l.outline r.outline
  | .comparison op l r => .comparison op.outline l.outline r.outline
  | .inSet e set => .inSet e.outline set.outline
  | .between e l u => .between e.outline l.outline u.outline
  | .case e whens els => .case (Expr.outlineOption e) (When.outlines whens) (Expr.outlineOption els)
/-- The same for lists. -/
def Expr.outlines {N : Type} : List (Expr N) → List (Expr N)
  | [] => []
  | e :: es => e.outline :: Expr.outlines es
/-- The same for optional expressions. -/
def Expr.outlineOption {N : Type} : Option (Expr N) → Option (Expr N)
  | none => none
  | some e => some e.outline
/-- The same for the branches of a CASE. -/
def When.outlines {N : Type} : List (When N) → List (When N)
  | [] => []
  | .mk guard body :: ws => .mk guard.outline body.outline :: When.outlines ws
/-- The same for the right sides of IN. -/
def SetSpec.outline {N : Type} : SetSpec N → SetSpec N
  | .select s => .select s.outline
  | .list es => .list (Expr.outlines es)
  | .name q => .name q
/-- The same for queries. -/
def Select.outline {N : Type} : Select N → Select N
  | .mk common expr orderBy limit =>
    .mk (Cte.outlines common) expr.outline (OrderTerm.outlines orderBy) (Limit.outlineOption limit)
/-- The same for common table expressions. -/
def Cte.outlines {N : Type} : List (Cte N) → List (Cte N)
  | [] => []
  | .mk n names query :: cs => .mk n names query.outline :: Cte.outlines cs
/-- The same for ORDER BY. -/
def OrderTerm.outlines {N : Type} : List (OrderTerm N) → List (OrderTerm N)
  | [] => []
  | .mk e _ _ :: ts => .mk e.outline none .ascending :: OrderTerm.outlines ts
/-- The same for LIMIT. -/
def Limit.outlineOption {N : Type} : Option (Limit N) → Option (Limit N)
  | none => none
  | some (.mk rows offset) => some (.mk rows.outline (Expr.outlineOption offset))
/-- The same for set expressions. -/
def SetExpr.outline {N : Type} : SetExpr N → SetExpr N
  | .values rows => .values (Expr.outlineRows rows)
  | .query _ columns froms wher groupBy =>
    .query .all columns.outline (TableExpr.outlines froms) (Expr.outlineOption wher) (GroupBy.outlineOption groupBy)
  | .op _ l r => .op .union l.outline r.outline
/-- The same for the rows of VALUES. -/
def Expr.outlineRows {N : Type} : List (List (Expr N)) → List (List (Expr N))
  | [] => []
  | row :: rows => Expr.outlines row :: Expr.outlineRows rows
/-- The same for tables. -/
def TableExpr.outline {N : Type} : TableExpr N → TableExpr N
  | .named name alias => .named name (aliasOutline name alias)
  | .select s _ => .select s.outline none
  | .join l r _ _ => .join l.outline r.outline .cross (.columns [])
/-- The same for FROM. -/
def TableExpr.outlines {N : Type} : List (TableExpr N) → List (TableExpr N)
  | [] => []
  | t :: ts => t.outline :: TableExpr.outlines ts
/-- The same for the columns of a query. -/
def ResultColumns.outline {N : Type} : ResultColumns N → ResultColumns N
  | .all => .all
  | .list cs => .list (ResultColumn.outlines cs)
/-- The same for a list of columns. -/
def ResultColumn.outlines {N : Type} : List (ResultColumn N) → List (ResultColumn N)
  | [] => []
  | .allFrom n :: cs => .allFrom n :: ResultColumn.outlines cs
  | .expr e rename :: cs => .expr e.outline rename :: ResultColumn.outlines cs
/-- The same for GROUP BY. -/
def GroupBy.outlineOption {N : Type} : Option (GroupBy N) → Option (GroupBy N)
  | none => none
  | some (.mk groupings having) => some (.mk (Expr.outlines groupings) (Expr.outlineOption having))
end

/-- The outline of a statement. -/
def Statement.outline {N : Type} : Statement N → Statement N
  | .select s => .select s.outline
  | .insert s => .insert { s with source := s.source.outline }
  | .delete s => .delete { s with wher := Expr.outlineOption s.wher }
  | .update s => .update
    { s with assignments := s.assignments.map fun a => { a with expr := a.expr.outline }
             wher := Expr.outlineOption s.wher }

/-- The outline of a statement of the language. -/
def SqlStatement.outline {N : Type} : SqlStatement N → SqlStatement N
  | .statement s => .statement s.outline
  | .explainQueryPlan s => .statement s.outline
  | .attach _ => .attach ⟨[], []⟩
  | .describe s => .describe s

end Verif.Sql
