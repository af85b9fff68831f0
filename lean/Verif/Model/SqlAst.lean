import Verif.Model.SqlSchema
/-!
# The SQL syntax tree (`src/sql/ast/mod.rs`)

`Box<T>` is `T`, `Vec<T>` a list, `String` a list of characters.  The type of names is a parameter.
-/

namespace Verif.Sql

/-- `Literal` (`src/sql/ast/mod.rs` L489-517). -/
inductive Literal where
  | string (s : List Char)
  | numeric (s : List Char)
  | null
  | currentTime
  | currentDate
  | currentTimestamp
  | date (s : List Char)
  | time (s : List Char)
  | timestamp (s : List Char)
  deriving DecidableEq, Repr

/-- `UnaryOperator` (`src/sql/ast/mod.rs` L353-362). -/
inductive UnaryOperator where
  | negate | not | isNull
  deriving DecidableEq, Repr

/-- `BinaryOperator` (`src/sql/ast/mod.rs` L365-386). -/
inductive BinaryOperator where
  | multiply | divide | add | subtract | concat | and | or
  deriving DecidableEq, Repr

/-- `ComparisonOperator` (`src/sql/ast/mod.rs` L389-410). -/
inductive ComparisonOperator where
  | equal | notEqual | lessThan | lessEqual | greaterThan | greaterEqual | like
  deriving DecidableEq, Repr

/-- `OrderingDirection` (`src/sql/ast/mod.rs` L520-526). -/
inductive OrderingDirection where
  | ascending | descending
  deriving DecidableEq, Repr

/-- `SelectMode` (`src/sql/ast/mod.rs` L207-210). -/
inductive SelectMode where
  | all | distinct
  deriving DecidableEq, Repr

/-- `SetOperator` (`src/sql/ast/mod.rs` L338-350). -/
inductive SetOperator where
  | intersect | except | union | unionAll
  deriving DecidableEq, Repr

/-- `JoinType` (`src/sql/ast/mod.rs` L290-302). -/
inductive JoinType where
  | inner | left | right | full
  deriving DecidableEq, Repr

/-- `JoinOperator` (`src/sql/ast/mod.rs` L278-287). -/
inductive JoinOperator where
  | join (t : JoinType)
  | natural (t : JoinType)
  | cross
  deriving DecidableEq, Repr

mutual

/-- `Expression` (`src/sql/ast/mod.rs` L413-465). -/
inductive Expr (N : Type) where
  | literal (l : Literal)
  | ident (q : List N)
  | tuple (es : List (Expr N))
  | select (s : Select N)
  | unary (op : UnaryOperator) (e : Expr N)
  | binary (op : BinaryOperator) (left right : Expr N)
  | comparison (op : ComparisonOperator) (left right : Expr N)
  | inSet (e : Expr N) (set : SetSpec N)
  | between (e lower upper : Expr N)
  | case (e : Option (Expr N)) (whens : List (When N)) (els : Option (Expr N))

/-- `SetSpecification` (`src/sql/ast/mod.rs` L468-477). -/
inductive SetSpec (N : Type) where
  | select (s : Select N)
  | list (es : List (Expr N))
  | name (q : List N)

/-- `WhenClause` (`src/sql/ast/mod.rs` L480-486): `guard`, `body`. -/
inductive When (N : Type) where
  | mk (guard body : Expr N)

/-- `SelectStatement` (`src/sql/ast/mod.rs` L90-103): `common`, `expr`, `order_by`, `limit`. -/
inductive Select (N : Type) where
  | mk (common : List (Cte N)) (expr : SetExpr N) (orderBy : List (OrderTerm N))
    (limit : Option (Limit N))

/-- `CommonTableExpression` (`src/sql/ast/mod.rs` L77-87): `identifier`, `column_names`, `query`. -/
inductive Cte (N : Type) where
  | mk (identifier : N) (columnNames : Option (List N)) (query : Select N)

/-- `SetExpression` (`src/sql/ast/mod.rs` L213-232). -/
inductive SetExpr (N : Type) where
  | values (rows : List (List (Expr N)))
  | query (mode : SelectMode) (columns : ResultColumns N) (froms : List (TableExpr N))
    (wher : Option (Expr N)) (groupBy : Option (GroupBy N))
  | op (op : SetOperator) (left right : SetExpr N)

/-- `TableExpression` (`src/sql/ast/mod.rs` L235-266). -/
inductive TableExpr (N : Type) where
  | named (name : List N) (alias : Option N)
  | select (s : Select N) (alias : Option N)
  | join (left right : TableExpr N) (op : JoinOperator) (constraint : JoinConstraint N)

/-- `JoinConstraint` (`src/sql/ast/mod.rs` L269-275). -/
inductive JoinConstraint (N : Type) where
  | expr (e : Expr N)
  | columns (names : List N)

/-- `ResultColumns` (`src/sql/ast/mod.rs` L305-311). -/
inductive ResultColumns (N : Type) where
  | all
  | list (cs : List (ResultColumn N))

/-- `ResultColumn` (`src/sql/ast/mod.rs` L314-326). -/
inductive ResultColumn (N : Type) where
  | allFrom (name : N)
  | expr (e : Expr N) (rename : Option N)

/-- `GroupBy` (`src/sql/ast/mod.rs` L329-335): `groupings`, `having`. -/
inductive GroupBy (N : Type) where
  | mk (groupings : List (Expr N)) (having : Option (Expr N))

/-- `Ordering` (`src/sql/ast/mod.rs` L529-538): `expr`, `collation`, `direction`. -/
inductive OrderTerm (N : Type) where
  | mk (e : Expr N) (collation : Option N) (direction : OrderingDirection)

/-- `Limit` (`src/sql/ast/mod.rs` L541-547): `number_rows`, `offset_value`. -/
inductive Limit (N : Type) where
  | mk (numberRows : Expr N) (offset : Option (Expr N))

end

/-- `Assignment` (`src/sql/ast/mod.rs` L202-205). -/
structure Assignment (N : Type) where
  columns : List N
  expr : Expr N

/-- `InsertStatement` (`src/sql/ast/mod.rs` L63-74). -/
structure InsertStatement (N : Type) where
  tableName : List N
  columns : Option (List N)
  source : SetExpr N

/-- `DeleteStatement` (`src/sql/ast/mod.rs` L106-112). -/
structure DeleteStatement (N : Type) where
  tableName : List N
  wher : Option (Expr N)

/-- `UpdateStatement` (`src/sql/ast/mod.rs` L115-124). -/
structure UpdateStatement (N : Type) where
  tableName : List N
  assignments : List (Assignment N)
  wher : Option (Expr N)

/-- `AttachStatement` (`src/sql/ast/mod.rs` L127-133). -/
structure AttachStatement (N : Type) where
  qualifiedName : List N
  path : List Char

/-- `DescribeStatement` (`src/sql/ast/mod.rs` L169-172). -/
structure DescribeStatement (N : Type) where
  qualifiedName : List N

/-- `Statement` (`src/sql/ast/mod.rs` L55-60). -/
inductive Statement (N : Type) where
  | select (s : Select N)
  | insert (s : InsertStatement N)
  | delete (s : DeleteStatement N)
  | update (s : UpdateStatement N)

/-- `SqlStatement` (`src/sql/ast/mod.rs` L41-52). -/
inductive SqlStatement (N : Type) where
  | statement (s : Statement N)
  | explainQueryPlan (s : Statement N)
  | attach (s : AttachStatement N)
  | describe (s : DescribeStatement N)

/-- The `qualified_name` built by `AttachStatement::new` and `DescribeStatement::new`
(`src/sql/ast/mod.rs` L136-153, L175-185). -/
def qualify {N : Type} (schema : Option N) (name : N) : List N :=
  (match schema with | some s => [s] | none => []) ++ [name]

/-- `AttachStatement::new` (`src/sql/ast/mod.rs` L136-153). -/
def AttachStatement.new {N : Type} (schema : Option N) (name : N) (path : List Char) :
    AttachStatement N := ⟨qualify schema name, path⟩

/-- `DescribeStatement::new` (`src/sql/ast/mod.rs` L175-185). -/
def DescribeStatement.new {N : Type} (schema : Option N) (name : N) : DescribeStatement N :=
  ⟨qualify schema name⟩

/-- `AttachStatement::schema_name`, `DescribeStatement::schema_name`
(`src/sql/ast/mod.rs` L155-161, L187-193). -/
def schemaName {N : Type} (qualified : List N) : Res (Option N) :=
  match qualified with
  | [s, _] => .ok (some s)
  | [_] => .ok none
  | _ => .error .panic

/-- `AttachStatement::table_name`, `DescribeStatement::table_name`
(`src/sql/ast/mod.rs` L163-165, L195-197). -/
def tableName {N : Type} (qualified : List N) : Res N :=
  match qualified.getLast? with
  | some n => .ok n
  | none => .error .panic

end Verif.Sql
