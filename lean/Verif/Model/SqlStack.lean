import Verif.Model.SqlTyping
/-!
# Type inference with a limited stack

The functions of `Model/SqlTyping` once more, with the number `n` of nested calls for which there is room on the stack.
Counted are calls of `infer_type` and `validate_type` of syntax trees; each of them calls further functions and closures
(`fold_err`, `generate_column_name`, `is_compatible`, …) whose number and frames do not depend on the nesting of the
statement, except for the comparison of types of nested tuples.  When there is no room the process is aborted
(`Halt.overflow`).
-/

namespace Verif.Sql

/-- Why a function did not return `Ok`. -/
inductive Halt where
  | overflow
  | stop (s : Stop)
  deriving DecidableEq, Repr

/-- Outcome of a function that may also run out of stack. -/
abbrev Deep (α : Type) := Except Halt α

/-- The outcome of a function that does not call `infer_type`. -/
def deep {α : Type} : Chk α → Deep α
  | .ok a => .ok a
  | .error s => .error (.stop s)

/-- A call: it needs room for its own frame, and the calls it makes have one less. -/
def enter {α : Type} (n : Nat) (body : Nat → Deep α) : Deep α :=
  match n with
  | 0 => .error .overflow
  | n + 1 => body n

/-- `let _ = r;`, as `ignored`. -/
def ignoredD {α : Type} : Deep α → Deep Unit
  | .ok _ => .ok ()
  | .error (.stop (.err _)) => .ok ()
  | .error (.stop .panic) => .error (.stop .panic)
  | .error .overflow => .error .overflow

variable {N : Type} (ops : NameOps N)

mutual

/-- `Expression::infer_type` (src/sql/ast/typing.rs L242-655). -/
def inferExprD (n : Nat) (sc : ScalarContext N) : Expr N → Deep ScalarType
  | .literal l => enter n fun _ => .ok l.inferType
  | .ident q => enter n fun _ => deep (sc.inferType ops q)
  | .tuple es => enter n fun n => do return .tuple (← inferExprsD n sc es)
  | .unary op e => enter n fun n => do deep (unaryType op (← inferExprD n sc e))
  | .binary op l r => enter n fun n => do
    let lt ← inferExprD n sc l
    let rt ← inferExprD n sc r
    deep (binaryType op lt rt)
  | .comparison op l r => enter n fun n => do
    let lt ← inferExprD n sc l
    let rt ← inferExprD n sc r
    deep (comparisonType op lt rt)
  | .between e l u => enter n fun n => do
    let et ← inferExprD n sc e
    let lt ← inferExprD n sc l
    let ut ← inferExprD n sc u
    deep (betweenType et lt ut)
  | .case none whens els => enter n fun n => do
    ignoredD (checkGuardsD n sc guardLogical whens)
    let t ← inferBodiesD n sc whens
    inferElseD n sc t els
  | .case (some e) whens els => enter n fun n => do
    let et ← inferExprD n sc e
    ignoredD (checkGuardsD n sc (guardMatches et) whens)
    let t ← inferBodiesD n sc whens
    inferElseD n sc t els
  | .inSet e set => enter n fun n => do
    let et ← inferExprD n sc e
    let r ← inferSetD n sc set
    let ct ← deep (singleColumn .inOneColumn r)
    if ← deep (et.isCompatible ct) then return .scalar .logical false else deep (err .inIncompatible)
  | .select s => enter n fun n => do deep (singleColumn .selectOneColumn (← inferSelectD n sc.setContext s))

/-- Types of a list of expressions, up to the first error (src/sql/ast/typing.rs L252-255). -/
def inferExprsD (n : Nat) (sc : ScalarContext N) : List (Expr N) → Deep (List ScalarType)
  | [] => .ok []
  | e :: es => do
    let t ← inferExprD n sc e
    return t :: (← inferExprsD n sc es)

/-- The check of the guards of a CASE (src/sql/ast/typing.rs L495-505, L559-569). -/
def checkGuardsD (n : Nat) (sc : ScalarContext N) (check : ScalarType → Chk Unit) : List (When N) → Deep Unit
  | [] => .ok ()
  | .mk guard _ :: ws => do
    deep (check (← inferExprD n sc guard))
    checkGuardsD n sc check ws

/-- The type of the THEN parts (src/sql/ast/typing.rs L508-523, L572-587); the assertion that there is one. -/
def inferBodiesD (n : Nat) (sc : ScalarContext N) : List (When N) → Deep ScalarType
  | [] => deep panics
  | .mk _ body :: ws => do
    let t ← inferExprD n sc body
    foldBodiesD n sc t ws

/-- The fold over the THEN parts after the first (src/sql/ast/typing.rs L511-523, L575-587). -/
def foldBodiesD (n : Nat) (sc : ScalarContext N) (typ : ScalarType) : List (When N) → Deep ScalarType
  | [] => .ok typ
  | .mk _ body :: ws => do
    let typ ← deep (thenStep typ (← inferExprD n sc body))
    foldBodiesD n sc typ ws

/-- The ELSE part (src/sql/ast/typing.rs L526-546, L590-610). -/
def inferElseD (n : Nat) (sc : ScalarContext N) (result : ScalarType) : Option (Expr N) → Deep ScalarType
  | none =>
    match result with
    | .scalar typ _ => .ok (.scalar typ true)
    | .tuple _ => deep panics
  | some body =>
    match result with
    | .scalar typ isNull => do
      let n1 ← deep ((← inferExprD n sc body).isCompatible result)
      return .scalar typ (n1 || isNull)
    | .tuple _ => deep panics

/-- `SetSpecification::infer_type` (src/sql/ast/typing.rs L1250-1289). -/
def inferSetD (n : Nat) (sc : ScalarContext N) : SetSpec N → Deep (RowType N)
  | .select s => enter n fun n => inferSelectD n sc.setContext s
  | .name q => enter n fun _ => deep (sc.setContext.resolveTableName ops q)
  | .list es => enter n fun n => do
    match ← inferListD n sc es with
    | .scalar typ isNull => return .plain [⟨ops.numbered (ops.lit "_col") 0, typ, isNull⟩]
    | .tuple _ => deep (err .setScalar)

/-- The elements of an IN list (src/sql/ast/typing.rs L1263-1268). -/
def inferListD (n : Nat) (sc : ScalarContext N) : List (Expr N) → Deep ScalarType
  | [] => deep panics
  | e :: es => foldListD n sc (inferExprD n sc e) es

/-- The fold of src/sql/ast/typing.rs L1265-1268. -/
def foldListD (n : Nat) (sc : ScalarContext N) (typ : Deep ScalarType) : List (Expr N) → Deep ScalarType
  | [] => typ
  | e :: es =>
    match typ with
    | .error .overflow => .error .overflow
    | .error (.stop .panic) => deep panics
    | .ok t => foldListD n sc (do deep (t.unify (← inferExprD n sc e))) es
    | .error (.stop (.err x)) => foldListD n sc (do let _ ← inferExprD n sc e; deep (err x)) es

/-- `SelectStatement::infer_type` (src/sql/ast/typing.rs L1335-1360). -/
def inferSelectD (n : Nat) (ctx : SetContext N) : Select N → Deep (RowType N)
  | .mk common expr orderBy limit => enter n fun n => do
    let sc ← addCommonD n ctx (ScalarContext.new ctx) common
    let result ← inferSetExprD n ctx expr
    checkOrderD n sc orderBy
    checkLimitD n sc.setContext limit
    return result

/-- The loop over the common table expressions (src/sql/ast/typing.rs L1340-1343). -/
def addCommonD (n : Nat) (ctx : SetContext N) (sc : ScalarContext N) : List (Cte N) → Deep (ScalarContext N)
  | [] => .ok sc
  | .mk identifier names query :: cs => do
    let typ ← inferCteD n ctx (.mk identifier names query)
    let sc ← deep (sc.addRelation ops identifier typ.attributes)
    addCommonD n ctx sc cs

/-- `CommonTableExpression::infer_type` (src/sql/ast/typing.rs L1588-1620). -/
def inferCteD (n : Nat) (ctx : SetContext N) : Cte N → Deep (RowType N)
  | .mk _ names query => enter n fun n => do
    let typ ← inferSelectD n ctx query
    match names with
    | none => return typ
    | some cs => return { typ with attributes := ← deep (selectColumns ops typ.attributes cs) }

/-- `Ordering::validate_type` for each term (src/sql/ast/typing.rs L1349-1351, L1541-1552). -/
def checkOrderD (n : Nat) (sc : ScalarContext N) : List (OrderTerm N) → Deep Unit
  | [] => .ok ()
  | .mk e _ _ :: ts => do
    enter n fun n => do deep (mustBeScalar .orderScalar (← inferExprD n sc e))
    checkOrderD n sc ts

/-- `Limit::validate_type` (src/sql/ast/typing.rs L1354-1356, L1554-1586). -/
def checkLimitD (n : Nat) (ctx : SetContext N) : Option (Limit N) → Deep Unit
  | none => .ok ()
  | some (.mk rows offset) => enter n fun n => do
    deep (mustBeCount .limitNumeric (← inferExprD n (ScalarContext.new ctx) rows))
    checkOffsetD n (ScalarContext.new ctx) offset

/-- The OFFSET part of `Limit::validate_type` (src/sql/ast/typing.rs L1570-1582). -/
def checkOffsetD (n : Nat) (sc : ScalarContext N) : Option (Expr N) → Deep Unit
  | none => .ok ()
  | some e => do deep (mustBeCount .offsetNumeric (← inferExprD n sc e))

/-- `SetExpression::infer_type` (src/sql/ast/typing.rs L925-1091). -/
def inferSetExprD (n : Nat) (ctx : SetContext N) : SetExpr N → Deep (RowType N)
  | .values rows => enter n fun n => do return .plain (← inferValuesD n (ScalarContext.new ctx) rows)
  | .query _ columns froms wher groupBy => enter n fun n => do
    let (sc, attributes) ← inferFromD n (ScalarContext.new ctx) froms
    checkPredicateD n sc .whereBoolean wher
    checkGroupByD n sc groupBy
    inferColumnsD n sc attributes columns
  | .op _ l r => enter n fun n => do
    let lt ← inferSetExprD n ctx l
    let rt ← inferSetExprD n ctx r
    return .plain (← deep (unifyAttributes lt.attributes rt.attributes))

/-- The rows of VALUES (src/sql/ast/typing.rs L929-975). -/
def inferValuesD (n : Nat) (sc : ScalarContext N) : List (List (Expr N)) → Deep (List (Attribute N))
  | [] => deep panics
  | row :: rows => do
    let types ← inferFirstRowD n sc 0 row
    foldRowsD n sc types rows

/-- The first row of VALUES (src/sql/ast/typing.rs L931-945). -/
def inferFirstRowD (n : Nat) (sc : ScalarContext N) (count : Nat) : List (Expr N) → Deep (List (Attribute N))
  | [] => .ok []
  | e :: es => do
    match ← inferExprD n sc e with
    | .tuple _ => deep (err .valuesScalar)
    | .scalar typ isNull =>
      return ⟨ops.numbered (ops.lit "_col") count, typ, isNull⟩ :: (← inferFirstRowD n sc (count + 1) es)

/-- The other rows of VALUES (src/sql/ast/typing.rs L948-975). -/
def foldRowsD (n : Nat) (sc : ScalarContext N) (types : List (Attribute N)) :
    List (List (Expr N)) → Deep (List (Attribute N))
  | [] => .ok types
  | row :: rows => do
    let types ← unifyRowD n sc types row
    foldRowsD n sc types rows

/-- One further row of VALUES (src/sql/ast/typing.rs L950-974). -/
def unifyRowD (n : Nat) (sc : ScalarContext N) : List (Attribute N) → List (Expr N) → Deep (List (Attribute N))
  | a :: as, e :: es => do
    match ← deep (a.scalar.unify (← inferExprD n sc e)) with
    | .scalar typ isNull => return ⟨a.name, typ, isNull⟩ :: (← unifyRowD n sc as es)
    | .tuple _ => deep panics
  | _, _ => .ok []

/-- The FROM clause (src/sql/ast/typing.rs L991-999). -/
def inferFromD (n : Nat) (sc : ScalarContext N) :
    List (TableExpr N) → Deep (ScalarContext N × List (Attribute N))
  | [] => .ok (sc, [])
  | t :: ts => do
    let (sc, attributes) ← inferTableD n sc t
    let (sc, rest) ← inferFromD n sc ts
    return (sc, attributes ++ rest)

/-- `TableExpression::infer_type` (src/sql/ast/typing.rs L1199-1248). -/
def inferTableD (n : Nat) (sc : ScalarContext N) : TableExpr N → Deep (ScalarContext N × List (Attribute N))
  | .named name alias => enter n fun _ => deep do
    let typ ← sc.setContext.resolveTableName ops name
    let identifier ← relationName name alias
    let sc ← sc.addRelation ops identifier typ.attributes
    return (sc, typ.attributes)
  | .select s _ => enter n fun n => do
    let typ ← inferSelectD n sc.setContext s
    return (sc, typ.attributes)
  | .join l r _ _ => enter n fun n => do
    let (sc, left) ← inferTableD n sc l
    let (sc, right) ← inferTableD n sc r
    return (sc, left ++ right)

/-- A WHERE or HAVING clause (src/sql/ast/typing.rs L1002-1015, L1028-1041, L1495-1508, L1522-1535). -/
def checkPredicateD (n : Nat) (sc : ScalarContext N) (msg : SqlError) : Option (Expr N) → Deep Unit
  | none => .ok ()
  | some e => do deep (mustBeLogical msg (← inferExprD n sc e))

/-- The GROUP BY clause (src/sql/ast/typing.rs L1018-1043). -/
def checkGroupByD (n : Nat) (sc : ScalarContext N) : Option (GroupBy N) → Deep Unit
  | none => .ok ()
  | some (.mk groupings having) => do
    let _ ← inferExprsD n sc groupings
    checkPredicateD n sc .havingBoolean having

/-- `ResultColumns::infer_type` (src/sql/ast/typing.rs L1114-1197). -/
def inferColumnsD (n : Nat) (sc : ScalarContext N) (attributes : List (Attribute N)) :
    ResultColumns N → Deep (RowType N)
  | .all => enter n fun _ => .ok (.plain (generateColumns ops [] attributes).1)
  | .list cs => enter n fun n => do return .plain (← inferColumnListD n sc [] cs)

/-- The loop over the columns of a SELECT (src/sql/ast/typing.rs L1134-1188). -/
def inferColumnListD (n : Nat) (sc : ScalarContext N) (generated : TMap N Nat) :
    List (ResultColumn N) → Deep (List (Attribute N))
  | [] => .ok []
  | .allFrom name :: cs =>
    match sc.symbols.get ops name with
    | none => deep (err .undefinedCollection)
    | some (.relation fields) => do
      let (new, generated) := generateColumns ops generated (← deep (relationAttributes fields))
      return new ++ (← inferColumnListD n sc generated cs)
    | some _ => deep (err .notRangeVariable)
  | .expr e rename :: cs => do
    match ← inferExprD n sc e with
    | .tuple _ => deep (err .resultScalar)
    | .scalar typ isNull =>
      let (name, generated) := generateColumnName ops (rename.getD (ops.lit "col")) generated
      return ⟨name, typ, isNull⟩ :: (← inferColumnListD n sc generated cs)

end

/-- `InsertStatement::validate_type` (src/sql/ast/typing.rs L1362-1444). -/
def InsertStatement.validateTypeD (n : Nat) (ctx : SetContext N) (s : InsertStatement N) : Deep Unit :=
  enter n fun n => do
    let typ ← deep (ctx.resolveTableName ops s.tableName)
    let values ← inferSetExprD ops n ctx s.source
    deep do
      let missing ← insertSource ops (columnMap ops typ) values.attributes s.columns
      insertComplete missing

/-- The assignments of an UPDATE (src/sql/ast/typing.rs L1462-1493). -/
def updateAssignmentsD (n : Nat) (sc : ScalarContext N) (map : TMap N (DataType × Bool)) (assigned : TMap N Unit) :
    List (Assignment N) → Deep (TMap N Unit)
  | [] => .ok assigned
  | a :: as => do
    match ← inferExprD ops n sc a.expr with
    | .tuple _ => deep (err .updateScalar)
    | .scalar typ isNull =>
      let assigned ← deep (updateColumns ops map typ isNull assigned a.columns)
      updateAssignmentsD n sc map assigned as

/-- `UpdateStatement::validate_type` (src/sql/ast/typing.rs L1446-1512). -/
def UpdateStatement.validateTypeD (n : Nat) (ctx : SetContext N) (s : UpdateStatement N) : Deep Unit :=
  enter n fun n => do
    let typ ← deep (ctx.resolveTableName ops s.tableName)
    let sc ← deep (tableContext ops ctx s.tableName typ)
    let _ ← updateAssignmentsD ops n sc (columnMap ops typ) [] s.assignments
    checkPredicateD ops n sc .whereBoolean s.wher

/-- `DeleteStatement::validate_type` (src/sql/ast/typing.rs L1514-1539). -/
def DeleteStatement.validateTypeD (n : Nat) (ctx : SetContext N) (s : DeleteStatement N) : Deep Unit :=
  enter n fun n => do
    let typ ← deep (ctx.resolveTableName ops s.tableName)
    let sc ← deep (tableContext ops ctx s.tableName typ)
    checkPredicateD ops n sc .whereBoolean s.wher

/-- `Statement::validate_type` (src/sql/ast/typing.rs L1321-1333). -/
def Statement.validateTypeD (n : Nat) (ctx : SetContext N) : Statement N → Deep Unit
  | .select s => enter n fun n => do let _ ← inferSelectD ops n ctx s; return ()
  | .insert s => enter n fun n => s.validateTypeD ops n ctx
  | .update s => enter n fun n => s.validateTypeD ops n ctx
  | .delete s => enter n fun n => s.validateTypeD ops n ctx

/-- `SqlStatement::validate_type` (src/sql/ast/typing.rs L1291-1319). -/
def SqlStatement.validateTypeD (n : Nat) (ctx : SetContext N) : SqlStatement N → Deep Unit
  | .statement s => enter n fun n => s.validateTypeD ops n ctx
  | .explainQueryPlan s => enter n fun n => s.validateTypeD ops n ctx
  | .attach _ => enter n fun n => enter n fun _ => .ok ()
  | .describe s => enter n fun n => enter n fun _ => deep (s.validateType ops ctx)

end Verif.Sql
