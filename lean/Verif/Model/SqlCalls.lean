import Verif.Model.SqlTyping
/-!
# Type inference with the number of calls

The functions of `Model/SqlTyping` once more; beside the outcome they return how many calls of `infer_type` and
`validate_type` of syntax trees were made, including their own.  The other functions (`is_compatible`, `unify`,
`generate_column_name`, `resolve_table_name`, `add_relation`) are called a fixed number of times in each of them, or
once for each column.
-/

namespace Verif.Sql

/-- An outcome, and the number of calls it took. -/
structure Counted (α : Type) where
  result : Chk α
  calls : Nat

/-- The outcome of a function that does not call `infer_type`. -/
def free {α : Type} (c : Chk α) : Counted α := ⟨c, 0⟩

/-- One after the other; after an error or a panic nothing more is called. -/
def Counted.andThen {α β : Type} (x : Counted α) (f : α → Counted β) : Counted β :=
  match x.result with
  | .ok a => ⟨(f a).result, x.calls + (f a).calls⟩
  | .error e => ⟨.error e, x.calls⟩

instance : Monad Counted where
  pure a := free (.ok a)
  bind := Counted.andThen

/-- A call. -/
def call {α : Type} (x : Counted α) : Counted α := ⟨x.result, x.calls + 1⟩

/-- After `n` calls. -/
def more {α : Type} (n : Nat) (x : Counted α) : Counted α := ⟨x.result, n + x.calls⟩

/-- `let _ = r;`, as `ignored`. -/
def ignoredC {α : Type} (x : Counted α) : Counted Unit := ⟨ignored x.result, x.calls⟩

variable {N : Type} (ops : NameOps N)

mutual

/-- `Expression::infer_type` (src/sql/ast/typing.rs L242-655). -/
def inferExprC (sc : ScalarContext N) : Expr N → Counted ScalarType
  | .literal l => call <| pure l.inferType
  | .ident q => call <| free (sc.inferType ops q)
  | .tuple es => call do return .tuple (← inferExprsC sc es)
  | .unary op e => call do free (unaryType op (← inferExprC sc e))
  | .binary op l r => call do
    let lt ← inferExprC sc l
    let rt ← inferExprC sc r
    free (binaryType op lt rt)
  | .comparison op l r => call do
    let lt ← inferExprC sc l
    let rt ← inferExprC sc r
    free (comparisonType op lt rt)
  | .between e l u => call do
    let et ← inferExprC sc e
    let lt ← inferExprC sc l
    let ut ← inferExprC sc u
    free (betweenType et lt ut)
  | .case none whens els => call do
    ignoredC (checkGuardsC sc guardLogical whens)
    let t ← inferBodiesC sc whens
    inferElseC sc t els
  | .case (some e) whens els => call do
    let et ← inferExprC sc e
    ignoredC (checkGuardsC sc (guardMatches et) whens)
    let t ← inferBodiesC sc whens
    inferElseC sc t els
  | .inSet e set => call do
    let et ← inferExprC sc e
    let r ← inferSetC sc set
    let ct ← free (singleColumn .inOneColumn r)
    if ← free (et.isCompatible ct) then return .scalar .logical false else free (err .inIncompatible)
  | .select s => call do free (singleColumn .selectOneColumn (← inferSelectC sc.setContext s))

/-- Types of a list of expressions, up to the first error (src/sql/ast/typing.rs L252-255). -/
def inferExprsC (sc : ScalarContext N) : List (Expr N) → Counted (List ScalarType)
  | [] => pure []
  | e :: es => do
    let t ← inferExprC sc e
    return t :: (← inferExprsC sc es)

/-- The check of the guards of a CASE (src/sql/ast/typing.rs L495-505, L559-569). -/
def checkGuardsC (sc : ScalarContext N) (check : ScalarType → Chk Unit) : List (When N) → Counted Unit
  | [] => pure ()
  | .mk guard _ :: ws => do
    free (check (← inferExprC sc guard))
    checkGuardsC sc check ws

/-- The type of the THEN parts (src/sql/ast/typing.rs L508-523, L572-587); the assertion that there is one. -/
def inferBodiesC (sc : ScalarContext N) : List (When N) → Counted ScalarType
  | [] => free panics
  | .mk _ body :: ws => do
    let t ← inferExprC sc body
    foldBodiesC sc t ws

/-- The fold over the THEN parts after the first (src/sql/ast/typing.rs L511-523, L575-587). -/
def foldBodiesC (sc : ScalarContext N) (typ : ScalarType) : List (When N) → Counted ScalarType
  | [] => pure typ
  | .mk _ body :: ws => do
    let typ ← free (thenStep typ (← inferExprC sc body))
    foldBodiesC sc typ ws

/-- The ELSE part (src/sql/ast/typing.rs L526-546, L590-610). -/
def inferElseC (sc : ScalarContext N) (result : ScalarType) : Option (Expr N) → Counted ScalarType
  | none =>
    match result with
    | .scalar typ _ => pure (.scalar typ true)
    | .tuple _ => free panics
  | some body =>
    match result with
    | .scalar typ isNull => do
      let n1 ← free ((← inferExprC sc body).isCompatible result)
      return .scalar typ (n1 || isNull)
    | .tuple _ => free panics

/-- `SetSpecification::infer_type` (src/sql/ast/typing.rs L1250-1289). -/
def inferSetC (sc : ScalarContext N) : SetSpec N → Counted (RowType N)
  | .select s => call <| inferSelectC sc.setContext s
  | .name q => call <| free (sc.setContext.resolveTableName ops q)
  | .list es => call do
    match ← inferListC sc es with
    | .scalar typ isNull => return .plain [⟨ops.numbered (ops.lit "_col") 0, typ, isNull⟩]
    | .tuple _ => free (err .setScalar)

/-- The elements of an IN list (src/sql/ast/typing.rs L1263-1268). -/
def inferListC (sc : ScalarContext N) : List (Expr N) → Counted ScalarType
  | [] => free panics
  | e :: es => foldListC sc (inferExprC sc e) es

/-- The fold of src/sql/ast/typing.rs L1265-1268. -/
def foldListC (sc : ScalarContext N) (typ : Counted ScalarType) : List (Expr N) → Counted ScalarType
  | [] => typ
  | e :: es =>
    match typ.result with
    | .error .panic => ⟨panics, typ.calls⟩
    | .ok t => foldListC sc (more typ.calls do free (t.unify (← inferExprC sc e))) es
    | .error (.err x) => foldListC sc (more typ.calls do let _ ← inferExprC sc e; free (err x)) es

/-- `SelectStatement::infer_type` (src/sql/ast/typing.rs L1335-1360). -/
def inferSelectC (ctx : SetContext N) : Select N → Counted (RowType N)
  | .mk common expr orderBy limit => call do
    let sc ← addCommonC ctx (ScalarContext.new ctx) common
    let result ← inferSetExprC ctx expr
    checkOrderC sc orderBy
    checkLimitC sc.setContext limit
    return result

/-- The loop over the common table expressions (src/sql/ast/typing.rs L1340-1343). -/
def addCommonC (ctx : SetContext N) (sc : ScalarContext N) : List (Cte N) → Counted (ScalarContext N)
  | [] => pure sc
  | .mk identifier names query :: cs => do
    let typ ← inferCteC ctx (.mk identifier names query)
    let sc ← free (sc.addRelation ops identifier typ.attributes)
    addCommonC ctx sc cs

/-- `CommonTableExpression::infer_type` (src/sql/ast/typing.rs L1588-1620). -/
def inferCteC (ctx : SetContext N) : Cte N → Counted (RowType N)
  | .mk _ names query => call do
    let typ ← inferSelectC ctx query
    match names with
    | none => return typ
    | some cs => return { typ with attributes := ← free (selectColumns ops typ.attributes cs) }

/-- `Ordering::validate_type` for each term (src/sql/ast/typing.rs L1349-1351, L1541-1552). -/
def checkOrderC (sc : ScalarContext N) : List (OrderTerm N) → Counted Unit
  | [] => pure ()
  | .mk e _ _ :: ts => do
    call do free (mustBeScalar .orderScalar (← inferExprC sc e))
    checkOrderC sc ts

/-- `Limit::validate_type` (src/sql/ast/typing.rs L1354-1356, L1554-1586). -/
def checkLimitC (ctx : SetContext N) : Option (Limit N) → Counted Unit
  | none => pure ()
  | some (.mk rows offset) => call do
    free (mustBeCount .limitNumeric (← inferExprC (ScalarContext.new ctx) rows))
    checkOffsetC (ScalarContext.new ctx) offset

/-- The OFFSET part of `Limit::validate_type` (src/sql/ast/typing.rs L1570-1582). -/
def checkOffsetC (sc : ScalarContext N) : Option (Expr N) → Counted Unit
  | none => pure ()
  | some e => do free (mustBeCount .offsetNumeric (← inferExprC sc e))

/-- `SetExpression::infer_type` (src/sql/ast/typing.rs L925-1091). -/
def inferSetExprC (ctx : SetContext N) : SetExpr N → Counted (RowType N)
  | .values rows => call do return .plain (← inferValuesC (ScalarContext.new ctx) rows)
  | .query _ columns froms wher groupBy => call do
    let (sc, attributes) ← inferFromC (ScalarContext.new ctx) froms
    checkPredicateC sc .whereBoolean wher
    checkGroupByC sc groupBy
    inferColumnsC sc attributes columns
  | .op _ l r => call do
    let lt ← inferSetExprC ctx l
    let rt ← inferSetExprC ctx r
    return .plain (← free (unifyAttributes lt.attributes rt.attributes))

/-- The rows of VALUES (src/sql/ast/typing.rs L929-975). -/
def inferValuesC (sc : ScalarContext N) : List (List (Expr N)) → Counted (List (Attribute N))
  | [] => free panics
  | row :: rows => do
    let types ← inferFirstRowC sc 0 row
    foldRowsC sc types rows

/-- The first row of VALUES (src/sql/ast/typing.rs L931-945). -/
def inferFirstRowC (sc : ScalarContext N) (count : Nat) : List (Expr N) → Counted (List (Attribute N))
  | [] => pure []
  | e :: es => do
    match ← inferExprC sc e with
    | .tuple _ => free (err .valuesScalar)
    | .scalar typ isNull =>
      return ⟨ops.numbered (ops.lit "_col") count, typ, isNull⟩ :: (← inferFirstRowC sc (count + 1) es)

/-- The other rows of VALUES (src/sql/ast/typing.rs L948-975). -/
def foldRowsC (sc : ScalarContext N) (types : List (Attribute N)) :
    List (List (Expr N)) → Counted (List (Attribute N))
  | [] => pure types
  | row :: rows => do
    let types ← unifyRowC sc types row
    foldRowsC sc types rows

/-- One further row of VALUES (src/sql/ast/typing.rs L950-974). -/
def unifyRowC (sc : ScalarContext N) : List (Attribute N) → List (Expr N) → Counted (List (Attribute N))
  | a :: as, e :: es => do
    match ← free (a.scalar.unify (← inferExprC sc e)) with
    | .scalar typ isNull => return ⟨a.name, typ, isNull⟩ :: (← unifyRowC sc as es)
    | .tuple _ => free panics
  | _, _ => pure []

/-- The FROM clause (src/sql/ast/typing.rs L991-999). -/
def inferFromC (sc : ScalarContext N) :
    List (TableExpr N) → Counted (ScalarContext N × List (Attribute N))
  | [] => pure (sc, [])
  | t :: ts => do
    let (sc, attributes) ← inferTableC sc t
    let (sc, rest) ← inferFromC sc ts
    return (sc, attributes ++ rest)

/-- `TableExpression::infer_type` (src/sql/ast/typing.rs L1199-1248). -/
def inferTableC (sc : ScalarContext N) : TableExpr N → Counted (ScalarContext N × List (Attribute N))
  | .named name alias => call <| free do
    let typ ← sc.setContext.resolveTableName ops name
    let identifier ← relationName name alias
    let sc ← sc.addRelation ops identifier typ.attributes
    return (sc, typ.attributes)
  | .select s _ => call do
    let typ ← inferSelectC sc.setContext s
    return (sc, typ.attributes)
  | .join l r _ _ => call do
    let (sc, left) ← inferTableC sc l
    let (sc, right) ← inferTableC sc r
    return (sc, left ++ right)

/-- A WHERE or HAVING clause (src/sql/ast/typing.rs L1002-1015, L1028-1041, L1495-1508, L1522-1535). -/
def checkPredicateC (sc : ScalarContext N) (msg : SqlError) : Option (Expr N) → Counted Unit
  | none => pure ()
  | some e => do free (mustBeLogical msg (← inferExprC sc e))

/-- The GROUP BY clause (src/sql/ast/typing.rs L1018-1043). -/
def checkGroupByC (sc : ScalarContext N) : Option (GroupBy N) → Counted Unit
  | none => pure ()
  | some (.mk groupings having) => do
    let _ ← inferExprsC sc groupings
    checkPredicateC sc .havingBoolean having

/-- `ResultColumns::infer_type` (src/sql/ast/typing.rs L1114-1197). -/
def inferColumnsC (sc : ScalarContext N) (attributes : List (Attribute N)) :
    ResultColumns N → Counted (RowType N)
  | .all => call <| pure (.plain (generateColumns ops [] attributes).1)
  | .list cs => call do return .plain (← inferColumnListC sc [] cs)

/-- The loop over the columns of a SELECT (src/sql/ast/typing.rs L1134-1188). -/
def inferColumnListC (sc : ScalarContext N) (generated : TMap N Nat) :
    List (ResultColumn N) → Counted (List (Attribute N))
  | [] => pure []
  | .allFrom name :: cs =>
    match sc.symbols.get ops name with
    | none => free (err .undefinedCollection)
    | some (.relation fields) => do
      let (new, generated) := generateColumns ops generated (← free (relationAttributes fields))
      return new ++ (← inferColumnListC sc generated cs)
    | some _ => free (err .notRangeVariable)
  | .expr e rename :: cs => do
    match ← inferExprC sc e with
    | .tuple _ => free (err .resultScalar)
    | .scalar typ isNull =>
      let (name, generated) := generateColumnName ops (rename.getD (ops.lit "col")) generated
      return ⟨name, typ, isNull⟩ :: (← inferColumnListC sc generated cs)

end

/-- `InsertStatement::validate_type` (src/sql/ast/typing.rs L1362-1444). -/
def InsertStatement.validateTypeC (ctx : SetContext N) (s : InsertStatement N) : Counted Unit :=
  call do
    let typ ← free (ctx.resolveTableName ops s.tableName)
    let values ← inferSetExprC ops ctx s.source
    free do
      let missing ← insertSource ops (columnMap ops typ) values.attributes s.columns
      insertComplete missing

/-- The assignments of an UPDATE (src/sql/ast/typing.rs L1462-1493). -/
def updateAssignmentsC (sc : ScalarContext N) (map : TMap N (DataType × Bool)) (assigned : TMap N Unit) :
    List (Assignment N) → Counted (TMap N Unit)
  | [] => pure assigned
  | a :: as => do
    match ← inferExprC ops sc a.expr with
    | .tuple _ => free (err .updateScalar)
    | .scalar typ isNull =>
      let assigned ← free (updateColumns ops map typ isNull assigned a.columns)
      updateAssignmentsC sc map assigned as

/-- `UpdateStatement::validate_type` (src/sql/ast/typing.rs L1446-1512). -/
def UpdateStatement.validateTypeC (ctx : SetContext N) (s : UpdateStatement N) : Counted Unit :=
  call do
    let typ ← free (ctx.resolveTableName ops s.tableName)
    let sc ← free (tableContext ops ctx s.tableName typ)
    let _ ← updateAssignmentsC ops sc (columnMap ops typ) [] s.assignments
    checkPredicateC ops sc .whereBoolean s.wher

/-- `DeleteStatement::validate_type` (src/sql/ast/typing.rs L1514-1539). -/
def DeleteStatement.validateTypeC (ctx : SetContext N) (s : DeleteStatement N) : Counted Unit :=
  call do
    let typ ← free (ctx.resolveTableName ops s.tableName)
    let sc ← free (tableContext ops ctx s.tableName typ)
    checkPredicateC ops sc .whereBoolean s.wher

/-- `Statement::validate_type` (src/sql/ast/typing.rs L1321-1333). -/
def Statement.validateTypeC (ctx : SetContext N) : Statement N → Counted Unit
  | .select s => call do let _ ← inferSelectC ops ctx s; return ()
  | .insert s => call <| s.validateTypeC ops ctx
  | .update s => call <| s.validateTypeC ops ctx
  | .delete s => call <| s.validateTypeC ops ctx

/-- `SqlStatement::validate_type` (src/sql/ast/typing.rs L1291-1319). -/
def SqlStatement.validateTypeC (ctx : SetContext N) : SqlStatement N → Counted Unit
  | .statement s => call <| s.validateTypeC ops ctx
  | .explainQueryPlan s => call <| s.validateTypeC ops ctx
  | .attach _ => call <| call <| pure ()
  | .describe s => call <| call <| free (s.validateType ops ctx)

end Verif.Sql
