import Verif.Model.SqlAst
/-!
# Type inference and validation of SQL statements (`src/sql/ast/typing.rs`)

`Chk α` is the outcome of a Rust function returning `Result<α, Error>` that may panic: a value, an
`Err`, or a panic.  Error values are modelled by the place that makes them; the message texts, which
repeat names, are left out.  `fold_err` (L657-672) and `?` are the monad operations of `Chk`.

Mutable `ScalarContext`s are passed and returned.  `BTreeMap`s are `TMap`s.
-/

namespace Verif.Sql

/-- One constructor per error message of `src/sql/ast/typing.rs`. -/
inductive SqlError where
  | incompatible | tupleLengths
  | duplicateRelation
  | undefinedAttribute | ambiguousAttribute | nameIsRelation | notAnAttributeOf | notARelation
  | qualifiedParts
  | negateNumeric | notLogical | nullTestScalar
  | arithmeticNumeric | concatVarchar | logicalLogical
  | compareOrdered | compareScalar | likeVarchar
  | betweenOrdered | betweenScalar
  | guardLogical | guardIncompatible | thenScalar
  | inOneColumn | inIncompatible | selectOneColumn
  | duplicateCte
  | tableNotFound | schemaHidden | namespaceNotPresent | tableParts
  | valuesScalar | whereBoolean | havingBoolean | embeddedTuple
  | undefinedCollection | notRangeVariable | resultScalar
  | setScalar
  | insertUndefinedColumn | insertIncompatible | insertLength | insertMissing
  | updateDuplicate | updateUndefined | updateIncompatible | updateScalar
  | orderScalar | limitNumeric | offsetNumeric
  | cteColumnNotFound
  deriving DecidableEq, Repr

/-- Why a function did not return `Ok`. -/
inductive Stop where
  | err (e : SqlError)
  | panic
  deriving DecidableEq, Repr

/-- Outcome of a function returning `Result<α, Error>`, which may also panic. -/
abbrev Chk (α : Type) := Except Stop α

/-- `Err(e)`. -/
def err {α : Type} (e : SqlError) : Chk α := .error (.err e)

/-- `panic!`, a failed `assert!`, `unwrap` of `None`. -/
def panics {α : Type} : Chk α := .error .panic

/-- `let _ = r;`: a result that is not looked at.  A panic still happens. -/
def ignored {α : Type} : Chk α → Chk Unit
  | .ok _ => .ok ()
  | .error (.err _) => .ok ()
  | .error .panic => .error .panic

/-! ## Scalar types -/

/-- `ScalarType` (L27-32). -/
inductive ScalarType where
  | tuple (ts : List ScalarType)
  | scalar (typ : DataType) (isNull : Bool)

mutual
/-- `ScalarType::is_compatible` (L35-76). -/
def ScalarType.isCompatible : ScalarType → ScalarType → Chk Bool
  | .scalar t1 n1, .scalar t2 n2 => if t1 = t2 then .ok (n1 || n2) else err .incompatible
  | .tuple ts1, .tuple ts2 =>
    if ts1.length ≠ ts2.length then err .tupleLengths else isCompatibleFold (.ok false) ts1 ts2
  | _, _ => err .incompatible
/-- The fold of L60-72 over the zipped components.  Every component is compared, also after an error;
the first error is kept. -/
def ScalarType.isCompatibleFold (result : Chk Bool) : List ScalarType → List ScalarType → Chk Bool
  | l :: ls, r :: rs =>
    let item := l.isCompatible r
    isCompatibleFold
      (match result with
      | .error e => .error e
      | .ok a => match item with
        | .error e => .error e
        | .ok b => .ok (a && b)) ls rs
  | _, _ => result
end

mutual
/-- `ScalarType::unify` (L78-119). -/
def ScalarType.unify : ScalarType → ScalarType → Chk ScalarType
  | .scalar t1 n1, .scalar t2 n2 => if t1 = t2 then .ok (.scalar t1 (n1 || n2)) else err .incompatible
  | .tuple ts1, .tuple ts2 =>
    if ts1.length ≠ ts2.length then err .tupleLengths else do
      return .tuple (← unifyList ts1 ts2)
  | _, _ => err .incompatible
/-- The fold of L106-114 over the zipped components. -/
def ScalarType.unifyList : List ScalarType → List ScalarType → Chk (List ScalarType)
  | l :: ls, r :: rs => do
    let item ← l.unify r
    return item :: (← unifyList ls rs)
  | _, _ => .ok []
end

/-- `Literal::infer_type` (L674-731). -/
def Literal.inferType : Literal → ScalarType
  | .string _ => .scalar .varchar false
  | .numeric _ => .scalar .numeric false
  | .null => .scalar .generic true
  | .currentTime => .scalar .time false
  | .currentDate => .scalar .date false
  | .currentTimestamp => .scalar .timestamp false
  | .date _ => .scalar .date false
  | .time _ => .scalar .time false
  | .timestamp _ => .scalar .timestamp false

/-- Type of a unary operation (L264-295). -/
def unaryType (op : UnaryOperator) (t : ScalarType) : Chk ScalarType :=
  match op, t with
  | .negate, .scalar .numeric _ => .ok t
  | .negate, _ => err .negateNumeric
  | .not, .scalar .logical _ => .ok t
  | .not, _ => err .notLogical
  | .isNull, .scalar _ _ => .ok t
  | .isNull, _ => err .nullTestScalar

/-- Type of a binary operation (L307-376). -/
def binaryType (op : BinaryOperator) (l r : ScalarType) : Chk ScalarType :=
  match op with
  | .multiply | .divide | .add | .subtract =>
    match l, r with
    | .scalar .numeric n1, .scalar .numeric n2 => .ok (.scalar .numeric (n1 || n2))
    | _, _ => err .arithmeticNumeric
  | .concat =>
    match l, r with
    | .scalar .varchar n1, .scalar .varchar n2 => .ok (.scalar .varchar (n1 || n2))
    | _, _ => err .concatVarchar
  | .and | .or =>
    match l, r with
    | .scalar .logical n1, .scalar .logical n2 => .ok (.scalar .logical (n1 || n2))
    | _, _ => err .logicalLogical

/-- Type of a comparison (L388-445). -/
def comparisonType (op : ComparisonOperator) (l r : ScalarType) : Chk ScalarType :=
  match op with
  | .equal | .notEqual => do return .scalar .logical (← l.isCompatible r)
  | .lessThan | .lessEqual | .greaterThan | .greaterEqual =>
    match l, r with
    | .scalar t1 n1, .scalar t2 n2 =>
      if t1 = t2 ∧ t1.isOrdered then .ok (.scalar .logical (n1 || n2)) else err .compareOrdered
    | _, _ => err .compareScalar
  | .like =>
    match l, r with
    | .scalar .varchar n1, .scalar .varchar n2 => .ok (.scalar .logical (n1 || n2))
    | _, _ => err .likeVarchar

/-- Type of a range check (L458-485). -/
def betweenType (e l u : ScalarType) : Chk ScalarType :=
  match e, l, u with
  | .scalar t1 n1, .scalar t2 n2, .scalar t3 n3 =>
    if t1 = t2 ∧ t1 = t3 ∧ t1.isOrdered then .ok (.scalar .logical (n1 || n2 || n3))
    else err .betweenOrdered
  | _, _, _ => err .betweenScalar

/-- The guard check of a `CASE` without operand (L498-504). -/
def guardLogical : ScalarType → Chk Unit
  | .scalar .logical _ => .ok ()
  | _ => err .guardLogical

/-- The guard check of a `CASE` with operand (L562-568). -/
def guardMatches (operand guard : ScalarType) : Chk Unit := do
  if ← guard.isCompatible operand then return () else err .guardIncompatible

/-- One step of the fold over the `THEN` parts (L511-523, L575-587). -/
def thenStep (typ body : ScalarType) : Chk ScalarType := do
  let n1 ← body.isCompatible typ
  match body with
  | .tuple _ => err .thenScalar
  | .scalar t n => return .scalar t (n || n1)

/-- A WHERE or HAVING predicate must be logical (L1003-1012, L1029-1038). -/
def mustBeLogical (e : SqlError) : ScalarType → Chk Unit
  | .scalar .logical _ => .ok ()
  | _ => err e

/-- A LIMIT or OFFSET must be numeric and not nullable (L1558-1568, L1571-1581). -/
def mustBeCount (e : SqlError) : ScalarType → Chk Unit
  | .scalar .numeric false => .ok ()
  | _ => err e

/-- An ORDER BY term must be a scalar (L1545-1550). -/
def mustBeScalar (e : SqlError) : ScalarType → Chk Unit
  | .scalar _ _ => .ok ()
  | _ => err e

/-! ## Row types and contexts -/

/-- `Attribute` (L733-738). -/
structure Attribute (N : Type) where
  name : N
  typ : DataType
  isNull : Bool
  deriving DecidableEq

/-- `Attribute::is_assignable_to` (L741-743); nothing calls it. -/
def Attribute.isAssignableTo {N : Type} (a b : Attribute N) : Bool :=
  a.typ = b.typ && (b.isNull || !a.isNull)

/-- The type of the values of an attribute, `ScalarType::Scalar { typ, is_null }`. -/
def Attribute.scalar {N : Type} (a : Attribute N) : ScalarType := .scalar a.typ a.isNull

/-- `RowType` (L746-751). -/
structure RowType (N : Type) where
  attributes : List (Attribute N)
  primaryKey : List N
  orderBy : List (N × OrderingDirection)
  deriving DecidableEq

/-- A row type without keys and ordering. -/
def RowType.plain {N : Type} (attributes : List (Attribute N)) : RowType N := ⟨attributes, [], []⟩

/-- `impl From<RowSet> for RowType` (L753-783). -/
def RowType.ofRowSet {N : Type} (r : RowSet N) : RowType N where
  attributes := r.columns.map fun c => ⟨c.name, c.dataType, !c.notNull⟩
  primaryKey := (r.columns.filter (·.primaryKey)).map (·.name)
  orderBy := []

variable {N : Type} (ops : NameOps N)

/-- `impl From<Schema> for ObjectTypes` (L788-805). -/
def objectTypes (s : Schema N) : TMap N (RowType N) :=
  TMap.collect ops (s.objects.map fun e => (e.1, RowType.ofRowSet e.2.rowSet))

/-- `impl From<Database> for Namespaces` (L807-822). -/
def namespacesOf (db : Database N) : TMap N (TMap N (RowType N)) :=
  TMap.collect ops (db.schemata.map fun e => (e.1, objectTypes ops e.2))

/-- `SetContext` (L826-835). -/
structure SetContext (N : Type) where
  namespaces : TMap N (TMap N (RowType N))
  defaultNamespace : N
  tableExpression : TMap N (RowType N)

/-- `SetContext::new` (L838-844). -/
def SetContext.new (db : Database N) (defaultSchema : N) : SetContext N :=
  ⟨namespacesOf ops db, defaultSchema, []⟩

/-- `SetContext::define_relation` (L846-854).  The relation is inserted also when the name is already
taken; the context is then thrown away by the only caller. -/
def SetContext.defineRelation (ctx : SetContext N) (name : N) (typ : RowType N) : Chk (SetContext N) :=
  match ctx.tableExpression.get ops name with
  | none => .ok { ctx with tableExpression := ctx.tableExpression.insert ops name typ }
  | some _ => err .duplicateCte

/-- `SetContext::resolve_table_name` (L856-903). -/
def SetContext.resolveTableName (ctx : SetContext N) (q : List N) : Chk (RowType N) :=
  match q with
  | [t] =>
    match ctx.tableExpression.get ops t with
    | some r => .ok r
    | none =>
      match ctx.namespaces.get ops ctx.defaultNamespace with
      | none => panics
      | some ns =>
        match ns.get ops t with
        | some r => .ok r
        | none => err .tableNotFound
  | [s, t] =>
    match ctx.tableExpression.get ops s with
    | some _ => err .schemaHidden
    | none =>
      match ctx.namespaces.get ops s with
      | none => err .namespaceNotPresent
      | some ns =>
        match ns.get ops t with
        | some r => .ok r
        | none => err .tableNotFound
  | _ => err .tableParts

/-- `ScalarContextSymbol` (L122-131). -/
inductive Symbol (N : Type) where
  | attribute (t : ScalarType)
  | attributeConflict
  | relation (attributes : TMap N ScalarType)

/-- `ScalarContext` (L135-141). -/
structure ScalarContext (N : Type) where
  setContext : SetContext N
  symbols : TMap N (Symbol N)

/-- `ScalarContext::new` (L144-149). -/
def ScalarContext.new (ctx : SetContext N) : ScalarContext N := ⟨ctx, []⟩

/-- The loop over the attributes in `add_relation` (L157-173). -/
def addAttributes (symbols : TMap N (Symbol N)) : List (Attribute N) → TMap N (Symbol N)
  | [] => symbols
  | a :: as =>
    match symbols.get ops a.name with
    | none => addAttributes (symbols.insert ops a.name (.attribute a.scalar)) as
    | some (.attribute _) => addAttributes (symbols.insert ops a.name .attributeConflict) as
    | some .attributeConflict => addAttributes symbols as
    | some (.relation _) => addAttributes symbols as

/-- `ScalarContext::add_relation` (L151-201). -/
def ScalarContext.addRelation (sc : ScalarContext N) (name : N) (attributes : List (Attribute N)) :
    Chk (ScalarContext N) :=
  let symbols := addAttributes ops sc.symbols attributes
  let map := TMap.collect ops (attributes.map fun a => (a.name, a.scalar))
  match symbols.get ops name with
  | some (.relation _) => err .duplicateRelation
  | _ => .ok { sc with symbols := symbols.insert ops name (.relation map) }

/-- `ScalarContext::infer_type` (L203-239). -/
def ScalarContext.inferType (sc : ScalarContext N) (q : List N) : Chk ScalarType :=
  match q with
  | [a] =>
    match sc.symbols.get ops a with
    | none => err .undefinedAttribute
    | some (.attribute t) => .ok t
    | some .attributeConflict => err .ambiguousAttribute
    | some (.relation _) => err .nameIsRelation
  | [r, a] =>
    match sc.symbols.get ops r with
    | some (.relation attributes) =>
      match attributes.get ops a with
      | some t => .ok t
      | none => err .notAnAttributeOf
    | _ => err .notARelation
  | _ => err .qualifiedParts

/-- `generate_column_name` (L1093-1112): the name and the updated map of generated names.  The counter
is a `usize`; it counts columns of one result, so its overflow is not modelled. -/
def generateColumnName (name : N) (generated : TMap N Nat) : N × TMap N Nat :=
  match generated.get ops name with
  | some counter =>
    let result := ops.numbered name (counter + 1)
    (result, (generated.insert ops name (counter + 1)).insert ops result 0)
  | none => (name, generated.insert ops name 0)

/-- The loop of L1126-1133 and of L1141-1159 over attributes, appending to the result. -/
def generateColumns (generated : TMap N Nat) :
    List (Attribute N) → List (Attribute N) × TMap N Nat
  | [] => ([], generated)
  | a :: as =>
    let (name, generated) := generateColumnName ops a.name generated
    let (rest, generated) := generateColumns generated as
    ({ a with name := name } :: rest, generated)

/-- The attributes of a relation symbol, in key order (L1141-1158).  Its entries are scalars; a tuple is
a panic. -/
def relationAttributes : TMap N ScalarType → Chk (List (Attribute N))
  | [] => .ok []
  | (name, .scalar typ isNull) :: r => do return ⟨name, typ, isNull⟩ :: (← relationAttributes r)
  | (_, .tuple _) :: _ => panics

/-- The column of a scalar subquery or of the right side of IN (L618-626, L642-651). -/
def singleColumn (e : SqlError) (r : RowType N) : Chk ScalarType :=
  match r.attributes with
  | [a] => .ok a.scalar
  | _ => err e

/-- The name under which a table is bound: its alias, or the last part of its name (L1216-1219). -/
def relationName (name : List N) : Option N → Chk N
  | some id => .ok id
  | none =>
    match name.getLast? with
    | some n => .ok n
    | none => panics

/-- The fold of L1057-1081: columns of the two operands of a set operation, unified by position.  As
`zip` does, it stops at the end of the shorter list. -/
def unifyAttributes : List (Attribute N) → List (Attribute N) → Chk (List (Attribute N))
  | l :: ls, r :: rs => do
    match ← l.scalar.unify r.scalar with
    | .scalar typ isNull => return ⟨l.name, typ, isNull⟩ :: (← unifyAttributes ls rs)
    | .tuple _ => err .embeddedTuple
  | _, _ => .ok []

/-- The selection of columns of a common table expression (L1597-1610). -/
def selectColumns (attributes : List (Attribute N)) : List N → Chk (List (Attribute N))
  | [] => .ok []
  | c :: cs =>
    match attributes.find? fun a => ops.eq a.name c with
    | some a => do return ⟨c, a.typ, a.isNull⟩ :: (← selectColumns attributes cs)
    | none => err .cteColumnNotFound

mutual

/-- `Expression::infer_type` (L242-655). -/
def inferExpr (sc : ScalarContext N) : Expr N → Chk ScalarType
  | .literal l => .ok l.inferType
  | .ident q => sc.inferType ops q
  | .tuple es => do return .tuple (← inferExprs sc es)
  | .unary op e => do unaryType op (← inferExpr sc e)
  | .binary op l r => do
    let lt ← inferExpr sc l
    let rt ← inferExpr sc r
    binaryType op lt rt
  | .comparison op l r => do
    let lt ← inferExpr sc l
    let rt ← inferExpr sc r
    comparisonType op lt rt
  | .between e l u => do
    let et ← inferExpr sc e
    let lt ← inferExpr sc l
    let ut ← inferExpr sc u
    betweenType et lt ut
  | .case none whens els => do
    ignored (checkGuards sc guardLogical whens)
    let t ← inferBodies sc whens
    inferElse sc t els
  | .case (some e) whens els => do
    let et ← inferExpr sc e
    ignored (checkGuards sc (guardMatches et) whens)
    let t ← inferBodies sc whens
    inferElse sc t els
  | .inSet e set => do
    let et ← inferExpr sc e
    let r ← inferSet sc set
    let ct ← singleColumn .inOneColumn r
    if ← et.isCompatible ct then return .scalar .logical false else err .inIncompatible
  | .select s => do singleColumn .selectOneColumn (← inferSelect sc.setContext s)

/-- Types of a list of expressions, up to the first error (L252-255). -/
def inferExprs (sc : ScalarContext N) : List (Expr N) → Chk (List ScalarType)
  | [] => .ok []
  | e :: es => do
    let t ← inferExpr sc e
    return t :: (← inferExprs sc es)

/-- The check of the guards of a CASE (L495-505, L559-569). -/
def checkGuards (sc : ScalarContext N) (check : ScalarType → Chk Unit) : List (When N) → Chk Unit
  | [] => .ok ()
  | .mk guard _ :: ws => do
    check (← inferExpr sc guard)
    checkGuards sc check ws

/-- The type of the THEN parts (L508-523, L572-587); the assertion that there is one. -/
def inferBodies (sc : ScalarContext N) : List (When N) → Chk ScalarType
  | [] => panics
  | .mk _ body :: ws => do
    let t ← inferExpr sc body
    foldBodies sc t ws

/-- The fold over the THEN parts after the first (L511-523, L575-587). -/
def foldBodies (sc : ScalarContext N) (typ : ScalarType) : List (When N) → Chk ScalarType
  | [] => .ok typ
  | .mk _ body :: ws => do
    let typ ← thenStep typ (← inferExpr sc body)
    foldBodies sc typ ws

/-- The ELSE part (L526-546, L590-610). -/
def inferElse (sc : ScalarContext N) (result : ScalarType) : Option (Expr N) → Chk ScalarType
  | none =>
    match result with
    | .scalar typ _ => .ok (.scalar typ true)
    | .tuple _ => panics
  | some body =>
    match result with
    | .scalar typ isNull => do
      let n1 ← (← inferExpr sc body).isCompatible result
      return .scalar typ (n1 || isNull)
    | .tuple _ => panics

/-- `SetSpecification::infer_type` (L1250-1289). -/
def inferSet (sc : ScalarContext N) : SetSpec N → Chk (RowType N)
  | .select s => inferSelect sc.setContext s
  | .name q => sc.setContext.resolveTableName ops q
  | .list es => do
    match ← inferList sc es with
    | .scalar typ isNull => return .plain [⟨ops.numbered (ops.lit "_col") 0, typ, isNull⟩]
    | .tuple _ => err .setScalar

/-- The elements of an IN list (L1263-1268): `unwrap` of the first, then a fold over the others. -/
def inferList (sc : ScalarContext N) : List (Expr N) → Chk ScalarType
  | [] => panics
  | e :: es => foldList sc (inferExpr sc e) es

/-- The fold of L1265-1268.  It visits every element: an error of an element replaces the result so
far, and an error so far does not keep the next element from being inferred. -/
def foldList (sc : ScalarContext N) (typ : Chk ScalarType) : List (Expr N) → Chk ScalarType
  | [] => typ
  | e :: es =>
    match typ with
    | .error .panic => panics
    | .ok t => foldList sc (do t.unify (← inferExpr sc e)) es
    | .error (.err x) => foldList sc (do let _ ← inferExpr sc e; err x) es

/-- `SelectStatement::infer_type` (L1335-1360). -/
def inferSelect (ctx : SetContext N) : Select N → Chk (RowType N)
  | .mk common expr orderBy limit => do
    let sc ← addCommon ctx (ScalarContext.new ctx) common
    let result ← inferSetExpr ctx expr
    checkOrder sc orderBy
    checkLimit sc.setContext limit
    return result

/-- The loop over the common table expressions (L1340-1343). -/
def addCommon (ctx : SetContext N) (sc : ScalarContext N) : List (Cte N) → Chk (ScalarContext N)
  | [] => .ok sc
  | .mk identifier names query :: cs => do
    let typ ← inferCte ctx (.mk identifier names query)
    let sc ← sc.addRelation ops identifier typ.attributes
    addCommon ctx sc cs

/-- `CommonTableExpression::infer_type` (L1588-1620). -/
def inferCte (ctx : SetContext N) : Cte N → Chk (RowType N)
  | .mk _ names query => do
    let typ ← inferSelect ctx query
    match names with
    | none => return typ
    | some cs => return { typ with attributes := ← selectColumns ops typ.attributes cs }

/-- `Ordering::validate_type` for each term (L1349-1351, L1541-1552). -/
def checkOrder (sc : ScalarContext N) : List (OrderTerm N) → Chk Unit
  | [] => .ok ()
  | .mk e _ _ :: ts => do
    mustBeScalar .orderScalar (← inferExpr sc e)
    checkOrder sc ts

/-- `Limit::validate_type` (L1354-1356, L1554-1586). -/
def checkLimit (ctx : SetContext N) : Option (Limit N) → Chk Unit
  | none => .ok ()
  | some (.mk rows offset) => do
    mustBeCount .limitNumeric (← inferExpr (ScalarContext.new ctx) rows)
    checkOffset (ScalarContext.new ctx) offset

/-- The OFFSET part of `Limit::validate_type` (L1570-1582). -/
def checkOffset (sc : ScalarContext N) : Option (Expr N) → Chk Unit
  | none => .ok ()
  | some e => do mustBeCount .offsetNumeric (← inferExpr sc e)

/-- `SetExpression::infer_type` (L925-1091). -/
def inferSetExpr (ctx : SetContext N) : SetExpr N → Chk (RowType N)
  | .values rows => do return .plain (← inferValues (ScalarContext.new ctx) rows)
  | .query _ columns froms wher groupBy => do
    let (sc, attributes) ← inferFrom (ScalarContext.new ctx) froms
    checkPredicate sc .whereBoolean wher
    checkGroupBy sc groupBy
    inferColumns sc attributes columns
  | .op _ l r => do
    let lt ← inferSetExpr ctx l
    let rt ← inferSetExpr ctx r
    return .plain (← unifyAttributes lt.attributes rt.attributes)

/-- The rows of VALUES (L929-975): the assertion that there is one, its types, then the others. -/
def inferValues (sc : ScalarContext N) : List (List (Expr N)) → Chk (List (Attribute N))
  | [] => panics
  | row :: rows => do
    let types ← inferFirstRow sc 0 row
    foldRows sc types rows

/-- The first row of VALUES (L931-945); `count` numbers the columns. -/
def inferFirstRow (sc : ScalarContext N) (count : Nat) : List (Expr N) → Chk (List (Attribute N))
  | [] => .ok []
  | e :: es => do
    match ← inferExpr sc e with
    | .tuple _ => err .valuesScalar
    | .scalar typ isNull =>
      return ⟨ops.numbered (ops.lit "_col") count, typ, isNull⟩ :: (← inferFirstRow sc (count + 1) es)

/-- The other rows of VALUES (L948-975). -/
def foldRows (sc : ScalarContext N) (types : List (Attribute N)) :
    List (List (Expr N)) → Chk (List (Attribute N))
  | [] => .ok types
  | row :: rows => do
    let types ← unifyRow sc types row
    foldRows sc types rows

/-- One further row of VALUES (L950-974): as `zip` does, it stops at the end of the shorter list. -/
def unifyRow (sc : ScalarContext N) : List (Attribute N) → List (Expr N) → Chk (List (Attribute N))
  | a :: as, e :: es => do
    match ← a.scalar.unify (← inferExpr sc e) with
    | .scalar typ isNull => return ⟨a.name, typ, isNull⟩ :: (← unifyRow sc as es)
    | .tuple _ => panics
  | _, _ => .ok []

/-- The FROM clause (L991-999): extended context and all columns. -/
def inferFrom (sc : ScalarContext N) :
    List (TableExpr N) → Chk (ScalarContext N × List (Attribute N))
  | [] => .ok (sc, [])
  | t :: ts => do
    let (sc, attributes) ← inferTable sc t
    let (sc, rest) ← inferFrom sc ts
    return (sc, attributes ++ rest)

/-- `TableExpression::infer_type` (L1199-1248). -/
def inferTable (sc : ScalarContext N) : TableExpr N → Chk (ScalarContext N × List (Attribute N))
  | .named name alias => do
    let typ ← sc.setContext.resolveTableName ops name
    let identifier ← relationName name alias
    let sc ← sc.addRelation ops identifier typ.attributes
    return (sc, typ.attributes)
  | .select s _ => do
    let typ ← inferSelect sc.setContext s
    return (sc, typ.attributes)
  | .join l r _ _ => do
    let (sc, left) ← inferTable sc l
    let (sc, right) ← inferTable sc r
    return (sc, left ++ right)

/-- A WHERE or HAVING clause (L1002-1015, L1028-1041, L1495-1508, L1522-1535). -/
def checkPredicate (sc : ScalarContext N) (msg : SqlError) : Option (Expr N) → Chk Unit
  | none => .ok ()
  | some e => do mustBeLogical msg (← inferExpr sc e)

/-- The GROUP BY clause (L1018-1043). -/
def checkGroupBy (sc : ScalarContext N) : Option (GroupBy N) → Chk Unit
  | none => .ok ()
  | some (.mk groupings having) => do
    let _ ← inferExprs sc groupings
    checkPredicate sc .havingBoolean having

/-- `ResultColumns::infer_type` (L1114-1197). -/
def inferColumns (sc : ScalarContext N) (attributes : List (Attribute N)) :
    ResultColumns N → Chk (RowType N)
  | .all => .ok (.plain (generateColumns ops [] attributes).1)
  | .list cs => do return .plain (← inferColumnList sc [] cs)

/-- The loop over the columns of a SELECT (L1134-1188). -/
def inferColumnList (sc : ScalarContext N) (generated : TMap N Nat) :
    List (ResultColumn N) → Chk (List (Attribute N))
  | [] => .ok []
  | .allFrom name :: cs =>
    match sc.symbols.get ops name with
    | none => err .undefinedCollection
    | some (.relation fields) => do
      let (new, generated) := generateColumns ops generated (← relationAttributes fields)
      return new ++ (← inferColumnList sc generated cs)
    | some _ => err .notRangeVariable
  | .expr e rename :: cs => do
    match ← inferExpr sc e with
    | .tuple _ => err .resultScalar
    | .scalar typ isNull =>
      let (name, generated) := generateColumnName ops (rename.getD (ops.lit "col")) generated
      return ⟨name, typ, isNull⟩ :: (← inferColumnList sc generated cs)

end

/-! ## Statements -/

/-- `SetContext::initialize` (L906-922): common table expressions are defined one after the other. -/
def SetContext.initializeFrom (ctx : SetContext N) : List (Cte N) → Chk (SetContext N)
  | [] => .ok ctx
  | .mk identifier names query :: cs => do
    let typ ← inferCte ops ctx (.mk identifier names query)
    let ctx ← ctx.defineRelation ops identifier typ
    initializeFrom ctx cs

/-- `SetContext::initialize` (L906-922). -/
def SetContext.initialize (db : Database N) (defaultSchema : N) (ctes : List (Cte N)) :
    Chk (SetContext N) :=
  (SetContext.new ops db defaultSchema).initializeFrom ops ctes

/-- The columns of a table by name (L1365-1370, L1450-1454). -/
def columnMap (typ : RowType N) : TMap N (DataType × Bool) :=
  TMap.collect ops (typ.attributes.map fun a => (a.name, (a.typ, a.isNull)))

/-- One column of an INSERT (L1379-1396, L1410-1427): checked against the columns still missing, then
taken off. -/
def insertColumn (missing : TMap N (DataType × Bool)) (value : Attribute N) (target : N) :
    Chk (TMap N (DataType × Bool)) :=
  match missing.get ops target with
  | none => err .insertUndefinedColumn
  | some (typ, isNull) =>
    if typ ≠ value.typ ∨ (¬ isNull ∧ value.isNull) then err .insertIncompatible
    else .ok (missing.remove ops target)

/-- The loops of L1378-1397 and L1409-1428 over values and target columns. -/
def insertColumns (missing : TMap N (DataType × Bool)) :
    List (Attribute N × N) → Chk (TMap N (DataType × Bool))
  | [] => .ok missing
  | (value, target) :: r => do
    let missing ← insertColumn ops missing value target
    insertColumns missing r

/-- The columns of the source matched with the columns of the table (L1374-1430). -/
def insertSource (missing : TMap N (DataType × Bool)) (values : List (Attribute N)) :
    Option (List N) → Chk (TMap N (DataType × Bool))
  | none => insertColumns ops missing (values.map fun a => (a, a.name))
  | some columns =>
    if columns.length ≠ values.length then err .insertLength
    else insertColumns ops missing (values.zip columns)

/-- No column that must not be NULL is missing (L1433-1440). -/
def insertComplete (missing : TMap N (DataType × Bool)) : Chk Unit :=
  if missing.any fun e => !e.2.2 then err .insertMissing else .ok ()

/-- `InsertStatement::validate_type` (L1362-1444). -/
def InsertStatement.validateType (ctx : SetContext N) (s : InsertStatement N) : Chk Unit := do
  let typ ← ctx.resolveTableName ops s.tableName
  let values ← inferSetExpr ops ctx s.source
  let missing ← insertSource ops (columnMap ops typ) values.attributes s.columns
  insertComplete missing

/-- The columns of one assignment of an UPDATE (L1464-1490).  `assigned` is the set of columns assigned
so far. -/
def updateColumns (map : TMap N (DataType × Bool)) (typ : DataType) (isNull : Bool)
    (assigned : TMap N Unit) : List N → Chk (TMap N Unit)
  | [] => .ok assigned
  | c :: cs =>
    if assigned.containsKey ops c then err .updateDuplicate
    else match map.get ops c with
      | none => err .updateUndefined
      | some (ctyp, cnull) =>
        if ctyp ≠ typ ∨ (isNull ∧ ¬ cnull) then err .updateIncompatible
        else updateColumns map typ isNull (assigned.insert ops c ()) cs

/-- The assignments of an UPDATE (L1462-1493). -/
def updateAssignments (sc : ScalarContext N) (map : TMap N (DataType × Bool)) (assigned : TMap N Unit) :
    List (Assignment N) → Chk (TMap N Unit)
  | [] => .ok assigned
  | a :: as => do
    match ← inferExpr ops sc a.expr with
    | .tuple _ => err .updateScalar
    | .scalar typ isNull =>
      let assigned ← updateColumns ops map typ isNull assigned a.columns
      updateAssignments sc map assigned as

/-- The context in which the expressions of UPDATE and DELETE are inferred (L1456-1459, L1518-1520). -/
def tableContext (ctx : SetContext N) (name : List N) (typ : RowType N) : Chk (ScalarContext N) :=
  match name.getLast? with
  | some identifier => (ScalarContext.new ctx).addRelation ops identifier typ.attributes
  | none => panics

/-- `UpdateStatement::validate_type` (L1446-1512). -/
def UpdateStatement.validateType (ctx : SetContext N) (s : UpdateStatement N) : Chk Unit := do
  let typ ← ctx.resolveTableName ops s.tableName
  let sc ← tableContext ops ctx s.tableName typ
  let _ ← updateAssignments ops sc (columnMap ops typ) [] s.assignments
  checkPredicate ops sc .whereBoolean s.wher

/-- `DeleteStatement::validate_type` (L1514-1539). -/
def DeleteStatement.validateType (ctx : SetContext N) (s : DeleteStatement N) : Chk Unit := do
  let typ ← ctx.resolveTableName ops s.tableName
  let sc ← tableContext ops ctx s.tableName typ
  checkPredicate ops sc .whereBoolean s.wher

/-- `Statement::validate_type` (L1321-1333). -/
def Statement.validateType (ctx : SetContext N) : Statement N → Chk Unit
  | .select s => do let _ ← inferSelect ops ctx s; return ()
  | .insert s => s.validateType ops ctx
  | .update s => s.validateType ops ctx
  | .delete s => s.validateType ops ctx

/-- `DescribeStatement::validate_type` (L1314-1319). -/
def DescribeStatement.validateType (ctx : SetContext N) (s : DescribeStatement N) : Chk Unit := do
  let _ ← ctx.resolveTableName ops s.qualifiedName
  return ()

/-- `SqlStatement::validate_type`, `AttachStatement::validate_type` (L1291-1312). -/
def SqlStatement.validateType (ctx : SetContext N) : SqlStatement N → Chk Unit
  | .statement s => s.validateType ops ctx
  | .explainQueryPlan s => s.validateType ops ctx
  | .attach _ => .ok ()
  | .describe s => s.validateType ops ctx

end Verif.Sql
