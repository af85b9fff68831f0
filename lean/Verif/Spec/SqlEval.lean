import Verif.Spec.Sql
/-!
# What SQL expressions and queries mean

A reference evaluator for the syntax tree, written from the meaning of SQL and not from the code.  The
scalars other than truth values and what an engine does with them are parameters (`Engine`).  `none` is
a run-time error (division by zero, a malformed date, a name that denotes no column or several, a
subquery with more than one row).

Names of tables and columns are compared up to case.  Subqueries do not see the columns of the
enclosing query.  `NATURAL` joins are not given a meaning.
-/

namespace Verif.Sql

/-- Scalars and the operations an engine has for them. -/
structure Engine where
  /-- the values of a type other than NULL -/
  Carrier : DataType → Type
  toBool : Carrier .logical → Bool
  ofBool : Bool → Carrier .logical
  varchar : List Char → Carrier .varchar
  numeric : List Char → Option (Carrier .numeric)
  date : List Char → Option (Carrier .date)
  time : List Char → Option (Carrier .time)
  timestamp : List Char → Option (Carrier .timestamp)
  currentDate : Carrier .date
  currentTime : Carrier .time
  currentTimestamp : Carrier .timestamp
  negate : Carrier .numeric → Carrier .numeric
  /-- `none` when the operation fails or the operator is none of the four -/
  arithmetic : BinaryOperator → Carrier .numeric → Carrier .numeric → Option (Carrier .numeric)
  concat : Carrier .varchar → Carrier .varchar → Carrier .varchar
  like : Carrier .varchar → Carrier .varchar → Bool
  same : (t : DataType) → Carrier t → Carrier t → Bool
  less : (t : DataType) → Carrier t → Carrier t → Bool
  /-- the number of rows meant by a LIMIT -/
  count : Carrier .numeric → Option Nat

/-- A value: NULL, a scalar of some type, or a tuple. -/
inductive Value (C : DataType → Type) where
  | null
  | scalar (t : DataType) (x : C t)
  | tuple (vs : List (Value C))

/-! ## Three-valued logic: `none` is unknown -/

def and3 : Option Bool → Option Bool → Option Bool
  | some false, _ => some false
  | _, some false => some false
  | some true, some true => some true
  | _, _ => none

def or3 : Option Bool → Option Bool → Option Bool
  | some true, _ => some true
  | _, some true => some true
  | some false, some false => some false
  | _, _ => none

def not3 (a : Option Bool) : Option Bool := a.map (!·)

section
variable (E : Engine)

/-- The value of a truth value; unknown is NULL. -/
def ofTruth : Option Bool → Value E.Carrier
  | none => .null
  | some b => .scalar .logical (E.ofBool b)

/-- The truth value of a value. -/
def truth : Value E.Carrier → Option (Option Bool)
  | .null => some none
  | .scalar .logical b => some (some (E.toBool b))
  | _ => none

mutual
/-- Equality: unknown with NULL; of tuples, component by component. -/
def eq3 : Value E.Carrier → Value E.Carrier → Option (Option Bool)
  | .null, .tuple _ => none
  | .null, _ => some none
  | .scalar _ _, .null => some none
  | .scalar t x, .scalar u y => if h : u = t then some (some (E.same t x (h ▸ y))) else none
  | .tuple vs, .tuple ws => eq3List vs ws
  | _, _ => none
def eq3List : List (Value E.Carrier) → List (Value E.Carrier) → Option (Option Bool)
  | [], [] => some (some true)
  | v :: vs, w :: ws => do return and3 (← eq3 v w) (← eq3List vs ws)
  | _, _ => none
end

mutual
/-- Not distinct: equal, or both NULL. -/
def alike : Value E.Carrier → Value E.Carrier → Bool
  | .null, .null => true
  | .scalar t x, .scalar u y => if h : u = t then E.same t x (h ▸ y) else false
  | .tuple vs, .tuple ws => alikeList vs ws
  | _, _ => false
def alikeList : List (Value E.Carrier) → List (Value E.Carrier) → Bool
  | [], [] => true
  | v :: vs, w :: ws => alike v w && alikeList vs ws
  | _, _ => false
end

/-- A test of two scalars of the same type; unknown with NULL. -/
def order3 (test : (t : DataType) → E.Carrier t → E.Carrier t → Bool) :
    Value E.Carrier → Value E.Carrier → Option (Option Bool)
  | .null, .tuple _ => none
  | .null, _ => some none
  | .scalar _ _, .null => some none
  | .scalar t x, .scalar u y => if h : u = t then some (some (test t x (h ▸ y))) else none
  | _, _ => none

/-- Smaller or equal. -/
def Engine.upTo (t : DataType) (x y : E.Carrier t) : Bool := E.less t x y || E.same t x y

def evalLiteral : Literal → Option (Value E.Carrier)
  | .string s => some (.scalar .varchar (E.varchar s))
  | .numeric s => (E.numeric s).map (.scalar .numeric ·)
  | .null => some .null
  | .currentTime => some (.scalar .time E.currentTime)
  | .currentDate => some (.scalar .date E.currentDate)
  | .currentTimestamp => some (.scalar .timestamp E.currentTimestamp)
  | .date s => (E.date s).map (.scalar .date ·)
  | .time s => (E.time s).map (.scalar .time ·)
  | .timestamp s => (E.timestamp s).map (.scalar .timestamp ·)

def evalUnary : UnaryOperator → Value E.Carrier → Option (Value E.Carrier)
  | .negate, .null => some .null
  | .negate, .scalar .numeric x => some (.scalar .numeric (E.negate x))
  | .negate, _ => none
  | .not, v => (truth E v).map fun b => ofTruth E (not3 b)
  | .isNull, .null => some (ofTruth E (some true))
  | .isNull, .scalar _ _ => some (ofTruth E (some false))
  | .isNull, .tuple _ => none

/-- `+`, `-`, `*`, `/`. -/
def evalArithmetic (op : BinaryOperator) : Value E.Carrier → Value E.Carrier → Option (Value E.Carrier)
  | .scalar .numeric x, .scalar .numeric y => (E.arithmetic op x y).map (.scalar .numeric ·)
  | .null, .null => some .null
  | .null, .scalar .numeric _ => some .null
  | .scalar .numeric _, .null => some .null
  | _, _ => none

def evalConcat : Value E.Carrier → Value E.Carrier → Option (Value E.Carrier)
  | .scalar .varchar x, .scalar .varchar y => some (.scalar .varchar (E.concat x y))
  | .null, .null => some .null
  | .null, .scalar .varchar _ => some .null
  | .scalar .varchar _, .null => some .null
  | _, _ => none

def evalBinary (op : BinaryOperator) (v w : Value E.Carrier) : Option (Value E.Carrier) :=
  match op with
  | .multiply | .divide | .add | .subtract => evalArithmetic E op v w
  | .concat => evalConcat E v w
  | .and => do return ofTruth E (and3 (← truth E v) (← truth E w))
  | .or => do return ofTruth E (or3 (← truth E v) (← truth E w))

def evalLike : Value E.Carrier → Value E.Carrier → Option (Option Bool)
  | .scalar .varchar x, .scalar .varchar y => some (some (E.like x y))
  | .null, .null => some none
  | .null, .scalar .varchar _ => some none
  | .scalar .varchar _, .null => some none
  | _, _ => none

def evalComparison (op : ComparisonOperator) (v w : Value E.Carrier) : Option (Option Bool) :=
  match op with
  | .equal => eq3 E v w
  | .notEqual => (eq3 E v w).map not3
  | .lessThan => order3 E E.less v w
  | .lessEqual => order3 E E.upTo v w
  | .greaterThan => order3 E E.less w v
  | .greaterEqual => order3 E E.upTo w v
  | .like => evalLike E v w

/-- `v BETWEEN lower AND upper`. -/
def evalBetween (v lower upper : Value E.Carrier) : Option (Option Bool) := do
  return and3 (← order3 E E.upTo lower v) (← order3 E E.upTo v upper)

/-- `v IN (ws)`: some element is equal. -/
def evalIn (v : Value E.Carrier) : List (Value E.Carrier) → Option (Option Bool)
  | [] => some (some false)
  | w :: ws => do return or3 (← eq3 E v w) (← evalIn v ws)

/-! ## Rows and tables -/

/-- A row of values. -/
abbrev Row (E : Engine) := List (Value E.Carrier)

/-- A table: the names of its columns, and its rows. -/
structure Table where
  columns : List Name
  rows : List (Row E)

/-- The tables that can be named. -/
abbrev Store := List Name → Option (Table E)

/-- The rows a FROM clause ranges over.  A column belongs to a relation, if that has a name. -/
structure Source where
  columns : List (Option Name × Name)
  rows : List (Row E)

/-- What the identifiers of an expression can denote. -/
abbrev Scope := List ((Option Name × Name) × Value E.Carrier)

variable (up : Char → List Char)

/-- The same name up to case. -/
def sameName (a b : Name) : Bool := a.upper up = b.upper up

/-- The value of the only column of that name, or of that name in the relation of that name. -/
def lookup (scope : Scope E) : List Name → Option (Value E.Carrier)
  | [c] =>
    match scope.filter fun e => sameName up e.1.2 c with
    | [e] => some e.2
    | _ => none
  | [r, c] =>
    match scope.filter fun e => e.1.1.any (sameName up · r) && sameName up e.1.2 c with
    | [e] => some e.2
    | _ => none
  | _ => none

/-- The rows for which the test is true; an error if it fails for some row. -/
def keep {α : Type} (test : α → Option Bool) : List α → Option (List α)
  | [] => some []
  | a :: as => do
    let b ← test a
    let rest ← keep test as
    return if b then a :: rest else rest

/-- The results for all elements; an error if there is one for some element. -/
def collectAll {α β : Type} (f : α → Option β) : List α → Option (List β)
  | [] => some []
  | a :: as => do return (← f a) :: (← collectAll f as)

/-- The first of each class of alike keys. -/
def firstOfEach {α : Type} : List (Row E × α) → List (Row E × α)
  | [] => []
  | a :: as => a :: (firstOfEach as).filter fun b => !alikeList E b.1 a.1

def distinctRows (rows : List (Row E)) : List (Row E) :=
  (firstOfEach E (rows.map fun r => (r, ()))).map (·.1)

def memberRow (r : Row E) (rows : List (Row E)) : Bool := rows.any (alikeList E r ·)

/-- The rows of a set operation on tables with the same number of columns. -/
def setOperation (op : SetOperator) (l r : List (Row E)) : List (Row E) :=
  match op with
  | .unionAll => l ++ r
  | .union => distinctRows E (l ++ r)
  | .intersect => distinctRows E (l.filter (memberRow E · r))
  | .except => distinctRows E (l.filter fun x => !memberRow E x r)

/-- NULL sorts first. -/
def lessValue : Value E.Carrier → Value E.Carrier → Bool
  | .null, .scalar _ _ => true
  | .scalar t x, .scalar u y => if h : u = t then E.less t x (h ▸ y) else false
  | _, _ => false

/-- Lexicographic order of keys, each with its direction. -/
def keysUpTo : List (OrderingDirection × Value E.Carrier) → List (OrderingDirection × Value E.Carrier) → Bool
  | (.ascending, x) :: xs, (_, y) :: ys =>
    lessValue E x y || (!lessValue E y x && keysUpTo xs ys)
  | (.descending, x) :: xs, (_, y) :: ys =>
    lessValue E y x || (!lessValue E x y && keysUpTo xs ys)
  | _, _ => true

/-- Insert a row before the first row that does not come before it. -/
def insertRow {α : Type} (x : List (OrderingDirection × Value E.Carrier) × α) :
    List (List (OrderingDirection × Value E.Carrier) × α) → List (List (OrderingDirection × Value E.Carrier) × α)
  | [] => [x]
  | y :: ys => if keysUpTo E x.1 y.1 then x :: y :: ys else y :: insertRow x ys

/-- Stable sorting by key. -/
def sortRows {α : Type} (rows : List (List (OrderingDirection × Value E.Carrier) × α)) : List α :=
  (rows.foldr (insertRow E) []).map (·.2)

/-- The value of a subquery used as a value. -/
def scalarOf (t : Table E) : Option (Value E.Carrier) :=
  if t.columns.length ≠ 1 then none else
  match t.rows with
  | [] => some .null
  | [[v]] => some v
  | _ => none

/-- The values of the only column of a table. -/
def columnOf (t : Table E) : Option (List (Value E.Carrier)) :=
  if t.columns.length ≠ 1 then none else
  collectAll (fun r => match r with | [v] => some v | _ => none) t.rows

/-- The rows of all combinations. -/
def product (l r : List (Row E)) : List (Row E) := l.flatMap fun x => r.map fun y => x ++ y

def nulls {α : Type} (l : List α) : Row E := l.map fun _ => .null

/-- The rows of a join.  A pair of rows matches when the test is true of it.  The outer joins add the
rows that match none, with NULL for the columns of the other side. -/
def joinRows (t : JoinType) (test : Row E → Option Bool) (l r : Source E) : Option (List (Row E)) := do
  let inner ← keep test (product E l.rows r.rows)
  let left ← keep (fun x => (keep (fun y => test (x ++ y)) r.rows).map (·.isEmpty)) l.rows
  let right ← keep (fun y => (keep (fun x => test (x ++ y)) l.rows).map (·.isEmpty)) r.rows
  let left := left.map fun x => x ++ nulls E r.columns
  let right := right.map fun y => nulls E l.columns ++ y
  match t with
  | .inner => return inner
  | .left => return inner ++ left
  | .right => return inner ++ right
  | .full => return inner ++ left ++ right

/-- Whether the sides of a pair agree in the columns named; each side must have exactly one column of the name. -/
def agree (l r : List (Option Name × Name)) (x y : Row E) : List Name → Option Bool
  | [] => some true
  | c :: cs => do
    let b ← eq3 E (← lookup E up (l.zip x) [c]) (← lookup E up (r.zip y) [c])
    let rest ← agree l r x y cs
    return b = some true && rest

/-- The first value unless it is NULL. -/
def coalesce : Value E.Carrier → Value E.Carrier → Value E.Carrier
  | .null, v => v
  | v, _ => v

/-- The columns other than those named. -/
def others (cs : List Name) (scope : Scope E) : Scope E :=
  scope.filter fun e => !cs.any (sameName up · e.1.2)

/-- `USING`: the columns named come once and first, then the other columns of either side. -/
def joinUsing (t : JoinType) (cs : List Name) (l r : Source E) : Option (Source E) := do
  let n := l.columns.length
  let rows ← joinRows E t (fun row => agree E up l.columns r.columns (row.take n) (row.drop n) cs) l r
  let rows ← collectAll (fun row => do
    let common ← collectAll (fun c => do
      return coalesce E (← lookup E up (l.columns.zip (row.take n)) [c])
        (← lookup E up (r.columns.zip (row.drop n)) [c])) cs
    return common ++ (others E up cs (l.columns.zip (row.take n))).map (·.2) ++
      (others E up cs (r.columns.zip (row.drop n))).map (·.2)) rows
  let rest (columns : List (Option Name × Name)) := columns.filter fun e => !cs.any (sameName up · e.2)
  return ⟨cs.map (fun c => (none, c)) ++ rest l.columns ++ rest r.columns, rows⟩

/-- The name of a result column. -/
def resultName (e : Expr Name) : Option Name → Name
  | some n => n
  | none =>
    match e with
    | .ident q => q.getLast?.getD (Name.ofString "col")
    | _ => Name.ofString "col"

/-- The places of the columns of a relation. -/
def ofRelation (r : Name) (e : Option Name × Name) : Bool := e.1.any (sameName up · r)

def resultNames (columns : List (Option Name × Name)) : ResultColumns Name → List Name
  | .all => columns.map (·.2)
  | .list cs => cs.flatMap fun c =>
    match c with
    | .allFrom r => (columns.filter (ofRelation up r)).map (·.2)
    | .expr e rename => [resultName e rename]

/-- The names given to the columns of a common table expression. -/
def renameColumns (t : Table E) : Option (List Name) → Option (Table E)
  | none => some t
  | some ns => if ns.length = t.columns.length then some ⟨ns, t.rows⟩ else none

/-- The tables with one more, called `name`. -/
def Store.define (st : Store E) (name : Name) (t : Table E) : Store E := fun q =>
  match q with
  | [n] => if sameName up n name then some t else st q
  | _ => st q

/-- All rows have the same length. -/
def rectangle : List (Row E) → Option (Table E)
  | [] => none
  | r :: rs =>
    if rs.all (·.length = r.length) then some ⟨r.map fun _ => Name.ofString "col", r :: rs⟩ else none

/-- The name of a relation in a FROM clause: its alias, or the last part of its name. -/
def boundName (q : List Name) : Option Name → Option Name
  | some a => some a
  | none => q.getLast?

def Table.source (t : Table E) (name : Option Name) : Source E :=
  ⟨t.columns.map fun c => (name, c), t.rows⟩

/-- A count of rows. -/
def countOf : Value E.Carrier → Option Nat
  | .scalar .numeric x => E.count x
  | _ => none

mutual

/-- The value of an expression. -/
def evalExpr (st : Store E) (scope : Scope E) : Expr Name → Option (Value E.Carrier)
  | .literal l => evalLiteral E l
  | .ident q => lookup E up scope q
  | .tuple es => do return .tuple (← evalExprs st scope es)
  | .select s => do scalarOf E (← runSelect st s)
  | .unary op e => do evalUnary E op (← evalExpr st scope e)
  | .binary op l r => do evalBinary E op (← evalExpr st scope l) (← evalExpr st scope r)
  | .comparison op l r => do
    return ofTruth E (← evalComparison E op (← evalExpr st scope l) (← evalExpr st scope r))
  | .inSet e set => do return ofTruth E (← evalIn E (← evalExpr st scope e) (← evalSet st scope set))
  | .between e l u => do
    return ofTruth E (← evalBetween E (← evalExpr st scope e) (← evalExpr st scope l) (← evalExpr st scope u))
  | .case none whens els => do
    match ← evalWhens st scope (truth E) whens with
    | some v => return v
    | none => evalElse st scope els
  | .case (some e) whens els => do
    let v ← evalExpr st scope e
    match ← evalWhens st scope (eq3 E v) whens with
    | some v => return v
    | none => evalElse st scope els

def evalExprs (st : Store E) (scope : Scope E) : List (Expr Name) → Option (List (Value E.Carrier))
  | [] => some []
  | e :: es => do return (← evalExpr st scope e) :: (← evalExprs st scope es)

/-- The value of the first branch whose guard passes the test, if there is one. -/
def evalWhens (st : Store E) (scope : Scope E) (test : Value E.Carrier → Option (Option Bool)) :
    List (When Name) → Option (Option (Value E.Carrier))
  | [] => some none
  | .mk guard body :: ws => do
    let b ← test (← evalExpr st scope guard)
    if b = some true then return some (← evalExpr st scope body) else evalWhens st scope test ws

def evalElse (st : Store E) (scope : Scope E) : Option (Expr Name) → Option (Value E.Carrier)
  | none => some .null
  | some e => evalExpr st scope e

/-- The values on the right of IN. -/
def evalSet (st : Store E) (scope : Scope E) : SetSpec Name → Option (List (Value E.Carrier))
  | .select s => do columnOf E (← runSelect st s)
  | .list es => evalExprs st scope es
  | .name q => do columnOf E (← st q)

/-- Whether a row passes a WHERE or HAVING clause. -/
def holds (st : Store E) (scope : Scope E) : Option (Expr Name) → Option Bool
  | none => some true
  | some e => do
    let b ← truth E (← evalExpr st scope e)
    return b = some true

/-- The table a SELECT statement produces. -/
def runSelect (st : Store E) : Select Name → Option (Table E)
  | .mk common expr orderBy limit => do
    let st ← runCommon st common
    let t ← runSetExpr st expr
    let keyed ← collectAll (fun row => do
      return (← evalOrder st ((t.columns.map fun c => (none, c)).zip row) orderBy, row)) t.rows
    let rows ← runLimit st limit (sortRows E keyed)
    return ⟨t.columns, rows⟩

/-- The common table expressions are defined one after the other. -/
def runCommon (st : Store E) : List (Cte Name) → Option (Store E)
  | [] => some st
  | .mk identifier names query :: cs => do
    let t ← renameColumns E (← runSelect st query) names
    runCommon (st.define E up identifier t) cs

/-- The sort key of a row. -/
def evalOrder (st : Store E) (scope : Scope E) :
    List (OrderTerm Name) → Option (List (OrderingDirection × Value E.Carrier))
  | [] => some []
  | .mk e _ d :: ts => do return (d, ← evalExpr st scope e) :: (← evalOrder st scope ts)

def runLimit (st : Store E) : Option (Limit Name) → List (Row E) → Option (List (Row E))
  | none, rows => some rows
  | some (.mk n offset), rows => do
    let n ← countOf E (← evalExpr st [] n)
    let k ← evalOffset st offset
    return (rows.drop k).take n

def evalOffset (st : Store E) : Option (Expr Name) → Option Nat
  | none => some 0
  | some e => do countOf E (← evalExpr st [] e)

def runSetExpr (st : Store E) : SetExpr Name → Option (Table E)
  | .values rows => do rectangle E (← evalRows st rows)
  | .query mode columns froms wher groupBy => do
    let src ← runFrom st froms
    let rows ← keep (fun row => holds st (src.columns.zip row) wher) src.rows
    let rows ← runGroupBy st src.columns groupBy rows
    let rows ← collectAll (fun row => evalColumns st (src.columns.zip row) columns) rows
    let rows := match mode with | .all => rows | .distinct => distinctRows E rows
    return ⟨resultNames up src.columns columns, rows⟩
  | .op op l r => do
    let lt ← runSetExpr st l
    let rt ← runSetExpr st r
    if lt.columns.length = rt.columns.length then
      return ⟨lt.columns, setOperation E op lt.rows rt.rows⟩
    else none

def evalRows (st : Store E) : List (List (Expr Name)) → Option (List (Row E))
  | [] => some []
  | es :: rows => do return (← evalExprs st [] es) :: (← evalRows st rows)

/-- The tables of a FROM clause, combined.  Without tables there is one row without columns. -/
def runFrom (st : Store E) : List (TableExpr Name) → Option (Source E)
  | [] => some ⟨[], [[]]⟩
  | t :: ts => do
    let l ← runTable st t
    let r ← runFrom st ts
    return ⟨l.columns ++ r.columns, product E l.rows r.rows⟩

def runTable (st : Store E) : TableExpr Name → Option (Source E)
  | .named q alias => do return (← st q).source E (boundName q alias)
  | .select s alias => do return (← runSelect st s).source E alias
  | .join l r op constraint => do
    let l ← runTable st l
    let r ← runTable st r
    let columns := l.columns ++ r.columns
    match op with
    | .cross =>
      let rows ← joinRows E .inner (fun row => matches_ st (columns.zip row) constraint) l r
      return ⟨columns, rows⟩
    | .join t =>
      match constraint with
      | .columns cs => joinUsing E up t cs l r
      | c =>
        let rows ← joinRows E t (fun row => matches_ st (columns.zip row) c) l r
        return ⟨columns, rows⟩
    | .natural _ => none

/-- Whether a pair of rows matches the condition of an ON clause. -/
def matches_ (st : Store E) (scope : Scope E) : JoinConstraint Name → Option Bool
  | .expr e => do
    let b ← truth E (← evalExpr st scope e)
    return b = some true
  | .columns _ => none

/-- One row for each group, those for which the HAVING clause holds. -/
def runGroupBy (st : Store E) (columns : List (Option Name × Name)) :
    Option (GroupBy Name) → List (Row E) → Option (List (Row E))
  | none, rows => some rows
  | some (.mk groupings having), rows => do
    let keyed ← collectAll (fun row => do
      return (← evalExprs st (columns.zip row) groupings, row)) rows
    keep (fun row => holds st (columns.zip row) having) ((firstOfEach E keyed).map (·.2))

/-- The result columns for one row. -/
def evalColumns (st : Store E) (scope : Scope E) : ResultColumns Name → Option (Row E)
  | .all => some (scope.map (·.2))
  | .list cs => evalColumnList st scope cs

def evalColumnList (st : Store E) (scope : Scope E) : List (ResultColumn Name) → Option (Row E)
  | [] => some []
  | .allFrom r :: cs => do
    let rest ← evalColumnList st scope cs
    return (scope.filter fun e => ofRelation up r e.1).map (·.2) ++ rest
  | .expr e _ :: cs => do
    let v ← evalExpr st scope e
    return v :: (← evalColumnList st scope cs)

end

end

end Verif.Sql
