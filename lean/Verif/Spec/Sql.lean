import Verif.Model.SqlTyping
/-!
# What the SQL names, maps and contexts are supposed to mean

The specifications of this file speak about names only through their upper-case form and about maps
only through the entries they contain.
-/

namespace Verif.Sql

/-- The same name up to case. -/
def SameName (up : Char → List Char) (a b : Name) : Prop := a.upper up = b.upper up

/-- Some entry of the map has this key, up to case, and this value. -/
def Entry {V : Type} (up : Char → List Char) (m : TMap Name V) (k : Name) (v : V) : Prop :=
  ∃ e ∈ m, SameName up e.1 k ∧ e.2 = v

/-- The keys of a map are increasing in the order of their upper-case forms, so no two are equal up to
case. -/
def Sorted {V : Type} (up : Char → List Char) (m : TMap Name V) : Prop :=
  m.Pairwise fun a b => a.1.upper up < b.1.upper up

/-- Every map in a context is a map. -/
structure SetContext.Ok (up : Char → List Char) (ctx : SetContext Name) : Prop where
  namespaces : Sorted up ctx.namespaces
  objects : ∀ e ∈ ctx.namespaces, Sorted up e.2
  tables : Sorted up ctx.tableExpression

/-- What a table name means: the common table expression of that name, else the table in the default
schema; with two parts, the table in the named schema, unless the first part is the name of a common
table expression. -/
inductive Resolves (up : Char → List Char) (ctx : SetContext Name) : List Name → RowType Name → Prop
  | common {t r} (h : Entry up ctx.tableExpression t r) : Resolves up ctx [t] r
  | default {t r objects} (hc : ∀ r', ¬ Entry up ctx.tableExpression t r')
      (hn : Entry up ctx.namespaces ctx.defaultNamespace objects) (h : Entry up objects t r) :
      Resolves up ctx [t] r
  | qualified {s t r objects} (hc : ∀ r', ¬ Entry up ctx.tableExpression s r')
      (hn : Entry up ctx.namespaces s objects) (h : Entry up objects t r) : Resolves up ctx [s, t] r

/-- The default schema exists. -/
def SetContext.HasDefault (up : Char → List Char) (ctx : SetContext Name) : Prop :=
  ∃ objects, Entry up ctx.namespaces ctx.defaultNamespace objects

/-! ## Catalogue -/

/-- The names that get a schema of their own: those that equal no earlier one up to case. -/
def FirstSpelling (up : Char → List Char) (calls : List Name) (n : Name) : Prop :=
  ∃ i : Nat, calls[i]? = some n ∧ ∀ j : Nat, j < i → ∀ m, calls[j]? = some m → ¬ SameName up m n

/-! ## Statements -/

/-- No two columns have the same name up to case. -/
def DistinctColumns (up : Char → List Char) (as : List (Attribute Name)) : Prop :=
  as.Pairwise fun a b => ¬ SameName up a.name b.name

/-- No two names are the same up to case. -/
def DistinctNames (up : Char → List Char) (ns : List Name) : Prop :=
  ns.Pairwise fun a b => ¬ SameName up a b

/-- A value of type `typ`, NULL only if `isNull`, may be stored in the column of this name: the column
exists, has this type, and admits NULL if the value does. -/
def Storable (up : Char → List Char) (columns : List (Attribute Name)) (name : Name) (typ : DataType)
    (isNull : Bool) : Prop :=
  ∃ a ∈ columns, SameName up a.name name ∧ a.typ = typ ∧ (isNull = true → a.isNull = true)

/-- An absent predicate, or one of logical type. -/
def LogicalOrAbsent (up : Char → List Char) (sc : ScalarContext Name) (w : Option (Expr Name)) : Prop :=
  ∀ e, w = some e → ∃ n, inferExpr (nameOps up) sc e = .ok (.scalar .logical n)

/-- What an identifier means inside a statement about the single table `table`: the column of that name,
if there is just one and the table is not itself called so; or `table.column`. -/
inductive ScopeOf (up : Char → List Char) (table : Name) (columns : List (Attribute Name)) :
    List Name → Attribute Name → Prop
  | column {c a} (ht : ¬ SameName up c table) (ha : a ∈ columns) (hc : SameName up a.name c) :
      ScopeOf up table columns [c] a
  | qualified {t c a} (ht : SameName up t table) (ha : a ∈ columns) (hc : SameName up a.name c) :
      ScopeOf up table columns [t, c] a

/-- The scope of the expressions of a statement about the table with this name and these columns. -/
def IsScope (up : Char → List Char) (ctx : SetContext Name) (table : Name)
    (columns : List (Attribute Name)) (sc : ScalarContext Name) : Prop :=
  sc.setContext = ctx ∧ ∀ q t, sc.inferType (nameOps up) q = .ok t ↔
    ∃ a, ScopeOf up table columns q a ∧ t = .scalar a.typ a.isNull

/-- A safe UPDATE. -/
structure SafeUpdate (up : Char → List Char) (ctx : SetContext Name) (sc : ScalarContext Name)
    (columns : List (Attribute Name)) (s : UpdateStatement Name) : Prop where
  /-- no column is assigned twice -/
  distinct : DistinctNames up (s.assignments.flatMap (·.columns))
  /-- each assigned expression has a type that each of its columns can store -/
  assigned : ∀ a ∈ s.assignments, ∃ typ isNull,
    inferExpr (nameOps up) sc a.expr = .ok (.scalar typ isNull) ∧
    ∀ c ∈ a.columns, Storable up columns c typ isNull
  /-- the rows are chosen by a logical expression -/
  wher : LogicalOrAbsent up sc s.wher

/-- The columns an INSERT gives values to: those listed, or else the names of the columns of the source. -/
def insertTargets (s : InsertStatement Name) (values : List (Attribute Name)) : List Name :=
  match s.columns with
  | some cs => cs
  | none => values.map (·.name)

/-- A safe INSERT of values of the given types. -/
structure SafeInsert (up : Char → List Char) (columns values : List (Attribute Name))
    (targets : List Name) : Prop where
  /-- one value for each target -/
  count : targets.length = values.length
  /-- no column is given twice -/
  distinct : DistinctNames up targets
  /-- each value can be stored in its column -/
  stored : ∀ e ∈ values.zip targets, Storable up columns e.2 e.1.typ e.1.isNull
  /-- each column that does not admit NULL is given a value -/
  complete : ∀ a ∈ columns, a.isNull = false → ∃ t ∈ targets, SameName up a.name t

/-! ## Result columns -/

/-- Upper-casing leaves the decimal digits alone (as `char::to_uppercase` does). -/
def FixesDigits (up : Char → List Char) : Prop := ∀ c : Char, c.isDigit = true → up c = [c]

/-- How many of the names are this one, up to case. -/
def times (up : Char → List Char) (names : List Name) (n : Name) : Nat :=
  (names.map (Name.upper up)).count (n.upper up)

/-- One of the names is another one followed by a number, and the other one occurs more often than the number says:
`a1` beside two `a`, `b12` beside thirteen `b`. -/
def Clash (up : Char → List Char) (names : List Name) : Prop :=
  ∃ n ∈ names, ∃ m ∈ names, ∃ k, 1 ≤ k ∧ k < times up names n ∧ m.upper up = n.upper up ++ Nat.toDigits 10 k

/-- Among columns with the name asked for and the name given, the last one first: how often the name was asked for since
a column was given it; none if no column was. -/
def since (up : Char → List Char) : List (Name × Name) → Name → Option Nat
  | [], _ => none
  | (asked, given) :: before, n =>
    if given.upper up = n.upper up then some 0
    else (since up before n).map fun k => if asked.upper up = n.upper up then k + 1 else k

/-- The name given for a name that is asked for: the name, if no column has it; else the name with the number one more
than the requests of it since a column was given it. -/
def nameGiven (up : Char → List Char) (before : List (Name × Name)) (n : Name) : Name :=
  match since up before n with
  | none => n
  | some k => ⟨n.string ++ Nat.toDigits 10 (k + 1)⟩

/-- The columns before the one at this place, the last one first, with the names asked for and given. -/
def columnsBefore (asked given : List Name) (i : Nat) : List (Name × Name) := ((asked.zip given).take i).reverse

/-- The names asked for by a column list, before they are made different: the alias or `col` for an
expression, the columns of the relation for `relation.*`. -/
def requestedNames (up : Char → List Char) (sc : ScalarContext Name) :
    List (ResultColumn Name) → List Name
  | [] => []
  | .allFrom r :: cs =>
    (match sc.symbols.get (nameOps up) r with
    | some (.relation fields) => fields.map (·.1)
    | _ => []) ++ requestedNames up sc cs
  | .expr _ rename :: cs => rename.getD (Name.ofString "col") :: requestedNames up sc cs

/-! ## Rows of expressions -/

/-- The type of column `i` of a list of rows: in every row there is an expression of type `typ` at that
place, and the column admits NULL exactly if one of these expressions may be NULL. -/
def ColumnType (up : Char → List Char) (sc : ScalarContext Name) (rows : List (List (Expr Name)))
    (i : Nat) (typ : DataType) (isNull : Bool) : Prop :=
  (∀ row ∈ rows, ∃ e n, row[i]? = some e ∧ inferExpr (nameOps up) sc e = .ok (.scalar typ n) ∧
    (n = true → isNull = true)) ∧
  (isNull = true → ∃ row ∈ rows, ∃ e, row[i]? = some e ∧
    inferExpr (nameOps up) sc e = .ok (.scalar typ true))

/-- The columns of VALUES: named by position, typed by `ColumnType`. -/
def ValuesColumns (up : Char → List Char) (sc : ScalarContext Name) (rows : List (List (Expr Name)))
    (as : List (Attribute Name)) : Prop :=
  ∀ (i : Nat) (a : Attribute Name), as[i]? = some a →
    a.name = ⟨"_col".toList ++ Nat.toDigits 10 i⟩ ∧ ColumnType up sc rows i a.typ a.isNull

end Verif.Sql
