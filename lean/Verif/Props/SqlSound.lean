import Verif.Proof.SqlSound
import Verif.Props.SqlStatements
import Verif.Props.SqlExpr

/-! # C62, C77: inferred types and the values of expressions and queries

`Spec/SqlEval` says what expressions and queries produce, for an arbitrary engine and arbitrary tables.
`HasType E true` is membership in a type including its nullability, `HasType E false` membership up to
NULL. -/

namespace Verif.Props

open Verif Sql

/-! ## A small engine and a table -/

/-- Numbers are natural numbers written in decimal digits, texts lists of characters; of the other types
there is one value. -/
def smallEngine : Engine where
  Carrier := fun t => match t with
    | .numeric => Nat
    | .varchar => List Char
    | .logical => Bool
    | _ => Unit
  toBool := fun b => b
  ofBool := fun b => b
  varchar := fun s => s
  numeric := fun s => if s.all Char.isDigit then some (s.foldl (fun n c => 10 * n + (c.toNat - 48)) 0) else none
  date := fun _ => some ()
  time := fun _ => some ()
  timestamp := fun _ => some ()
  currentDate := ()
  currentTime := ()
  currentTimestamp := ()
  negate := fun _ => (0 : Nat)
  arithmetic := fun op (x y : Nat) => match op with
    | .add => some (x + y)
    | .subtract => some (x - y)
    | .multiply => some (x * y)
    | .divide => if y = 0 then none else some (x / y)
    | _ => none
  concat := fun (x y : List Char) => x ++ y
  like := fun (x y : List Char) => x == y
  same := fun t => match t with
    | .numeric => fun (x y : Nat) => x == y
    | .varchar => fun (x y : List Char) => x == y
    | .logical => fun (x y : Bool) => x == y
    | .generic | .date | .time | .timestamp | .geometry => fun _ _ => true
  less := fun t => match t with
    | .numeric => fun (x y : Nat) => decide (x < y)
    | .varchar => fun (x y : List Char) => decide (x < y)
    | .generic | .logical | .date | .time | .timestamp | .geometry => fun _ _ => false
  count := fun (n : Nat) => some n

/-- A number. -/
def smallNumber (n : Nat) : Value smallEngine.Carrier := .scalar .numeric n
/-- A text. -/
def smallText (s : String) : Value smallEngine.Carrier := .scalar .varchar s.toList
/-- A truth value. -/
def smallBool (b : Bool) : Value smallEngine.Carrier := .scalar .logical b

/-- Two users: `(1, 'x', TRUE)` and `(2, NULL, NULL)`. -/
def usersData : Table smallEngine :=
  ⟨[Name.ofString "id", Name.ofString "name", Name.ofString "active"],
    [[smallNumber 1, smallText "x", smallBool true], [smallNumber 2, .null, .null]]⟩

/-- The tables of the sample catalogue that have rows: `users`. -/
def sampleStore : Store smallEngine := fun q =>
  if q = [Name.ofString "users"] then some usersData else none

theorem usersData_has (strict : Bool) : usersData.Has smallEngine strict usersRow.attributes := by
  refine ⟨rfl, fun row hrow => ?_⟩
  simp only [usersData, List.mem_cons, List.not_mem_nil, or_false] at hrow
  rcases hrow with rfl | rfl <;>
    simp [RowHas, usersRow, HasTypes, HasType, smallNumber, smallText, smallBool]

theorem sampleStore_stored (strict : Bool) : Stored smallEngine strict asciiUp sampleCtx sampleStore := by
  intro q typ t hr hs
  unfold sampleStore at hs
  split at hs
  · rename_i hq
    subst hq
    cases hs
    cases users_resolves typ hr
    exact ⟨rfl, usersData_has strict⟩
  · cases hs

/-- `FROM users`. -/
def fromUsers : List (TableExpr Name) := [.named [Name.ofString "users"] none]

/-- The scope of an expression over `users`. -/
def usersScope : ScalarContext Name :=
  match inferFrom (nameOps asciiUp) (ScalarContext.new sampleCtx) fromUsers with
  | .ok (sc, _) => sc
  | .error _ => ScalarContext.new sampleCtx

/-- The rows of `users`. -/
def usersSource : Source smallEngine := usersData.source smallEngine (some (Name.ofString "users"))

theorem usersScope_ok : inferFrom (nameOps asciiUp) (ScalarContext.new sampleCtx) fromUsers =
    .ok (usersScope, usersRow.attributes) := rfl

theorem usersSource_ok : runFrom smallEngine asciiUp sampleStore fromUsers = some usersSource := by
  simp only [fromUsers, runFrom, runTable]
  rfl

/-- The second user, whose name and activity are NULL. -/
def secondUser : Scope smallEngine := usersSource.columns.zip [smallNumber 2, .null, .null]

/-- The first user. -/
def firstUser : Scope smallEngine :=
  usersSource.columns.zip [smallNumber 1, smallText "x", smallBool true]

/-! ## C62 -/

/-- C62, refuted, for rows of a table that match its declared types (`sampleStore_stored`,
`usersScope_ok`):
* `name IS NULL` has the type VARCHAR of its operand, and the value FALSE;
* `name IN ('x')` is declared NOT NULL, and is NULL for the second user;
* `(name, 1) = ('x', 1)` is declared NOT NULL, and is NULL for the second user;
* `(SELECT id FROM users WHERE id = 3)` is declared NOT NULL, and is NULL. -/
theorem C62_sound_refuted :
    let name : Expr Name := .ident [Name.ofString "name"]
    let isNull : Expr Name := .unary .isNull name
    let isIn : Expr Name := .inSet name (.list [sqlText])
    let tuples : Expr Name := .comparison .equal (.tuple [name, sqlOne]) (.tuple [sqlText, sqlOne])
    let subquery : Expr Name := .select (.mk [] (.query .all (.list [.expr (.ident [Name.ofString "id"]) none])
      fromUsers (some (.comparison .equal (.ident [Name.ofString "id"]) (.literal (.numeric "3".toList)))) none)
      [] none)
    (inferExpr (nameOps asciiUp) usersScope isNull = .ok (.scalar .varchar true) ∧
      evalExpr smallEngine asciiUp sampleStore firstUser isNull = some (smallBool false) ∧
      ¬ HasType smallEngine false (smallBool false) (.scalar .varchar true)) ∧
    (inferExpr (nameOps asciiUp) usersScope isIn = .ok (.scalar .logical false) ∧
      evalExpr smallEngine asciiUp sampleStore secondUser isIn = some .null) ∧
    (inferExpr (nameOps asciiUp) usersScope tuples = .ok (.scalar .logical false) ∧
      evalExpr smallEngine asciiUp sampleStore secondUser tuples = some .null) ∧
    (inferExpr (nameOps asciiUp) usersScope subquery = .ok (.scalar .numeric false) ∧
      evalExpr smallEngine asciiUp sampleStore firstUser subquery = some .null) ∧
    ∀ t, ¬ HasType smallEngine true .null (.scalar t false) := by
  refine ⟨⟨rfl, rfl, ?_⟩, ⟨rfl, rfl⟩, ⟨rfl, rfl⟩, ⟨rfl, rfl⟩, ?_⟩
  · simp [HasType, smallBool]
  · intro t
    simp [HasType]

/-- C62, refuted: whenever `IS NULL` has a value, it is a value of the inferred type only if the operand is LOGICAL. -/
theorem C62_is_null_refuted (E : Engine) (strict : Bool) (up : Char → List Char) (sc : ScalarContext Name) (st : Store E)
    (scope : Scope E) (e : Expr Name) (t : ScalarType) (v : Value E.Carrier)
    (ht : inferExpr (nameOps up) sc (.unary .isNull e) = .ok t)
    (hv : evalExpr E up st scope (.unary .isNull e) = some v) :
    inferExpr (nameOps up) sc e = .ok t ∧ (HasType E strict v t ↔ ∃ n, t = .scalar .logical n) := by
  unfold inferExpr at ht
  obtain ⟨r, hr, ht⟩ := ok_bind ht
  unfold evalExpr at hv
  obtain ⟨w, _, hv⟩ := some_bind hv
  have ht' : t = r := by
    unfold unaryType at ht
    split at ht <;> simp only [reduceCtorEq] at * <;> cases ht
    rfl
  subst ht'
  refine ⟨hr, fun h => ?_, fun ⟨n, hn⟩ => unary_sound (fun _ => ⟨n, hn⟩) ht (fun h => absurd rfl h) hv⟩
  unfold evalUnary at hv
  split at hv <;> simp only [reduceCtorEq] at * <;> cases hv <;>
    (cases t <;> simp [ofTruth, HasType] at h)
  all_goals
    subst h
    exact ⟨_, rfl⟩

/-- Both are there: `name IS NULL` of type VARCHAR and `active IS NULL` of type LOGICAL. -/
example :
    inferExpr (nameOps asciiUp) usersScope (.unary .isNull (.ident [Name.ofString "active"])) =
      .ok (.scalar .logical true) ∧
    evalExpr smallEngine asciiUp sampleStore secondUser (.unary .isNull (.ident [Name.ofString "active"])) =
      some (smallBool true) ∧
    inferExpr (nameOps asciiUp) usersScope (.unary .isNull (.ident [Name.ofString "name"])) =
      .ok (.scalar .varchar true) ∧
    evalExpr smallEngine asciiUp sampleStore secondUser (.unary .isNull (.ident [Name.ofString "name"])) =
      some (smallBool true) := ⟨rfl, rfl, rfl, rfl⟩

/-- C62, partial: in every row that a FROM clause ranges over, the value of an expression has the type
inferred for it, for every engine and all tables that match the catalogue.  With `strict = true` the type
includes nullability.  Missing from the full statement are the expressions that are not `Clear strict`:
for these `C62_sound_refuted` has counterexamples. -/
theorem C62_expression_partial (E : Engine) (strict : Bool) (up : Char → List Char) (ctx : SetContext Name)
    (hok : ctx.Ok up) (st : Store E) (hst : Stored E strict up ctx st)
    (froms : List (TableExpr Name)) (hf : TableExpr.AllClear strict (Unlisted up ctx) froms) (sc : ScalarContext Name)
    (as : List (Attribute Name)) (src : Source E)
    (hsc : inferFrom (nameOps up) (ScalarContext.new ctx) froms = .ok (sc, as))
    (hsrc : runFrom E up st froms = some src) (row : Row E) (hrow : row ∈ src.rows)
    (e : Expr Name) (he : e.Clear strict (Unlisted up ctx)) (t : ScalarType) (v : Value E.Carrier)
    (ht : inferExpr (nameOps up) sc e = .ok t)
    (hv : evalExpr E up st (src.columns.zip row) e = some v) : HasType E strict v t := by
  have hst' : Served E strict up ctx st := fun q typ t h => hst q typ t ((resolve_ok_iff hok q typ).1 h)
  obtain ⟨new, hn⟩ := from_sound hok hst' froms (before := []) hf rfl (knows_new ctx []) hsc hsrc
  exact expr_sound hok hst' e hn.context (hn.covers hrow) he ht hv

/-- `CASE WHEN active THEN id + 1 ELSE id END`, which is NOT NULL, for both users. -/
example : ∀ row ∈ usersSource.rows, ∀ v,
    evalExpr smallEngine asciiUp sampleStore (usersSource.columns.zip row)
      (.case none [.mk (.ident [Name.ofString "active"]) (.binary .add (.ident [Name.ofString "id"]) sqlOne)]
        (some (.ident [Name.ofString "users", Name.ofString "ID"]))) = some v →
    HasType smallEngine true v (.scalar .numeric false) := by
  intro row hrow v hv
  refine C62_expression_partial smallEngine true asciiUp sampleCtx sampleCtx_ok sampleStore
    (sampleStore_stored true) fromUsers ?_ _ _ _ usersScope_ok usersSource_ok row hrow _ ?_ _ v rfl hv
  · simp [fromUsers, TableExpr.AllClear, TableExpr.Clear]
  · simp [Expr.Clear, When.AllClear, Expr.OptionClear, sqlOne]

/-- `(name = 'x') IS NULL`, for both users. -/
example : ∀ row ∈ usersSource.rows, ∀ v,
    evalExpr smallEngine asciiUp sampleStore (usersSource.columns.zip row)
      (.unary .isNull (.comparison .equal (.ident [Name.ofString "name"]) sqlText)) = some v →
    HasType smallEngine true v (.scalar .logical true) := by
  intro row hrow v hv
  refine C62_expression_partial smallEngine true asciiUp sampleCtx sampleCtx_ok sampleStore
    (sampleStore_stored true) fromUsers ?_ _ _ _ usersScope_ok usersSource_ok row hrow _ ?_ _ v rfl hv
  · simp [fromUsers, TableExpr.AllClear, TableExpr.Clear]
  · unfold Expr.Clear
    exact ⟨fun _ => .comparison _ _ _, fun h => absurd rfl h⟩

/-- The values for the two users. -/
example :
    let e : Expr Name := .case none
      [.mk (.ident [Name.ofString "active"]) (.binary .add (.ident [Name.ofString "id"]) sqlOne)]
      (some (.ident [Name.ofString "users", Name.ofString "ID"]))
    evalExpr smallEngine asciiUp sampleStore firstUser e = some (smallNumber 2) ∧
    evalExpr smallEngine asciiUp sampleStore secondUser e = some (smallNumber 2) := ⟨rfl, rfl⟩

/-! ## C77 -/

/-- C77, refuted: `SELECT l.id, r.id FROM users AS l LEFT JOIN users AS r ON l.id = 3` is declared
with two NOT NULL columns, and its second column is NULL. -/
theorem C77_outer_join_refuted :
    let side (n : String) : TableExpr Name := .named [Name.ofString "users"] (some (Name.ofString n))
    let id (n : String) : Expr Name := .ident [Name.ofString n, Name.ofString "id"]
    let query : Select Name := .mk [] (.query .all (.list [.expr (id "l") none, .expr (id "r") none])
      [.join (side "l") (side "r") (.join .left)
        (.expr (.comparison .equal (id "l") (.literal (.numeric "3".toList))))] none none) [] none
    inferSelect (nameOps asciiUp) sampleCtx query =
      .ok (.plain [⟨Name.ofString "col", .numeric, false⟩, ⟨Name.ofString "col1", .numeric, false⟩]) ∧
    (runSelect smallEngine asciiUp sampleStore query).map (·.rows) =
      some [[smallNumber 1, .null], [smallNumber 2, .null]] := by
  refine ⟨rfl, ?_⟩
  rfl

/-- C77, refuted: `SELECT * FROM users AS a JOIN users AS b USING (id)` is declared with the six columns of
both sides, and has five: `id` once and first. -/
theorem C77_using_refuted :
    let side (n : String) : TableExpr Name := .named [Name.ofString "users"] (some (Name.ofString n))
    let query : Select Name := .mk [] (.query .all .all
      [.join (side "a") (side "b") (.join .inner) (.columns [Name.ofString "id"])] none none) [] none
    (∃ r, inferSelect (nameOps asciiUp) sampleCtx query = .ok r ∧
      r.attributes.map (·.typ) = [.numeric, .varchar, .logical, .numeric, .varchar, .logical]) ∧
    (runSelect smallEngine asciiUp sampleStore query).map (fun t => (t.columns, t.rows)) =
      some (["id", "name", "active", "name", "active"].map Name.ofString,
        [[smallNumber 1, smallText "x", smallBool true, smallText "x", smallBool true],
         [smallNumber 2, .null, .null, .null, .null]]) := by
  refine ⟨⟨_, rfl, rfl⟩, ?_⟩
  rfl

/-- C77, refuted: the columns of `SELECT users.* FROM users` are declared in the order of their names, the
values come in the order of the table. -/
theorem C77_star_refuted :
    let query : Select Name :=
      .mk [] (.query .all (.list [.allFrom (Name.ofString "users")]) fromUsers none none) [] none
    inferSelect (nameOps asciiUp) sampleCtx query =
      .ok (.plain [⟨Name.ofString "active", .logical, true⟩, ⟨Name.ofString "id", .numeric, false⟩,
        ⟨Name.ofString "name", .varchar, true⟩]) ∧
    (runSelect smallEngine asciiUp sampleStore query).map (·.rows) = some usersData.rows ∧
    ∀ row ∈ usersData.rows, ¬ RowHas smallEngine false row
      [⟨Name.ofString "active", .logical, true⟩, ⟨Name.ofString "id", .numeric, false⟩,
        ⟨Name.ofString "name", .varchar, true⟩] := by
  refine ⟨rfl, ?_, ?_⟩
  · rfl
  · intro row hrow
    simp only [usersData, List.mem_cons, List.not_mem_nil, or_false] at hrow
    rcases hrow with rfl | rfl <;>
      simp [RowHas, HasTypes, HasType, smallNumber, smallText, smallBool]

/-- C77, refuted: in `WITH users AS (VALUES ('x')) SELECT * FROM users` the type is that of the table, the
rows are those of the common table expression. -/
theorem C77_with_refuted :
    let query : Select Name := .mk [.mk (Name.ofString "users") none (.mk [] (.values [[sqlText]]) [] none)]
      (.query .all .all fromUsers none none) [] none
    inferSelect (nameOps asciiUp) sampleCtx query = .ok (.plain usersRow.attributes) ∧
    (runSelect smallEngine asciiUp sampleStore query).map (·.rows) = some [[smallText "x"]] ∧
    ¬ RowHas smallEngine false [smallText "x"] usersRow.attributes := by
  refine ⟨rfl, rfl, ?_⟩
  simp [RowHas, usersRow, HasTypes, HasType, smallText]

/-- C77, partial: every row a query returns has, column by column, a value of the inferred type, for every
engine and all tables that match the catalogue.  Missing are the queries that are not `Clear strict`: those
where WITH hides a table of the catalogue, `relation.*`, joins with USING, NATURAL joins (the grammar has these only
together with ON or USING, which is not given a meaning here), or expressions in the result whose type C62
refutes; with `strict = true` also outer joins. -/
theorem C77_query_partial (E : Engine) (strict : Bool) (up : Char → List Char) (ctx : SetContext Name)
    (hok : ctx.Ok up) (st : Store E) (hst : Stored E strict up ctx st)
    (s : Select Name) (hs : s.Clear strict (Unlisted up ctx)) (r : RowType Name) (t : Table E)
    (hr : inferSelect (nameOps up) ctx s = .ok r) (ht : runSelect E up st s = some t) :
    t.columns.length = r.attributes.length ∧ ∀ row ∈ t.rows, RowHas E strict row r.attributes :=
  select_sound hok (fun q typ t h => hst q typ t ((resolve_ok_iff hok q typ).1 h)) s hs hr ht

/-- `WITH t AS (VALUES (1)) SELECT DISTINCT a.name, 1 FROM users AS a JOIN users AS b ON a.id = b.id WHERE b.active
UNION VALUES ('x', 2) ORDER BY NULL`. -/
def unionSelect : Select Name :=
  .mk [.mk (Name.ofString "t") none (.mk [] (.values [[sqlOne]]) [] none)] (.op .union
    (.query .distinct (.list [.expr (.ident [Name.ofString "a", Name.ofString "name"]) none, .expr sqlOne none])
      [.join (.named [Name.ofString "users"] (some (Name.ofString "a")))
        (.named [Name.ofString "users"] (some (Name.ofString "b"))) (.join .inner)
        (.expr (.comparison .equal (.ident [Name.ofString "a", Name.ofString "id"])
          (.ident [Name.ofString "b", Name.ofString "id"])))]
      (some (.ident [Name.ofString "b", Name.ofString "active"])) none)
    (.values [[sqlText, .literal (.numeric "2".toList)]])) [.mk (.literal .null) none .descending] none

theorem unionSelect_clear : unionSelect.Clear true (Unlisted asciiUp sampleCtx) := by
  have hfree : Unlisted asciiUp sampleCtx (Name.ofString "t") := by
    intro typ h
    have := (resolve_ok_iff sampleCtx_ok _ _).2 h
    cases this
  simp [unionSelect, hfree, Cte.identifier, Select.Clear, SetExpr.Clear, ResultColumns.Clear, ResultColumn.AllClear, Expr.Clear,
    TableExpr.AllClear, TableExpr.Clear, JoinOperator.Clear, JoinConstraint.IsOn, Expr.RowsClear, Expr.AllClear, sqlOne, sqlText]

example : inferSelect (nameOps asciiUp) sampleCtx unionSelect =
      .ok (.plain [⟨Name.ofString "col", .varchar, true⟩, ⟨Name.ofString "col1", .numeric, false⟩]) ∧
    (runSelect smallEngine asciiUp sampleStore unionSelect).map (·.rows) =
      some [[smallText "x", smallNumber 1], [smallText "x", smallNumber 2]] := by
  refine ⟨rfl, ?_⟩
  rfl

example (t : Table smallEngine) (ht : runSelect smallEngine asciiUp sampleStore unionSelect = some t) :
    ∀ row ∈ t.rows, RowHas smallEngine true row
      [⟨Name.ofString "col", .varchar, true⟩, ⟨Name.ofString "col1", .numeric, false⟩] :=
  (C77_query_partial smallEngine true asciiUp sampleCtx sampleCtx_ok sampleStore (sampleStore_stored true)
    unionSelect unionSelect_clear (.plain [⟨Name.ofString "col", .varchar, true⟩,
      ⟨Name.ofString "col1", .numeric, false⟩]) t rfl ht).2

/-! ## C102 -/

/-- C102. An attribute is assignable to another exactly if every value of the first is a value of the second:
for every engine which has a value of every type. -/
theorem C102_assignable {N : Type} (E : Engine) (hE : ∀ t, Nonempty (E.Carrier t)) (a b : Attribute N) :
    a.isAssignableTo b = true ↔
      ∀ v : Value E.Carrier, HasType E true v a.scalar → HasType E true v b.scalar := by
  obtain ⟨_, t, n⟩ := a
  obtain ⟨_, t', n'⟩ := b
  simp only [Attribute.isAssignableTo, Attribute.scalar]
  constructor
  · intro h v hv
    simp only [Bool.and_eq_true, decide_eq_true_eq, Bool.or_eq_true, Bool.not_eq_true'] at h
    obtain ⟨rfl, h⟩ := h
    cases v with
    | null => rcases h with h | h <;> simp_all [HasType]
    | scalar s x => simpa [HasType] using hv
    | tuple vs => simp [HasType] at hv
  · intro h
    obtain ⟨x⟩ := hE t
    have h1 : t = t' := by simpa [HasType] using h (.scalar t x) (by simp [HasType])
    subst h1
    cases n with
    | false => simp
    | true =>
      have h2 : n' = true := by simpa [HasType] using h .null (by simp [HasType])
      simp [h2]

/-- The small engine has values of all types. -/
example : (∀ t, Nonempty (smallEngine.Carrier t)) ∧
    (⟨"a".toList, .numeric, false⟩ : Attribute (List Char)).isAssignableTo ⟨"b".toList, .numeric, true⟩ = true ∧
    (⟨"a".toList, .numeric, true⟩ : Attribute (List Char)).isAssignableTo ⟨"b".toList, .numeric, false⟩ = false := by
  refine ⟨fun t => ?_, rfl, rfl⟩
  cases t
  case numeric => exact ⟨(0 : Nat)⟩
  case varchar => exact ⟨([] : List Char)⟩
  case logical => exact ⟨true⟩
  all_goals exact ⟨()⟩

/-! ## C97: the columns of the answer to DESCRIBE -/

/-- The columns of `RowSet::meta_data` have the names of the parts of a column and only the name is a key; the rows of
these columns are a string, two numbers and a string, without NULL. -/
theorem C97_meta_data (up : Char → List Char) (E : Engine) (row : Row E) :
    ((RowSet.metaData (nameOps up)).columns.map fun c => (c.name, c.primaryKey)) =
      [(Name.ofString "name", true), (Name.ofString "not_null", false), (Name.ofString "primary_key", false),
        (Name.ofString "datatype", false)] ∧
    (RowHas E true row ((RowSet.metaData (nameOps up)).columns.map fun c => ⟨c.name, c.dataType, !c.notNull⟩) ↔
      ∃ n nn pk d, row = [.scalar .varchar n, .scalar .numeric nn, .scalar .numeric pk, .scalar .varchar d]) := by
  refine ⟨rfl, ?_⟩
  constructor
  · intro h
    match row, h with
    | [a, b, c, d], h =>
      obtain ⟨h1, h2, h3, h4, _⟩ := h
      simp only [Bool.not_true] at h1 h2 h3 h4
      cases a <;> simp [HasType] at h1
      cases b <;> simp [HasType] at h2
      cases c <;> simp [HasType] at h3
      cases d <;> simp [HasType] at h4
      subst h1 h2 h3 h4
      exact ⟨_, _, _, _, rfl⟩
  · rintro ⟨n, nn, pk, d, rfl⟩
    simp [RowHas, HasTypes, HasType, RowSet.metaData]

/-- The description of a column `id NUMERIC NOT NULL PRIMARY KEY`. -/
example : RowHas smallEngine true [smallText "id", smallNumber 1, smallNumber 1, smallText "NUMERIC"]
    ((RowSet.metaData (nameOps asciiUp)).columns.map fun c => ⟨c.name, c.dataType, !c.notNull⟩) :=
  (C97_meta_data asciiUp smallEngine _).2.2 ⟨_, _, _, _, rfl⟩

/-- The text in the column `datatype` tells the types apart, and the answer without columns has no rows but the empty
one. -/
theorem C97_type_names (a b : DataType) (E : Engine) (row : Row E) :
    (a.display = b.display ↔ a = b) ∧
    (RowHas E true row ((RowSet.empty (N := Name)).columns.map fun c => ⟨c.name, c.dataType, !c.notNull⟩) ↔ row = []) := by
  refine ⟨⟨fun h => ?_, fun h => h ▸ rfl⟩, ?_⟩
  · cases a <;> cases b <;> first | rfl | (exact absurd h (by decide))
  · cases row with
    | nil => simp [RowHas, HasTypes, RowSet.empty]
    | cons v vs => simp [RowHas, HasTypes, RowSet.empty]

/-- Types with similar names. -/
example : DataType.time.display ≠ DataType.timestamp.display :=
  fun h => nomatch (C97_type_names .time .timestamp smallEngine []).1.1 h

end Verif.Props
