import Verif.Proof.SqlRun
import Verif.Proof.SqlQueries
import Verif.Proof.SqlUnify
import Verif.Props.SqlSound

/-! # C78 to C86: statements applied to tables, and what names in a query mean -/

namespace Verif.Props

open Verif Sql

/-! ## C78 -/

/-- C78, refuted: `UPDATE users SET id = (SELECT id FROM users WHERE id = 3)` is accepted and stores NULL in
a column that must not be NULL. -/
theorem C78_update_refuted :
    let statement : UpdateStatement Name := ⟨[Name.ofString "users"], [⟨[Name.ofString "id"],
      .select (.mk [] (.query .all (.list [.expr (.ident [Name.ofString "id"]) none]) fromUsers
        (some (.comparison .equal (.ident [Name.ofString "id"]) (.literal (.numeric "3".toList)))) none)
        [] none)⟩], none⟩
    statement.validateType (nameOps asciiUp) sampleCtx = .ok () ∧
    (runUpdate smallEngine asciiUp sampleStore statement).map (·.rows) =
      some [[.null, smallText "x", smallBool true], [.null, .null, .null]] := ⟨rfl, rfl⟩

/-- C78, refuted: the columns of an INSERT without a column list are checked by name.
`INSERT INTO users SELECT active AS active, name AS name, id AS id FROM users` is accepted; its values, taken
in the order of the columns, have other types than the columns. -/
theorem C78_insert_refuted :
    let column (n : String) : ResultColumn Name := .expr (.ident [Name.ofString n]) (some (Name.ofString n))
    let statement : InsertStatement Name := ⟨[Name.ofString "users"], none,
      .query .all (.list [column "active", column "name", column "id"]) fromUsers none none⟩
    statement.validateType (nameOps asciiUp) sampleCtx = .ok () ∧
    (runInsert smallEngine asciiUp sampleStore statement).map (·.rows.drop 2) =
      some [[smallBool true, smallText "x", smallNumber 1], [.null, .null, smallNumber 2]] ∧
    ¬ RowHas smallEngine false [smallBool true, smallText "x", smallNumber 1] usersRow.attributes := by
  refine ⟨rfl, rfl, ?_⟩
  simp [RowHas, usersRow, HasTypes, HasType, smallText, smallNumber, smallBool]

/-- C78, partial: an accepted INSERT leaves every row of the table in the types of its columns, if it has a
column list or the columns of its source have the names of the columns of the table in their order.  Missing:
INSERT without a column list in another order, and sources that are not `Clear strict`. -/
theorem C78_insert_partial (E : Engine) (strict : Bool) (up : Char → List Char) (ctx : SetContext Name)
    (hok : ctx.Ok up) (st : Store E) (hst : Stored E strict up ctx st) (s : InsertStatement Name)
    (typ : RowType Name) (htyp : Resolves up ctx s.tableName typ) (hd : DistinctColumns up typ.attributes)
    (hcs : s.columns = none → ∀ values, inferSetExpr (nameOps up) ctx s.source = .ok values →
      ∀ e ∈ values.attributes.zip typ.attributes, SameName up e.1.name e.2.name)
    (hclear : s.source.Clear strict (Unlisted up ctx))
    (h : s.validateType (nameOps up) ctx = .ok ()) (t : Table E) (ht : runInsert E up st s = some t) :
    t.Has E strict typ.attributes :=
  insert_sound hok hst htyp hd hcs hclear h ht

theorem users_resolve : Resolves asciiUp sampleCtx [Name.ofString "users"] usersRow :=
  (C61_resolve _ _ sampleCtx_ok _ _).1 rfl

/-- `INSERT INTO users (Name, ID) VALUES ('x', 1)`: the new row is `(1, 'x', NULL)`. -/
example : (runInsert smallEngine asciiUp sampleStore sampleInsert).map (·.rows.drop 2) =
    some [[smallNumber 1, smallText "x", .null]] := rfl

example (t : Table smallEngine) (ht : runInsert smallEngine asciiUp sampleStore sampleInsert = some t) :
    t.Has smallEngine true usersRow.attributes := by
  refine C78_insert_partial smallEngine true asciiUp sampleCtx sampleCtx_ok sampleStore
    (sampleStore_stored true) sampleInsert usersRow users_resolve usersRow_distinct ?_ ?_ sampleInsert_ok t ht
  · intro h
    cases h
  simp [sampleInsert, SetExpr.Clear, Expr.RowsClear, Expr.AllClear, Expr.Clear]

/-- `INSERT INTO users SELECT id AS ID, name AS Name FROM users`: the names are in order, and the last column
may be NULL. -/
example :
    let column (n m : String) : ResultColumn Name := .expr (.ident [Name.ofString n]) (some (Name.ofString m))
    let statement : InsertStatement Name := ⟨[Name.ofString "users"], none,
      .query .all (.list [column "id" "ID", column "name" "Name"]) fromUsers none none⟩
    (runInsert smallEngine asciiUp sampleStore statement).map (·.rows.drop 2) =
      some [[smallNumber 1, smallText "x", .null], [smallNumber 2, .null, .null]] ∧
    ∀ t, runInsert smallEngine asciiUp sampleStore statement = some t →
      t.Has smallEngine true usersRow.attributes := by
  intro column statement
  refine ⟨rfl, fun t ht => ?_⟩
  refine C78_insert_partial smallEngine true asciiUp sampleCtx sampleCtx_ok sampleStore
    (sampleStore_stored true) statement usersRow users_resolve usersRow_distinct ?_ ?_ rfl t ht
  · intro _ values h
    rw [← Except.ok.inj (h.symm.trans (show inferSetExpr (nameOps asciiUp) sampleCtx statement.source =
      .ok (.plain [⟨Name.ofString "ID", .numeric, false⟩, ⟨Name.ofString "Name", .varchar, true⟩]) from rfl)).symm]
    intro e he
    simp only [RowType.plain, usersRow, List.zip_cons_cons, List.zip_nil_left, List.mem_cons, List.not_mem_nil,
      or_false] at he
    rcases he with rfl | rfl <;> rfl
  · simp [statement, column, fromUsers, SetExpr.Clear, ResultColumns.Clear, ResultColumn.AllClear, Expr.Clear,
      TableExpr.AllClear, TableExpr.Clear]

/-- C78, partial: an accepted UPDATE leaves every row of the table in the types of its columns.  Missing:
assigned expressions that are not `Clear strict`. -/
theorem C78_update_partial (E : Engine) (strict : Bool) (up : Char → List Char) (ctx : SetContext Name)
    (hok : ctx.Ok up) (st : Store E) (hst : Stored E strict up ctx st) (s : UpdateStatement Name)
    (typ : RowType Name) (htyp : Resolves up ctx s.tableName typ) (hd : DistinctColumns up typ.attributes)
    (hclear : ∀ a ∈ s.assignments, a.expr.Clear strict (Unlisted up ctx))
    (h : s.validateType (nameOps up) ctx = .ok ()) (t : Table E) (ht : runUpdate E up st s = some t) :
    t.Has E strict typ.attributes :=
  update_sound hok hst htyp hd hclear h ht

/-- `UPDATE users SET name = 'x', Active = NOT active WHERE users.ID = id`. -/
example : (runUpdate smallEngine asciiUp sampleStore sampleUpdate).map (·.rows) =
    some [[smallNumber 1, smallText "x", smallBool false], [smallNumber 2, smallText "x", .null]] := rfl

example (t : Table smallEngine) (ht : runUpdate smallEngine asciiUp sampleStore sampleUpdate = some t) :
    t.Has smallEngine true usersRow.attributes := by
  refine C78_update_partial smallEngine true asciiUp sampleCtx sampleCtx_ok sampleStore
    (sampleStore_stored true) sampleUpdate usersRow users_resolve usersRow_distinct ?_ sampleUpdate_ok t ht
  simp [sampleUpdate, Expr.Clear]

/-- C78, for DELETE. -/
theorem C78_delete (E : Engine) (strict : Bool) (up : Char → List Char) (ctx : SetContext Name)
    (st : Store E) (hst : Stored E strict up ctx st) (s : DeleteStatement Name)
    (typ : RowType Name) (htyp : Resolves up ctx s.tableName typ)
    (t : Table E) (ht : runDelete E up st s = some t) : t.Has E strict typ.attributes :=
  delete_sound hst htyp ht

/-- `DELETE FROM users WHERE active` keeps the second user, whose activity is NULL. -/
example : (runDelete smallEngine asciiUp sampleStore sampleDelete).map (·.rows) =
    some [[smallNumber 2, .null, .null]] := rfl

example (t : Table smallEngine) (ht : runDelete smallEngine asciiUp sampleStore sampleDelete = some t) :
    t.Has smallEngine true usersRow.attributes :=
  C78_delete smallEngine true asciiUp sampleCtx sampleStore (sampleStore_stored true) sampleDelete usersRow
    users_resolve t ht

/-! ## C79 -/

/-- C79: a FROM clause is accepted exactly if its tables exist, its subqueries have a type, and no two of its
relations have the same name. -/
theorem C79_from (up : Char → List Char) (ctx : SetContext Name) (hok : ctx.Ok up)
    (froms : List (TableExpr Name)) (as : List (Attribute Name)) :
    (∃ sc, inferFrom (nameOps up) (ScalarContext.new ctx) froms = .ok (sc, as)) ↔
      ∃ rels, BindsAll up ctx froms rels as ∧ DistinctNames up (rels.map (·.1)) := by
  constructor
  · rintro ⟨sc, h⟩
    obtain ⟨rels, h1, _, h3⟩ := inferFrom_binds hok froms (inScope_new ctx) List.Pairwise.nil h
    exact ⟨rels, h1, h3⟩
  · rintro ⟨rels, h1, h2⟩
    obtain ⟨sc, h, _⟩ := binds_inferFrom hok froms (inScope_new ctx) h1 h2
    exact ⟨sc, h⟩

/-- C79, partial: in the rest of the query a name has a type exactly if it denotes a column, and it is the
type of that column.  Missing: columns that are hidden by the name of a relation (`C79_hidden_refuted`), and
columns of subqueries (C83). -/
theorem C79_names_partial (up : Char → List Char) (ctx : SetContext Name) (hok : ctx.Ok up)
    (froms : List (TableExpr Name)) (sc : ScalarContext Name) (as : List (Attribute Name))
    (h : inferFrom (nameOps up) (ScalarContext.new ctx) froms = .ok (sc, as)) :
    ∃ rels, BindsAll up ctx froms rels as ∧ ∀ q t, inferExpr (nameOps up) sc (.ident q) = .ok t ↔
      ∃ a, Denotes up rels q a ∧ t = .scalar a.typ a.isNull := by
  obtain ⟨rels, h1, h2, h3⟩ := inferFrom_binds hok froms (inScope_new ctx) List.Pairwise.nil h
  refine ⟨rels, h1, fun q t => ?_⟩
  have := inScope_denotes h2 h3 q t
  unfold inferExpr
  exact this

/-- `FROM users AS a, users AS b JOIN aux.counts ON …`. -/
def threeTables : List (TableExpr Name) :=
  [.named [Name.ofString "users"] (some (Name.ofString "a")),
   .join (.named [Name.ofString "users"] (some (Name.ofString "b")))
     (.named [Name.ofString "aux", Name.ofString "counts"] none) (.join .inner) (.expr (.literal .null))]

/-- `n` is a column of one table; `id` of two, so it must be qualified. -/
example : ∃ sc as, inferFrom (nameOps asciiUp) (ScalarContext.new sampleCtx) threeTables = .ok (sc, as) ∧
    as.length = 7 ∧
    inferExpr (nameOps asciiUp) sc (.ident [Name.ofString "N"]) = .ok (.scalar .numeric false) ∧
    inferExpr (nameOps asciiUp) sc (.ident [Name.ofString "id"]) = err .ambiguousAttribute ∧
    inferExpr (nameOps asciiUp) sc (.ident [Name.ofString "A", Name.ofString "id"]) = .ok (.scalar .numeric false) ∧
    inferExpr (nameOps asciiUp) sc (.ident [Name.ofString "users", Name.ofString "id"]) = err .notARelation :=
  ⟨_, _, rfl, rfl, rfl, rfl, rfl, rfl⟩

/-- `FROM users, users` is not accepted. -/
example : ∀ sc as, inferFrom (nameOps asciiUp) (ScalarContext.new sampleCtx)
    (fromUsers ++ fromUsers) ≠ .ok (sc, as) := by
  intro sc as h
  have : inferFrom (nameOps asciiUp) (ScalarContext.new sampleCtx) (fromUsers ++ fromUsers) =
    err .duplicateRelation := rfl
  rw [this] at h
  cases h

/-- C79, refuted: in `FROM users AS name` the column `name` cannot be referred to without qualification,
although it is the only column of that name. -/
theorem C79_hidden_refuted : ∃ sc, inferFrom (nameOps asciiUp) (ScalarContext.new sampleCtx)
      [.named [Name.ofString "users"] (some (Name.ofString "name"))] = .ok (sc, usersRow.attributes) ∧
    (columnsCalled asciiUp (Name.ofString "name") usersRow.attributes).length = 1 ∧
    inferExpr (nameOps asciiUp) sc (.ident [Name.ofString "name"]) = err .nameIsRelation :=
  ⟨_, rfl, rfl, rfl⟩

/-! ## C80 -/

/-- C80, refuted: IN is rejected for all operands of the same type neither of which may be NULL. -/
theorem C80_in_refuted (up : Char → List Char) (sc : ScalarContext Name) (e : Expr Name) (set : SetSpec Name)
    (typ : DataType) (he : inferExpr (nameOps up) sc e = .ok (.scalar typ false)) (r : RowType Name)
    (hr : inferSet (nameOps up) sc set = .ok r) (n : Name) (ha : r.attributes = [⟨n, typ, false⟩]) (t : ScalarType) :
    inferExpr (nameOps up) sc (.inSet e set) ≠ .ok t := by
  intro h
  have := (in_iff he hr ha t).1 h
  simp at this

/-- `1 IN (1)` is rejected. -/
example : inferExpr (nameOps asciiUp) (ScalarContext.new sampleCtx) (.inSet sqlOne (.list [sqlOne])) =
    err .inIncompatible := rfl

/-- C80, partial: what is accepted has operands of the same type.  Missing: operands that are not NULL. -/
theorem C80_in_partial (up : Char → List Char) (sc : ScalarContext Name) (e : Expr Name) (set : SetSpec Name)
    (typ : DataType) (n : Bool) (he : inferExpr (nameOps up) sc e = .ok (.scalar typ n)) (r : RowType Name)
    (hr : inferSet (nameOps up) sc set = .ok r) (a : Attribute Name) (ha : r.attributes = [a]) (t : ScalarType) :
    inferExpr (nameOps up) sc (.inSet e set) = .ok t ↔
      t = .scalar .logical false ∧ a.typ = typ ∧ (n = true ∨ a.isNull = true) :=
  in_iff he hr ha t

/-- `name IN ('x')` is accepted: `name` may be NULL. -/
example : inferExpr (nameOps asciiUp) usersScope (.inSet (.ident [Name.ofString "name"]) (.list [sqlText])) =
    .ok (.scalar .logical false) :=
  (C80_in_partial asciiUp usersScope _ _ .varchar true rfl _ rfl _ rfl _).2 ⟨rfl, rfl, Or.inl rfl⟩

/-- The list of an IN expression with one element has the row type of `VALUES` with that element. -/
theorem C80_list (up : Char → List Char) (ctx : SetContext Name) (e : Expr Name) (r : RowType Name) :
    inferSet (nameOps up) (ScalarContext.new ctx) (.list [e]) = .ok r ↔
      inferSetExpr (nameOps up) ctx (.values [[e]]) = .ok r := by
  simp only [inferSet, inferList, inferSetExpr, inferValues, inferFirstRow, foldList, foldRows]
  generalize inferExpr (nameOps up) (ScalarContext.new ctx) e = x
  match x with
  | .error y => exact ⟨fun h => (by cases h), fun h => (by cases h)⟩
  | .ok (.scalar typ n) => exact Iff.rfl
  | .ok (.tuple ts) => exact ⟨fun h => (by cases h), fun h => (by cases h)⟩

/-- The list of `1 IN (1)` has one column, `_col0`. -/
example : inferSet (nameOps asciiUp) (ScalarContext.new sampleCtx) (.list [sqlOne]) =
    .ok (.plain [⟨Name.ofString "_col0", .numeric, false⟩]) := (C80_list asciiUp sampleCtx sqlOne _).2 rfl

/-- A list with any number of elements has a row type exactly if it has an element and all its elements have the same
data type.  It has one column, `_col0`, which may be NULL if one of the elements may. -/
theorem C80_list_exactly (up : Char → List Char) (sc : ScalarContext Name) (es : List (Expr Name)) (r : RowType Name) :
    inferSet (nameOps up) sc (.list es) = .ok r ↔ es ≠ [] ∧ ∃ (typ : DataType) (ns : List Bool),
      ns.length = es.length ∧ (∀ (i : Nat) (e : Expr Name) (n : Bool), es[i]? = some e → ns[i]? = some n →
        inferExpr (nameOps up) sc e = .ok (.scalar typ n)) ∧
      r = .plain [⟨Name.ofString "_col0", typ, ns.any id⟩] := by
  rw [inferSet]
  constructor
  · intro h
    obtain ⟨t, h1, h⟩ := Chk.bind_eq_ok.1 h
    cases t with
    | tuple ts => cases h
    | scalar typ n =>
      obtain ⟨h2, ns, h3, rfl, h4⟩ := (inferList_iff sc es typ n).1 h1
      cases h
      exact ⟨h2, typ, ns, h3, h4, rfl⟩
  · rintro ⟨h1, typ, ns, h2, h3, rfl⟩
    rw [(inferList_iff sc es typ (ns.any id)).2 ⟨h1, ns, h2, rfl, h3⟩, Chk.bind_ok]
    rfl

/-- The list of `… IN (1, 1)`. -/
example : inferSet (nameOps asciiUp) usersScope (.list [sqlOne, sqlOne]) =
    .ok (.plain [⟨Name.ofString "_col0", .numeric, false⟩]) :=
  (C80_list_exactly asciiUp usersScope _ _).2 ⟨by simp, .numeric, [false, false], rfl, by
    intro i e n he hn
    match i, he, hn with
    | 0, rfl, rfl => rfl
    | 1, rfl, rfl => rfl, rfl⟩

/-- Two types have a common type exactly as `Unifies` says. -/
theorem C80_common_type (l r t : ScalarType) : l.unify r = .ok t ↔ Unifies l r t := unify_iff l r t

/-- Of the pairs of a number and a text that may be NULL, and a number that may be NULL and a text. -/
example : Unifies (.tuple [.scalar .numeric false, .scalar .varchar true])
    (.tuple [.scalar .numeric true, .scalar .varchar false])
    (.tuple [.scalar .numeric true, .scalar .varchar true]) := (C80_common_type _ _ _).1 rfl

/-! ## C81 -/

/-- C81, refuted: a query that selects from its own common table expression is rejected, unless there is
another table of that name (which is then used instead, see `C77_with_refuted`). -/
theorem C81_with_refuted (up : Char → List Char) (ctx : SetContext Name) (hok : ctx.Ok up) (n : Name)
    (hn : ∀ typ, ¬ Resolves up ctx [n] typ) (names : Option (List Name)) (query : Select Name)
    (mode : SelectMode) (columns : ResultColumns Name) (alias : Option Name) (froms : List (TableExpr Name))
    (wher : Option (Expr Name)) (groupBy : Option (GroupBy Name)) (orderBy : List (OrderTerm Name))
    (limit : Option (Limit Name)) (r : RowType Name) :
    inferSelect (nameOps up) ctx (.mk [.mk n names query]
      (.query mode columns (.named [n] alias :: froms) wher groupBy) orderBy limit) ≠ .ok r := by
  intro h
  obtain ⟨typ, ht⟩ := query_table (select_ignores_common h)
  exact hn typ ((resolve_ok_iff hok _ _).1 ht)

/-- `WITH c AS (VALUES (1)) SELECT * FROM c`. -/
example : inferSelect (nameOps asciiUp) sampleCtx (.mk [.mk (Name.ofString "c") none
    (.mk [] (.values [[sqlOne]]) [] none)]
    (.query .all .all [.named [Name.ofString "c"] none] none none) [] none) = err .tableNotFound := rfl

/-- There is no table `c`. -/
example (typ : RowType Name) : ¬ Resolves asciiUp sampleCtx [Name.ofString "c"] typ := by
  intro h
  have h1 := (C61_resolve _ _ sampleCtx_ok _ _).2 h
  have h2 : sampleCtx.resolveTableName (nameOps asciiUp) [Name.ofString "c"] = err .tableNotFound := rfl
  rw [h2] at h1
  cases h1

/-- C81, partial: `SetContext::initialize`, which is not called by the validation of queries, makes common
table expressions known, each with the type it has where the earlier ones are known; their names must differ,
and the meaning of other names does not change. -/
theorem C81_initialize_partial (up : Char → List Char) (ctx ctx' : SetContext Name) (hok : ctx.Ok up)
    (ctes : List (Cte Name)) (h : ctx.initializeFrom (nameOps up) ctes = .ok ctx') :
    DistinctNames up (ctes.map Cte.name) ∧
    (∀ m t, (∀ c ∈ ctes, ¬ SameName up m c.name) → (Resolves up ctx' [m] t ↔ Resolves up ctx [m] t)) ∧
    (∀ i c, ctes[i]? = some c → ∃ before typ, ctx.initializeFrom (nameOps up) (ctes.take i) = .ok before ∧
      inferCte (nameOps up) before c = .ok typ ∧ Resolves up ctx' [c.name] typ) := by
  obtain ⟨_, h2, _, h4, h5⟩ := initializeFrom_defines hok h
  exact ⟨h2, h4, h5⟩

/-- `c AS (VALUES (1)), d AS (SELECT * FROM c)`. -/
def twoCtes : List (Cte Name) :=
  [.mk (Name.ofString "c") none (.mk [] (.values [[sqlOne]]) [] none),
   .mk (Name.ofString "d") none
     (.mk [] (.query .all .all [.named [Name.ofString "c"] none] none none) [] none)]

example : ∃ ctx', sampleCtx.initializeFrom (nameOps asciiUp) twoCtes = .ok ctx' ∧
    Resolves asciiUp ctx' [Name.ofString "d"] (.plain [⟨Name.ofString "_col0", .numeric, false⟩]) := by
  refine ⟨_, rfl, ?_⟩
  obtain ⟨before, typ, h1, h2, h3⟩ := (C81_initialize_partial asciiUp sampleCtx _ sampleCtx_ok twoCtes rfl).2.2
    1 _ rfl
  cases h1
  cases h2
  exact h3

/-! ## C82 -/

/-- C82, refuted: a query without WITH is rejected if a term of its ORDER BY is a column name, whichever. -/
theorem C82_order_refuted (up : Char → List Char) (ctx : SetContext Name) (expr : SetExpr Name)
    (orderBy : List (OrderTerm Name)) (q : List Name) (collate : Option Name) (dir : OrderingDirection)
    (hq : .mk (.ident q) collate dir ∈ orderBy) (limit : Option (Limit Name)) (r : RowType Name) :
    inferSelect (nameOps up) ctx (.mk [] expr orderBy limit) ≠ .ok r := by
  intro h
  unfold inferSelect at h
  obtain ⟨sc, h0, h⟩ := ok_bind h
  unfold addCommon at h0
  cases h0
  obtain ⟨_, _, h⟩ := ok_bind h
  obtain ⟨_, h1, h⟩ := ok_bind h
  obtain ⟨typ, n, h2⟩ := checkOrder_iff.1 h1 _ hq
  simp only [inferExpr] at h2
  exact new_inferType ctx q _ h2

/-- `SELECT id FROM users ORDER BY id`. -/
example : inferSelect (nameOps asciiUp) sampleCtx (.mk [] (.query .all
    (.list [.expr (.ident [Name.ofString "id"]) (some (Name.ofString "id"))]) fromUsers none none)
    [.mk (.ident [Name.ofString "id"]) none .ascending] none) = err .undefinedAttribute := rfl

/-- C82, partial: the terms of an accepted ORDER BY are scalars in the scope of the common table expressions.
Missing: the columns of the query itself. -/
theorem C82_order_partial (up : Char → List Char) (sc : ScalarContext Name) (terms : List (OrderTerm Name)) :
    checkOrder (nameOps up) sc terms = .ok () ↔ ∀ t ∈ terms, ∃ typ n, inferExpr (nameOps up) sc
      (match t with | .mk e _ _ => e) = .ok (.scalar typ n) :=
  checkOrder_iff

/-- `ORDER BY id, 1 DESC` where `users` is known; `ORDER BY (1)` with a tuple is rejected. -/
example : checkOrder (nameOps asciiUp) usersScope
    [.mk (.ident [Name.ofString "id"]) none .ascending, .mk sqlOne none .descending] = .ok () :=
  (C82_order_partial _ _ _).2 fun t ht => by
    simp only [List.mem_cons, List.not_mem_nil, or_false] at ht
    rcases ht with rfl | rfl
    · exact ⟨.numeric, false, rfl⟩
    · exact ⟨.numeric, false, rfl⟩

/-! ## C83 -/

/-- C83, refuted: in a query from a subquery no column name is known, whatever the columns and the alias of
the subquery. -/
theorem C83_subquery_refuted (up : Char → List Char) (ctx : SetContext Name) (mode : SelectMode)
    (q : List Name) (rename : Option Name) (columns : List (ResultColumn Name)) (s : Select Name)
    (alias : Option Name) (wher : Option (Expr Name)) (groupBy : Option (GroupBy Name)) (r : RowType Name) :
    inferSetExpr (nameOps up) ctx
      (.query mode (.list (.expr (.ident q) rename :: columns)) [.select s alias] wher groupBy) ≠ .ok r := by
  intro h
  unfold inferSetExpr at h
  obtain ⟨⟨sc, as⟩, h0, h⟩ := ok_bind h
  unfold inferFrom at h0
  obtain ⟨⟨sc1, as1⟩, h1, h0⟩ := ok_bind h0
  unfold inferTable at h1
  obtain ⟨typ, _, h1⟩ := ok_bind h1
  cases h1
  unfold inferFrom at h0
  cases h0
  obtain ⟨_, _, h⟩ := ok_bind h
  obtain ⟨_, _, h⟩ := ok_bind h
  unfold inferColumns at h
  obtain ⟨_, h, _⟩ := ok_bind h
  unfold inferColumnList at h
  obtain ⟨t, h, _⟩ := ok_bind h
  unfold inferExpr at h
  exact new_inferType ctx q t h

/-- `SELECT a.x FROM (SELECT id AS x FROM users) AS a`. -/
example : inferSetExpr (nameOps asciiUp) sampleCtx
    (.query .all (.list [.expr (.ident [Name.ofString "a", Name.ofString "x"]) none])
      [.select (.mk [] (.query .all (.list [.expr (.ident [Name.ofString "id"]) (some (Name.ofString "x"))])
        fromUsers none none) [] none) (some (Name.ofString "a"))] none none) = err .notARelation := rfl

/-- C83, partial: `SELECT * FROM (subquery)` has the columns of the subquery, if their names differ. -/
theorem C83_subquery_partial (up : Char → List Char) (ctx : SetContext Name) (mode : SelectMode)
    (s : Select Name) (alias : Option Name) (typ : RowType Name)
    (h : inferSelect (nameOps up) ctx s = .ok typ) (hd : DistinctColumns up typ.attributes) :
    inferSetExpr (nameOps up) ctx (.query mode .all [.select s alias] none none) =
      .ok (.plain typ.attributes) := by
  have hk := generateColumns_keep (up := up) (g := []) hd fun _ _ => rfl
  unfold inferSetExpr inferFrom inferTable
  simp only [ScalarContext.new]
  rw [h]
  show Except.ok (RowType.plain (generateColumns (nameOps up) [] (typ.attributes ++ [])).1) = _
  rw [List.append_nil, hk]

/-- `SELECT * FROM (SELECT * FROM users)`. -/
example : inferSetExpr (nameOps asciiUp) sampleCtx (.query .all .all
    [.select (.mk [] (.query .all .all fromUsers none none) [] none) none] none none) =
    .ok (.plain usersRow.attributes) :=
  C83_subquery_partial asciiUp sampleCtx .all _ none (.plain usersRow.attributes) rfl usersRow_distinct

/-! ## C84 -/

/-- C84, refuted: the kind of a join and its condition are not looked at. -/
theorem C84_join_refuted (up : Char → List Char) (sc : ScalarContext Name) (l r : TableExpr Name)
    (op op' : JoinOperator) (c c' : JoinConstraint Name) :
    inferTable (nameOps up) sc (.join l r op c) = inferTable (nameOps up) sc (.join l r op' c') := by
  unfold inferTable
  rfl

/-- `users AS a JOIN users AS b ON nowhere.to.be.found` is accepted. -/
example : ∃ sc as, inferTable (nameOps asciiUp) (ScalarContext.new sampleCtx)
    (.join (.named [Name.ofString "users"] (some (Name.ofString "a")))
      (.named [Name.ofString "users"] (some (Name.ofString "b"))) (.join .inner)
      (.expr (.ident (["nowhere", "to", "be", "found"].map Name.ofString)))) = .ok (sc, as) ∧
    ∀ t, inferExpr (nameOps asciiUp) sc (.ident (["nowhere", "to", "be", "found"].map Name.ofString)) ≠ .ok t := by
  refine ⟨_, _, rfl, ?_⟩
  intro t h
  cases h

/-! ## C85 -/

/-- C85, partial: the column list of a common table expression selects columns of the query by name, the
first of each name.  A renaming would give the i-th column the i-th name. -/
theorem C85_column_list_partial (up : Char → List Char) (ctx : SetContext Name) (n : Name) (cs : List Name)
    (query : Select Name) (typ : RowType Name) (h : inferSelect (nameOps up) ctx query = .ok typ)
    (as : List (Attribute Name)) :
    inferCte (nameOps up) ctx (.mk n (some cs) query) = .ok { typ with attributes := as } ↔
      as.length = cs.length ∧ ∀ (i : Nat) (c : Name), cs[i]? = some c →
        ∃ a, (columnsCalled up c typ.attributes).head? = some a ∧ as[i]? = some ⟨c, a.typ, a.isNull⟩ := by
  rw [← selectColumns_iff]
  unfold inferCte
  rw [h]
  constructor
  · intro h'
    obtain ⟨_, h1, h'⟩ := ok_bind h'
    cases h1
    obtain ⟨as', h2, h3⟩ := ok_bind h'
    cases h3
    exact h2
  · intro h'
    show (selectColumns (nameOps up) typ.attributes cs >>= _) = _
    rw [h']
    rfl

/-- C85, refuted: a common table expression cannot give a column of its query a new name. -/
theorem C85_rename_refuted (up : Char → List Char) (ctx : SetContext Name) (n c : Name) (cs : List Name)
    (hc : c ∈ cs) (query : Select Name) (typ : RowType Name)
    (h : inferSelect (nameOps up) ctx query = .ok typ)
    (hnew : ∀ a ∈ typ.attributes, ¬ SameName up a.name c) (r : RowType Name) :
    inferCte (nameOps up) ctx (.mk n (some cs) query) ≠ .ok r := by
  intro hr
  unfold inferCte at hr
  rw [h] at hr
  obtain ⟨_, h0, hr⟩ := ok_bind hr
  cases h0
  obtain ⟨as, h1, _⟩ := ok_bind hr
  obtain ⟨i, hi⟩ := List.mem_iff_getElem?.1 hc
  obtain ⟨a, ha, _⟩ := (selectColumns_iff.1 h1).2 i c hi
  have hmem := List.mem_of_mem_head? ha
  unfold columnsCalled at hmem
  obtain ⟨h2, h3⟩ := List.mem_filter.1 hmem
  exact hnew a h2 (sameName_iff.1 h3)

/-- `c(x) AS (VALUES (1))`; and `c(Name, ID) AS (SELECT * FROM users)`, which leaves out a column. -/
example : inferCte (nameOps asciiUp) sampleCtx (.mk (Name.ofString "c") (some [Name.ofString "x"])
      (.mk [] (.values [[sqlOne]]) [] none)) = err .cteColumnNotFound ∧
    inferCte (nameOps asciiUp) sampleCtx (.mk (Name.ofString "c") (some [Name.ofString "Name", Name.ofString "ID"])
      (.mk [] (.query .all .all fromUsers none none) [] none)) =
      .ok (.plain [⟨Name.ofString "Name", .varchar, true⟩, ⟨Name.ofString "ID", .numeric, false⟩]) := ⟨rfl, rfl⟩

/-! ## C86 -/

/-- C86, partial: the columns of `r.*` are those of the relation `r`, with their types, but in the order of
their names (and if a relation has several columns of one name, once).  Missing: the order. -/
theorem C86_star_partial (up : Char → List Char) (ctx : SetContext Name) (hok : ctx.Ok up)
    (froms : List (TableExpr Name)) (sc : ScalarContext Name) (columns : List (Attribute Name))
    (h : inferFrom (nameOps up) (ScalarContext.new ctx) froms = .ok (sc, columns)) :
    ∃ rels, BindsAll up ctx froms rels columns ∧ ∀ r ∈ rels, ∀ n, SameName up r.1 n →
      ∃ as, inferColumns (nameOps up) sc columns (.list [.allFrom n]) = .ok (.plain as) ∧
        as.Pairwise (fun a b => a.name.upper up < b.name.upper up) ∧
        (∀ a ∈ as, ∃ b, Denotes up rels [n, a.name] b ∧ a.typ = b.typ ∧ a.isNull = b.isNull) ∧
        (∀ b ∈ r.2, ∃ a ∈ as, SameName up a.name b.name) := by
  obtain ⟨rels, h1, h2, h3⟩ := inferFrom_binds hok froms (inScope_new ctx) List.Pairwise.nil h
  refine ⟨rels, h1, fun r hr n hn => ?_⟩
  obtain ⟨as, h4, h5⟩ := allFrom_columns h2 h3 hr hn
  refine ⟨as, ?_, h5⟩
  unfold inferColumns
  rw [h4]
  rfl

/-- C86, refuted: the columns of `users.*` are not in the order of the table. -/
theorem C86_star_order_refuted : ∃ as,
    inferColumns (nameOps asciiUp) usersScope usersRow.attributes (.list [.allFrom (Name.ofString "users")]) =
      .ok (.plain as) ∧
    as.map (·.name) = [Name.ofString "active", Name.ofString "id", Name.ofString "name"] ∧
    usersRow.attributes.map (·.name) = [Name.ofString "id", Name.ofString "name", Name.ofString "active"] :=
  ⟨_, rfl, rfl, rfl⟩

end Verif.Props
