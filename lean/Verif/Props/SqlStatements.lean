import Verif.Proof.SqlRows
import Verif.Props.SqlNames

/-! # C65–C69: UPDATE, INSERT, DELETE; result columns; set operations -/

namespace Verif.Props

open Verif Sql

/-- C65. An UPDATE of a table with distinct column names is accepted exactly if it is safe: the table
exists, no column is assigned twice, each assigned expression has a type that its columns can store (NULL
only in nullable columns), and the WHERE clause is logical.  Expressions are inferred in the scope of the
table (`IsScope`). -/
theorem C65_update (up : Char → List Char) (ctx : SetContext Name) (hc : ctx.Ok up)
    (s : UpdateStatement Name)
    (hd : ∀ typ, Resolves up ctx s.tableName typ → DistinctColumns up typ.attributes) :
    s.validateType (nameOps up) ctx = .ok () ↔
      ∃ typ table sc, Resolves up ctx s.tableName typ ∧ s.tableName.getLast? = some table ∧
        tableContext (nameOps up) ctx s.tableName typ = .ok sc ∧
        IsScope up ctx table typ.attributes sc ∧ SafeUpdate up ctx sc typ.attributes s :=
  update_iff hc s hd

theorem usersRow_distinct : DistinctColumns asciiUp usersRow.attributes := by
  refine List.pairwise_cons.2 ⟨?_, List.pairwise_cons.2 ⟨?_, List.pairwise_singleton _ _⟩⟩ <;>
  · intro b hb h
    simp only [List.mem_cons, List.not_mem_nil, or_false] at hb
    rcases hb with rfl | rfl <;> exact absurd (show (_ : List Char) = _ from h) (by decide)

/-- The table name `users` means the table of that name. -/
theorem users_resolves (typ : RowType Name)
    (h : Resolves asciiUp sampleCtx [Name.ofString "users"] typ) : typ = usersRow := by
  have h1 := (C61_resolve _ _ sampleCtx_ok _ _).2 h
  exact (Except.ok.inj h1).symm

/-- `UPDATE users SET name = 'x', Active = NOT active WHERE users.ID = id`. -/
def sampleUpdate : UpdateStatement Name :=
  ⟨[Name.ofString "users"],
    [⟨[Name.ofString "name"], .literal (.string "x".toList)⟩,
      ⟨[Name.ofString "Active"], .unary .not (.ident [Name.ofString "active"])⟩],
    some (.comparison .equal (.ident [Name.ofString "users", Name.ofString "ID"])
      (.ident [Name.ofString "id"]))⟩

theorem sampleUpdate_ok : sampleUpdate.validateType (nameOps asciiUp) sampleCtx = .ok () := rfl

example : ∃ typ table sc, Resolves asciiUp sampleCtx sampleUpdate.tableName typ ∧
    sampleUpdate.tableName.getLast? = some table ∧
    tableContext (nameOps asciiUp) sampleCtx sampleUpdate.tableName typ = .ok sc ∧
    IsScope asciiUp sampleCtx table typ.attributes sc ∧
    SafeUpdate asciiUp sampleCtx sc typ.attributes sampleUpdate :=
  (C65_update _ _ sampleCtx_ok sampleUpdate fun typ h => users_resolves typ h ▸ usersRow_distinct).1 sampleUpdate_ok

/-- Not accepted: a column twice (in two spellings), NULL for a column that must not be NULL, a number
for a text. -/
example : let users := [Name.ofString "users"]
    (UpdateStatement.mk users [⟨[Name.ofString "id", Name.ofString "ID"], .literal (.numeric "1".toList)⟩]
      none).validateType (nameOps asciiUp) sampleCtx = err .updateDuplicate ∧
    (UpdateStatement.mk users [⟨[Name.ofString "name"], .literal (.numeric "1".toList)⟩]
      none).validateType (nameOps asciiUp) sampleCtx = err .updateIncompatible ∧
    (UpdateStatement.mk users [⟨[Name.ofString "mail"], .literal (.numeric "1".toList)⟩]
      none).validateType (nameOps asciiUp) sampleCtx = err .updateUndefined := ⟨rfl, rfl, rfl⟩

/-- C65. The scope has a hole: the name of the table hides its column of the same name.  In
`UPDATE t SET t = t`, the assigned column exists but the expression is rejected. -/
theorem C65_hidden_column :
    let t := Name.ofString "t"
    let db : Database Name := ⟨[(Name.ofString "main",
      ⟨Name.ofString "main", [(t, .table t ⟨[⟨t, true, false, .numeric⟩]⟩ [])]⟩)]⟩
    let ctx := SetContext.new (nameOps asciiUp) db (Name.ofString "main")
    (UpdateStatement.mk [t] [⟨[t], .ident [t]⟩] none).validateType (nameOps asciiUp) ctx = err .nameIsRelation ∧
    (UpdateStatement.mk [t] [⟨[t], .ident [t, t]⟩] none).validateType (nameOps asciiUp) ctx = .ok () :=
  ⟨rfl, rfl⟩

/-- C66. An INSERT into a table with distinct column names is accepted exactly if it is safe: the table
exists, the source has a row type, there is one value per target column, each target exists and is given
once, each value can be stored in its column, and each column that must not be NULL is given. -/
theorem C66_insert (up : Char → List Char) (ctx : SetContext Name) (hc : ctx.Ok up)
    (s : InsertStatement Name)
    (hd : ∀ typ, Resolves up ctx s.tableName typ → DistinctColumns up typ.attributes) :
    s.validateType (nameOps up) ctx = .ok () ↔
      ∃ typ values, Resolves up ctx s.tableName typ ∧
        inferSetExpr (nameOps up) ctx s.source = .ok values ∧
        SafeInsert up typ.attributes values.attributes (insertTargets s values.attributes) :=
  insert_iff hc s hd

/-- `INSERT INTO users (Name, ID) VALUES ('x', 1)`. -/
def sampleInsert : InsertStatement Name :=
  ⟨[Name.ofString "users"], some [Name.ofString "Name", Name.ofString "ID"],
    .values [[.literal (.string "x".toList), .literal (.numeric "1".toList)]]⟩

theorem sampleInsert_ok : sampleInsert.validateType (nameOps asciiUp) sampleCtx = .ok () := rfl

example : ∃ typ values, Resolves asciiUp sampleCtx sampleInsert.tableName typ ∧
    inferSetExpr (nameOps asciiUp) sampleCtx sampleInsert.source = .ok values ∧
    SafeInsert asciiUp typ.attributes values.attributes (insertTargets sampleInsert values.attributes) :=
  (C66_insert _ _ sampleCtx_ok sampleInsert fun typ h => users_resolves typ h ▸ usersRow_distinct).1 sampleInsert_ok

/-- Not accepted: the key missing, a column twice, a value too many. -/
example : let users := [Name.ofString "users"]
    (InsertStatement.mk users (some [Name.ofString "name"])
      (.values [[.literal (.string [])]])).validateType (nameOps asciiUp) sampleCtx = err .insertMissing ∧
    (InsertStatement.mk users (some [Name.ofString "name", Name.ofString "NAME"])
      (.values [[.literal (.string []), .literal (.string [])]])).validateType (nameOps asciiUp) sampleCtx
      = err .insertUndefinedColumn ∧
    (InsertStatement.mk users (some [Name.ofString "id"])
      (.values [[.literal (.numeric []), .literal (.numeric [])]])).validateType (nameOps asciiUp) sampleCtx
      = err .insertLength := ⟨rfl, rfl, rfl⟩

/-- C66. Without a column list the values are matched by name, and the columns of VALUES are called
`_col0`, `_col1`, …: the plain `INSERT INTO counts VALUES (1)` is rejected although the view has one
numeric column. -/
theorem C66_values_without_columns :
    (InsertStatement.mk [Name.ofString "aux", Name.ofString "counts"] none
      (.values [[.literal (.numeric "1".toList)]])).validateType (nameOps asciiUp) sampleCtx
      = err .insertUndefinedColumn := rfl

/-- C69. A DELETE from a table with distinct column names is accepted exactly if the table exists and the
WHERE clause is logical in the scope of the table. -/
theorem C69_delete (up : Char → List Char) (ctx : SetContext Name) (hc : ctx.Ok up)
    (s : DeleteStatement Name)
    (hd : ∀ typ, Resolves up ctx s.tableName typ → DistinctColumns up typ.attributes) :
    s.validateType (nameOps up) ctx = .ok () ↔
      ∃ typ table sc, Resolves up ctx s.tableName typ ∧ s.tableName.getLast? = some table ∧
        tableContext (nameOps up) ctx s.tableName typ = .ok sc ∧
        IsScope up ctx table typ.attributes sc ∧ LogicalOrAbsent up sc s.wher :=
  delete_iff hc s hd

/-- `DELETE FROM users WHERE active`. -/
def sampleDelete : DeleteStatement Name :=
  ⟨[Name.ofString "users"], some (.ident [Name.ofString "active"])⟩

example : ∃ typ table sc, Resolves asciiUp sampleCtx sampleDelete.tableName typ ∧
    sampleDelete.tableName.getLast? = some table ∧
    tableContext (nameOps asciiUp) sampleCtx sampleDelete.tableName typ = .ok sc ∧
    IsScope asciiUp sampleCtx table typ.attributes sc ∧ LogicalOrAbsent asciiUp sc sampleDelete.wher :=
  (C69_delete _ _ sampleCtx_ok sampleDelete fun typ h => users_resolves typ h ▸ usersRow_distinct).1 rfl

/-- `DELETE FROM users WHERE id` is not accepted. -/
example : (DeleteStatement.mk [Name.ofString "users"]
    (some (.ident [Name.ofString "id"]))).validateType (nameOps asciiUp) sampleCtx = err .whereBoolean := rfl

/-! ## C67 -/

/-- `SELECT 1 AS <name>, …`. -/
def selectNames (names : List String) : ResultColumns Name :=
  .list (names.map fun n => .expr (.literal (.numeric "1".toList)) (some (Name.ofString n)))

/-- C67, refuted: `SELECT 1 AS a1, 1 AS a, 1 AS a` has two columns named `a1`. -/
theorem C67_distinct_columns_refuted :
    inferColumns (nameOps asciiUp) (ScalarContext.new sampleCtx) [] (selectNames ["a1", "a", "a"]) =
      .ok (.plain [⟨Name.ofString "a1", .numeric, false⟩, ⟨Name.ofString "a", .numeric, false⟩,
        ⟨Name.ofString "a1", .numeric, false⟩]) := rfl

/-- The names asked for by the columns of a query: the aliases, `col`, and the columns of the relations listed with
`.*`; for `*` the columns of all relations. -/
def askedNames (up : Char → List Char) (sc : ScalarContext Name) (attributes : List (Attribute Name)) :
    ResultColumns Name → List Name
  | .all => attributes.map Attribute.name
  | .list cs => requestedNames up sc cs

theorem inferColumns_asked {up : Char → List Char} {sc : ScalarContext Name} {attributes : List (Attribute Name)}
    {columns : ResultColumns Name} {result : RowType Name}
    (h : inferColumns (nameOps up) sc attributes columns = .ok result) :
    ∃ reqs : List (Attribute Name), reqs.map Attribute.name = askedNames up sc attributes columns ∧
      result.attributes = (generateColumns (nameOps up) [] reqs).1 := by
  cases columns with
  | all =>
    cases h
    exact ⟨attributes, rfl, rfl⟩
  | list cs =>
    unfold inferColumns at h
    obtain ⟨as, h1, h2⟩ := Chk.bind_eq_ok.1 h
    cases h2
    exact inferColumnList_eq h1

/-- C67, for names asked for that do not clash: the columns of a result are pairwise different.  Missing: names that
clash; `C67_clash_refuted` says when two columns get the same name. -/
theorem C67_distinct_columns_partial (up : Char → List Char) (hup : FixesDigits up)
    (sc : ScalarContext Name) (attributes : List (Attribute Name)) (columns : ResultColumns Name)
    (result : RowType Name) (h : inferColumns (nameOps up) sc attributes columns = .ok result)
    (hn : ¬ Clash up (askedNames up sc attributes columns)) :
    DistinctColumns up result.attributes := by
  obtain ⟨reqs, h1, h2⟩ := inferColumns_asked h
  rw [h2]
  exact distinct_of_no_clash hup reqs (h1 ▸ hn)

/-- C67, refuted for all names: whenever the name `n`, which is not itself a name asked for with a number, is asked for
after `k` requests of it and after a request of the name `n` with the number `k`, two columns have the same name. -/
theorem C67_clash_refuted (up : Char → List Char) (hup : FixesDigits up) (sc : ScalarContext Name)
    (attributes : List (Attribute Name)) (columns : ResultColumns Name) (result : RowType Name)
    (h : inferColumns (nameOps up) sc attributes columns = .ok result) (pre post : List Name) (n : Name)
    (ha : askedNames up sc attributes columns = pre ++ n :: post)
    (hb : ∀ m ∈ askedNames up sc attributes columns, ∀ j, 1 ≤ j → n.upper up ≠ m.upper up ++ Nat.toDigits 10 j)
    (h1 : 1 ≤ times up pre n) (hm : ∃ m ∈ pre, m.upper up = n.upper up ++ Nat.toDigits 10 (times up pre n)) :
    ¬ DistinctColumns up result.attributes := by
  obtain ⟨reqs, h2, h3⟩ := inferColumns_asked h
  rw [ha] at h2 hb
  obtain ⟨r1, r2, rfl, rfl, h5⟩ := List.map_eq_append_iff.1 h2
  obtain ⟨a, r3, rfl, rfl, rfl⟩ := List.map_eq_cons_iff.1 h5
  rw [h3]
  exact collide hup r1 r3 a (by simpa using hb) h1 hm

theorem asciiUp_digits : FixesDigits asciiUp := by
  intro c hc
  have h : c.val ≥ 48 ∧ c.val ≤ 57 := by simpa [Char.isDigit] using hc
  unfold asciiUp Char.toUpper
  rw [dif_neg]
  rintro ⟨h1, h2⟩
  have h3 := h.2
  rw [UInt32.le_iff_toNat_le] at h1 h3
  exact absurd (Nat.le_trans h1 h3) (by decide)

def renamedColumns : RowType Name :=
  .plain (["a", "A1", "a2", "b", "a3", "x1", "x11"].map fun n => ⟨Name.ofString n, .numeric, false⟩)

/-- `a, A, a, b, a3, x1, x1` become `a, A1, a2, b, a3, x1, x11`. -/
theorem renamedColumns_ok : inferColumns (nameOps asciiUp) (ScalarContext.new sampleCtx) []
    (selectNames ["a", "A", "a", "b", "a3", "x1", "x1"]) = .ok renamedColumns := by
  exact (rfl : inferColumns (nameOps asciiUp) (ScalarContext.new sampleCtx) []
    (selectNames ["a", "A", "a", "b", "a3", "x1", "x1"]) = .ok renamedColumns)

/-- A bounded search for clashes, for the examples. -/
theorem no_clash_of_check {names : List Name} (h : ∀ n ∈ names, ∀ m ∈ names, ∀ k ∈ List.range names.length, 1 ≤ k →
    k < times asciiUp names n → m.upper asciiUp ≠ n.upper asciiUp ++ Nat.toDigits 10 k) : ¬ Clash asciiUp names := by
  rintro ⟨n, hn, m, hm, k, h1, h2, h3⟩
  refine h n hn m hm k (List.mem_range.2 (Nat.lt_of_lt_of_le h2 ?_)) h1 h2 h3
  unfold times
  exact Nat.le_trans List.count_le_length (by simp)

example : DistinctColumns asciiUp renamedColumns.attributes := by
  refine C67_distinct_columns_partial asciiUp asciiUp_digits _ _ _ _ renamedColumns_ok ?_
  exact no_clash_of_check (names := ["a", "A", "a", "b", "a3", "x1", "x1"].map Name.ofString) (by decide +kernel)

/-- The third column of `SELECT 1 AS a1, 1 AS a, 1 AS a`. -/
example : ¬ DistinctColumns asciiUp
    [⟨Name.ofString "a1", .numeric, false⟩, ⟨Name.ofString "a", .numeric, false⟩,
      ⟨Name.ofString "a1", .numeric, false⟩] := by
  refine C67_clash_refuted asciiUp asciiUp_digits _ _ _ _ C67_distinct_columns_refuted
    [Name.ofString "a1", Name.ofString "a"] [] (Name.ofString "a") rfl ?_ (by decide) ⟨_, List.mem_cons_self, by decide⟩
  intro m hm j _ he
  have hl := congrArg List.length he
  have hd : (Nat.toDigits 10 j).length ≠ 0 := fun h => Nat.toDigits_ne_nil (List.length_eq_zero_iff.1 h)
  have hmem : ∀ m ∈ ["a1", "a", "a"].map Name.ofString, 1 ≤ (m.upper asciiUp).length := by decide
  have h1 := hmem m hm
  rw [List.length_append, show (Name.upper asciiUp (Name.ofString "a")).length = 1 by decide] at hl
  omega

/-- C67, the names given: every column has the name asked for if no column before it has this name up to case, and else
that name with a number, one more than the requests of the name since a column was given it. -/
theorem C67_names (up : Char → List Char) (sc : ScalarContext Name) (attributes : List (Attribute Name))
    (columns : ResultColumns Name) (result : RowType Name)
    (h : inferColumns (nameOps up) sc attributes columns = .ok result) :
    let asked := askedNames up sc attributes columns
    let given := result.attributes.map Attribute.name
    given.length = asked.length ∧ ∀ (i : Nat) (n : Name), asked[i]? = some n →
      given[i]? = some (nameGiven up (columnsBefore asked given i) n) := by
  obtain ⟨reqs, h1, h2⟩ := inferColumns_asked h
  intro asked given
  have hg : given = (generateColumns (nameOps up) [] reqs).1.map Attribute.name := by rw [← h2]
  have ha : asked = reqs.map Attribute.name := h1.symm
  rw [hg, ha]
  exact ⟨by simp [generateColumns_length], generateColumns_names reqs⟩

/-- C67, exactly: the columns of a result are pairwise different if and only if no column is given a name with its
number which a column before it has already. -/
theorem C67_exactly (up : Char → List Char) (sc : ScalarContext Name) (attributes : List (Attribute Name))
    (columns : ResultColumns Name) (result : RowType Name)
    (h : inferColumns (nameOps up) sc attributes columns = .ok result) :
    let asked := askedNames up sc attributes columns
    let given := result.attributes.map Attribute.name
    DistinctColumns up result.attributes ↔
      ∀ (i : Nat) (n : Name) (k : Nat), asked[i]? = some n → since up (columnsBefore asked given i) n = some k →
        ∀ p ∈ given.take i, ¬ SameName up p ⟨n.string ++ Nat.toDigits 10 (k + 1)⟩ := by
  obtain ⟨reqs, h1, h2⟩ := inferColumns_asked h
  intro asked given
  have hg : given = (generateColumns (nameOps up) [] reqs).1.map Attribute.name := by rw [← h2]
  have ha : asked = reqs.map Attribute.name := h1.symm
  rw [hg, ha, h2]
  exact generateColumns_distinct_iff reqs

/-- `a, a1, a, a1, A` become `a, a1, a1, a11, A2`: the request of `a1` at the fourth place starts again at 1, since the
third column was given that name. -/
theorem repeatedNames_ok : inferColumns (nameOps asciiUp) (ScalarContext.new sampleCtx) []
    (selectNames ["a", "a1", "a", "a1", "A"]) =
      .ok (.plain (["a", "a1", "a1", "a11", "A2"].map fun n => ⟨Name.ofString n, .numeric, false⟩)) := by
  exact (rfl : inferColumns (nameOps asciiUp) (ScalarContext.new sampleCtx) []
    (selectNames ["a", "a1", "a", "a1", "A"]) =
      .ok (.plain (["a", "a1", "a1", "a11", "A2"].map fun n => ⟨Name.ofString n, .numeric, false⟩)))

example : nameGiven asciiUp (columnsBefore (["a", "a1", "a", "a1", "A"].map Name.ofString)
      (["a", "a1", "a1", "a11", "A2"].map Name.ofString) 3) (Name.ofString "a1") = Name.ofString "a11" := by
  decide +kernel

example : ¬ DistinctColumns asciiUp
    (["a", "a1", "a1", "a11", "A2"].map fun n => (⟨Name.ofString n, .numeric, false⟩ : Attribute Name)) :=
  fun h => (C67_exactly asciiUp _ _ _ _ repeatedNames_ok).1 h 2 (Name.ofString "a") 0 (by decide +kernel)
    (by decide +kernel) (Name.ofString "a1") (by decide +kernel) (by unfold SameName; decide +kernel)

/-! ## C68 -/

/-- C68, refuted: `VALUES (1, 2), (3)` is accepted and has one column; `VALUES (1, 'x') UNION VALUES (2)`
is accepted and has one column. -/
theorem C68_equal_arity_refuted :
    let one : Expr Name := .literal (.numeric "1".toList)
    let text : Expr Name := .literal (.string "x".toList)
    let answer := RowType.plain [⟨Name.ofString "_col0", .numeric, false⟩]
    inferSetExpr (nameOps asciiUp) sampleCtx (.values [[one, one], [one]]) = .ok answer ∧
    inferSetExpr (nameOps asciiUp) sampleCtx (.values [[one], [one, text]]) = .ok answer ∧
    inferSetExpr (nameOps asciiUp) sampleCtx (.op .union (.values [[one, text]]) (.values [[one]]))
      = .ok answer := ⟨rfl, rfl, rfl⟩

/-- C68, for the common prefix: accepted VALUES have as many columns as their shortest row, and each of
these columns has the same type in all rows and admits NULL exactly if some row does.  Missing: that the
rows have the same length, which is false. -/
theorem C68_values_partial (up : Char → List Char) (ctx : SetContext Name) (row : List (Expr Name))
    (rows : List (List (Expr Name))) (result : RowType Name)
    (h : inferSetExpr (nameOps up) ctx (.values (row :: rows)) = .ok result) :
    result.attributes.length = rows.foldl (fun m r => min m r.length) row.length ∧
    ValuesColumns up (ScalarContext.new ctx) (row :: rows) result.attributes := by
  unfold inferSetExpr at h
  obtain ⟨as, h1, h⟩ := Chk.bind_eq_ok.1 h
  cases h
  exact inferValues_ok h1

/-- C68. Rows of equal length are accepted exactly if each column has a type. -/
theorem C68_values_rectangular (up : Char → List Char) (ctx : SetContext Name) (row : List (Expr Name))
    (rows : List (List (Expr Name))) (hw : ∀ r ∈ rows, r.length = row.length) :
    (∃ result, inferSetExpr (nameOps up) ctx (.values (row :: rows)) = .ok result) ↔
      ∀ i, i < row.length → ∃ typ n, ColumnType up (ScalarContext.new ctx) (row :: rows) i typ n := by
  constructor
  · rintro ⟨result, h⟩ i hi
    obtain ⟨h1, h2⟩ := C68_values_partial up ctx row rows result h
    have hl : result.attributes.length = row.length := by
      rw [h1]
      clear h1 h2 h
      induction rows with
      | nil => rfl
      | cons r rows ih =>
        rw [List.foldl_cons, hw r List.mem_cons_self, Nat.min_self]
        exact ih fun r hr => hw r (List.mem_cons_of_mem _ hr)
    have hi' : i < result.attributes.length := by omega
    exact ⟨_, _, (h2 i result.attributes[i] (List.getElem?_eq_getElem hi')).2⟩
  · intro h
    obtain ⟨as, h1⟩ := inferValues_complete h
    refine ⟨.plain as, ?_⟩
    unfold inferSetExpr
    rw [h1, Chk.bind_ok]
    rfl

/-- C68, for the common prefix: a set operation is accepted exactly if both operands are and their columns
have the same types as far as both go; the result has the columns of the shorter one, with the names of
the left operand, admitting NULL where one of the two does.  Missing: that both have the same number of
columns, which is false. -/
theorem C68_set_operation_partial (up : Char → List Char) (ctx : SetContext Name) (op : SetOperator)
    (left right : SetExpr Name) (result : RowType Name) :
    inferSetExpr (nameOps up) ctx (.op op left right) = .ok result ↔
      ∃ lt rt, inferSetExpr (nameOps up) ctx left = .ok lt ∧ inferSetExpr (nameOps up) ctx right = .ok rt ∧
        result.primaryKey = [] ∧ result.orderBy = [] ∧
        result.attributes.length = min lt.attributes.length rt.attributes.length ∧
        ∀ (i : Nat) (l r : Attribute Name), lt.attributes[i]? = some l → rt.attributes[i]? = some r →
          l.typ = r.typ ∧ result.attributes[i]? = some ⟨l.name, l.typ, l.isNull || r.isNull⟩ := by
  rw [show inferSetExpr (nameOps up) ctx (.op op left right) =
    (do let lt ← inferSetExpr (nameOps up) ctx left
        let rt ← inferSetExpr (nameOps up) ctx right
        return .plain (← unifyAttributes lt.attributes rt.attributes) : Chk (RowType Name)) from by
      rw [inferSetExpr]]
  constructor
  · intro h
    obtain ⟨lt, h1, h⟩ := Chk.bind_eq_ok.1 h
    obtain ⟨rt, h2, h⟩ := Chk.bind_eq_ok.1 h
    obtain ⟨as, h3, h⟩ := Chk.bind_eq_ok.1 h
    cases h
    exact ⟨lt, rt, h1, h2, rfl, rfl, unifyAttributes_ok_iff.1 h3⟩
  · rintro ⟨lt, rt, h1, h2, h3, h4, h5⟩
    rw [h1, Chk.bind_ok, h2, Chk.bind_ok, unifyAttributes_ok_iff.2 h5, Chk.bind_ok]
    obtain ⟨as, pk, ob⟩ := result
    cases h3
    cases h4
    rfl

/-- `VALUES (1, 'x'), (2, 'y')`. -/
def rectangular : List (List (Expr Name)) :=
  [[.literal (.numeric "1".toList), .literal (.string "x".toList)],
    [.literal (.numeric "2".toList), .literal (.string "y".toList)]]

theorem rectangular_ok : inferSetExpr (nameOps asciiUp) sampleCtx (.values rectangular) =
    .ok (.plain [⟨Name.ofString "_col0", .numeric, false⟩, ⟨Name.ofString "_col1", .varchar, false⟩]) := rfl

example : ∀ i, i < 2 → ∃ typ n, ColumnType asciiUp (ScalarContext.new sampleCtx) rectangular i typ n :=
  (C68_values_rectangular asciiUp sampleCtx _ _
    (by intro r hr; cases List.mem_singleton.1 hr; rfl)).1 ⟨_, rectangular_ok⟩

example : inferSetExpr (nameOps asciiUp) sampleCtx
    (.values [[.literal (.numeric [])], [.literal (.string [])]]) = err .incompatible := rfl

example : inferSetExpr (nameOps asciiUp) sampleCtx
    (.op .except (.values rectangular) (.values rectangular)) =
    .ok (.plain [⟨Name.ofString "_col0", .numeric, false⟩, ⟨Name.ofString "_col1", .varchar, false⟩]) := rfl

end Verif.Props
