import Verif.Proof.SqlTables
import Verif.Props.SqlNames
/-! # C120: what a statement depends on -/

namespace Verif.Props

open Verif.Sql

/-- The check of a statement after its common table expressions, as a whole. -/
def checked (up : Char → List Char) (db : Database Name) (d : Name) (ctes : List (Cte Name)) (s : SqlStatement Name) :
    Chk Unit := do
  let ctx ← SetContext.initialize (nameOps up) db d ctes
  s.validateType (nameOps up) ctx

/-- C120. In contexts that resolve the table names in a statement alike, checking it has the same outcome: it is accepted in
both, or fails with the same error or panic in both. -/
theorem C120_contexts (up : Char → List Char) (ctx ctx' : SetContext Name) (P : List Name → Prop)
    (h : ∀ q, P q → ctx'.resolveTableName (nameOps up) q = ctx.resolveTableName (nameOps up) q)
    (s : SqlStatement Name) (hs : s.Tables P) :
    s.validateType (nameOps up) ctx' = s.validateType (nameOps up) ctx :=
  sqlStatement_agree h s hs

/-- C120. The row type of a query depends only on what the table names in it resolve to. -/
theorem C120_query (up : Char → List Char) (ctx ctx' : SetContext Name) (P : List Name → Prop)
    (h : ∀ q, P q → ctx'.resolveTableName (nameOps up) q = ctx.resolveTableName (nameOps up) q)
    (s : Select Name) (hs : s.Tables P) :
    inferSelect (nameOps up) ctx' s = inferSelect (nameOps up) ctx s :=
  inferSelect_agree h s hs

/-- C120. Two catalogues of which `describe` says the same about the tables that a statement and its common table
expressions name: checking it has the same outcome with both. -/
theorem C120_catalogue (up : Char → List Char) (db db' : Database Name) (d : Name)
    (hs : Sorted up db.schemata) (ho : ∀ e ∈ db.schemata, Sorted up e.2.objects)
    (hs' : Sorted up db'.schemata) (ho' : ∀ e ∈ db'.schemata, Sorted up e.2.objects) (P : List Name → Prop)
    (hP : ∀ q, P q → ∀ schema t, q = [schema, t] ∨ q = [t] ∧ schema = d →
      db'.describe (nameOps up) schema t = db.describe (nameOps up) schema t)
    (ctes : List (Cte Name)) (hc : Cte.TablesList P ctes) (s : SqlStatement Name) (ht : s.Tables P) :
    checked up db' d ctes s = checked up db d ctes s := by
  have h : Agree (nameOps up) P (SetContext.new (nameOps up) db d) (SetContext.new (nameOps up) db' d) :=
    fun q hq => new_agree hs ho hs' ho' d q (hP q hq)
  unfold checked SetContext.initialize
  rcases initializeFrom_agree ctes hc h rfl with ⟨e, h1, h2⟩ | ⟨c, c', h1, h2, h3⟩
  · rw [h1, h2]
  · rw [h1, h2]
    exact sqlStatement_agree h3 s ht

/-- C120. A new schema does not matter to the statements that do not name it. -/
theorem C120_create_schema (up : Char → List Char) (db db' : Database Name) (d n : Name)
    (hs : Sorted up db.schemata) (ho : ∀ e ∈ db.schemata, Sorted up e.2.objects)
    (hdb : db.createSchema (nameOps up) n = .ok (db', .ok ())) (hd : ¬ SameName up d n)
    (ctes : List (Cte Name)) (s : SqlStatement Name)
    (hc : Cte.TablesList (fun q => ∀ schema t, q = [schema, t] → ¬ SameName up schema n) ctes)
    (ht : s.Tables fun q => ∀ schema t, q = [schema, t] → ¬ SameName up schema n) :
    checked up db' d ctes s = checked up db d ctes s := by
  have hfresh : ¬ db.schemata.containsKey (nameOps up) n = true := by
    intro h
    rw [createSchema_taken h] at hdb
    cases hdb
  rw [createSchema_fresh hfresh] at hdb
  cases hdb
  refine C120_catalogue up db _ d hs ho (TMap.insert_increasing (keyed_nameOps up) hs _ _) ?_ _ ?_ ctes hc s ht
  · intro e he
    rcases TMap.mem_insert he with h | rfl | ⟨h, _⟩
    · exact ho e h
    · exact List.Pairwise.nil
    · rw [h]
      exact List.Pairwise.nil
  · intro q hq schema t hst
    have hne : ¬ SameName up schema n := by
      rcases hst with rfl | ⟨_, rfl⟩
      · exact hq schema t rfl
      · exact hd
    unfold Database.describe
    simp only
    rw [TMap.get_insert (keyed_nameOps up), if_neg (show ¬ schema.upper up = n.upper up from hne)]

/-- C61. A table of the catalogue has, in statements, the columns that `describe` gives, in this order, with their
names and types; a column can be NULL exactly if it is not `NOT NULL`.  The primary key has the names of the columns
marked so, and there is no order. -/
theorem C61_columns (up : Char → List Char) (db : Database Name) (hs : Sorted up db.schemata)
    (ho : ∀ e ∈ db.schemata, Sorted up e.2.objects) (d s t : Name) (rows : RowSet Name)
    (h : db.describe (nameOps up) s t = .ok rows) :
    ∃ r : RowType Name,
      (SetContext.new (nameOps up) db d).resolveTableName (nameOps up) [s, t] = .ok r ∧
      (SetContext.new (nameOps up) db s).resolveTableName (nameOps up) [t] = .ok r ∧
      r.attributes.length = rows.columns.length ∧
      (∀ (i : Nat) (c : Column Name) (a : Attribute Name), rows.columns[i]? = some c → r.attributes[i]? = some a →
        a.name = c.name ∧ a.typ = c.dataType ∧ (a.isNull = true ↔ ¬ c.notNull = true)) ∧
      (∀ n, n ∈ r.primaryKey ↔ ∃ c ∈ rows.columns, c.primaryKey = true ∧ c.name = n) ∧
      r.orderBy = [] := by
  obtain ⟨h1, h2⟩ := (resolve_new hs ho d s t).1 rows h
  refine ⟨_, h1, h2, ?_, ?_, ?_, rfl⟩
  · simp [RowType.ofRowSet]
  · intro i c a hc ha
    simp only [RowType.ofRowSet, List.getElem?_map, hc, Option.map_some, Option.some.injEq] at ha
    subst ha
    simp
  · intro n
    simp [RowType.ofRowSet, and_assoc]

/-- The columns of `users` in the example: `id`, the primary key, is not nullable. -/
example : ∃ rows r, sampleDb.describe (nameOps asciiUp) (Name.ofString "MAIN") (Name.ofString "Users") = .ok rows ∧
    (SetContext.new (nameOps asciiUp) sampleDb (Name.ofString "main")).resolveTableName (nameOps asciiUp)
      [Name.ofString "users"] = .ok r ∧ rows.columns.map (·.notNull) = r.attributes.map (fun a => !a.isNull) ∧
    rows.columns.any (·.notNull) = true ∧ rows.columns.all (·.notNull) = false :=
  ⟨_, _, rfl, rfl, rfl, rfl, rfl⟩

/-- The catalogue of the examples with one more table, `orders`, in the default schema. -/
def largerDb : Database Name :=
  ⟨[(Name.ofString "aux", ⟨Name.ofString "aux", [(Name.ofString "counts", countsView)]⟩),
    (Name.ofString "main", ⟨Name.ofString "main", [(Name.ofString "orders", countsView),
      (Name.ofString "users", usersTable)]⟩)]⟩

/-- `DELETE FROM users WHERE NOT name IN (SELECT col FROM t)`. -/
def deleteUsers : SqlStatement Name :=
  .statement (.delete ⟨[Name.ofString "users"], some (.unary .not (.inSet (.ident [Name.ofString "name"]) (.select (.mk []
    (.query .all (.list [.expr (.ident [Name.ofString "col"]) none]) [.named [Name.ofString "t"] none] none none)
    [] none))))⟩)

/-- `t (col) AS (SELECT name FROM Users)`. -/
def tOfUsers : Cte Name :=
  .mk (Name.ofString "t") (some [Name.ofString "col"]) (.mk [] (.query .all
    (.list [.expr (.ident [Name.ofString "name"]) none]) [.named [Name.ofString "Users"] none] none none) [] none)

theorem sampleDb_sorted : Sorted asciiUp sampleDb.schemata ∧ ∀ e ∈ sampleDb.schemata, Sorted asciiUp e.2.objects := by
  refine ⟨List.pairwise_cons.2 ⟨?_, List.pairwise_singleton _ _⟩, ?_⟩
  · intro b hb
    cases List.mem_singleton.1 hb
    show (_ : List Char) < _
    decide
  · intro e he
    rcases List.mem_cons.1 he with rfl | he
    · exact List.pairwise_singleton _ _
    · cases List.mem_singleton.1 he
      exact List.pairwise_singleton _ _

theorem largerDb_sorted : Sorted asciiUp largerDb.schemata ∧ ∀ e ∈ largerDb.schemata, Sorted asciiUp e.2.objects := by
  refine ⟨List.pairwise_cons.2 ⟨?_, List.pairwise_singleton _ _⟩, ?_⟩
  · intro b hb
    cases List.mem_singleton.1 hb
    show (_ : List Char) < _
    decide
  · intro e he
    rcases List.mem_cons.1 he with rfl | he
    · exact List.pairwise_singleton _ _
    · cases List.mem_singleton.1 he
      refine List.pairwise_cons.2 ⟨?_, List.pairwise_singleton _ _⟩
      intro b hb
      cases List.mem_singleton.1 hb
      show (_ : List Char) < _
      decide

/-- The table `orders` does not matter to `deleteUsers`. -/
example : checked asciiUp largerDb (Name.ofString "main") [tOfUsers] deleteUsers =
    checked asciiUp sampleDb (Name.ofString "main") [tOfUsers] deleteUsers := by
  refine C120_catalogue asciiUp sampleDb largerDb _ sampleDb_sorted.1 sampleDb_sorted.2 largerDb_sorted.1
    largerDb_sorted.2 (fun q => q = [Name.ofString "users"] ∨ q = [Name.ofString "Users"] ∨ q = [Name.ofString "t"])
    ?_ _ ?_ _ ?_
  · rintro q (rfl | rfl | rfl) schema t (h | ⟨h, rfl⟩) <;> cases h <;> rfl
  · simp [tOfUsers, Cte.TablesList, Select.Tables, SetExpr.Tables, ResultColumns.Tables, ResultColumn.TablesList,
      Expr.Tables, TableExpr.TablesList, TableExpr.Tables, Expr.TablesOption, GroupBy.TablesOption,
      OrderTerm.TablesList, Limit.TablesOption]
  · simp [deleteUsers, SqlStatement.Tables, Statement.Tables, Cte.TablesList, Select.Tables, SetExpr.Tables,
      ResultColumns.Tables, ResultColumn.TablesList, Expr.Tables, SetSpec.Tables, TableExpr.TablesList, TableExpr.Tables,
      Expr.TablesOption, GroupBy.TablesOption, OrderTerm.TablesList, Limit.TablesOption]

/-- It is accepted by both; `DELETE FROM orders`, which names the table, by one only. -/
example : checked asciiUp sampleDb (Name.ofString "main") [tOfUsers] deleteUsers = .ok () ∧
    checked asciiUp largerDb (Name.ofString "main") [] (.statement (.delete ⟨[Name.ofString "orders"], none⟩)) = .ok () ∧
    checked asciiUp sampleDb (Name.ofString "main") [] (.statement (.delete ⟨[Name.ofString "orders"], none⟩)) =
      err .tableNotFound := ⟨rfl, rfl, rfl⟩

/-- A new schema `x`: it does not matter to `DESCRIBE aux.counts`. -/
example : ∃ db', sampleDb.createSchema (nameOps asciiUp) (Name.ofString "x") = .ok (db', .ok ()) ∧
    ¬ SameName asciiUp (Name.ofString "main") (Name.ofString "x") ∧
    (SqlStatement.describe ⟨[Name.ofString "aux", Name.ofString "counts"]⟩).Tables
      fun q => ∀ schema t, q = [schema, t] → ¬ SameName asciiUp schema (Name.ofString "x") := by
  refine ⟨_, rfl, by unfold SameName; decide, ?_⟩
  intro schema t h
  cases h
  unfold SameName
  decide

end Verif.Props
