import Verif.Proof.SqlSchema

/-! # C59–C61: SQL names, the schema catalogue, table names -/

namespace Verif.Props

open Verif Sql

/-- Upper-casing of ASCII letters only. -/
def asciiUp (c : Char) : List Char := [c.toUpper]

/-- C59. Equality of names is an equivalence that depends only on the upper-case form, whatever
`char::to_uppercase` does. -/
theorem C59_equality (up : Char → List Char) (a b c : Name) :
    (a.eq up b = true ↔ SameName up a b) ∧ a.eq up a = true ∧ (a.eq up b = true → b.eq up a = true) ∧
    (a.eq up b = true → b.eq up c = true → a.eq up c = true) ∧
    (a.eqStr up b.string = true ↔ SameName up a b) := by
  have h : ∀ a b : Name, a.eq up b = true ↔ SameName up a b := fun a b => iterEq_iff _ _
  refine ⟨h a b, (h a a).2 rfl, fun hab => (h b a).2 (Eq.symm ((h a b).1 hab)), fun hab hbc =>
    (h a c).2 (Eq.trans ((h a b).1 hab) ((h b c).1 hbc)), ?_⟩
  exact iterEq_iff _ _

/-- C59. The ordering of names is the lexicographic order of the upper-case forms; so it is a total order
up to `==`, and the two agree. -/
theorem C59_order (up : Char → List Char) (a b : Name) :
    (a.cmp up b = .lt ↔ a.upper up < b.upper up) ∧ (a.cmp up b = .gt ↔ b.upper up < a.upper up) ∧
    (a.cmp up b = .eq ↔ a.eq up b = true) ∧ a.partialCmp up b = some (a.cmp up b) ∧
    a.partialCmpStr up b.string = some (a.cmp up b) ∧ b.cmp up a = (a.cmp up b).swap := by
  have hl : ∀ a b : Name, a.cmp up b = .lt ↔ a.upper up < b.upper up := fun a b => iterCmp_lt_iff _ _
  have hg : ∀ a b : Name, a.cmp up b = .gt ↔ b.upper up < a.upper up := fun a b => iterCmp_gt_iff _ _
  have he : ∀ a b : Name, a.cmp up b = .eq ↔ a.upper up = b.upper up := fun a b => iterCmp_eq_iff _ _
  refine ⟨hl a b, hg a b, (he a b).trans (iterEq_iff _ _).symm, rfl, rfl, ?_⟩
  cases h : a.cmp up b with
  | lt => exact (hg b a).2 ((hl a b).1 h)
  | gt => exact (hl b a).2 ((hg a b).1 h)
  | eq => exact (he b a).2 ((he a b).1 h).symm

/-- C59. The ordering is transitive. -/
theorem C59_transitive (up : Char → List Char) (a b c : Name) (hab : a.cmp up b = .lt)
    (hbc : b.cmp up c = .lt) : a.cmp up c = .lt := by
  have hl : ∀ a b : Name, a.cmp up b = .lt ↔ a.upper up < b.upper up := fun a b => iterCmp_lt_iff _ _
  exact (hl a c).2 (List.lt_trans ((hl a b).1 hab) ((hl b c).1 hbc))

example : (Name.ofString "Users").eq asciiUp (Name.ofString "uSERS") = true ∧
    (Name.ofString "b").cmp asciiUp (Name.ofString "A") = .gt ∧
    (Name.ofString "user").cmp asciiUp (Name.ofString "Users") = .lt ∧
    (Name.ofString "a_b").eqStr asciiUp "A_B".toList = true := by decide

/-- Of equal names that are collected into a map, `collect` keeps the first and `collectLast` the last. -/
example : (TMap.collect (nameOps asciiUp) [(Name.ofString "id", 1), (Name.ofString "b", 2), (Name.ofString "ID", 3)])
      = [(Name.ofString "b", 2), (Name.ofString "id", 3)] ∧
    (TMap.collectLast (nameOps asciiUp) [(Name.ofString "id", 1), (Name.ofString "b", 2), (Name.ofString "ID", 3)])
      = [(Name.ofString "b", 2), (Name.ofString "ID", 3)] := by decide

/-- C60. Any sequence of `create_schema` calls on a new database: no call panics; a call succeeds exactly
if no earlier name is the same up to case, and otherwise reports it; afterwards the catalogue holds, once
each and in the order of the names, an empty schema for the first spelling of each name. -/
theorem C60_create_schema (up : Char → List Char) (calls : List Name) :
    ∃ db results, creates (nameOps up) Database.new calls = .ok (db, results) ∧
      Sorted up db.schemata ∧ results.length = calls.length ∧
      (∀ n s, (n, s) ∈ db.schemata ↔ s = Schema.new n ∧ FirstSpelling up calls n) ∧
      (∀ (i : Nat) (n : Name), calls[i]? = some n →
        (results[i]? = some (.ok ()) ↔ ∀ j : Nat, j < i → ∀ m, calls[j]? = some m → ¬ SameName up m n) ∧
        (results[i]? = some (.error .alreadyDefined) ↔
          ∃ j : Nat, j < i ∧ ∃ m, calls[j]? = some m ∧ SameName up m n)) := by
  obtain ⟨db, rs, h1, h2, h3, h4, h5⟩ := creates_spec (up := up) calls Database.new built_new
  have hno : ∀ m : Name, ¬ m ∈ (Database.new : Database Name).names := fun m h => by cases h
  refine ⟨db, rs, h1, h2.sorted, h3, ?_, ?_⟩
  · intro n s
    rw [h4 (n, s)]
    constructor
    · rintro (h | ⟨h, h', _⟩)
      · cases h
      · exact ⟨h, h'⟩
    · rintro ⟨h, h'⟩
      exact .inr ⟨h, h', fun m hm => absurd hm (hno m)⟩
  · intro i n hi
    rcases h5 i n hi with ⟨h, _, h'⟩ | ⟨h, ⟨m, hm, _⟩ | ⟨j, hj, m, hm, hs⟩⟩
    · rw [h]
      refine ⟨⟨fun _ => h', fun _ => rfl⟩, ⟨(fun h => by cases h), ?_⟩⟩
      rintro ⟨j, hj, m, hm, hs⟩
      exact absurd hs (h' j hj m hm)
    · exact absurd hm (hno m)
    · rw [h]
      refine ⟨⟨(fun h => by cases h), fun h => absurd hs (h j hj m hm)⟩, ⟨fun _ => ⟨j, hj, m, hm, hs⟩, fun _ => rfl⟩⟩

/-- C60. A failing `create_schema` leaves the database as it was. -/
theorem C60_create_again (up : Char → List Char) (db db' : Database Name) (n : Name) (e : SchemaError)
    (h : db.createSchema (nameOps up) n = .ok (db', .error e)) :
    db' = db ∧ e = .alreadyDefined ∧ ∃ s, Entry up db.schemata n s := by
  by_cases hc : db.schemata.containsKey (nameOps up) n = true
  · rw [createSchema_taken hc] at h
    cases h
    exact ⟨rfl, rfl, containsKey_iff_entry.1 hc⟩
  · rw [createSchema_fresh hc] at h
    cases h

/-- C60. `describe` returns the columns of the named table or view of the named schema; it reports the
schema or else the object as missing exactly when they are. -/
theorem C60_describe (up : Char → List Char) (db : Database Name) (hs : Sorted up db.schemata)
    (ho : ∀ e ∈ db.schemata, Sorted up e.2.objects) (schema object : Name) :
    (∀ rows, db.describe (nameOps up) schema object = .ok rows ↔
      ∃ s o, Entry up db.schemata schema s ∧ Entry up s.objects object o ∧ rows = o.rowSet) ∧
    (db.describe (nameOps up) schema object = .error .schemaNotFound ↔
      ∀ s, ¬ Entry up db.schemata schema s) ∧
    (db.describe (nameOps up) schema object = .error .objectNotFound ↔
      ∃ s, Entry up db.schemata schema s ∧ ∀ o, ¬ Entry up s.objects object o) := by
  unfold Database.describe
  have hfun : ∀ {V : Type} {m : TMap Name V} {k : Name} {v w : V}, Sorted up m → Entry up m k v →
      Entry up m k w → v = w := by
    intro V m k v w hm hv hw
    have h1 := (get_iff_entry up hm).2 hv
    have h2 := (get_iff_entry up hm).2 hw
    rw [h1] at h2
    exact Option.some.inj h2
  cases h1 : db.schemata.get (nameOps up) schema with
  | none =>
    have hn := (get_none_iff up).1 h1
    refine ⟨fun rows => ⟨(fun h => by cases h), ?_⟩, ⟨fun _ => hn, fun _ => rfl⟩, ⟨(fun h => by cases h), ?_⟩⟩
    · rintro ⟨s, _, h, _⟩
      exact absurd h (hn s)
    · rintro ⟨s, h, _⟩
      exact absurd h (hn s)
  | some s =>
    have he := (get_iff_entry up hs).1 h1
    obtain ⟨e, hem, hes, rfl⟩ := id he
    have hso := ho e hem
    simp only
    cases h2 : e.2.objects.get (nameOps up) object with
    | none =>
      have hn := (get_none_iff up).1 h2
      refine ⟨fun rows => ⟨(fun h => by cases h), ?_⟩, ⟨(fun h => by cases h), fun h => absurd he (h _)⟩,
        ⟨fun _ => ⟨_, he, hn⟩, fun _ => rfl⟩⟩
      rintro ⟨s', o, h, ho', _⟩
      obtain rfl := hfun hs he h
      exact absurd ho' (hn o)
    | some o =>
      have heo := (get_iff_entry up hso).1 h2
      refine ⟨fun rows => ⟨?_, ?_⟩, ⟨?_, fun h => absurd he (h _)⟩, ⟨?_, ?_⟩⟩
      · intro h
        refine ⟨_, o, he, heo, ?_⟩
        cases o <;> exact (Except.ok.inj h).symm
      · rintro ⟨s', o', h, ho', rfl⟩
        obtain rfl := hfun hs he h
        obtain rfl := hfun hso heo ho'
        cases o <;> rfl
      · intro h
        cases o <;> cases h
      · intro h
        cases o <;> cases h
      · rintro ⟨s', h, hn⟩
        obtain rfl := hfun hs he h
        exact absurd heo (hn o)

/-- C60. Tables and views cannot be created: both functions panic. -/
theorem C60_create_table_panics (db : Database Name) (schema object : Name)
    (columns : List (Column Name)) (query : List Char) :
    db.createTable schema object columns = .error .panic ∧ db.createView schema object query = .error .panic :=
  ⟨rfl, rfl⟩

/-- The second spelling of `main` is rejected and the catalogue is sorted. -/
example : creates (nameOps asciiUp) Database.new
    [Name.ofString "main", Name.ofString "Aux", Name.ofString "MAIN"] =
    .ok (⟨[(Name.ofString "Aux", Schema.new (Name.ofString "Aux")),
      (Name.ofString "main", Schema.new (Name.ofString "main"))]⟩,
      [.ok (), .ok (), .error .alreadyDefined]) := by rfl

/-! ## A small database used in the examples -/

/-- `users (id NUMERIC NOT NULL PRIMARY KEY, name VARCHAR, active LOGICAL)`. -/
def usersTable : SchemaObject Name :=
  .table (Name.ofString "users") ⟨[⟨Name.ofString "id", true, true, .numeric⟩,
    ⟨Name.ofString "name", false, false, .varchar⟩, ⟨Name.ofString "active", false, false, .logical⟩]⟩
    [Name.ofString "id"]

/-- `counts (n NUMERIC NOT NULL)`, a view. -/
def countsView : SchemaObject Name :=
  .view (Name.ofString "counts") ⟨[⟨Name.ofString "n", true, false, .numeric⟩]⟩ "SELECT 1".toList

def sampleDb : Database Name :=
  ⟨[(Name.ofString "aux", ⟨Name.ofString "aux", [(Name.ofString "counts", countsView)]⟩),
    (Name.ofString "main", ⟨Name.ofString "main", [(Name.ofString "users", usersTable)]⟩)]⟩

def sampleCtx : SetContext Name := SetContext.new (nameOps asciiUp) sampleDb (Name.ofString "MAIN")

def usersRow : RowType Name :=
  ⟨[⟨Name.ofString "id", .numeric, false⟩, ⟨Name.ofString "name", .varchar, true⟩,
    ⟨Name.ofString "active", .logical, true⟩], [Name.ofString "id"], []⟩

theorem sampleCtx_ok : sampleCtx.Ok asciiUp := setContext_new_ok _ _

/-- The hypotheses of `C60_describe` hold of it. -/
example : Sorted asciiUp sampleDb.schemata ∧ (∀ e ∈ sampleDb.schemata, Sorted asciiUp e.2.objects) ∧
    sampleDb.describe (nameOps asciiUp) (Name.ofString "Main") (Name.ofString "USERS") = .ok usersTable.rowSet ∧
    sampleDb.describe (nameOps asciiUp) (Name.ofString "aux") (Name.ofString "Counts") = .ok countsView.rowSet ∧
    sampleDb.describe (nameOps asciiUp) (Name.ofString "aux") (Name.ofString "users") = .error .objectNotFound ∧
    sampleDb.describe (nameOps asciiUp) (Name.ofString "x") (Name.ofString "users") = .error .schemaNotFound := by
  refine ⟨?_, ?_, rfl, rfl, rfl, rfl⟩
  · refine List.pairwise_cons.2 ⟨?_, List.pairwise_singleton _ _⟩
    intro b hb
    cases List.mem_singleton.1 hb
    show (_ : List Char) < _
    decide
  · intro e he
    rcases List.mem_cons.1 he with rfl | he
    · exact List.pairwise_singleton _ _
    · cases List.mem_singleton.1 he
      exact List.pairwise_singleton _ _

/-- C61. A table name resolves exactly as `Resolves` says, in every context whose maps are maps. -/
theorem C61_resolve (up : Char → List Char) (ctx : SetContext Name) (hc : ctx.Ok up) (q : List Name)
    (r : RowType Name) : ctx.resolveTableName (nameOps up) q = .ok r ↔ Resolves up ctx q r :=
  resolve_ok_iff hc q r

/-- C61. The contexts made by `SetContext::new` and `SetContext::initialize` are such contexts. -/
theorem C61_contexts (up : Char → List Char) (db : Database Name) (d : Name) (ctes : List (Cte Name)) :
    (SetContext.new (nameOps up) db d).Ok up ∧
    ∀ ctx, SetContext.initialize (nameOps up) db d ctes = .ok ctx → ctx.Ok up :=
  ⟨setContext_new_ok db d, fun _ h => initializeFrom_ok (setContext_new_ok db d) h⟩

/-- C61. A name resolves to at most one row type. -/
theorem C61_unique (up : Char → List Char) (ctx : SetContext Name) (hc : ctx.Ok up) (q : List Name)
    (r r' : RowType Name) (h : Resolves up ctx q r) (h' : Resolves up ctx q r') : r = r' := by
  have h1 := (resolve_ok_iff hc q r).2 h
  rw [(resolve_ok_iff hc q r').2 h'] at h1
  exact (Except.ok.inj h1).symm

/-- C61. A name that does not resolve is an error, and a panic exactly if it has one part, is no common
table expression, and the default schema does not exist. -/
theorem C61_unresolved (up : Char → List Char) (ctx : SetContext Name) (hc : ctx.Ok up) (q : List Name)
    (h : ∀ r, ¬ Resolves up ctx q r) :
    (∃ e, ctx.resolveTableName (nameOps up) q = .error (.err e)) ∨
    (ctx.resolveTableName (nameOps up) q = .error .panic ∧ ∃ t, q = [t] ∧
      (∀ r, ¬ Entry up ctx.tableExpression t r) ∧ ¬ ctx.HasDefault up) := by
  cases hr : ctx.resolveTableName (nameOps up) q with
  | ok r => exact absurd ((resolve_ok_iff hc q r).1 hr) (h r)
  | error e =>
    cases e with
    | err e => exact .inl ⟨e, rfl⟩
    | panic => exact .inr ⟨rfl, (resolve_panic q).1 hr⟩

/-- Both ways to name a table, and a common table expression hiding a table. -/
example : Resolves asciiUp sampleCtx [Name.ofString "Users"] usersRow ∧
    Resolves asciiUp sampleCtx [Name.ofString "main", Name.ofString "USERS"] usersRow ∧
    (∀ r, ¬ Resolves asciiUp sampleCtx [Name.ofString "counts"] r) ∧
    Resolves asciiUp { sampleCtx with tableExpression := [(Name.ofString "USERS", .plain [])] }
      [Name.ofString "Users"] (.plain []) := by
  refine ⟨(C61_resolve _ _ sampleCtx_ok _ _).1 rfl, (C61_resolve _ _ sampleCtx_ok _ _).1 rfl, ?_, ?_⟩
  · intro r h
    have h1 := (C61_resolve _ _ sampleCtx_ok _ _).2 h
    have h2 : sampleCtx.resolveTableName (nameOps asciiUp) [Name.ofString "counts"] = err .tableNotFound := rfl
    rw [h2] at h1
    cases h1
  · exact .common ⟨_, List.mem_cons_self, (by show (_ : List Char) = _; decide), rfl⟩

end Verif.Props
