import Verif.Proof.SqlNotNull
import Verif.Props.SqlPanic

namespace Verif.Props

open Verif Sql Chk

/-- **C132**, as far as it holds.  In a catalogue in which more columns are NOT NULL and the table written to is the
same, an accepted statement without IN (other than in WHEN parts) is not rejected: it is accepted, or it panics.  Missing: IN,
for which this is false (`C132_in_refuted`); that there is no panic (`C132_panic_refuted`, `C132_accepted_partial`). -/
theorem C132_not_rejected_partial {N : Type} (ops : NameOps N) (db db' : Database N) (h : db.Stricter db') (d : N)
    (s : SqlStatement N) (hn : s.NoIn)
    (ht : ∀ q, s.target = some q → (SetContext.new ops db d).resolveTableName ops q =
      (SetContext.new ops db' d).resolveTableName ops q)
    (ha : s.validateType ops (SetContext.new ops db' d) = .ok ()) :
    s.validateType ops (SetContext.new ops db d) = .ok () ∨
      s.validateType ops (SetContext.new ops db d) = .error .panic :=
  (sqlStatement_finer (database_stricter h d) s hn ht () ha).symm.imp_left fun ⟨_, h, _⟩ => h

/-- **C132**, as far as it holds: safe statements (those of C64) are accepted. -/
theorem C132_accepted_partial (up : Char → List Char) (db db' : Database Name) (h : db.Stricter db') (d : Name)
    (hd : (SetContext.new (nameOps up) db d).HasDefault up) (s : SqlStatement Name) (hn : s.NoIn) (hs : s.Safe)
    (ht : ∀ q, s.target = some q → (SetContext.new (nameOps up) db d).resolveTableName (nameOps up) q =
      (SetContext.new (nameOps up) db' d).resolveTableName (nameOps up) q)
    (ha : s.validateType (nameOps up) (SetContext.new (nameOps up) db' d) = .ok ()) :
    s.validateType (nameOps up) (SetContext.new (nameOps up) db d) = .ok () :=
  (C132_not_rejected_partial _ db db' h d s hn ht ha).resolve_right (C64_no_panic_partial up _ hd s hs)

/-- **C132**, for queries: the columns have the same names and types, and no more of them can be NULL. -/
theorem C132_query_partial {N : Type} (ops : NameOps N) (ctx ctx' : SetContext N) (h : ctx.Stricter ops ctx')
    (s : Select N) (hn : s.NoIn) (r' : RowType N) (ha : inferSelect ops ctx' s = .ok r') :
    inferSelect ops ctx s = .error .panic ∨ ∃ r, inferSelect ops ctx s = .ok r ∧ r.Finer r' :=
  inferSelect_finer h s hn r' ha

/-- **C132**, the contexts of two catalogues. -/
theorem C132_contexts {N : Type} (ops : NameOps N) (db db' : Database N) (h : db.Stricter db') (d : N) :
    (SetContext.new ops db d).Stricter ops (SetContext.new ops db' d) := database_stricter h d

/-- `users` of the sample catalogue with `name VARCHAR NOT NULL`, and `users` and `limits (n NUMERIC [NOT NULL])`. -/
def nullDb (nameNotNull limitNotNull : Bool) : Database Name :=
  ⟨[(Name.ofString "main", ⟨Name.ofString "main",
    [(Name.ofString "limits", .table (Name.ofString "limits")
      ⟨[⟨Name.ofString "n", limitNotNull, false, .numeric⟩]⟩ []),
     (Name.ofString "users", .table (Name.ofString "users") ⟨[⟨Name.ofString "id", true, true, .numeric⟩,
      ⟨Name.ofString "name", nameNotNull, false, .varchar⟩]⟩ [Name.ofString "id"])]⟩)]⟩

/-- The context of it. -/
def nullCtx (nameNotNull limitNotNull : Bool) : SetContext Name :=
  SetContext.new (nameOps asciiUp) (nullDb nameNotNull limitNotNull) (Name.ofString "main")

theorem nullDb_stricter (a b : Bool) : (nullDb true true).Stricter (nullDb a b) :=
  .cons ⟨rfl, .cons ⟨rfl, .cons ⟨rfl, rfl, rfl, fun _ => rfl⟩ .nil⟩ (.cons ⟨rfl, .cons ⟨rfl, rfl, rfl, fun _ => rfl⟩
    (.cons ⟨rfl, rfl, rfl, fun _ => rfl⟩ .nil)⟩ .nil)⟩ .nil

/-- `SELECT id FROM users WHERE name IN ('x')` -/
def selectsIn : SqlStatement Name :=
  .statement (.select (.mk [] (.query .all (.list [.expr (.ident [Name.ofString "id"]) none])
    [.named [Name.ofString "users"] none]
    (some (.inSet (.ident [Name.ofString "name"]) (.list [sqlText]))) none) [] none))

/-- **C132**, refuted: a query that is accepted is rejected once the column is declared NOT NULL. -/
theorem C132_in_refuted :
    (nullDb true true).Stricter (nullDb false true) ∧
    selectsIn.validateType (nameOps asciiUp) (nullCtx false true) = .ok () ∧
    selectsIn.validateType (nameOps asciiUp) (nullCtx true true) = .error (.err .inIncompatible) :=
  ⟨nullDb_stricter _ _, by decide +kernel, by decide +kernel⟩

/-- `SELECT CASE WHEN (SELECT 1 LIMIT (SELECT n FROM limits) OFFSET 1 IN ()) THEN 1 END` -/
def selectsCase : SqlStatement Name :=
  .statement (.select (.mk [] (.query .all (.list [.expr (.case none [.mk (.select (.mk []
      (.query .all (.list [.expr sqlOne none]) [] none none) []
      (some (.mk (.select (.mk [] (.query .all (.list [.expr (.ident [Name.ofString "n"]) none])
        [.named [Name.ofString "limits"] none] none none) [] none)) (some inNothing))))) sqlOne] none) none])
    [] none none) [] none))

/-- **C132**, refuted: an accepted query can panic once a column is declared NOT NULL.  Its WHEN part has two flaws, and
as long as the first one is there the second, which panics, is not reached. -/
theorem C132_panic_refuted :
    (nullDb true true).Stricter (nullDb true false) ∧ selectsCase.NoIn ∧
    selectsCase.validateType (nameOps asciiUp) (nullCtx true false) = .ok () ∧
    selectsCase.validateType (nameOps asciiUp) (nullCtx true true) = .error .panic :=
  ⟨nullDb_stricter _ _, by simp [selectsCase, SqlStatement.NoIn, Statement.NoIn, Select.NoIn, SetExpr.NoIn,
    ResultColumns.NoIn, ResultColumn.NoIns, Expr.NoIn, Expr.NoInOption, When.NoIns, Cte.NoIns, OrderTerm.NoIns,
    Limit.NoInOption, TableExpr.NoIns, GroupBy.NoInOption, sqlOne], by decide +kernel, by decide +kernel⟩

/-- `SELECT name || 'x' FROM users WHERE name < 'x'` -/
def concatenates : SqlStatement Name :=
  .statement (.select (.mk [] (.query .all (.list
      [.expr (.binary .concat (.ident [Name.ofString "name"]) sqlText) none])
    [.named [Name.ofString "users"] none]
    (some (.comparison .lessThan (.ident [Name.ofString "name"]) sqlText)) none) [] none))

theorem concatenates_noIn : concatenates.NoIn := by
  simp [concatenates, SqlStatement.NoIn, Statement.NoIn, Select.NoIn, SetExpr.NoIn, ResultColumns.NoIn,
    ResultColumn.NoIns, Expr.NoIn, Expr.NoInOption, Cte.NoIns, OrderTerm.NoIns, Limit.NoInOption, TableExpr.NoIns,
    TableExpr.NoIn, GroupBy.NoInOption, sqlText]

/-- The context of the catalogue with more columns NOT NULL, and a query in it. -/
example : (nullCtx true true).Stricter (nameOps asciiUp) (nullCtx false true) :=
  C132_contexts _ _ _ (nullDb_stricter _ _) _

example : ∃ r, inferSelect (nameOps asciiUp) (nullCtx true true) (.mk [] (.query .all .all
      [.named [Name.ofString "users"] none] none none) [] none) = .ok r ∧
    ∀ r', inferSelect (nameOps asciiUp) (nullCtx false true) (.mk [] (.query .all .all
      [.named [Name.ofString "users"] none] none none) [] none) = .ok r' → r.Finer r' := by
  refine ⟨_, rfl, fun r' h => ?_⟩
  rcases C132_query_partial (nameOps asciiUp) (nullCtx true true) _ (C132_contexts _ _ _ (nullDb_stricter _ _) _) _ (by
    simp [Select.NoIn, SetExpr.NoIn, ResultColumns.NoIn, Expr.NoInOption, Cte.NoIns, OrderTerm.NoIns, Limit.NoInOption,
      TableExpr.NoIns, TableExpr.NoIn, GroupBy.NoInOption]) r' h with h1 | ⟨r, h1, h2⟩
  · cases h1
  · cases h1; exact h2

/-- It meets the hypotheses of `C132_accepted_partial`. -/
example : concatenates.validateType (nameOps asciiUp) (nullCtx true true) = .ok () :=
  C132_accepted_partial asciiUp _ (nullDb false true) (nullDb_stricter _ _) _
    ⟨_, _, List.mem_singleton.2 rfl, rfl, rfl⟩ _ concatenates_noIn (by
      simp [concatenates, SqlStatement.Safe, Statement.Safe, Select.Safe, SetExpr.Safe, ResultColumns.Safe,
        ResultColumn.AllSafe, Expr.Safe, Expr.OptionSafe, Cte.AllSafe, OrderTerm.AllSafe, Limit.OptionSafe,
        TableExpr.AllSafe, TableExpr.Safe, GroupBy.OptionSafe, sqlText])
    (fun _ h => nomatch h) (by decide +kernel)

/-- `INSERT INTO limits VALUES (1)`, whose target is the same in both, meets those of `C132_not_rejected_partial`. -/
example : (SqlStatement.statement (.insert ⟨[Name.ofString "limits"], some [Name.ofString "n"],
      .values [[sqlOne]]⟩)).validateType (nameOps asciiUp) (nullCtx true true) = .ok () :=
  (C132_not_rejected_partial (nameOps asciiUp) (nullDb true true) (nullDb false true) (nullDb_stricter _ _)
    (Name.ofString "main") _ (by simp [SqlStatement.NoIn, Statement.NoIn, SetExpr.NoIn, Expr.NoInRows, Expr.NoIns,
      sqlOne, Expr.NoIn]) (fun q h => by cases h; decide +kernel) (by decide +kernel)).resolve_right
    (by show ¬ _; decide +kernel)

/-- The column of `SELECT name || 'x' …` can be NULL in one context, and cannot in the other. -/
example : inferSelect (nameOps asciiUp) (nullCtx false true) (.mk [] (.query .all (.list [.expr (.binary .concat
      (.ident [Name.ofString "name"]) sqlText) none]) [.named [Name.ofString "users"] none] none none) [] none) =
      .ok (.plain [⟨Name.ofString "col", .varchar, true⟩]) ∧
    inferSelect (nameOps asciiUp) (nullCtx true true) (.mk [] (.query .all (.list [.expr (.binary .concat
      (.ident [Name.ofString "name"]) sqlText) none]) [.named [Name.ofString "users"] none] none none) [] none) =
      .ok (.plain [⟨Name.ofString "col", .varchar, false⟩]) := by
  decide +kernel

end Verif.Props
