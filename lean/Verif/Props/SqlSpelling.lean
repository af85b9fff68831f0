import Verif.Proof.SqlSpelling
import Verif.Props.SqlExpr
import Verif.Props.SqlStatements

/-! # C70: the case of identifiers -/

namespace Verif.Props

open Verif Sql

/-- C70. Two statements that differ only in the case of identifiers (in contexts that differ only so) are
both accepted, or rejected with the same error, or panic.  String literals must be the same. -/
theorem C70_statement (up : Char → List Char) (ctx ctx' : SetContext Name) (s s' : SqlStatement Name)
    (hc : ctx.map (Name.upper up) = ctx'.map (Name.upper up))
    (hs : s.map (Name.upper up) = s'.map (Name.upper up)) :
    s.validateType (nameOps up) ctx = s'.validateType (nameOps up) ctx' := by
  rw [← sqlStatement_map (hom_upper up) ctx s, ← sqlStatement_map (hom_upper up) ctx' s', hc, hs]

/-- C70. Expressions that differ only in the case of identifiers have the same type. -/
theorem C70_expression (up : Char → List Char) (sc sc' : ScalarContext Name) (e e' : Expr Name)
    (hc : sc.map (Name.upper up) = sc'.map (Name.upper up))
    (he : e.map (Name.upper up) = e'.map (Name.upper up)) :
    inferExpr (nameOps up) sc e = inferExpr (nameOps up) sc' e' := by
  rw [← inferExpr_map (hom_upper up) sc e, ← inferExpr_map (hom_upper up) sc' e', hc, he]

/-- C70. Queries that differ only in the case of identifiers have row types that differ only so: the same
number of columns, types and nullability, and the same names up to case. -/
theorem C70_select (up : Char → List Char) (ctx ctx' : SetContext Name) (s s' : Select Name)
    (hc : ctx.map (Name.upper up) = ctx'.map (Name.upper up))
    (hs : s.map (Name.upper up) = s'.map (Name.upper up)) (r : RowType Name)
    (h : inferSelect (nameOps up) ctx s = .ok r) :
    ∃ r', inferSelect (nameOps up) ctx' s' = .ok r' ∧ r.map (Name.upper up) = r'.map (Name.upper up) := by
  have h1 := inferSelect_map (hom_upper up) ctx s
  have h2 := inferSelect_map (hom_upper up) ctx' s'
  rw [hc, hs, h2, h] at h1
  cases hr : inferSelect (nameOps up) ctx' s' with
  | error e =>
    rw [hr] at h1
    cases h1
  | ok r' =>
    rw [hr] at h1
    exact ⟨r', rfl, (Except.ok.inj h1).symm⟩

/-- C70. Catalogues that differ only in the case of identifiers give contexts that differ only so, also after
common table expressions. -/
theorem C70_context (up : Char → List Char) (db db' : Database Name) (d d' : Name)
    (hd : db.map (Name.upper up) = db'.map (Name.upper up)) (hn : SameName up d d') :
    (SetContext.new (nameOps up) db d).map (Name.upper up) =
      (SetContext.new (nameOps up) db' d').map (Name.upper up) ∧
    ∀ cs cs' : List (Cte Name), Cte.mapList (Name.upper up) cs = Cte.mapList (Name.upper up) cs' →
      ∀ ctx, SetContext.initialize (nameOps up) db d cs = .ok ctx →
      ∃ ctx', SetContext.initialize (nameOps up) db' d' cs' = .ok ctx' ∧
        ctx.map (Name.upper up) = ctx'.map (Name.upper up) := by
  have h0 : (SetContext.new (nameOps up) db d).map (Name.upper up) =
      (SetContext.new (nameOps up) db' d').map (Name.upper up) := by
    rw [← setContext_new_map (hom_upper up), ← setContext_new_map (hom_upper up), hd,
      show d.upper up = d'.upper up from hn]
  refine ⟨h0, ?_⟩
  intro cs cs' hcs ctx h
  have h1 := initializeFrom_map (hom_upper up) cs (SetContext.new (nameOps up) db d)
  have h2 := initializeFrom_map (hom_upper up) cs' (SetContext.new (nameOps up) db' d')
  unfold SetContext.initialize at h
  rw [h0, hcs, h2, h] at h1
  unfold SetContext.initialize
  cases hr : (SetContext.new (nameOps up) db' d').initializeFrom (nameOps up) cs' with
  | error e =>
    rw [hr] at h1
    cases h1
  | ok ctx' =>
    rw [hr] at h1
    exact ⟨ctx', rfl, (Except.ok.inj h1).symm⟩

/-- `update USERS set NAME = 'x', ACTIVE = not Active where Users.Id = iD`. -/
def respelledUpdate : UpdateStatement Name :=
  ⟨[Name.ofString "USERS"],
    [⟨[Name.ofString "NAME"], .literal (.string "x".toList)⟩,
      ⟨[Name.ofString "ACTIVE"], .unary .not (.ident [Name.ofString "Active"])⟩],
    some (.comparison .equal (.ident [Name.ofString "Users", Name.ofString "Id"])
      (.ident [Name.ofString "iD"]))⟩

/-- The sample database in other spellings. -/
def respelledDb : Database Name :=
  ⟨[(Name.ofString "AUX", ⟨Name.ofString "aux", [(Name.ofString "Counts", countsView)]⟩),
    (Name.ofString "Main", ⟨Name.ofString "main", [(Name.ofString "USERS", usersTable)]⟩)]⟩

def respelledCtx : SetContext Name := SetContext.new (nameOps asciiUp) respelledDb (Name.ofString "maiN")

theorem spelling_main : (Name.ofString "main").upper asciiUp = (Name.ofString "Main").upper asciiUp := by decide
theorem spelling_aux : (Name.ofString "aux").upper asciiUp = (Name.ofString "AUX").upper asciiUp := by decide
theorem spelling_counts : (Name.ofString "counts").upper asciiUp = (Name.ofString "Counts").upper asciiUp := by
  decide
theorem spelling_users : (Name.ofString "users").upper asciiUp = (Name.ofString "USERS").upper asciiUp := by decide
theorem spelling_users' : (Name.ofString "Users").upper asciiUp = (Name.ofString "USERS").upper asciiUp := by decide
theorem spelling_name : (Name.ofString "name").upper asciiUp = (Name.ofString "NAME").upper asciiUp := by decide
theorem spelling_active : (Name.ofString "active").upper asciiUp = (Name.ofString "ACTIVE").upper asciiUp := by decide
theorem spelling_active' : (Name.ofString "Active").upper asciiUp = (Name.ofString "ACTIVE").upper asciiUp := by
  decide
theorem spelling_id : (Name.ofString "id").upper asciiUp = (Name.ofString "ID").upper asciiUp := by decide
theorem spelling_id' : (Name.ofString "Id").upper asciiUp = (Name.ofString "ID").upper asciiUp := by decide
theorem spelling_id'' : (Name.ofString "iD").upper asciiUp = (Name.ofString "ID").upper asciiUp := by decide

theorem respelledCtx_same : sampleCtx.map (Name.upper asciiUp) = respelledCtx.map (Name.upper asciiUp) := by
  refine (C70_context asciiUp sampleDb respelledDb _ _ ?_ (by show (_ : List Char) = _; decide)).1
  simp only [sampleDb, respelledDb, Database.map, TMap.mapBoth, List.map, Schema.map, spelling_main, spelling_aux,
    spelling_counts, spelling_users]

theorem respelledUpdate_same : sampleUpdate.map (Name.upper asciiUp) = respelledUpdate.map (Name.upper asciiUp) := by
  simp only [sampleUpdate, respelledUpdate, UpdateStatement.map, Assignment.map, Expr.map, Expr.mapOption, List.map,
    spelling_users, spelling_users', spelling_name, spelling_active, spelling_active', spelling_id, spelling_id',
    spelling_id'']

example : (SqlStatement.statement (.update respelledUpdate)).validateType (nameOps asciiUp) respelledCtx =
    .ok () := by
  rw [← C70_statement asciiUp sampleCtx respelledCtx (.statement (.update sampleUpdate))
    (.statement (.update respelledUpdate)) respelledCtx_same
    (congrArg (fun s => SqlStatement.statement (.update s)) respelledUpdate_same)]
  exact sampleUpdate_ok

example : ∃ r', inferSelect (nameOps asciiUp) respelledCtx sampleSelect = .ok r' ∧
    r'.map (Name.upper asciiUp) = (RowType.plain [⟨"ACTIVE".toList, .logical, true⟩,
      ⟨"ID".toList, .numeric, false⟩, ⟨"NAME".toList, .varchar, true⟩, ⟨"COL".toList, .logical, true⟩]) := by
  obtain ⟨r', h1, h2⟩ := C70_select asciiUp sampleCtx respelledCtx sampleSelect sampleSelect
    respelledCtx_same rfl _ sampleSelect_ok
  exact ⟨r', h1, h2.symm.trans (by decide)⟩

end Verif.Props
