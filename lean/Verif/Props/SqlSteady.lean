import Verif.Proof.SqlSteady
import Verif.Props.SqlCalls
/-! # The calls of validation when every part is looked at -/

namespace Verif.Props
open Verif Sql Parser Grammar Lexing Writing

/-- C125. Validating a right statement without CASE and with rows of equal lengths takes exactly one call for each
part. -/
theorem C125_exactly (up : Char → List Char) (ctx : SetContext Name) (x : SqlStatement Name) (hs : x.Steady)
    (h : x.validateType (nameOps up) ctx = .ok ()) :
    (x.validateTypeC (nameOps up) ctx).calls = x.parts := by
  rw [(sqlStatement_exact 0 ctx x hs () h).1]

/-- C124. For such a statement the nesting is exactly the number of nested calls for which there must be room: with
less room the stack overflows. -/
theorem C124_exactly (up : Char → List Char) (ctx : SetContext Name) (x : SqlStatement Name) (hs : x.Steady)
    (h : x.validateType (nameOps up) ctx = .ok ()) (n : Nat) :
    (x.validateTypeD (nameOps up) n ctx = .ok () ↔ x.nesting ≤ n) ∧
    (x.validateTypeD (nameOps up) n ctx = .error .overflow ↔ n < x.nesting) := by
  rw [(sqlStatement_exact n ctx x hs () h).2]
  split
  · exact ⟨⟨nofun, fun h' => absurd h' (by omega)⟩, fun _ => by assumption, fun _ => rfl⟩
  · exact ⟨⟨fun _ => by omega, fun _ => rfl⟩, nofun, fun h' => absurd h' (by assumption)⟩

theorem sampleQuery_steady : sampleQuery.Steady := by
  simp [sampleQuery, SqlStatement.Steady, Statement.Steady, Select.Steady, ctesSteady, SetExpr.Steady,
    ResultColumns.Steady, columnsSteady, tablesSteady, TableExpr.Steady, exprSteady, Expr.Steady, groupSteady,
    termsSteady, limitSteady]

set_option maxRecDepth 100000 in
/-- It takes as many calls as it has parts. -/
example : (sampleQuery.validateTypeC (nameOps asciiUp) sampleCtx).calls = sampleQuery.parts :=
  C125_exactly _ _ _ sampleQuery_steady rfl

set_option maxRecDepth 100000 in
/-- The query of `sampleQueryText` is such a statement; it is nested seven deep. -/
example : sampleQuery.Steady ∧ sampleQuery.validateType (nameOps asciiUp) sampleCtx = .ok () ∧
    sampleQuery.nesting = 7 ∧ sampleQuery.validateTypeD (nameOps asciiUp) 7 sampleCtx = .ok () ∧
    sampleQuery.validateTypeD (nameOps asciiUp) 6 sampleCtx = .error .overflow := by
  have h1 : sampleQuery.validateType (nameOps asciiUp) sampleCtx = .ok () := by rfl
  have h2 : sampleQuery.nesting = 7 := by rfl
  exact ⟨sampleQuery_steady, h1, h2, (C124_exactly _ _ _ sampleQuery_steady h1 7).1.2 (by omega),
    (C124_exactly _ _ _ sampleQuery_steady h1 6).2.2 (by omega)⟩

/-- `SELECT CASE WHEN 1 THEN 1 WHEN 1 THEN 1 END` -/
def twoConditions : SqlStatement Name := selectOne (.case none [.mk sqlOne sqlOne, .mk sqlOne sqlOne] none)

/-- `VALUES (1), (1, 1)` -/
def longerRow : SqlStatement Name := .statement (.select (.mk [] (.values [[sqlOne], [sqlOne, sqlOne]]) [] none))

/-- Without the restriction there can be fewer calls than parts: the second condition of the CASE and the last element
of the longer row are not looked at. -/
example : twoConditions.validateTypeC (nameOps asciiUp) sampleCtx = ⟨.ok (), 9⟩ ∧ twoConditions.parts = 10 ∧
    longerRow.validateTypeC (nameOps asciiUp) sampleCtx = ⟨.ok (), 6⟩ ∧ longerRow.parts = 7 :=
  ⟨rfl, rfl, rfl, rfl⟩

end Verif.Props
