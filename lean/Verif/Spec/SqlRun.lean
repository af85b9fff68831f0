import Verif.Spec.SqlSound
/-!
# What INSERT, UPDATE and DELETE do to the rows of a table

As in standard SQL, and not from the code, which has no execution yet.  Each function gives the table
after the statement.
-/

namespace Verif.Sql

variable (E : Engine) (up : Char → List Char)

/-- A row of the table in which the target columns have the given values and the others are NULL. -/
def insertedRow (columns targets : List Name) (values : Row E) : Row E :=
  columns.map fun c =>
    match (targets.zip values).find? fun e => sameName up e.1 c with
    | some e => e.2
    | none => .null

/-- INSERT appends a row for each row of the source.  Without a list of target columns the values are
those of the columns of the table, in their order. -/
def runInsert (st : Store E) (s : InsertStatement Name) : Option (Table E) := do
  let t ← st s.tableName
  let src ← runSetExpr E up st s.source
  let targets := match s.columns with | some cs => cs | none => t.columns
  return ⟨t.columns, t.rows ++ src.rows.map (insertedRow E up t.columns targets)⟩

/-- The row with new values in the assigned columns. -/
def assignedRow (columns : List Name) (row : Row E) (new : List (List Name × Value E.Carrier)) : Row E :=
  (columns.zip row).map fun e =>
    match new.find? fun a => a.1.any fun c => sameName up c e.1 with
    | some a => a.2
    | none => e.2

/-- A row after UPDATE: changed if the WHERE clause holds, all new values computed from the old row. -/
def updatedRow (st : Store E) (columns : List Name) (s : UpdateStatement Name) (row : Row E) :
    Option (Row E) := do
  let scope := (columns.map fun c => (s.tableName.getLast?, c)).zip row
  let chosen ← holds E up st scope s.wher
  if chosen then
    let new ← collectAll (fun a => do return (a.columns, ← evalExpr E up st scope a.expr)) s.assignments
    return assignedRow E up columns row new
  else return row

/-- UPDATE. -/
def runUpdate (st : Store E) (s : UpdateStatement Name) : Option (Table E) := do
  let t ← st s.tableName
  let rows ← collectAll (updatedRow E up st t.columns s) t.rows
  return ⟨t.columns, rows⟩

/-- DELETE keeps the rows for which the WHERE clause does not hold. -/
def runDelete (st : Store E) (s : DeleteStatement Name) : Option (Table E) := do
  let t ← st s.tableName
  let rows ← keep (fun row => do
    let chosen ← holds E up st ((t.columns.map fun c => (s.tableName.getLast?, c)).zip row) s.wher
    return !chosen) t.rows
  return ⟨t.columns, rows⟩

end Verif.Sql
