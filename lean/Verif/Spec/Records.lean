import Verif.Spec.Page
import Verif.Model.Marshaller

/-!
# Records on a page

A list of records of any kind, each stored as a row.
-/

namespace Verif.Spec

open Verif

/-- The mutating calls on a list of records; a record comes with the row that stores it. -/
inductive RecordOp (α : Type) where
  | append (x : α) (row : Bytes)
  | insert (index : Nat) (x : α) (row : Bytes)
  | remove (index : Nat)

/-- The call on the page. -/
def RecordOp.page {α : Type} : RecordOp α → PageOp
  | .append _ row => .append row
  | .insert i _ row => .insert i row
  | .remove i => .remove i

/-- The record and the row that are added. -/
def RecordOp.adds {α : Type} : RecordOp α → List (α × Bytes)
  | .append x row => [(x, row)]
  | .insert _ x row => [(x, row)]
  | .remove _ => []

/-- Effect on the list of records. -/
def RecordOp.apply {α : Type} : RecordOp α → List α → List α
  | .append x _, xs => xs ++ [x]
  | .insert i x _, xs => xs.insertIdx i x
  | .remove i, xs => xs.eraseIdx i

/-- The records after all calls. -/
def records {α : Type} (ops : List (RecordOp α)) : List α := ops.foldl (fun xs op => op.apply xs) []

end Verif.Spec
