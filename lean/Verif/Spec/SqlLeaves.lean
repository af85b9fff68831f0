import Verif.Spec.SqlWriting
/-!
# The names, numbers and strings in a text
-/

namespace Verif.Sql.Writing
open Grammar

/-- Words that a statement can have different ones of: names, numbers and strings. -/
def isLeaf : Kind → Bool
  | .ID | .STRING_LIT | .NUMERIC_LIT_1 | .NUMERIC_LIT_2 | .HEX_LIT => true
  | _ => false

/-- The names, numbers and strings among words, in their order. -/
def leaves (w : List Lexeme) : List Str := (w.filter fun x => isLeaf x.1).map (·.2)

end Verif.Sql.Writing
