import Verif.Spec.SqlWriting
/-!
# Words that can be left out or replaced
-/

namespace Verif.Sql.Writing
open Grammar

/-- OUTER, INNER and ASC can be left out, ISNULL and NOTNULL are short for IS NULL and IS NOT NULL, and a comma can
stand for OFFSET. -/
def plain (x : Lexeme) : List Lexeme :=
  match x.1 with
  | .OUTER | .INNER | .ASC => []
  | .ISNULL => [kw .IS, kw .NULL]
  | .NOTNULL => [kw .IS, kw .NOT, kw .NULL]
  | .OFFSET => [kw .comma]
  | _ => [x]

end Verif.Sql.Writing
