import Verif.Spec.Width
import Verif.Spec.Value

/-! # Specification: how many bytes the contents of a value take

Nothing here mentions offsets, containers or alignment. -/

namespace Verif.Spec

open Verif

mutual
/-- The bytes of the numbers and strings of a value, and four bytes for the length of every string. -/
def content : Val → Nat
  | .unit => 0
  | .prim v => v.kind.size
  | .str bs => 4 + bs.length
  | .seq vs => contentL vs
  | .case _ v => content v
/-- For all components. -/
def contentL : List Val → Nat
  | [] => 0
  | v :: vs => content v + contentL vs
end

mutual
/-- How many values of enum types a value has inside, counting itself. -/
def enums : Val → Nat
  | .seq vs => enumsL vs
  | .case _ v => 1 + enums v
  | _ => 0
/-- For all components. -/
def enumsL : List Val → Nat
  | [] => 0
  | v :: vs => enums v + enumsL vs
end

mutual
/-- The bytes of one machine word for the tag of every value of an enum type. -/
def tagWords : Val → Ty → Nat
  | .seq vs, .tuple cs => tagWordsL vs cs
  | .seq vs, .struct fs => tagWordsL vs (fs.map (·.2))
  | .case i v, .enum cs => tagWord cs.length + match cs[i]? with
    | some c => tagWords v c.2
    | none => 0
  | _, _ => 0
/-- For all components. -/
def tagWordsL : List Val → List Ty → Nat
  | v :: vs, c :: cs => tagWords v c + tagWordsL vs cs
  | _, _ => 0
end

end Verif.Spec
