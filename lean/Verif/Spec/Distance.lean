import Verif.Spec.Form
import Verif.Spec.Bits

/-! # Specification: in how many bits two values differ -/

namespace Verif.Spec

open Verif

/-- The number of bits below `n` in which the numbers differ. -/
def bitsApart (n a b : Nat) : Nat := (List.range n).countP fun i => a.testBit i != b.testBit i

mutual
/-- The number of bits in which the numbers and letters of two values of the same form differ. -/
def apart : Val → Val → Nat
  | .prim v, .prim v' => bitsApart (8 * v.kind.size) (v.kind.store v.val) (v'.kind.store v'.val)
  | .str bs, .str bs' => differing bs bs' (8 * bs.length)
  | .seq vs, .seq vs' => apartL vs vs'
  | .case _ v, .case _ v' => apart v v'
  | _, _ => 0
/-- The components of tuples or structs. -/
def apartL : List Val → List Val → Nat
  | v :: vs, v' :: vs' => apart v v' + apartL vs vs'
  | _, _ => 0
end

end Verif.Spec
