import Verif.Spec.Value

/-! # Specification: the bits of an encoding -/

namespace Verif.Spec

open Verif

/-- Bit number `i` of the bytes, counted from the lowest bit of the first byte on. -/
def bitAt (data : Bytes) (i : Nat) : Bool := ((data[i / 8]?).getD 0).toNat.testBit (i % 8)

/-- The number of bits below `n` in which the bytes differ. -/
def differing (a b : Bytes) (n : Nat) : Nat := (List.range n).countP fun i => bitAt a i != bitAt b i

/-- The number of bits that tell `n` cases apart. -/
def tagBits (n : Nat) : Nat := if n ≤ 1 then 0 else Nat.log2 (n - 1) + 1

mutual
/-- The number of bits of information in a value of the type: a string has a length of 32 bits, an enum a tag and
what its case holds. -/
def valueBits : Val → Ty → Nat
  | .unit, _ => 0
  | .prim v, _ => 8 * v.kind.size
  | .str bs, _ => 32 + 8 * bs.length
  | .seq vs, .tuple cs => valueBitsL vs cs
  | .seq vs, .struct fs => valueBitsL vs (fs.map (·.2))
  | .case i v, .enum cs => tagBits cs.length + (match cs[i]? with | some c => valueBits v c.2 | none => 0)
  | _, _ => 0
/-- The components of a tuple or struct. -/
def valueBitsL : List Val → List Ty → Nat
  | v :: vs, c :: cs => valueBits v c + valueBitsL vs cs
  | _, _ => 0
end

end Verif.Spec
