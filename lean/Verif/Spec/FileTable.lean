import Verif.Model.Basic

/-!
# The attributes of a file, as documented

The format of the comments in src/storage/mod.rs L136-160: attributes begin at even positions with a 16-bit code; code 0
ends the list; code 1 is followed by the length of the name in one byte and the bytes of the name; code 0x10 is followed
by the number of extents in 16 bits and then, from the next multiple of 4 on, by the extents, each a 32-bit block pointer
and a 32-bit number of blocks.
-/

namespace Verif.Spec

/-- The byte at a position. -/
def ByteIs (record : Bytes) (o v : Nat) : Prop := ∃ b, record[o]? = some b ∧ b.toNat = v

/-- Bit `j` of consecutive bytes stored with the lowest bit first. -/
def bytesBit (buffer : Bytes) (j : Nat) : Bool := ((buffer[j / 8]?).getD 0).toNat.testBit (j % 8)

/-- A little endian 16-bit number. -/
def WordIs (record : Bytes) (o v : Nat) : Prop := ∃ a b, ByteIs record o a ∧ ByteIs record (o + 1) b ∧ v = a + 256 * b

/-- A little endian 32-bit number. -/
def QuadIs (record : Bytes) (o v : Nat) : Prop :=
  ∃ a b, WordIs record o a ∧ WordIs record (o + 2) b ∧ v = a + 65536 * b

/-- The least multiple of `a` that is not below `o`. -/
def upTo (a o : Nat) : Nat := (o + (a - 1)) / a * a

/-- The attributes of a file. -/
inductive Attribute
  | name (bytes : List Nat)
  | extents (list : List (Nat × Nat))
  deriving DecidableEq

/-- The attributes from a position on. -/
inductive Lists (record : Bytes) : Nat → List Attribute → Prop
  | stop {o} : WordIs record o 0 → Lists record o []
  | name {o bytes rest} : WordIs record o 1 → ByteIs record (o + 2) bytes.length →
      (∀ i v, bytes[i]? = some v → ByteIs record (o + 3 + i) v) →
      Lists record (upTo 2 (o + 3 + bytes.length)) rest → Lists record o (.name bytes :: rest)
  | extents {o list rest} : WordIs record o 0x10 → WordIs record (o + 2) list.length →
      (∀ i p n, list[i]? = some (p, n) → QuadIs record (upTo 4 (o + 4) + 8 * i) p ∧
        QuadIs record (upTo 4 (o + 4) + 8 * i + 4) n) →
      Lists record (upTo 2 (upTo 4 (o + 4) + 8 * list.length)) rest → Lists record o (.extents list :: rest)

end Verif.Spec
