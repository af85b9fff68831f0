/-!
# What a volume should look like

Written without reference to the model of the code.
-/

namespace Verif.Spec

/-- The bytes from `start` up to but excluding `start + len`. -/
structure Range where
  start : Nat
  len : Nat

/-- Byte `b` belongs to the range. -/
def Range.Has (r : Range) (b : Nat) : Prop := r.start ≤ b ∧ b < r.start + r.len

/-- The ranges have no byte in common. -/
def Range.Apart (r s : Range) : Prop := ∀ b, ¬ (r.Has b ∧ s.Has b)

/-- The range starts at a multiple of `block` and covers whole blocks. -/
def Range.Aligned (r : Range) (block : Nat) : Prop := block ∣ r.start ∧ block ∣ r.len

/-- All bytes of the range are below `size`. -/
def Range.Inside (r : Range) (size : Nat) : Prop := ∀ b, r.Has b → b < size

/-- Bit `j` of consecutive 128-bit words stored with the lowest bit first. -/
def wordsBit (words : List Nat) (j : Nat) : Bool := ((words[j / 128]?).getD 0).testBit (j % 128)

/-- `n` is the least number of blocks of `block` bytes that holds `size` bytes. -/
def LeastBlocks (size block n : Nat) : Prop := size ≤ n * block ∧ ∀ m, size ≤ m * block → n ≤ m

end Verif.Spec
