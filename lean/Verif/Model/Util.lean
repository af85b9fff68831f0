import Verif.Model.Basic

/-! # Model of `src/core/util.rs` -/

namespace Verif

/-- `util::align`, src/core/util.rs L82-85: `assert!(alignment.is_power_of_two());
(value + alignment - 1) & !(alignment - 1)` on 64-bit `usize`, both overflow modes. -/
def align (chk : Bool) (value alignment : Nat) : Res Nat := do
  assert (isPow2 alignment)
  let s ← addW chk value alignment
  let t ← subW chk s 1
  let m ← subW chk alignment 1
  pure (t &&& notW m)

/-- `util::required_bits`, src/core/util.rs L123-131 (64-bit `usize`). -/
def requiredBits (value : Nat) : Nat :=
  if value = 0 then 0 else 64 - leadingZeros 64 value

/-- `util::log2`, src/core/util.rs L149-154. -/
def log2 (value : Nat) : Res Nat := do
  assert (value != 0)
  assert (isPow2 value)
  pure (trailingZeros 64 value)

/-- `util::set_value::<T>` for an integer type of `n` bytes, src/core/util.rs L156-164.
`offset + size_of::<T>()` cannot overflow for offsets of real slices and is computed in `Nat`. -/
def setValue (n : Nat) (buffer : Bytes) (offset value : Nat) : Res Bytes := do
  assert (offset + n ≤ buffer.length)
  pure (splice buffer offset (leBytes n value))

/-- `util::get_value::<T>` for an integer type of `n` bytes, src/core/util.rs L166-174. -/
def getValue (n : Nat) (buffer : Bytes) (offset : Nat) : Res Nat := do
  assert (offset + n ≤ buffer.length)
  pure (leVal (slice buffer offset n))

end Verif
