import Verif.Model.Volume

/-!
# Model of the addresses of the buffers of `BufferPool`, src/storage/mod.rs L808, L853-856 and L1132-1142

Addresses are offsets from the start of the mapped memory.
-/

namespace Verif.Storage

/-- The number of bytes mapped by `BufferPool::new`, src/storage/mod.rs L808, which `total_size`, L853-856,
returns. -/
def mappedSize (chk : Bool) (bufferSize numBuffers : Nat) : Res Nat := mulW chk bufferSize numBuffers

/-- `BufferPool::writable_slice` and `readable_slice`, src/storage/mod.rs L1132-1142: the offset and the length of
the slice for a buffer.  A slice that is not inside the mapped memory is undefined behaviour. -/
def bufferSlice (chk : Bool) (bufferSize mapped index : Nat) : Res (Nat × Nat) := do
  let start ← mulW chk bufferSize index
  if start + bufferSize ≤ mapped then pure (start, bufferSize) else .error .ub

end Verif.Storage
