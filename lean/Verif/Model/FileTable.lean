import Verif.Model.Volume

/-!
# Model of what `src/storage/mod.rs` writes to the blocks of a new volume

`init_file_header` as a whole, the mirror of the file table and the blocks of the allocation bitmap.

The buffer pool is reduced to a map from locations to the contents of their buffers (`Blocks`): `access_read_write`
followed by `buffer_mut` gives the buffer of a location, and nothing else changes it before `release`.  Offsets within
buffers are natural numbers: they are sums of lengths of slices that exist, so that they do not overflow; only the calls
of `align_usize` are modelled with their overflow.
-/

namespace Verif.Storage

/-- The contents of the buffers of all locations. -/
abbrev Blocks := Nat → Bytes

/-- `*(pointer.add(offset) as *mut T) = v` where `pointer` is the beginning of the slice `buffer`: writing outside the
slice, or at an address that is not a multiple of the alignment of `T`, is undefined behaviour.  The slices of this file
begin at multiples of 16: buffers lie at multiples of their size in page aligned memory (L785, L808, L1135), buffers and
file headers have 2^9 bytes or more. -/
def store (buffer : Bytes) (offset alignment : Nat) (bytes : Bytes) : Res Bytes :=
  if decide (offset + bytes.length ≤ buffer.length) && offset % alignment == 0 then
    pure (splice buffer offset bytes)
  else .error .ub

/-- `Extent`, src/storage/mod.rs L162-170. -/
structure Extent where
  blockPointer : Nat
  numBlocks : Nat
  deriving DecidableEq

/-- The bytes of an `Extent`: two `u32`. -/
def Extent.bytes (e : Extent) : Bytes := leBytes 4 e.blockPointer ++ leBytes 4 e.numBlocks

/-- The bytes of the `FileHeader`, src/storage/mod.rs L95-118, L284-292, L297: the type of a regular file, version 1, the
timestamp twice, the blocks allocated and used and the bytes used of the last block.  `padding` are the bytes after the
last field up to the size of the struct, which the code does not set. -/
def fileHeaderBytes (extent : Option Extent) (padding : Bytes) (timestamp : Nat) (use : Nat × Nat) : Bytes :=
  leBytes 4 1 ++ leBytes 4 1 ++ leBytes 8 timestamp ++ leBytes 8 timestamp ++
    leBytes 4 (extent.elim 0 (·.numBlocks)) ++
    leBytes 4 use.1 ++ leBytes 4 use.2 ++ padding

/-- The file name attribute, src/storage/mod.rs L301-316: the buffer and the offset after it.  `name` are the bytes of
the name. -/
def writeName (buffer name : Bytes) (offset : Nat) : Res (Bytes × Nat) := do
  assert (decide (offset < buffer.length))
  let buffer ← store buffer offset 2 (leBytes 2 1)
  assert (decide (name.length ≤ 255))
  let buffer ← store buffer (offset + 2) 1 (leBytes 1 name.length)
  assert (decide (offset + 3 ≤ buffer.length))
  let tail ← copyFromSlice (buffer.drop (offset + 3)) name
  pure (splice buffer (offset + 3) tail, offset + 3 + name.length)

/-- The list of extents, src/storage/mod.rs L318-335: the buffer and the offset after it. -/
def writeExtents (chk : Bool) (buffer : Bytes) (offset initialSize : Nat) (extent : Option Extent) :
    Res (Bytes × Nat) := do
  let offset ← alignN chk 64 offset 2
  assert (decide (offset < buffer.length))
  match extent with
  | some e => do
    let buffer ← store buffer offset 2 (leBytes 2 0x10)
    let buffer ← store buffer (offset + 2) 2 (leBytes 2 1)
    let extentOffset ← alignN chk 64 (offset + 4) 4
    let buffer ← store buffer (offset + extentOffset) 4 e.bytes
    pure (buffer, extentOffset + 8)
  | none => do
    assert (initialSize == 0)
    pure (buffer, offset)

/-- The end of the attributes, src/storage/mod.rs L337-345. -/
def writeEnd (chk : Bool) (buffer : Bytes) (offset : Nat) : Res Bytes := do
  let offset ← alignN chk 64 offset 2
  assert (decide (offset < buffer.length))
  store buffer offset 2 (leBytes 2 0)

/-- Everything `init_file_header` writes after the header itself, src/storage/mod.rs L301-345. -/
def writeAttributes (chk : Bool) (buffer name : Bytes) (initialSize : Nat) (extent : Option Extent) : Res Bytes := do
  let offset ← alignN chk 64 fileHeaderSize 2
  let (buffer, offset) ← writeName buffer name offset
  let (buffer, offset) ← writeExtents chk buffer offset initialSize extent
  writeEnd chk buffer offset

/-- `init_file_header`, src/storage/mod.rs L257-348: `initFileHeader` and the attributes. -/
def initFileRecord (chk : Bool) (p : Params) (volume base index : Nat) (name : Bytes) (initialSize : Nat)
    (extent : Option Extent) (clock : Nat × Nat) (padding : Bytes) (blocks : Blocks) : Res Blocks := do
  let record ← initFileHeader chk p volume base index initialSize clock (fileHeaderBytes extent padding)
    fun l => pure (blocks l)
  let record ← writeAttributes chk record name initialSize extent
  let (position, offset) ← headerPosition chk p base index
  let location ← Location.new volume position
  pure fun l => if l = location then splice (blocks l) offset record else blocks l

/-- The loop that copies the file table to its mirror, src/storage/mod.rs L542-556; arguments: the current
`block_number` and the number of remaining iterations. -/
def mirrorLoop (chk : Bool) (volume : Nat) (r : Regions) : Nat → Nat → Blocks → Res Blocks
  | _, 0, blocks => pure blocks
  | k, n + 1, blocks => do
    let a ← mulW chk k r.blockSize
    let source ← addW chk r.tableOffset a
    let source ← Location.new volume source
    let a ← mulW chk k r.blockSize
    let dest ← addW chk r.mirrorOffset a
    let dest ← Location.new volume dest
    let copy ← copyFromSlice (blocks dest) (blocks source)
    mirrorLoop chk volume r (k + 1) n fun l => if l = dest then copy else blocks l

/-- The mirror of the file table, src/storage/mod.rs L540-557. -/
def writeMirror (chk : Bool) (volume : Nat) (r : Regions) (blocks : Blocks) : Res Blocks :=
  mirrorLoop chk volume r 0 r.tableBlocks blocks

/-- Writing the words of one block of the allocation bitmap, src/storage/mod.rs L574, L595-598; the first argument is
`word_index` (`u128` has an alignment of 16). -/
def storeWords : Nat → List Nat → Bytes → Res Bytes
  | _, [], buffer => pure buffer
  | i, w :: ws, buffer => do
    let buffer ← store buffer (i * 16) 16 (leBytes 16 w)
    storeWords (i + 1) ws buffer

/-- The loop over the blocks of the allocation bitmap, src/storage/mod.rs L567-604; arguments: the current
`block_number` and the words of the remaining blocks (`bitmap`). -/
def bitmapLoop (chk : Bool) (volume : Nat) (r : Regions) : Nat → List (List Nat) → Blocks → Res Blocks
  | _, [], blocks => pure blocks
  | k, ws :: rest, blocks => do
    let a ← mulW chk k r.blockSize
    let position ← addW chk r.bitmapOffset a
    let location ← Location.new volume position
    let buffer ← storeWords 0 ws (blocks location)
    bitmapLoop chk volume r (k + 1) rest fun l => if l = location then buffer else blocks l

/-- The allocation bitmap, src/storage/mod.rs L559-605.  The words are computed before they are written here and one by
one in the code, which makes no difference for the results. -/
def writeBitmap (chk : Bool) (p : Params) (volume : Nat) (r : Regions) (blocks : Blocks) : Res Blocks := do
  let words ← bitmap chk p
  bitmapLoop chk volume r 0 words blocks

end Verif.Storage
