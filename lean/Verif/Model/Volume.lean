import Verif.Model.Util

/-!
# Model of the address and size arithmetic of `src/storage/mod.rs` and of `src/storage/utils.rs`

The volume file itself, its UUID and the clock are parameters; the contents of the header blocks are bytes.
-/

namespace Verif.Storage

/-- `a * b` on `u64`. -/
def mulW (chk : Bool) (a b : Nat) : Res Nat :=
  if a * b < W64 then .ok (a * b) else if chk then .error .panic else .ok (a * b % W64)

/-- `a / b`; division by zero panics. -/
def divW (a b : Nat) : Res Nat := if b = 0 then .error .panic else .ok (a / b)

/-- `a % b`; division by zero panics. -/
def modW (a b : Nat) : Res Nat := if b = 0 then .error .panic else .ok (a % b)

/-- `1u64 << n`: with overflow checks, shifting by 64 or more panics; without, `n` is taken modulo 64. -/
def shl1 (chk : Bool) (n : Nat) : Res Nat :=
  if n < 64 then .ok (2 ^ n) else if chk then .error .panic else .ok (2 ^ (n % 64))

/-- `a + b` on an integer of `w` bits. -/
def addN (chk : Bool) (w a b : Nat) : Res Nat :=
  if a + b < 2 ^ w then .ok (a + b) else if chk then .error .panic else .ok ((a + b) % 2 ^ w)

/-- `a - b` on an integer of `w` bits. -/
def subN (chk : Bool) (w a b : Nat) : Res Nat :=
  if b ≤ a then .ok (a - b) else if chk then .error .panic else .ok (a + 2 ^ w - b)

/-- `utils::calc_file_blocks`, src/storage/utils.rs L23-25. -/
def calcFileBlocks (chk : Bool) (fileSize blockSize : Nat) : Res Nat := do
  let a ← addW chk fileSize blockSize
  let b ← subW chk a 1
  divW b blockSize

/-- `utils::align_u8`, `align_u16`, `align_u32`, `align_u64`, `align_usize`, `align_u128`: integers of
8, 16, 32, 64, 64 and 128 bits, src/storage/utils.rs L27-49. -/
def alignN (chk : Bool) (w value alignment : Nat) : Res Nat := do
  let a ← addN chk w value alignment
  let b ← subN chk w a 1
  let m ← subN chk w alignment 1
  pure (b &&& (2 ^ w - 1 - m))

/-- `DEFAULT_VOLUME_BLOCK_SIZE`, src/storage/mod.rs L40. -/
def defaultBlockSize : Nat := 4096

/-- `DEFAULT_LOG_FILE_HEADER_RECORD_SIZE`, src/storage/mod.rs L121. -/
def defaultLogFileHeader : Nat := 10

/-- `FILE_TABLE_NUM_RESERVED`, src/storage/mod.rs L92. -/
def numReserved : Nat := 16

/-- `VolumeParameters`, src/storage/mod.rs L187-199. -/
structure Params where
  volumeSize : Nat
  logBlock : Nat
  logHeader : Nat
  deriving DecidableEq

/-- `VolumeParameters::new_with_defaults`, src/storage/mod.rs L201-216. -/
def Params.newWithDefaults (volumeSize : Nat) : Res Params := do
  let log := 32 - leadingZeros 32 defaultBlockSize
  let blockSize := 2 ^ log
  assert (volumeSize % blockSize == 0 && decide (volumeSize / blockSize ≥ 1))
  assert (decide (volumeSize / blockSize ≤ 2 ^ 32 - 1 + 1))
  pure { volumeSize := volumeSize, logBlock := log, logHeader := defaultLogFileHeader }

/-- `LOCATION_SHIFT_BITS`, src/storage/mod.rs L234-236: 64 bits of the representation minus 8 bits of the
volume index. -/
def shiftBits : Nat := 64 - 8

/-- `LOCATION_OFFSET_MASK`, src/storage/mod.rs L237. -/
def offsetMask : Nat := 2 ^ shiftBits - 1

/-- `Location::new`, src/storage/mod.rs L240-245. -/
def Location.new (index offset : Nat) : Res Nat := do
  let masked := offset &&& offsetMask
  assert (masked == offset)
  pure ((index * 2 ^ shiftBits) % W64 ||| masked)

/-- `Location::index`, src/storage/mod.rs L247-250. -/
def Location.index (location : Nat) : Nat := (location >>> shiftBits) % 256

/-- `Location::offset`, src/storage/mod.rs L252-254. -/
def Location.offset (location : Nat) : Nat := location &&& offsetMask

/-- Result of `VolumeManager::next_volume`, src/storage/mod.rs L381-391: `None` is `Err`; the state is the
next index.  `current.0 + 1` is an addition of `u8`. -/
def nextVolume (chk : Bool) (current : Nat) : Res (Option Nat × Nat) := do
  let next ← addN chk 8 current 1
  if next < current then pure (none, current) else pure (some current, next)

/-- The sizes and offsets computed by `VolumeManager::create`, src/storage/mod.rs L397-417. -/
structure Regions where
  blockSize : Nat
  tableOffset : Nat
  tableSize : Nat
  tableBlocks : Nat
  mirrorOffset : Nat
  bitmapOffset : Nat
  bitmapBits : Nat
  bitmapSize : Nat
  bitmapBlocks : Nat
  total : Nat
  deriving DecidableEq

/-- The beginning of `VolumeManager::create`, src/storage/mod.rs L397-417. -/
def regions (chk : Bool) (p : Params) : Res Regions := do
  let blockSize ← shl1 chk p.logBlock
  let headerSize ← shl1 chk p.logHeader
  let tableOffset ← shl1 chk p.logBlock
  let tableSize ← mulW chk headerSize numReserved
  let a ← addW chk tableSize blockSize
  let a ← subW chk a 1
  let tableBlocks ← divW a blockSize
  let a ← mulW chk tableBlocks blockSize
  let mirrorOffset ← addW chk tableOffset a
  let bitmapOffset ← addW chk mirrorOffset tableBlocks
  let r ← modW p.volumeSize blockSize
  assert (r == 0)
  let bitmapBits ← divW p.volumeSize blockSize
  let a ← alignN chk 64 bitmapBits 8
  let bitmapSize := a >>> 3
  let bitmapBlocks ← calcFileBlocks chk bitmapSize blockSize
  let a ← mulW chk tableBlocks 2
  let a ← addW chk 1 a
  let total ← addW chk a bitmapBlocks
  pure { blockSize, tableOffset, tableSize, tableBlocks, mirrorOffset, bitmapOffset, bitmapBits, bitmapSize,
         bitmapBlocks, total }

/-- `ALL_ONES`, src/storage/mod.rs L575. -/
def allOnes : Nat := 2 ^ 128 - 1

/-- `mask_left`, src/storage/mod.rs L577-583. -/
def maskLeft (total bitIndex endIndex : Nat) : Nat :=
  if total ≥ bitIndex ∧ total < endIndex then (allOnes <<< (total - bitIndex)) % 2 ^ 128 else allOnes

/-- `mask_right`, src/storage/mod.rs L585-591. -/
def maskRight (bits bitIndex endIndex : Nat) : Nat :=
  if bits ≥ bitIndex ∧ bits < endIndex then allOnes >>> (bits - bitIndex) else allOnes

/-- The words of one block of the allocation bitmap, src/storage/mod.rs L574-601: the words and the next bit
index. -/
def bitmapWords (chk : Bool) (total bits : Nat) : Nat → Nat → Res (List Nat × Nat)
  | 0, bitIndex => pure ([], bitIndex)
  | n + 1, bitIndex => do
    let endIndex ← addW chk bitIndex 128
    let (ws, e) ← bitmapWords chk total bits n endIndex
    pure ((maskLeft total bitIndex endIndex &&& maskRight bits bitIndex endIndex) :: ws, e)

/-- The blocks of the allocation bitmap, src/storage/mod.rs L567-604; each has `blockSize * 8 / 128` words. -/
def bitmapBlocks (chk : Bool) (total bits words : Nat) : Nat → Nat → Res (List (List Nat))
  | 0, _ => pure []
  | n + 1, bitIndex => do
    let (ws, e) ← bitmapWords chk total bits words bitIndex
    let bs ← bitmapBlocks chk total bits words n e
    pure (ws :: bs)

/-- The allocation bitmap written by `VolumeManager::create`, src/storage/mod.rs L560-605. -/
def bitmap (chk : Bool) (p : Params) : Res (List (List Nat)) := do
  let r ← regions chk p
  let bitsPerBlock ← mulW chk r.blockSize 8
  bitmapBlocks chk r.total r.bitmapBits (bitsPerBlock / 128) r.bitmapBlocks 0

/-- `dst.copy_from_slice(src)` panics unless the lengths are equal. -/
def copyFromSlice (dst src : Bytes) : Res Bytes := do
  assert (dst.length == src.length)
  pure src

/-- `std::mem::size_of::<VolumeHeader>()` for the `repr(C)` struct of src/storage/mod.rs L56-69:
`u32`, `u32`, 16 bytes, `u64`, `u64`, `u16`, `u16`, padded to a multiple of 8. -/
def volumeHeaderSize : Nat := 48

/-- `std::mem::size_of::<FileHeader>()` for the `repr(C)` struct of src/storage/mod.rs L95-118:
`u32`, `u32`, `u64`, `u64`, `u32`, `u32`, `u32`, padded to a multiple of 8. -/
def fileHeaderSize : Nat := 40

/-- Writing the header block, src/storage/mod.rs L465-472: `buffer` is the whole buffer, `header` the bytes of
the header. -/
def writeVolumeHeader (buffer header : Bytes) : Res Bytes := do
  assert (decide (buffer.length ≥ volumeHeaderSize))
  copyFromSlice buffer header

/-- The timestamp of a file header, src/storage/mod.rs L277-282, from the seconds and nanoseconds of the
clock. -/
def timestamp (seconds nanos : Nat) : Res Nat := do
  assert (nanos &&& 0xC000 == 0)
  pure ((seconds * 2 ^ 16) % W64 ||| (nanos >>> 14))

/-- `blocks_used` and `last_block_use` of a file header, src/storage/mod.rs L275-276: conversions to `u32`
truncate. -/
def blockUse (chk : Bool) (blockSize initialSize : Nat) : Res (Nat × Nat) := do
  let a ← addW chk initialSize blockSize
  let a ← subW chk a 1
  let n ← divW a blockSize
  let r ← modW initialSize blockSize
  pure (n % 2 ^ 32, r % 2 ^ 32)

/-- The block location and the offset within the block at which a file header is written,
src/storage/mod.rs L262-267. -/
def headerPosition (chk : Bool) (p : Params) (base index : Nat) : Res (Nat × Nat) := do
  let blockSize ← shl1 chk p.logBlock
  let headerSize ← shl1 chk p.logHeader
  let a ← mulW chk index headerSize
  let q ← divW a blockSize
  let q ← mulW chk q blockSize
  let location ← addW chk base q
  let offset ← modW a blockSize
  pure (location, offset)

/-- `init_file_header` up to the copy of the header, src/storage/mod.rs L257-299: the slice of the buffer after
the copy.  `access` is `buffer_pool.access_read_write` followed by `buffer_mut`, `clock` the time of day, `header`
the bytes of the `FileHeader` for a timestamp, the blocks and the bytes used.  The remainder of the function,
which no execution reaches, is `writeAttributes` in `Verif.Model.FileTable`. -/
def initFileHeader (chk : Bool) (p : Params) (volume base index initialSize : Nat) (clock : Nat × Nat)
    (header : Nat → Nat × Nat → Bytes) (access : Nat → Res Bytes) : Res Bytes := do
  let (position, offset) ← headerPosition chk p base index
  let location ← Location.new volume position
  let buffer ← access location
  let blockSize ← shl1 chk p.logBlock
  let headerSize ← shl1 chk p.logHeader
  let e ← addW chk offset headerSize
  assert (decide (offset ≤ e ∧ e ≤ buffer.length))
  let use ← blockUse chk blockSize initialSize
  let t ← timestamp clock.1 clock.2
  copyFromSlice (slice buffer offset headerSize) (header t use)

/-- `VolumeManager::create`, src/storage/mod.rs L394-608.  `opened` says whether the file could be created and
set to its size, `next` is the manager's next index, `volumes` the number of registered volumes, `access` the
buffer for a location (`access_read_write` then `buffer_mut`), `header` the bytes of the volume header and `rest`
everything after the header block (L474-605).  `none` is an I/O error. -/
def create (chk : Bool) (p : Params) (opened : Bool) (next volumes : Nat) (access : Nat → Res Bytes)
    (header : Bytes) (rest : Nat → Res Unit) : Res (Option Nat) := do
  let _ ← regions chk p
  if opened then do
    let (index, _) ← nextVolume chk next
    match index with
    | none => pure none
    | some i => do
      assert (volumes == i)
      let location ← Location.new i 0
      let buffer ← access location
      let _ ← writeVolumeHeader buffer header
      rest i
      pure (some i)
  else pure none

end Verif.Storage
