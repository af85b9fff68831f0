import Verif.Model.Util

/-!
# Model of `src/core/nsm.rs` (`PageFormat`, slotted row pages)

A page is a byte list.  `a` is `self.row_alignment`, `chk` says whether overflow checks are on.  Row numbers and sizes are
natural numbers; the sums `index + 1` and `offset + row.len()` are not truncated, because they follow tests that keep
them below 2^64, or are used in slices that panic either way.
-/

namespace Verif.Nsm

open Verif

/-- `initialize_page`, src/core/nsm.rs L39-46. -/
def initializePage (chk : Bool) (a : Nat) (page : Bytes) : Res Bytes := do
  assert (4 ≤ page.length)
  assert (page.length ≤ 2 ^ 32 - 1)
  let l ← align chk page.length a
  assert (l == page.length)
  setValue 4 page 0 0

/-- `num_rows`, src/core/nsm.rs L48-50. -/
def numRows (page : Bytes) : Res Nat := getValue 4 page 0

/-- `set_num_rows`, src/core/nsm.rs L52-54 (`as Offset` truncates to 32 bits). -/
def setNumRows (page : Bytes) (n : Nat) : Res Bytes := setValue 4 page 0 (n % 2 ^ 32)

/-- `set_row_offset`, src/core/nsm.rs L56-58. -/
def setRowOffset (page : Bytes) (index offset : Nat) : Res Bytes :=
  setValue 4 page (4 * (index + 1)) offset

/-- `get_row_offset`, src/core/nsm.rs L60-62. -/
def getRowOffset (page : Bytes) (index : Nat) : Res Nat := getValue 4 page (4 * (index + 1))

/-- `alignment_mask`, src/core/nsm.rs L205-207: `!(self.row_alignment - 1) as Offset`. -/
def alignmentMask (chk : Bool) (a : Nat) : Res Nat := do
  let m ← subW chk a 1
  pure (notW m % 2 ^ 32)

/-- `aligned_row_offset`, src/core/nsm.rs L189-193. -/
def alignedRowOffset (chk : Bool) (a : Nat) (page : Bytes) (index : Nat) : Res Nat := do
  let n ← numRows page
  assert (index < n)
  let v ← getRowOffset page index
  let mask ← alignmentMask chk a
  pure (v &&& mask)

/-- `row_offset_padding`, src/core/nsm.rs L195-203 (`!alignment_mask` on `u32`). -/
def rowOffsetPadding (chk : Bool) (a : Nat) (page : Bytes) (index : Nat) : Res (Nat × Nat) := do
  let n ← numRows page
  assert (index < n)
  let v ← getRowOffset page index
  let mask ← alignmentMask chk a
  pure (v &&& mask, v &&& (2 ^ 32 - 1 - mask))

/-- `if index > 0 { aligned_row_offset(page, index - 1) } else { page.len() }`, the expression used
in src/core/nsm.rs L66-70, L79-83, L108-112, L145-149, L176-180. -/
def upperBound (chk : Bool) (a : Nat) (page : Bytes) (index : Nat) : Res Nat :=
  if index > 0 then alignedRowOffset chk a page (index - 1) else pure page.length

/-- `get_row`, src/core/nsm.rs L64-73. -/
def getRow (chk : Bool) (a : Nat) (page : Bytes) (index : Nat) : Res Bytes := do
  let (offset, padding) ← rowOffsetPadding chk a page index
  let next ← upperBound chk a page index
  let stop ← subW chk next padding
  assert (offset ≤ stop && stop ≤ page.length)
  pure (slice page offset (stop - offset))

/-- `max_insert_row_size`, src/core/nsm.rs L170-187. -/
def maxInsertRowSize (chk : Bool) (a : Nat) (page : Bytes) : Res Nat := do
  let n ← numRows page
  let lower ← align chk (4 * (n + 2)) a
  let upper ← upperBound chk a page n
  pure (if upper ≥ lower then upper - lower else 0)

/-- `page[off..off + row.len()].copy_from_slice(row)`, src/core/nsm.rs L89-92, L126-129. -/
def copyRow (page : Bytes) (off : Nat) (row : Bytes) : Res Bytes := do
  assert (off + row.length ≤ page.length)
  pure (splice page off row)

/-- `append_row`, src/core/nsm.rs L75-96. -/
def appendRow (chk : Bool) (a : Nat) (page row : Bytes) : Res Bytes := do
  let m ← maxInsertRowSize chk a page
  assert (row.length ≤ m)
  let n ← numRows page
  let alignedLen ← align chk row.length a
  let upper ← upperBound chk a page n
  let rowOffset ← subW chk upper alignedLen
  let padding ← subW chk alignedLen row.length
  let indexValue := (rowOffset ||| padding) % 2 ^ 32
  let page ← copyRow page rowOffset row
  let page ← setRowOffset page n indexValue
  setNumRows page (n + 1)

/-- The unsafe block `ptr::copy(page[src..], page[dst..], n)`, src/core/nsm.rs L114-118, L159-163:
slicing panics when the start is beyond the end; copying past the end is undefined behaviour.  The number of bytes is
computed before the second slice here and after it in the code, which makes no difference. -/
def moveBytes (page : Bytes) (src dst n : Nat) : Res Bytes := do
  assert (src ≤ page.length)
  assert (dst ≤ page.length)
  if src + n ≤ page.length && dst + n ≤ page.length then
    pure (splice page dst (slice page src n))
  else .error .ub

/-- The loop `for row_index in (index..num_rows).rev()`, src/core/nsm.rs L120-123;
the last argument is the number of remaining iterations. -/
def shiftUp (chk : Bool) (delta index : Nat) : Nat → Bytes → Res Bytes
  | 0, page => pure page
  | c + 1, page => do
    let old ← getRowOffset page (index + c)
    let new ← subW chk old delta
    let page ← setRowOffset page (index + c + 1) (new % 2 ^ 32)
    shiftUp chk delta index c page

/-- `insert_row`, src/core/nsm.rs L98-137. -/
def insertRow (chk : Bool) (a : Nat) (page : Bytes) (index : Nat) (row : Bytes) : Res Bytes := do
  let m ← maxInsertRowSize chk a page
  assert (row.length ≤ m)
  let n ← numRows page
  if index = n then appendRow chk a page row
  else do
    let delta ← align chk row.length a
    let lastIdx ← subW chk n 1
    let lastOffset ← alignedRowOffset chk a page lastIdx
    let rowOffset ← upperBound chk a page index
    let dst ← subW chk lastOffset delta
    let len ← subW chk rowOffset lastOffset
    let page ← moveBytes page lastOffset dst len
    let page ← shiftUp chk delta index (n - index) page
    let padding ← subW chk delta row.length
    let rowOffset ← subW chk rowOffset delta
    let indexValue := (rowOffset ||| padding) % 2 ^ 32
    let page ← copyRow page rowOffset row
    let page ← setRowOffset page index indexValue
    setNumRows page (n + 1)

/-- The loop `for row_index in index + 1..num_rows`, src/core/nsm.rs L154-157;
arguments: the current `row_index` and the number of remaining iterations.  The sum is cut to 32 bits; that it could
exceed 64 bits with overflow checks would need a page of 2^64 - 2^32 bytes. -/
def shiftDown (delta : Nat) : Nat → Nat → Bytes → Res Bytes
  | _, 0, page => pure page
  | i, c + 1, page => do
    let old ← getRowOffset page i
    let page ← setRowOffset page (i - 1) ((old + delta) % 2 ^ 32)
    shiftDown delta (i + 1) c page

/-- The block `if index < num_rows - 1 { .. }` of `remove_row`, src/core/nsm.rs L143-164. -/
def removeShift (chk : Bool) (a : Nat) (page : Bytes) (index n : Nat) : Res Bytes :=
  if index < n - 1 then do
    let rowOffset ← alignedRowOffset chk a page index
    let prevOffset ← upperBound chk a page index
    let lastOffset ← alignedRowOffset chk a page (n - 1)
    let delta ← subW chk prevOffset rowOffset
    let page ← shiftDown delta (index + 1) (n - (index + 1)) page
    let len ← subW chk rowOffset lastOffset
    let dst ← addW chk lastOffset delta
    moveBytes page lastOffset dst len
  else pure page

/-- `remove_row`, src/core/nsm.rs L139-168. -/
def removeRow (chk : Bool) (a : Nat) (page : Bytes) (index : Nat) : Res Bytes := do
  let n ← numRows page
  assert (index < n)
  let page ← removeShift chk a page index n
  setNumRows page (n - 1)

end Verif.Nsm
