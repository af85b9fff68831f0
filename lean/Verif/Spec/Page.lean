/-!
# Specification of a row page: a plain list of byte strings with a byte budget

Nothing here refers to the model of the page format.
-/

namespace Verif.Spec

/-- The least multiple of `a` that is at least `x` (for `a > 0`). -/
def roundUp (x a : Nat) : Nat := (x + a - 1) / a * a

/-- Contents of a page as its user sees it. -/
abbrev Rows := List (List UInt8)

/-- The mutating calls. -/
inductive PageOp where
  | append (row : List UInt8)
  | insert (index : Nat) (row : List UInt8)
  | remove (index : Nat)

/-- Bytes taken by the row data when every row is padded to a multiple of `a`. -/
def footprint (a : Nat) (rows : Rows) : Nat := (rows.map fun r => roundUp r.length a).sum

/-- Directory size (row count and one 4-byte slot per row) if one more row were added, padded. -/
def directory (a : Nat) (rows : Rows) : Nat := roundUp (4 * (rows.length + 2)) a

/-- Room for the data of one more row in a page of `len` bytes. -/
def room (len a : Nat) (rows : Rows) : Nat := len - (footprint a rows + directory a rows)

/-- There is room for one more directory slot between the directory and the rows. -/
def slotFits (len a : Nat) (rows : Rows) : Prop := footprint a rows + 4 * (rows.length + 2) ≤ len

/-- Effect on the list of rows. -/
def PageOp.apply : PageOp → Rows → Rows
  | .append r, rows => rows ++ [r]
  | .insert i r, rows => rows.insertIdx i r
  | .remove i, rows => rows.eraseIdx i

/-- When the call is legal. -/
def PageOp.legal (len a : Nat) : PageOp → Rows → Prop
  | .append r, rows => r.length ≤ room len a rows
  | .insert i r, rows => i ≤ rows.length ∧ r.length ≤ room len a rows
  | .remove i, rows => i < rows.length

instance (len a : Nat) (op : PageOp) (rows : Rows) : Decidable (op.legal len a rows) := by
  cases op <;> unfold PageOp.legal <;> infer_instance

/-- The degenerate call: adding an empty row when not even its slot fits. -/
def PageOp.degenerate (len a : Nat) : PageOp → Rows → Prop
  | .append r, rows => r = [] ∧ ¬ slotFits len a rows
  | .insert i r, rows => i ≤ rows.length ∧ r = [] ∧ ¬ slotFits len a rows
  | .remove _, _ => False

/-- Running a history; `none` when some call is illegal. -/
def runRows (len a : Nat) : List PageOp → Rows → Option Rows
  | [], rows => some rows
  | op :: ops, rows => if op.legal len a rows then runRows len a ops (op.apply rows) else none

/-- No call of the history, up to the first illegal one, is degenerate. -/
def Regular (len a : Nat) : List PageOp → Rows → Prop
  | [], _ => True
  | op :: ops, rows =>
    ¬ op.degenerate len a rows ∧ (op.legal len a rows → Regular len a ops (op.apply rows))

/-! ## A slot written over the rows -/

/-- A 32-bit number in little-endian order. -/
def word32 (v : Nat) : List UInt8 :=
  [UInt8.ofNat v, UInt8.ofNat (v / 2 ^ 8), UInt8.ofNat (v / 2 ^ 16), UInt8.ofNat (v / 2 ^ 24)]

/-- The bytes `row` at position `pos` after `new` has been written at position `lo`. -/
def overwritten (row : List UInt8) (pos lo : Nat) (new : List UInt8) : List UInt8 :=
  row.mapIdx fun j b => if lo ≤ pos + j then new.getD (pos + j - lo) b else b

/-- The rows of a page of `len` bytes, laid out from its end, after `new` has been written where the next directory
slot is. -/
def damaged (len a : Nat) (rows : Rows) (new : List UInt8) : Rows :=
  rows.mapIdx fun i r =>
    overwritten r (len - footprint a (rows.take (i + 1))) (4 * (rows.length + 1)) new

/-- What ends up in the next directory slot when an empty row is put at `index`: the start of the last row, together
with the padding of that row if its own slot moves there. -/
def slotAfter (len a : Nat) (rows : Rows) (index : Nat) : Nat :=
  len - footprint a rows +
    (if index = rows.length then 0
     else roundUp (rows.getLastD []).length a - (rows.getLastD []).length)

/-! ## Pages with arbitrary contents -/

/-- The little-endian 32-bit number at position `o`. -/
def wordAt (page : List UInt8) (o : Nat) : Nat :=
  (page.getD o 0).toNat + 2 ^ 8 * (page.getD (o + 1) 0).toNat + 2 ^ 16 * (page.getD (o + 2) 0).toNat +
    2 ^ 24 * (page.getD (o + 3) 0).toNat

/-- The number of rows the page claims to have. -/
def claimedRows (page : List UInt8) : Nat := wordAt page 0

/-- Where the page claims that row `i` starts, rounded down to a multiple of `a`. -/
def claimedStart (a : Nat) (page : List UInt8) (i : Nat) : Nat := wordAt page (4 * (i + 1)) / a * a

/-- Where the row before row `i` starts; for the first row the end of the page. -/
def claimedLimit (a : Nat) (page : List UInt8) : Nat → Nat
  | 0 => page.length
  | i + 1 => claimedStart a page i

/-- How many bytes the page claims to follow row `i` to fill it up to a multiple of `a`. -/
def claimedPadding (a : Nat) (page : List UInt8) (i : Nat) : Nat := wordAt page (4 * (i + 1)) % a

/-- The page with the bytes `new` at position `o`. -/
def overwrite (page : List UInt8) (o : Nat) (new : List UInt8) : List UInt8 :=
  page.take o ++ new ++ page.drop (o + new.length)

/-- The rows lie in the page one before the other. -/
def Ordered (a : Nat) (page : List UInt8) : Prop :=
  ∀ i, i < claimedRows page → claimedStart a page i ≤ claimedLimit a page i

end Verif.Spec
