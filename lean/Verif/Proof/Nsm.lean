import Verif.Model.Nsm
import Verif.Spec.Page
import Verif.Proof.Util

/-! # Representation invariant of a row page and the effect of each operation on it -/

namespace Verif.Nsm

open Verif Verif.Spec

theorem roundUp_eq (x a : Nat) : roundUp x a = alignUp x a := rfl

/-- Start of row `i` (0-based) counted from the end of the page. -/
def start (a len : Nat) (rows : Rows) (i : Nat) : Nat := len - footprint a (rows.take i)

/-- Slot value for a row with `len` bytes starting at `off`. -/
def pad (a n : Nat) : Nat := alignUp n a - n

/-- `page` stores `rows`, with alignment `2 ^ k`. -/
structure Rep (k : Nat) (page : Bytes) (rows : Rows) : Prop where
  hk : k < 32
  len_lt : page.length < 2 ^ 32
  len_ge : 4 ≤ page.length
  aligned : 2 ^ k ∣ page.length
  count : leVal (slice page 0 4) = rows.length
  fits : 4 * (rows.length + 1) + footprint (2 ^ k) rows ≤ page.length
  slot : ∀ i (h : i < rows.length), leVal (slice page (4 * (i + 1)) 4) =
    start (2 ^ k) page.length rows (i + 1) + pad (2 ^ k) rows[i].length
  data : ∀ i (h : i < rows.length),
    slice page (start (2 ^ k) page.length rows (i + 1)) rows[i].length = rows[i]

/-- As `Rep`, but the last slot may lie over the rows. -/
structure RepW (k : Nat) (page : Bytes) (rows : Rows) : Prop where
  hk : k < 32
  len_lt : page.length < 2 ^ 32
  aligned : 2 ^ k ∣ page.length
  count : leVal (slice page 0 4) = rows.length
  dir : 4 * (rows.length + 1) ≤ page.length
  fits : 4 * rows.length + footprint (2 ^ k) rows ≤ page.length
  slot : ∀ i (h : i < rows.length), leVal (slice page (4 * (i + 1)) 4) =
    start (2 ^ k) page.length rows (i + 1) + pad (2 ^ k) rows[i].length
  data : ∀ i (h : i < rows.length),
    slice page (start (2 ^ k) page.length rows (i + 1)) rows[i].length = rows[i]

theorem Rep.weak {k : Nat} {page : Bytes} {rows : Rows} (h : Rep k page rows) : RepW k page rows :=
  ⟨h.hk, h.len_lt, h.aligned, h.count, by have := h.fits; omega, by have := h.fits; omega, h.slot, h.data⟩

/-! ## Arithmetic of footprints -/

@[simp] theorem footprint_nil (a : Nat) : footprint a [] = 0 := rfl

@[simp] theorem footprint_cons (a : Nat) (r : Bytes) (rows : Rows) :
    footprint a (r :: rows) = alignUp r.length a + footprint a rows := rfl

@[simp] theorem footprint_append (a : Nat) (xs ys : Rows) :
    footprint a (xs ++ ys) = footprint a xs + footprint a ys := by
  simp [footprint]

theorem footprint_dvd (a : Nat) (rows : Rows) : a ∣ footprint a rows := by
  induction rows with
  | nil => simp
  | cons r rows ih => rw [footprint_cons]; exact Nat.dvd_add (alignUp_dvd _ _) ih

theorem footprint_take_succ (a : Nat) (rows : Rows) (i : Nat) (h : i < rows.length) :
    footprint a (rows.take (i + 1)) = footprint a (rows.take i) + alignUp rows[i].length a := by
  rw [List.take_succ_eq_append_getElem h, footprint_append, footprint_cons, footprint_nil, Nat.add_zero]

theorem footprint_take_mono (a : Nat) (rows : Rows) {i j : Nat} (h : i ≤ j) :
    footprint a (rows.take i) ≤ footprint a (rows.take j) := by
  have : rows.take i = (rows.take j).take i := by rw [List.take_take, Nat.min_eq_left h]
  rw [this]
  conv => rhs; rw [← List.take_append_drop i (rows.take j), footprint_append]
  exact Nat.le_add_right _ _

theorem footprint_take_le (a : Nat) (rows : Rows) (i : Nat) :
    footprint a (rows.take i) ≤ footprint a rows := by
  conv => rhs; rw [← List.take_append_drop i rows, footprint_append]
  exact Nat.le_add_right _ _

variable {k : Nat} {page : Bytes} {rows : Rows}

theorem start_dvd (h : 2 ^ k ∣ page.length) (i : Nat) :
    2 ^ k ∣ start (2 ^ k) page.length rows i :=
  Nat.dvd_sub h (footprint_dvd _ _)

namespace Rep

theorem apos (_ : Rep k page rows) : 0 < 2 ^ k := Nat.two_pow_pos k

end Rep

namespace RepW

theorem take_le (h : RepW k page rows) (i : Nat) :
    4 * rows.length + footprint (2 ^ k) (rows.take i) ≤ page.length := by
  have := h.fits; have := footprint_take_le (2 ^ k) rows i; omega

theorem start_ge (h : RepW k page rows) (i : Nat) :
    4 * rows.length ≤ start (2 ^ k) page.length rows i := by
  have := h.take_le i; unfold start; omega

theorem start_le (_ : RepW k page rows) (i : Nat) :
    start (2 ^ k) page.length rows i ≤ page.length := by
  unfold start; omega

theorem start_succ (h : RepW k page rows) (i : Nat) (hi : i < rows.length) :
    start (2 ^ k) page.length rows (i + 1) + alignUp rows[i].length (2 ^ k) =
      start (2 ^ k) page.length rows i := by
  have := h.take_le (i + 1)
  unfold start
  rw [footprint_take_succ _ _ _ hi] at *
  omega

theorem start_anti (_ : RepW k page rows) {i j : Nat} (hij : i ≤ j) :
    start (2 ^ k) page.length rows j ≤ start (2 ^ k) page.length rows i := by
  have := footprint_take_mono (2 ^ k) rows hij
  unfold start; omega

theorem start_length (_ : RepW k page rows) :
    start (2 ^ k) page.length rows rows.length = page.length - footprint (2 ^ k) rows := by
  simp [start]

end RepW

theorem le_alignUp' (n k : Nat) : n ≤ alignUp n (2 ^ k) := le_alignUp n (Nat.two_pow_pos k)

theorem pad_lt (n k : Nat) : pad (2 ^ k) n < 2 ^ k := by
  have := alignUp_lt n (Nat.two_pow_pos k)
  have := le_alignUp' n k
  unfold pad; omega

/-! ## Decoding a slot -/

theorem or_pad {o p k : Nat} (ho : 2 ^ k ∣ o) (hp : p < 2 ^ k) : o ||| p = o + p := by
  obtain ⟨q, rfl⟩ := ho
  exact (Nat.two_pow_add_eq_or_of_lt hp q).symm

theorem alignmentMask_eq (hk : k < 32) : alignmentMask chk (2 ^ k) = .ok (2 ^ 32 - 2 ^ k) := by
  have hp := Nat.two_pow_pos k
  have : 2 ^ k < 2 ^ 32 := Nat.pow_lt_pow_right (by omega) hk
  simp only [alignmentMask, subW_ok (show 1 ≤ 2 ^ k by omega), Res.bind_ok, Res.pure_eq, notW]
  congr 1
  omega

theorem and_mask {o p k : Nat} (hk : k < 32) (ho : 2 ^ k ∣ o) (hp : p < 2 ^ k)
    (hlt : o + p < 2 ^ 32) : (o + p) &&& (2 ^ 32 - 2 ^ k) = o := by
  rw [and_notMask _ _ _ (by omega) hlt]
  obtain ⟨q, rfl⟩ := ho
  rw [Nat.mul_add_div (Nat.two_pow_pos k), Nat.div_eq_of_lt hp, Nat.add_zero, Nat.mul_comm]

theorem and_padmask {o p k : Nat} (hk : k < 32) (ho : 2 ^ k ∣ o) (hp : p < 2 ^ k) :
    (o + p) &&& (2 ^ 32 - 1 - (2 ^ 32 - 2 ^ k)) = p := by
  have : 2 ^ k < 2 ^ 32 := Nat.pow_lt_pow_right (by omega) hk
  have hpos := Nat.two_pow_pos k
  rw [show 2 ^ 32 - 1 - (2 ^ 32 - 2 ^ k) = 2 ^ k - 1 by omega, Nat.and_two_pow_sub_one_eq_mod]
  obtain ⟨q, rfl⟩ := ho
  rw [Nat.mul_add_mod, Nat.mod_eq_of_lt hp]

namespace RepW

theorem numRows_eq (h : RepW k page rows) : numRows page = .ok rows.length := by
  have := h.dir
  rw [numRows, getValue_ok (by omega), h.count]

theorem getRowOffset_eq (h : RepW k page rows) (i : Nat) (hi : i < rows.length) :
    getRowOffset page i =
      .ok (start (2 ^ k) page.length rows (i + 1) + pad (2 ^ k) rows[i].length) := by
  have := h.dir
  rw [getRowOffset, getValue_ok (by omega), h.slot i hi]

theorem slot_lt (h : RepW k page rows) (i : Nat) (hi : i < rows.length) :
    start (2 ^ k) page.length rows (i + 1) + pad (2 ^ k) rows[i].length < 2 ^ 32 := by
  have := h.start_succ i hi
  have := h.start_le i
  have := le_alignUp' rows[i].length k
  have := h.len_lt
  unfold pad; omega

theorem alignedRowOffset_eq (h : RepW k page rows) (i : Nat) (hi : i < rows.length) :
    alignedRowOffset chk (2 ^ k) page i = .ok (start (2 ^ k) page.length rows (i + 1)) := by
  simp only [alignedRowOffset, h.numRows_eq, Res.bind_ok, hi, decide_true, assert_true,
    h.getRowOffset_eq i hi, alignmentMask_eq h.hk, Res.pure_eq]
  rw [and_mask h.hk (start_dvd h.aligned _) (pad_lt _ _) (h.slot_lt i hi)]

theorem alignedRowOffset_bad (h : RepW k page rows) (i : Nat) (hi : ¬ i < rows.length) :
    alignedRowOffset chk (2 ^ k) page i = .error .panic := by
  simp [alignedRowOffset, h.numRows_eq, hi]

theorem upperBound_eq (h : RepW k page rows) (i : Nat) (hi : i ≤ rows.length) :
    upperBound chk (2 ^ k) page i = .ok (start (2 ^ k) page.length rows i) := by
  unfold upperBound
  by_cases h0 : i > 0
  · rw [if_pos h0, h.alignedRowOffset_eq _ (by omega)]
    congr 2; omega
  · have : i = 0 := by omega
    subst this
    simp [start]

theorem getRow_eq (h : RepW k page rows) (i : Nat) (hi : i < rows.length) :
    getRow chk (2 ^ k) page i = .ok rows[i] := by
  have hs := h.start_succ i hi
  have hl := h.start_le i
  have hle := le_alignUp' rows[i].length k
  simp only [getRow, rowOffsetPadding, h.numRows_eq, Res.bind_ok, hi, decide_true, assert_true,
    h.getRowOffset_eq i hi, alignmentMask_eq h.hk, Res.pure_eq, h.upperBound_eq i (by omega)]
  rw [and_mask h.hk (start_dvd h.aligned _) (pad_lt _ _) (h.slot_lt i hi),
    and_padmask h.hk (start_dvd h.aligned _) (pad_lt _ _)]
  have e : start (2 ^ k) page.length rows i - pad (2 ^ k) rows[i].length =
      start (2 ^ k) page.length rows (i + 1) + rows[i].length := by unfold pad; omega
  rw [subW_ok (by unfold pad; omega), e]
  simp only [Res.bind_ok, show start (2 ^ k) page.length rows (i + 1) ≤
    start (2 ^ k) page.length rows (i + 1) + rows[i].length by omega,
    show start (2 ^ k) page.length rows (i + 1) + rows[i].length ≤ page.length by omega,
    decide_true, Bool.and_true, assert_true, Nat.add_sub_cancel_left, h.data i hi]

theorem getRow_bad (h : RepW k page rows) (i : Nat) (hi : ¬ i < rows.length) :
    getRow chk (2 ^ k) page i = .error .panic := by
  simp [getRow, rowOffsetPadding, h.numRows_eq, hi]

end RepW

namespace Rep

theorem start_ge (h : Rep k page rows) (i : Nat) :
    4 * (rows.length + 1) ≤ start (2 ^ k) page.length rows i := by
  have := h.fits; have := footprint_take_le (2 ^ k) rows i; unfold start; omega

theorem start_le (h : Rep k page rows) (i : Nat) :
    start (2 ^ k) page.length rows i ≤ page.length := h.weak.start_le i

theorem start_succ (h : Rep k page rows) (i : Nat) (hi : i < rows.length) :
    start (2 ^ k) page.length rows (i + 1) + alignUp rows[i].length (2 ^ k) =
      start (2 ^ k) page.length rows i := h.weak.start_succ i hi

theorem start_anti (h : Rep k page rows) {i j : Nat} (hij : i ≤ j) :
    start (2 ^ k) page.length rows j ≤ start (2 ^ k) page.length rows i := h.weak.start_anti hij

theorem start_length (h : Rep k page rows) :
    start (2 ^ k) page.length rows rows.length = page.length - footprint (2 ^ k) rows :=
  h.weak.start_length

theorem numRows_eq (h : Rep k page rows) : numRows page = .ok rows.length := h.weak.numRows_eq

theorem getRowOffset_eq (h : Rep k page rows) (i : Nat) (hi : i < rows.length) :
    getRowOffset page i =
      .ok (start (2 ^ k) page.length rows (i + 1) + pad (2 ^ k) rows[i].length) :=
  h.weak.getRowOffset_eq i hi

theorem slot_lt (h : Rep k page rows) (i : Nat) (hi : i < rows.length) :
    start (2 ^ k) page.length rows (i + 1) + pad (2 ^ k) rows[i].length < 2 ^ 32 := h.weak.slot_lt i hi

theorem alignedRowOffset_eq (h : Rep k page rows) (i : Nat) (hi : i < rows.length) :
    alignedRowOffset chk (2 ^ k) page i = .ok (start (2 ^ k) page.length rows (i + 1)) :=
  h.weak.alignedRowOffset_eq i hi

theorem alignedRowOffset_bad (h : Rep k page rows) (i : Nat) (hi : ¬ i < rows.length) :
    alignedRowOffset chk (2 ^ k) page i = .error .panic := h.weak.alignedRowOffset_bad i hi

theorem upperBound_eq (h : Rep k page rows) (i : Nat) (hi : i ≤ rows.length) :
    upperBound chk (2 ^ k) page i = .ok (start (2 ^ k) page.length rows i) := h.weak.upperBound_eq i hi

theorem getRow_eq (h : Rep k page rows) (i : Nat) (hi : i < rows.length) :
    getRow chk (2 ^ k) page i = .ok rows[i] := h.weak.getRow_eq i hi

theorem getRow_bad (h : Rep k page rows) (i : Nat) (hi : ¬ i < rows.length) :
    getRow chk (2 ^ k) page i = .error .panic := h.weak.getRow_bad i hi

theorem align_eq (h : Rep k page rows) {chk : Bool} {n : Nat} (hn : n ≤ 2 ^ 40) :
    align chk n (2 ^ k) = .ok (alignUp n (2 ^ k)) := by
  have := h.hk
  have h2 : 2 ^ k < 2 ^ 32 := Nat.pow_lt_pow_right (by omega) h.hk
  exact align_ok (by omega) (by omega)

theorem maxInsertRowSize_eq (h : Rep k page rows) (chk : Bool) :
    maxInsertRowSize chk (2 ^ k) page = .ok (room page.length (2 ^ k) rows) := by
  have := h.fits
  have := h.len_lt
  simp only [maxInsertRowSize, h.numRows_eq, Res.bind_ok,
    h.align_eq (show 4 * (rows.length + 2) ≤ 2 ^ 40 by omega),
    h.upperBound_eq _ (Nat.le_refl _), Res.pure_eq, h.start_length]
  congr 1
  rw [room, directory, roundUp_eq]
  split <;> omega

/-- Room, in the form used below. -/
theorem of_room (h : Rep k page rows) {n : Nat} (hn : n ≤ room page.length (2 ^ k) rows)
    (hd : n ≠ 0 ∨ slotFits page.length (2 ^ k) rows) :
    4 * (rows.length + 2) + alignUp n (2 ^ k) + footprint (2 ^ k) rows ≤ page.length := by
  by_cases hz : n = 0
  · subst hz
    have hd := hd.resolve_left (by simp)
    have : alignUp 0 (2 ^ k) ≤ 0 := alignUp_le_of_dvd (Nat.two_pow_pos k) (Nat.dvd_zero _) (Nat.le_refl _)
    unfold slotFits at hd; omega
  have hs : footprint (2 ^ k) rows + directory (2 ^ k) rows ≤ page.length := by
    unfold room at hn; omega
  have hdir : 2 ^ k ∣ directory (2 ^ k) rows := alignUp_dvd _ _
  have hr : 2 ^ k ∣ room page.length (2 ^ k) rows :=
    Nat.dvd_sub h.aligned (Nat.dvd_add (footprint_dvd _ _) hdir)
  have h1 := alignUp_le_of_dvd h.apos hr hn
  have h2 := le_alignUp' (4 * (rows.length + 2)) k
  unfold room at h1
  rw [directory, roundUp_eq] at *
  omega

end Rep

/-! ## append -/

theorem start_append (a len : Nat) (rows : Rows) (r : Bytes) (i : Nat) (hi : i ≤ rows.length) :
    start a len (rows ++ [r]) i = start a len rows i := by
  unfold start
  rw [List.take_append_of_le_length hi]

theorem copyRow_ok {page row : Bytes} {off : Nat} (h : off + row.length ≤ page.length) :
    copyRow page off row = .ok (splice page off row) := by
  simp [copyRow, h]

/-- The last three writes of `append_row` and `insert_row`. -/
def finishPage (page : Bytes) (off idx n : Nat) (row : Bytes) (slotv : Nat) : Bytes :=
  splice (splice (splice page off row) (4 * (idx + 1)) (leBytes 4 slotv)) 0 (leBytes 4 n)

theorem finish_eq {page row : Bytes} {off idx n v : Nat} (h1 : off + row.length ≤ page.length)
    (h2 : 4 * (idx + 2) ≤ page.length) (hn : n < 2 ^ 32) :
    (do let p ← copyRow page off row
        let p ← setRowOffset p idx v
        setNumRows p n) = .ok (finishPage page off idx n row v) := by
  rw [copyRow_ok h1, Res.bind_ok, setRowOffset, setValue_ok (by rw [splice_length _ _ _ h1]; omega),
    Res.bind_ok, setNumRows, setValue_ok, Nat.mod_eq_of_lt hn]
  · rfl
  · rw [splice_length, splice_length _ _ _ h1]
    · omega
    · rw [splice_length _ _ _ h1]; simp; omega

theorem finishPage_length {page row : Bytes} {off idx n v : Nat} (h1 : off + row.length ≤ page.length)
    (h2 : 4 * (idx + 2) ≤ page.length) :
    (finishPage page off idx n row v).length = page.length := by
  have e1 := splice_length _ _ _ h1
  have e2 : (splice (splice page off row) (4 * (idx + 1)) (leBytes 4 v)).length = page.length := by
    rw [splice_length, e1]; rw [e1]; simp; omega
  unfold finishPage
  rw [splice_length, e2]
  rw [e2]; simp; omega

theorem finishPage_count {page row : Bytes} {off idx n v : Nat} (h1 : off + row.length ≤ page.length)
    (h2 : 4 * (idx + 2) ≤ page.length) (hn : n < 2 ^ 32) :
    leVal (slice (finishPage page off idx n row v) 0 4) = n := by
  have e1 := splice_length _ _ _ h1
  have e2 : (splice (splice page off row) (4 * (idx + 1)) (leBytes 4 v)).length = page.length := by
    rw [splice_length, e1]; rw [e1]; simp; omega
  have := slice_splice_same (buf := splice (splice page off row) (4 * (idx + 1)) (leBytes 4 v))
    (bs := leBytes 4 n) (off := 0) (by rw [e2]; simp; omega)
  simp only [leBytes_length] at this
  rw [finishPage, this, leVal_leBytes]
  exact Nat.mod_eq_of_lt (by omega)

theorem finishPage_slot {page row : Bytes} {off idx n v : Nat} (h1 : off + row.length ≤ page.length)
    (h2 : 4 * (idx + 2) ≤ page.length) (hv : v < 2 ^ 32) :
    leVal (slice (finishPage page off idx n row v) (4 * (idx + 1)) 4) = v := by
  have e1 := splice_length _ _ _ h1
  have e2 : (splice (splice page off row) (4 * (idx + 1)) (leBytes 4 v)).length = page.length := by
    rw [splice_length, e1]; rw [e1]; simp; omega
  have := slice_splice_same (buf := splice page off row)
    (bs := leBytes 4 v) (off := 4 * (idx + 1)) (by rw [e1]; simp; omega)
  simp only [leBytes_length] at this
  rw [finishPage, slice_splice_disjoint (by rw [e2]; simp; omega) (by simp; omega), this, leVal_leBytes]
  exact Nat.mod_eq_of_lt (by omega)

theorem finishPage_row {page row : Bytes} {off idx n v : Nat} (h1 : off + row.length ≤ page.length)
    (h2 : 4 * (idx + 2) ≤ off) :
    slice (finishPage page off idx n row v) off row.length = row := by
  have e1 := splice_length _ _ _ h1
  have e2 : (splice (splice page off row) (4 * (idx + 1)) (leBytes 4 v)).length = page.length := by
    rw [splice_length, e1]; rw [e1]; simp; omega
  rw [finishPage, slice_splice_disjoint (by rw [e2]; simp; omega) (by simp; omega),
    slice_splice_disjoint (by rw [e1]; simp; omega) (by simp; omega), slice_splice_same h1]

theorem finishPage_other {page row : Bytes} {off idx n v : Nat} (h1 : off + row.length ≤ page.length)
    (h2 : 4 * (idx + 2) ≤ page.length) {o m : Nat} (ho : 4 ≤ o)
    (ho1 : o + m ≤ 4 * (idx + 1) ∨ 4 * (idx + 2) ≤ o) (ho2 : o + m ≤ off ∨ off + row.length ≤ o) :
    slice (finishPage page off idx n row v) o m = slice page o m := by
  have e1 := splice_length _ _ _ h1
  have e2 : (splice (splice page off row) (4 * (idx + 1)) (leBytes 4 v)).length = page.length := by
    rw [splice_length, e1]; rw [e1]; simp; omega
  rw [finishPage, slice_splice_disjoint (by rw [e2]; simp; omega) (by simp; omega),
    slice_splice_disjoint (by rw [e1]; simp; omega) (by simp; omega),
    slice_splice_disjoint h1 ho2]

theorem Rep.append (h : Rep k page rows) (chk : Bool) (row : Bytes)
    (hn : row.length ≤ room page.length (2 ^ k) rows)
    (hd : row.length ≠ 0 ∨ slotFits page.length (2 ^ k) rows) :
    ∃ page', appendRow chk (2 ^ k) page row = .ok page' ∧ Rep k page' (rows ++ [row]) ∧
      page'.length = page.length := by
  have hroom := h.of_room hn hd
  have hlen := h.len_lt
  have hle := le_alignUp' row.length k
  let off := page.length - footprint (2 ^ k) rows - alignUp row.length (2 ^ k)
  have hoff : off = page.length - footprint (2 ^ k) rows - alignUp row.length (2 ^ k) := rfl
  have hdvd : 2 ^ k ∣ off :=
    Nat.dvd_sub (Nat.dvd_sub h.aligned (footprint_dvd _ _)) (alignUp_dvd _ _)
  let v := off + pad (2 ^ k) row.length
  have hv : v < 2 ^ 32 := by show off + _ < _; unfold pad; omega
  have hor : (off ||| pad (2 ^ k) row.length) % 2 ^ 32 = v := by
    rw [or_pad hdvd (pad_lt _ _)]; exact Nat.mod_eq_of_lt hv
  have h1 : off + row.length ≤ page.length := by omega
  have h2 : 4 * (rows.length + 2) ≤ off := by omega
  have hend : off + alignUp row.length (2 ^ k) = page.length - footprint (2 ^ k) rows := by omega
  have hstart : start (2 ^ k) page.length (rows ++ [row]) (rows.length + 1) = off := by
    unfold start
    rw [List.take_of_length_le (by simp)]
    simp only [footprint_append, footprint_cons, footprint_nil]
    omega
  refine ⟨finishPage page off rows.length (rows.length + 1) row v, ?_, ?_, ?_⟩
  · simp only [appendRow, h.maxInsertRowSize_eq, Res.bind_ok, hn, decide_true, assert_true,
      h.numRows_eq, h.align_eq (show row.length ≤ 2 ^ 40 by omega),
      h.upperBound_eq _ (Nat.le_refl _), h.start_length]
    rw [subW_ok (by omega), Res.bind_ok, subW_ok hle, Res.bind_ok]
    show (do
      let p ← copyRow page off row
      let p ← setRowOffset p rows.length ((off ||| pad (2 ^ k) row.length) % 2 ^ 32)
      setNumRows p (rows.length + 1)) = _
    rw [hor]
    exact finish_eq h1 (by omega) (by omega)
  · have hL := finishPage_length (n := rows.length + 1) (v := v) (idx := rows.length) h1 (by omega)
    constructor
    · exact h.hk
    · rw [hL]; exact hlen
    · rw [hL]; exact h.len_ge
    · rw [hL]; exact h.aligned
    · rw [finishPage_count h1 (by omega) (by omega)]; simp
    · rw [hL]; simp; omega
    · intro i hi
      rw [hL]
      rcases Nat.lt_or_ge i rows.length with hlt | hge
      · rw [finishPage_other h1 (by omega) (by omega) (by omega) (by omega), h.slot i hlt,
          start_append _ _ _ _ _ (by omega)]
        simp only [List.getElem_append_left hlt]
      · have : i = rows.length := by simp at hi; omega
        subst this
        rw [finishPage_slot h1 (by omega) hv, hstart]
        simp [v]
    · intro i hi
      rw [hL]
      rcases Nat.lt_or_ge i rows.length with hlt | hge
      · have hs := h.start_succ i hlt
        have ha := h.start_anti (i := i + 1) (j := rows.length) (by omega)
        rw [h.start_length] at ha
        have := le_alignUp' rows[i].length k
        rw [start_append _ _ _ _ _ (by omega)]
        simp only [List.getElem_append_left hlt]
        rw [finishPage_other h1 (by omega) (by omega) (by omega) (by omega), h.data i hlt]
      · have : i = rows.length := by simp at hi; omega
        subst this
        simp only [hstart, List.getElem_concat_length]
        exact finishPage_row h1 h2
  · exact finishPage_length h1 (by omega)

theorem Rep.append_bad (h : Rep k page rows) (chk : Bool) (row : Bytes)
    (hn : ¬ row.length ≤ room page.length (2 ^ k) rows) :
    appendRow chk (2 ^ k) page row = .error .panic := by
  simp only [appendRow, h.maxInsertRowSize_eq, Res.bind_ok, hn, decide_false, assert_false,
    Res.bind_error]

/-! ## insert -/

theorem insertIdx_eq (l : Rows) (i : Nat) (x : Bytes) (h : i ≤ l.length) :
    l.insertIdx i x = l.take i ++ x :: l.drop i := by
  induction l generalizing i with
  | nil => simp at h; subst h; simp
  | cons y l ih =>
    cases i with
    | zero => simp
    | succ i => simp [ih i (by simpa using h)]

theorem footprint_insert_lo (a : Nat) (rows : Rows) (idx i : Nat) (r : Bytes)
    (h : idx ≤ rows.length) (hi : i ≤ idx) :
    footprint a ((rows.insertIdx idx r).take i) = footprint a (rows.take i) := by
  rw [insertIdx_eq _ _ _ h, List.take_append_of_le_length (by simp; omega), List.take_take,
    Nat.min_eq_left hi]

theorem footprint_insert_hi (a : Nat) (rows : Rows) (idx i : Nat) (r : Bytes)
    (h : idx ≤ rows.length) (hi : idx ≤ i) :
    footprint a ((rows.insertIdx idx r).take (i + 1)) =
      footprint a (rows.take i) + alignUp r.length a := by
  rw [insertIdx_eq _ _ _ h, List.take_append, List.take_of_length_le (by simp; omega)]
  have e1 : (rows.take idx).length = idx := by simp; omega
  rw [e1, show i + 1 - idx = (i - idx) + 1 by omega, List.take_succ_cons]
  have e2 : rows.take i = rows.take idx ++ (rows.drop idx).take (i - idx) := by
    conv => lhs; rw [← List.take_append_drop idx rows, List.take_append,
      List.take_of_length_le (show (rows.take idx).length ≤ i by omega), e1]
  rw [e2]
  simp only [footprint_append, footprint_cons]
  omega

theorem footprint_insert (a : Nat) (rows : Rows) (idx : Nat) (r : Bytes) (h : idx ≤ rows.length) :
    footprint a (rows.insertIdx idx r) = footprint a rows + alignUp r.length a := by
  have := footprint_insert_hi a rows idx rows.length r h h
  rwa [List.take_of_length_le (by simp [List.length_insertIdx]; split <;> omega),
    List.take_of_length_le (Nat.le_refl _)] at this

theorem shiftUp_ok (delta index c : Nat) (p : Bytes) (hlen : 4 * (index + c + 2) ≤ p.length)
    (hp : p.length < 2 ^ 32)
    (hge : ∀ j, index ≤ j → j < index + c → delta ≤ leVal (slice p (4 * (j + 1)) 4)) :
    ∃ p', shiftUp chk delta index c p = .ok p' ∧ p'.length = p.length ∧
      (∀ j, index ≤ j → j < index + c →
        leVal (slice p' (4 * (j + 2)) 4) = leVal (slice p (4 * (j + 1)) 4) - delta) ∧
      (∀ o m, (o + m ≤ 4 * (index + 2) ∨ 4 * (index + c + 2) ≤ o) →
        slice p' o m = slice p o m) := by
  induction c generalizing p with
  | zero => exact ⟨p, rfl, rfl, fun j h1 h2 => by omega, fun _ _ _ => rfl⟩
  | succ c ih =>
    have hold := leVal_lt (slice p (4 * (index + c + 1)) 4)
    rw [slice_length _ _ _ (by omega)] at hold
    let nv := leVal (slice p (4 * (index + c + 1)) 4) - delta
    let q := splice p (4 * (index + c + 1 + 1)) (leBytes 4 nv)
    have hb : 4 * (index + c + 1 + 1) + (leBytes 4 nv).length ≤ p.length := by simp; omega
    have hq : q.length = p.length := splice_length _ _ _ hb
    have step : shiftUp chk delta index (c + 1) p = shiftUp chk delta index c q := by
      rw [shiftUp, getRowOffset, getValue_ok (by omega), Res.bind_ok,
        subW_ok (hge _ (by omega) (by omega)), Res.bind_ok, setRowOffset, Nat.mod_eq_of_lt (by omega),
        setValue_ok (by omega)]
      rfl
    have hsame : ∀ o m, (o + m ≤ 4 * (index + c + 2) ∨ 4 * (index + c + 3) ≤ o) →
        slice q o m = slice p o m := fun o m h =>
      slice_splice_disjoint hb (by simp; omega)
    obtain ⟨p', e, hl, hs, ho⟩ := ih q (by rw [hq]; omega) (by rw [hq]; exact hp) (by
      intro j h1 h2
      rw [hsame _ _ (by omega)]
      exact hge j h1 (by omega))
    refine ⟨p', by rw [step, e], by rw [hl, hq], ?_, ?_⟩
    · intro j h1 h2
      rcases Nat.lt_or_ge j (index + c) with hj | hj
      · rw [hs j h1 hj, hsame _ _ (by omega)]
      · have : j = index + c := by omega
        subst this
        rw [ho _ _ (by omega)]
        have := slice_splice_same hb
        rw [leBytes_length] at this
        show leVal (slice q (4 * (index + c + 1 + 1)) 4) = _
        rw [this, leVal_leBytes]
        exact Nat.mod_eq_of_lt (by omega)
    · intro o m h
      rw [ho o m (by omega), hsame o m (by omega)]

theorem moveBytes_ok {page : Bytes} {src dst n : Nat} (h1 : src + n ≤ page.length)
    (h2 : dst + n ≤ page.length) :
    moveBytes page src dst n = .ok (splice page dst (slice page src n)) := by
  simp [moveBytes, h1, h2, show src ≤ page.length by omega, show dst ≤ page.length by omega]

theorem Rep.insert (h : Rep k page rows) (chk : Bool) (idx : Nat) (row : Bytes)
    (hidx : idx ≤ rows.length)
    (hn : row.length ≤ room page.length (2 ^ k) rows)
    (hd : row.length ≠ 0 ∨ slotFits page.length (2 ^ k) rows) :
    ∃ page', insertRow chk (2 ^ k) page idx row = .ok page' ∧ Rep k page' (rows.insertIdx idx row) ∧
      page'.length = page.length := by
  have hL := h.len_lt
  by_cases hcase : idx = rows.length
  · obtain ⟨page', e, hr⟩ := h.append chk row hn hd
    refine ⟨page', ?_, ?_⟩
    · simp only [insertRow, h.maxInsertRowSize_eq, Res.bind_ok, hn, decide_true, assert_true,
        h.numRows_eq, hcase, if_true, e]
    · rw [hcase, List.insertIdx_length_self]; exact hr
  · have hroom := h.of_room hn hd
    have hle := le_alignUp' row.length k
    generalize hdelta : alignUp row.length (2 ^ k) = delta at *
    have hlast := h.start_length
    generalize hlastv : start (2 ^ k) page.length rows rows.length = last at *
    have hrow : start (2 ^ k) page.length rows idx ≤ page.length := h.start_le idx
    have hanti := h.start_anti (i := idx) (j := rows.length) hidx
    rw [hlastv] at hanti
    generalize hrowv : start (2 ^ k) page.length rows idx = rowOff at *
    have hdst : 4 * (rows.length + 2) ≤ last - delta := by omega
    -- the moved page
    let p1 := splice page (last - delta) (slice page last (rowOff - last))
    have hsl : (slice page last (rowOff - last)).length = rowOff - last :=
      slice_length _ _ _ (by omega)
    have hb1 : last - delta + (slice page last (rowOff - last)).length ≤ page.length := by
      rw [hsl]; omega
    have hp1 : p1.length = page.length := splice_length _ _ _ hb1
    have p1lo : ∀ o m, o + m ≤ last - delta → slice p1 o m = slice page o m := fun o m ho =>
      slice_splice_disjoint hb1 (by omega)
    have p1hi : ∀ o m, rowOff - delta ≤ o → slice p1 o m = slice page o m := fun o m ho =>
      slice_splice_disjoint hb1 (by rw [hsl]; omega)
    have p1mv : ∀ o m, last ≤ o → o + m ≤ rowOff → slice p1 (o - delta) m = slice page o m := by
      intro o m h1 h2
      rw [slice_splice_inside hb1 (by omega) (by rw [hsl]; omega), slice_slice (by omega)]
      congr 1; omega
    -- the shifted slots
    obtain ⟨p2, e2, hp2, hs2, ho2⟩ := shiftUp_ok delta idx (rows.length - idx) p1
      (by rw [hp1]; omega) (by rw [hp1]; exact hL) (by
        intro j h1 h2
        rw [p1lo _ _ (by omega), h.slot j (by omega)]
        have := h.start_anti (i := j + 1) (j := rows.length) (by omega)
        rw [hlastv] at this
        omega)
    rw [hp1] at hp2
    have hoff : rowOff - delta + row.length ≤ p2.length := by omega
    let v := rowOff - delta + pad (2 ^ k) row.length
    have hpadv : pad (2 ^ k) row.length = delta - row.length := by rw [pad, hdelta]
    have hv : v < 2 ^ 32 := by show _ + _ < _; omega
    have hdvd : 2 ^ k ∣ rowOff - delta := by
      rw [← hrowv, ← hdelta]
      exact Nat.dvd_sub (start_dvd h.aligned _) (alignUp_dvd _ _)
    have hor : (rowOff - delta ||| pad (2 ^ k) row.length) % 2 ^ 32 = v := by
      rw [or_pad hdvd (pad_lt _ _)]; exact Nat.mod_eq_of_lt hv
    have hlen' : (rows.insertIdx idx row).length = rows.length + 1 :=
      List.length_insertIdx_of_le_length hidx ..
    have hfl := finishPage_length (n := rows.length + 1) (v := v) (idx := idx) hoff (by omega)
    refine ⟨finishPage p2 (rowOff - delta) idx (rows.length + 1) row v, ?_, ?_, ?_⟩
    · have hal := h.alignedRowOffset_eq (chk := chk) (rows.length - 1) (by omega)
      rw [show rows.length - 1 + 1 = rows.length by omega, hlastv] at hal
      simp only [insertRow, h.maxInsertRowSize_eq, Res.bind_ok, hn, decide_true, assert_true,
        h.numRows_eq, hcase, if_false, h.align_eq (show row.length ≤ 2 ^ 40 by omega),
        subW_ok (show 1 ≤ rows.length by omega), hal, h.upperBound_eq _ hidx, hrowv, hdelta,
        subW_ok (show delta ≤ last by omega), subW_ok hanti]
      rw [moveBytes_ok (by omega) (by omega), Res.bind_ok, e2, Res.bind_ok, subW_ok hle, Res.bind_ok,
        subW_ok (show delta ≤ rowOff by omega), Res.bind_ok, ← hpadv, hor]
      exact finish_eq hoff (by omega) (by omega)
    · have hstlo : ∀ i, i ≤ idx → start (2 ^ k) page.length (rows.insertIdx idx row) i =
          start (2 ^ k) page.length rows i := by
        intro i hi; unfold start; rw [footprint_insert_lo _ _ _ _ _ hidx hi]
      have hsthi : ∀ i, idx ≤ i → start (2 ^ k) page.length (rows.insertIdx idx row) (i + 1) =
          start (2 ^ k) page.length rows i - delta := by
        intro i hi; unfold start; rw [footprint_insert_hi _ _ _ _ _ hidx hi, hdelta]; omega
      constructor
      · exact h.hk
      · rw [hfl, hp2]; exact hL
      · rw [hfl, hp2]; exact h.len_ge
      · rw [hfl, hp2]; exact h.aligned
      · rw [finishPage_count hoff (by omega) (by omega), hlen']
      · rw [hfl, hp2, hlen', footprint_insert _ _ _ _ hidx, hdelta]; omega
      · intro i hi
        rw [hfl, hp2]
        rw [hlen'] at hi
        simp only [List.getElem_insertIdx]
        rcases Nat.lt_trichotomy i idx with hlt | heq | hgt
        · simp only [hlt, dif_pos]
          rw [finishPage_other hoff (by omega) (by omega) (by omega) (by omega),
            ho2 _ _ (by omega), p1lo _ _ (by omega), h.slot i (by omega), hstlo _ (by omega)]
        · subst heq
          simp only [Nat.lt_irrefl, dif_neg, not_false_eq_true, dif_pos]
          rw [finishPage_slot hoff (by omega) hv, hsthi _ (Nat.le_refl _), hrowv]
        · simp only [show ¬ i < idx by omega, dif_neg, not_false_eq_true, show i ≠ idx by omega]
          have hi1 : 1 ≤ i := by omega
          rw [finishPage_other hoff (by omega) (by omega) (by omega) (by omega)]
          have := hs2 (i - 1) (by omega) (by omega)
          rw [show i - 1 + 2 = i + 1 by omega, show i - 1 + 1 = i by omega] at this
          rw [this, p1lo _ _ (by omega)]
          have h3 := h.slot (i - 1) (by omega)
          rw [show i - 1 + 1 = i by omega] at h3
          have h4 := h.start_anti (i := i) (j := rows.length) (by omega)
          rw [h3, hsthi i (by omega)]
          omega
      · intro i hi
        rw [hfl, hp2]
        rw [hlen'] at hi
        simp only [List.getElem_insertIdx]
        rcases Nat.lt_trichotomy i idx with hlt | heq | hgt
        · simp only [hlt, dif_pos]
          have h5 := h.start_anti (i := i + 1) (j := idx) (by omega)
          have h6 := h.start_ge (i + 1)
          rw [hrowv] at h5
          rw [hstlo _ (by omega), finishPage_other hoff (by omega) (by omega) (by omega) (by omega),
            ho2 _ _ (by omega), p1hi _ _ (by omega), h.data i (by omega)]
        · subst heq
          simp only [Nat.lt_irrefl, dif_neg, not_false_eq_true, dif_pos]
          rw [hsthi _ (Nat.le_refl _), hrowv]
          exact finishPage_row hoff (by omega)
        · simp only [show ¬ i < idx by omega, dif_neg, not_false_eq_true, show i ≠ idx by omega]
          have h5 := h.start_anti (i := i) (j := rows.length) (by omega)
          have h6 := h.start_anti (i := idx) (j := i - 1) (by omega)
          have h7 := h.start_succ (i - 1) (by omega)
          rw [show i - 1 + 1 = i by omega] at h7
          have h8 := le_alignUp' rows[i - 1].length k
          rw [hlastv] at h5
          rw [hrowv] at h6
          rw [hsthi i (by omega), finishPage_other hoff (by omega) (by omega) (by omega) (by omega),
            ho2 _ _ (by omega), p1mv _ _ (by omega) (by omega)]
          have h9 := h.data (i - 1) (by omega)
          rw [show i - 1 + 1 = i by omega] at h9
          exact h9
    · rw [hfl, hp2]

theorem Rep.insert_long (h : Rep k page rows) (chk : Bool) (idx : Nat) (row : Bytes)
    (hn : ¬ row.length ≤ room page.length (2 ^ k) rows) :
    insertRow chk (2 ^ k) page idx row = .error .panic := by
  simp only [insertRow, h.maxInsertRowSize_eq, Res.bind_ok, hn, decide_false, assert_false,
    Res.bind_error]

theorem subW_wraps {a b : Nat} (h : ¬ b ≤ a) (hb : b < W64) : ∃ m, ¬ m < a ∧ subW false a b = .ok m := by
  unfold subW
  rw [if_neg h]
  generalize hw : W64 = w at *
  exact ⟨a + w - b, by omega, rfl⟩

theorem Rep.insert_bad (h : Rep k page rows) (chk : Bool) (idx : Nat) (row : Bytes)
    (hidx : rows.length < idx) : insertRow chk (2 ^ k) page idx row = .error .panic := by
  by_cases hn : row.length ≤ room page.length (2 ^ k) rows
  · have hroom : room page.length (2 ^ k) rows ≤ page.length := by unfold room; omega
    have := h.len_lt
    simp only [insertRow, h.maxInsertRowSize_eq, Res.bind_ok, hn, decide_true, assert_true,
      h.numRows_eq, show idx ≠ rows.length by omega, if_false,
      h.align_eq (show row.length ≤ 2 ^ 40 by omega)]
    by_cases h0 : 1 ≤ rows.length
    · rw [subW_ok h0, Res.bind_ok, h.alignedRowOffset_eq _ (by omega), Res.bind_ok, upperBound,
        if_pos (by omega), h.alignedRowOffset_bad _ (by omega), Res.bind_error]
    · cases chk with
      | true => simp only [subW, if_neg h0, if_true, Res.bind_error]
      | false =>
        obtain ⟨m, hm, e⟩ := subW_wraps (a := rows.length) (b := 1) h0 (by decide)
        rw [e, Res.bind_ok, h.alignedRowOffset_bad _ hm, Res.bind_error]
  · exact h.insert_long chk idx row hn

/-! ## remove -/

theorem footprint_erase_lo (a : Nat) (rows : Rows) (idx i : Nat) (hi : i ≤ idx) :
    footprint a ((rows.eraseIdx idx).take i) = footprint a (rows.take i) := by
  by_cases h : idx < rows.length
  · rw [List.eraseIdx_eq_take_drop_succ, List.take_append_of_le_length (by simp; omega),
      List.take_take, Nat.min_eq_left hi]
  · rw [List.eraseIdx_of_length_le (by omega)]

theorem footprint_erase_hi (a : Nat) (rows : Rows) (idx i : Nat) (h : idx < rows.length)
    (hi : idx ≤ i) :
    footprint a ((rows.eraseIdx idx).take i) + alignUp rows[idx].length a =
      footprint a (rows.take (i + 1)) := by
  have e1 : (rows.take idx).length = idx := by simp; omega
  have e2 : rows.take (i + 1) = rows.take idx ++ rows[idx] :: (rows.drop (idx + 1)).take (i - idx) := by
    conv => lhs; rw [← List.take_append_drop idx rows, List.take_append,
      List.take_of_length_le (show (rows.take idx).length ≤ i + 1 by omega), e1,
      List.drop_eq_getElem_cons h, show i + 1 - idx = (i - idx) + 1 by omega, List.take_succ_cons]
  rw [List.eraseIdx_eq_take_drop_succ, List.take_append, List.take_of_length_le (by omega), e1, e2]
  simp only [footprint_append, footprint_cons]
  omega

theorem footprint_erase (a : Nat) (rows : Rows) (idx : Nat) (h : idx < rows.length) :
    footprint a (rows.eraseIdx idx) + alignUp rows[idx].length a = footprint a rows := by
  have := footprint_erase_hi a rows idx rows.length h (by omega)
  rwa [List.take_of_length_le (by rw [List.length_eraseIdx]; split <;> omega),
    List.take_of_length_le (by omega)] at this

theorem shiftDown_ok (delta i c : Nat) (p : Bytes) (hi : 1 ≤ i) (hlen : 4 * (i + c + 1) ≤ p.length)
    (hge : ∀ j, i ≤ j → j < i + c → leVal (slice p (4 * (j + 1)) 4) + delta < 2 ^ 32) :
    ∃ p', shiftDown delta i c p = .ok p' ∧ p'.length = p.length ∧
      (∀ j, i ≤ j → j < i + c →
        leVal (slice p' (4 * j) 4) = leVal (slice p (4 * (j + 1)) 4) + delta) ∧
      (∀ o m, (o + m ≤ 4 * i ∨ 4 * (i + c) ≤ o) → slice p' o m = slice p o m) := by
  induction c generalizing p i with
  | zero => exact ⟨p, rfl, rfl, fun j h1 h2 => by omega, fun _ _ _ => rfl⟩
  | succ c ih =>
    let nv := leVal (slice p (4 * (i + 1)) 4) + delta
    have hnv : nv < 2 ^ 32 := hge i (by omega) (by omega)
    let q := splice p (4 * i) (leBytes 4 nv)
    have hb : 4 * i + (leBytes 4 nv).length ≤ p.length := by simp; omega
    have hq : q.length = p.length := splice_length _ _ _ hb
    have step : shiftDown delta i (c + 1) p = shiftDown delta (i + 1) c q := by
      rw [shiftDown, getRowOffset, getValue_ok (by omega), Res.bind_ok, setRowOffset,
        Nat.mod_eq_of_lt hnv, setValue_ok (by omega), show i - 1 + 1 = i by omega]
      rfl
    have hsame : ∀ o m, (o + m ≤ 4 * i ∨ 4 * (i + 1) ≤ o) → slice q o m = slice p o m :=
      fun o m h => slice_splice_disjoint hb (by simp; omega)
    obtain ⟨p', e, hl, hs, ho⟩ := ih (i + 1) q (by omega) (by rw [hq]; omega) (by
      intro j h1 h2
      rw [hsame _ _ (by omega)]
      exact hge j (by omega) (by omega))
    refine ⟨p', by rw [step, e], by rw [hl, hq], ?_, ?_⟩
    · intro j h1 h2
      rcases Nat.lt_or_ge i j with hj | hj
      · rw [hs j (by omega) (by omega), hsame _ _ (by omega)]
      · have : j = i := by omega
        subst this
        rw [ho _ _ (by omega)]
        have := slice_splice_same hb
        rw [leBytes_length] at this
        rw [this, leVal_leBytes]
        exact Nat.mod_eq_of_lt (by omega)
    · intro o m h
      rw [ho o m (by omega), hsame o m (by omega)]

theorem setNumRows_ok {p : Bytes} {n : Nat} (hp : 4 ≤ p.length) (hn : n < 2 ^ 32) :
    setNumRows p n = .ok (splice p 0 (leBytes 4 n)) := by
  rw [setNumRows, setValue_ok (by omega), Nat.mod_eq_of_lt hn]

theorem RepW.remove (h : RepW k page rows) (idx : Nat) (hidx : idx < rows.length) :
    ∃ page', removeRow chk (2 ^ k) page idx = .ok page' ∧ Rep k page' (rows.eraseIdx idx) ∧
      page'.length = page.length := by
  have hL := h.len_lt
  have hfit := h.fits
  have hdir := h.dir
  have hlen' : (rows.eraseIdx idx).length = rows.length - 1 := by
    rw [List.length_eraseIdx, if_pos hidx]
  have hfoot := footprint_erase (2 ^ k) rows idx hidx
  -- it suffices to describe the page before the last write
  suffices hs : ∃ p, removeShift chk (2 ^ k) page idx rows.length = .ok p ∧ p.length = page.length ∧
      (∀ i (hi : i < (rows.eraseIdx idx).length), leVal (slice p (4 * (i + 1)) 4) =
        start (2 ^ k) page.length (rows.eraseIdx idx) (i + 1) +
          pad (2 ^ k) (rows.eraseIdx idx)[i].length) ∧
      (∀ i (hi : i < (rows.eraseIdx idx).length),
        slice p (start (2 ^ k) page.length (rows.eraseIdx idx) (i + 1))
          (rows.eraseIdx idx)[i].length = (rows.eraseIdx idx)[i]) by
    obtain ⟨p, e, hp, hsl, hda⟩ := hs
    have hp4 : 4 ≤ p.length := by rw [hp]; have := h.dir; omega
    have hb : 0 + (leBytes 4 (rows.length - 1)).length ≤ p.length := by simp; omega
    have hpl : (splice p 0 (leBytes 4 (rows.length - 1))).length = page.length := by
      rw [splice_length _ _ _ hb, hp]
    refine ⟨splice p 0 (leBytes 4 (rows.length - 1)), ?_, ?_, hpl⟩
    · simp only [removeRow, h.numRows_eq, Res.bind_ok, hidx, decide_true, assert_true]
      rw [e, Res.bind_ok, setNumRows_ok hp4 (by omega)]
    · have hst : ∀ i, 4 ≤ start (2 ^ k) page.length (rows.eraseIdx idx) i := by
        intro i
        have := footprint_take_le (2 ^ k) (rows.eraseIdx idx) i
        unfold start; omega
      constructor
      · exact h.hk
      · rw [hpl]; exact hL
      · rw [hpl]; have := h.dir; omega
      · rw [hpl]; exact h.aligned
      · have := slice_splice_same hb
        rw [leBytes_length] at this
        rw [this, leVal_leBytes, hlen']
        exact Nat.mod_eq_of_lt (by omega)
      · rw [hpl, hlen']; omega
      · intro i hi
        rw [slice_splice_disjoint hb (by simp; omega), hpl, hsl i hi]
      · intro i hi
        rw [hpl, slice_splice_disjoint hb (by have := hst (i + 1); simp; omega), hda i hi]
  by_cases hcase : idx < rows.length - 1
  · rw [removeShift, if_pos hcase]
    have hrs := h.start_succ idx hidx
    have hle := le_alignUp' rows[idx].length k
    generalize hdelta : alignUp rows[idx].length (2 ^ k) = delta at *
    generalize hprev : start (2 ^ k) page.length rows idx = prev at *
    have hrow0 := h.start_anti (i := idx + 1) (j := rows.length) (by omega)
    generalize hrowv : start (2 ^ k) page.length rows (idx + 1) = rowOff at *
    have hlast := h.start_length
    have hlastge := h.start_ge rows.length
    generalize hlastv : start (2 ^ k) page.length rows rows.length = last at *
    have hprevle : prev ≤ page.length := by rw [← hprev]; exact h.start_le _
    have hal := h.alignedRowOffset_eq (chk := chk) (rows.length - 1) (by omega)
    rw [show rows.length - 1 + 1 = rows.length by omega, hlastv] at hal
    obtain ⟨p1, e1, hp1, hs1, ho1⟩ := shiftDown_ok delta (idx + 1) (rows.length - (idx + 1)) page
      (by omega) (by omega) (by
        intro j h1 h2
        rw [h.slot j (by omega)]
        have h3 := h.start_succ j (by omega)
        have h4 := h.start_anti (i := idx + 1) (j := j) h1
        have h5 := le_alignUp' rows[j].length k
        rw [hrowv] at h4
        unfold pad; omega)
    have hsl : (slice p1 last (rowOff - last)).length = rowOff - last :=
      slice_length _ _ _ (by omega)
    have hb : last + delta + (slice p1 last (rowOff - last)).length ≤ p1.length := by
      rw [hsl]; omega
    let p2 := splice p1 (last + delta) (slice p1 last (rowOff - last))
    have p2lo : ∀ o m, o + m ≤ last + delta → slice p2 o m = slice p1 o m := fun o m ho =>
      slice_splice_disjoint hb (by omega)
    have p2hi : ∀ o m, prev ≤ o → slice p2 o m = slice p1 o m := fun o m ho =>
      slice_splice_disjoint hb (by rw [hsl]; omega)
    have p2mv : ∀ o m, last ≤ o → o + m ≤ rowOff → slice p2 (o + delta) m = slice p1 o m := by
      intro o m h1 h2
      rw [slice_splice_inside hb (by omega) (by rw [hsl]; omega), slice_slice (by omega)]
      congr 1; omega
    have hstlo : ∀ i, i ≤ idx → start (2 ^ k) page.length (rows.eraseIdx idx) i =
        start (2 ^ k) page.length rows i := by
      intro i hi; unfold start; rw [footprint_erase_lo _ _ _ _ hi]
    have hsthi : ∀ i, idx ≤ i → start (2 ^ k) page.length (rows.eraseIdx idx) i =
        start (2 ^ k) page.length rows (i + 1) + delta := by
      intro i hi
      have h1 := footprint_erase_hi (2 ^ k) rows idx i hidx hi
      have h2 := footprint_take_le (2 ^ k) rows (i + 1)
      rw [hdelta] at h1
      unfold start; omega
    refine ⟨p2, ?_, ?_, ?_, ?_⟩
    · simp only [h.alignedRowOffset_eq idx hidx, hrowv, Res.bind_ok,
        h.upperBound_eq idx (by omega), hprev, hal, subW_ok (show rowOff ≤ prev by omega),
        show prev - rowOff = delta by omega, e1, subW_ok hrow0]
      have hlt := h.len_lt
      rw [addW, if_pos (by omega), Res.bind_ok]
      exact moveBytes_ok (by omega) (by omega)
    · show (splice _ _ _).length = _
      rw [splice_length _ _ _ hb, hp1]
    · intro i hi
      rw [hlen'] at hi
      simp only [List.getElem_eraseIdx]
      rcases Nat.lt_or_ge i idx with hlt | hge
      · simp only [hlt, dif_pos]
        rw [p2lo _ _ (by omega), ho1 _ _ (by omega), h.slot i (by omega), hstlo _ (by omega)]
      · simp only [show ¬ i < idx by omega, dif_neg, not_false_eq_true]
        rw [p2lo _ _ (by omega), hs1 (i + 1) (by omega) (by omega), h.slot (i + 1) (by omega),
          hsthi _ (by omega)]
        omega
    · intro i hi
      rw [hlen'] at hi
      simp only [List.getElem_eraseIdx]
      rcases Nat.lt_or_ge i idx with hlt | hge
      · simp only [hlt, dif_pos]
        have h5 := h.start_anti (i := i + 1) (j := idx) (by omega)
        rw [hprev] at h5
        have h6 := h.start_ge (i + 1)
        rw [hstlo _ (by omega), p2hi _ _ (by omega), ho1 _ _ (by omega), h.data i (by omega)]
      · simp only [show ¬ i < idx by omega, dif_neg, not_false_eq_true]
        have h5 := h.start_anti (i := i + 1 + 1) (j := rows.length) (by omega)
        have h6 := h.start_anti (i := idx + 1) (j := i + 1) (by omega)
        have h7 := h.start_succ (i + 1) (by omega)
        have h8 := le_alignUp' rows[i + 1].length k
        rw [hlastv] at h5
        rw [hrowv] at h6
        rw [hsthi _ (by omega), p2mv _ _ (by omega) (by omega), ho1 _ _ (by omega),
          h.data (i + 1) (by omega)]
  · rw [removeShift, if_neg hcase]
    have hi : idx = rows.length - 1 := by omega
    refine ⟨page, rfl, rfl, ?_, ?_⟩
    · intro i hi
      rw [hlen'] at hi
      simp only [List.getElem_eraseIdx, show i < idx by omega, dif_pos]
      rw [h.slot i (by omega)]
      unfold start; rw [footprint_erase_lo _ _ _ _ (by omega)]
    · intro i hi
      rw [hlen'] at hi
      simp only [List.getElem_eraseIdx, show i < idx by omega, dif_pos]
      have := h.data i (by omega)
      unfold start at *
      rw [footprint_erase_lo _ _ _ _ (by omega)]
      exact this

theorem Rep.remove (h : Rep k page rows) (idx : Nat) (hidx : idx < rows.length) :
    ∃ page', removeRow chk (2 ^ k) page idx = .ok page' ∧ Rep k page' (rows.eraseIdx idx) ∧
      page'.length = page.length := h.weak.remove idx hidx

theorem Rep.remove_bad (h : Rep k page rows) (idx : Nat) (hidx : ¬ idx < rows.length) :
    removeRow chk (2 ^ k) page idx = .error .panic := by
  simp [removeRow, h.numRows_eq, hidx]

end Verif.Nsm
