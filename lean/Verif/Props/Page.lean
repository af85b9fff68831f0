import Verif.Proof.NsmDamaged
import Verif.Proof.NsmOutcome
import Verif.Proof.NsmFull

/-! # Properties C05–C10: row pages (`src/core/nsm.rs`)

The specification is `Verif.Spec.Page`: a list of byte strings with a byte budget. -/

namespace Verif.Props

open Verif Verif.Spec Verif.Nsm

/-- One mutating call on a page. -/
def pageStep (chk : Bool) (a : Nat) (page : Bytes) : PageOp → Res Bytes
  | .append r => appendRow chk a page r
  | .insert i r => insertRow chk a page i r
  | .remove i => removeRow chk a page i

/-- A history of calls; stops at the first fault. -/
def pageRun (chk : Bool) (a : Nat) : List PageOp → Bytes → Res Bytes
  | [], page => .ok page
  | op :: ops, page => do
    let page ← pageStep chk a page op
    pageRun chk a ops page

/-- What a user can read: `num_rows` and `get_row` at every index report exactly `rows`. -/
def Shows (a : Nat) (page : Bytes) (rows : Rows) : Prop :=
  numRows page = .ok rows.length ∧
  ∀ chk i, getRow chk a page i = match rows[i]? with
    | some r => .ok r
    | none => .error .panic

/-- `page` is what initialising `page0` and performing the calls `ops` gives, and `rows` is what the
list specification gives for the same calls. -/
def Reaches (chk : Bool) (a : Nat) (page0 : Bytes) (ops : List PageOp) (page : Bytes) (rows : Rows) :
    Prop :=
  ∃ p, initializePage chk a page0 = .ok p ∧ pageRun chk a ops p = .ok page ∧
    Regular page0.length a ops [] ∧ runRows page0.length a ops [] = some rows

/-! ## From the representation invariant -/

theorem init_rep {chk : Bool} {a : Nat} {page0 p : Bytes} (ha : a < 2 ^ 64)
    (h : initializePage chk a page0 = .ok p) :
    ∃ k, a = 2 ^ k ∧ Rep k p [] ∧ p.length = page0.length := by
  simp only [initializePage, Res.bind_eq_ok, assert_ok] at h
  obtain ⟨_, h4, _, hmax, l, hal, _, heq, hset⟩ := h
  have h4 : 4 ≤ page0.length := by simpa using h4
  have hmax : page0.length ≤ 2 ^ 32 - 1 := by simpa using hmax
  have heq : l = page0.length := by simpa using heq
  cases hp : isPow2 a with
  | false => rw [align_not_pow2 hp] at hal; cases hal
  | true =>
    obtain ⟨k, hk, rfl⟩ := (isPow2_iff ha).1 hp
    have hk63 : 2 ^ k ≤ 2 ^ 63 := Nat.pow_le_pow_right (by omega) (by omega)
    rw [align_ok hk (by omega)] at hal
    cases hal
    have hdvd : 2 ^ k ∣ page0.length := heq ▸ alignUp_dvd _ _
    have hle := Nat.le_of_dvd (by omega) hdvd
    have hk32 : k < 32 := (Nat.pow_lt_pow_iff_right (a := 2) (by omega)).1 (by omega)
    rw [setValue_ok (by omega)] at hset
    cases hset
    have hb : 0 + (leBytes 4 0).length ≤ page0.length := by simp; omega
    have hl := splice_length page0 0 (leBytes 4 0) hb
    refine ⟨k, rfl, ⟨hk32, by rw [hl]; omega, by rw [hl]; omega, by rw [hl]; exact hdvd, ?_, ?_, ?_, ?_⟩,
      hl⟩
    · have := slice_splice_same hb
      rw [leBytes_length] at this
      rw [this, leVal_leBytes]; rfl
    · rw [hl]; simpa using h4
    · intro i hi; simp at hi
    · intro i hi; simp at hi

theorem step_rep {chk : Bool} {k : Nat} {page : Bytes} {rows : Rows} (h : Rep k page rows) (op : PageOp)
    (hd : ¬ op.degenerate page.length (2 ^ k) rows) :
    (op.legal page.length (2 ^ k) rows → ∃ page', pageStep chk (2 ^ k) page op = .ok page' ∧
      Rep k page' (op.apply rows) ∧ page'.length = page.length) ∧
    (¬ op.legal page.length (2 ^ k) rows → pageStep chk (2 ^ k) page op = .error .panic) := by
  cases op with
  | append r =>
    refine ⟨fun hl => h.append chk r hl ?_, fun hl => h.append_bad chk r hl⟩
    simp only [PageOp.degenerate] at hd
    by_cases hs : slotFits page.length (2 ^ k) rows
    · exact .inr hs
    · exact .inl fun h0 => hd ⟨List.length_eq_zero_iff.1 h0, hs⟩
  | insert i r =>
    constructor
    · rintro ⟨hi, hl⟩
      refine h.insert chk i r hi hl ?_
      simp only [PageOp.degenerate] at hd
      by_cases hs : slotFits page.length (2 ^ k) rows
      · exact .inr hs
      · exact .inl fun h0 => hd ⟨hi, List.length_eq_zero_iff.1 h0, hs⟩
    · intro hl
      by_cases hi : i ≤ rows.length
      · exact h.insert_long chk i r fun hr => hl ⟨hi, hr⟩
      · exact h.insert_bad chk i r (by omega)
  | remove i =>
    exact ⟨fun hl => h.remove i hl, fun hl => h.remove_bad i hl⟩

theorem run_rep {chk : Bool} {k : Nat} (ops : List PageOp) {page : Bytes} {rows : Rows}
    (h : Rep k page rows) (hr : Regular page.length (2 ^ k) ops rows) :
    match runRows page.length (2 ^ k) ops rows with
    | some rows' => ∃ page', pageRun chk (2 ^ k) ops page = .ok page' ∧ Rep k page' rows' ∧
        page'.length = page.length
    | none => pageRun chk (2 ^ k) ops page = .error .panic := by
  induction ops generalizing page rows with
  | nil => exact ⟨page, rfl, h, rfl⟩
  | cons op ops ih =>
    have hs := step_rep (chk := chk) h op hr.1
    simp only [runRows, pageRun]
    by_cases hl : op.legal page.length (2 ^ k) rows
    · obtain ⟨p', e, hp', hlen⟩ := hs.1 hl
      rw [if_pos hl, e, Res.bind_ok]
      have := ih hp' (by rw [hlen]; exact hr.2 hl)
      rw [hlen] at this
      exact this
    · rw [if_neg hl, hs.2 hl]
      rfl

theorem Reaches.rep {chk : Bool} {a : Nat} {page0 : Bytes} {ops : List PageOp} {page : Bytes}
    {rows : Rows} (ha : a < 2 ^ 64) (h : Reaches chk a page0 ops page rows) :
    ∃ k, a = 2 ^ k ∧ Rep k page rows ∧ page.length = page0.length := by
  obtain ⟨p, hi, hrun, hreg, hspec⟩ := h
  obtain ⟨k, rfl, hrep, hlen⟩ := init_rep ha hi
  have := run_rep (chk := chk) ops hrep (by rw [hlen]; exact hreg)
  rw [hlen, hspec] at this
  obtain ⟨page', e, h1, h2⟩ := this
  rw [e] at hrun
  cases hrun
  exact ⟨k, rfl, h1, by rw [h2]⟩

theorem rep_shows {k : Nat} {page : Bytes} {rows : Rows} (h : Rep k page rows) :
    Shows (2 ^ k) page rows := by
  refine ⟨h.numRows_eq, fun chk i => ?_⟩
  by_cases hi : i < rows.length
  · rw [h.getRow_eq i hi, List.getElem?_eq_getElem hi]
  · rw [h.getRow_bad i hi, List.getElem?_eq_none (by omega)]

/-! ## The properties -/

/-- C05. For every page size, alignment and history (without the degenerate call of C07): the page
behaves as the list of rows; a call panics exactly when the list specification forbids it. -/
theorem C05_page_refines_list (chk : Bool) (a : Nat) (ha : a < 2 ^ 64) (page0 page : Bytes)
    (hinit : initializePage chk a page0 = .ok page) (ops : List PageOp)
    (hreg : Regular page0.length a ops []) :
    match runRows page0.length a ops [] with
    | some rows => ∃ page', pageRun chk a ops page = .ok page' ∧ Shows a page' rows
    | none => pageRun chk a ops page = .error .panic := by
  obtain ⟨k, rfl, hrep, hlen⟩ := init_rep ha hinit
  have := run_rep (chk := chk) ops hrep (by rw [hlen]; exact hreg)
  rw [hlen] at this
  split at this
  · obtain ⟨p', e', hp', _⟩ := this
    exact ⟨p', e', rep_shows hp'⟩
  · exact this

/-- A concrete history used as the instance for C05–C10: alignment 4, 64 bytes, rows of lengths
3, 1, 0 and 5, an insertion at the front, one in the middle and a removal. -/
def exOps : List PageOp :=
  [.append [1, 2, 3], .insert 0 [9], .append [], .insert 1 [4, 5, 6, 7, 8], .remove 2]

theorem exRegular : Regular 64 4 exOps [] := by
  simp [exOps, Regular, PageOp.degenerate, PageOp.apply, PageOp.legal, slotFits, footprint,
    directory, roundUp, room]

/-- C05 instance: the history is regular, legal, and ends with three rows. -/
theorem exReaches : ∃ page, Reaches true 4 (List.replicate 64 0) exOps page [[9], [4, 5, 6, 7, 8], []] := by
  have hinit : ∃ p, initializePage true 4 (List.replicate 64 0) = .ok p := ⟨_, rfl⟩
  obtain ⟨p, hp⟩ := hinit
  have h := C05_page_refines_list true 4 (by decide) _ p hp exOps (by simpa using exRegular)
  have e : runRows (List.replicate 64 (0 : UInt8)).length 4 exOps [] =
      some [[9], [4, 5, 6, 7, 8], []] := by decide
  rw [e] at h
  obtain ⟨page, hrun, _⟩ := h
  exact ⟨page, p, hp, hrun, by simpa using exRegular, e⟩

/-- C06. The reported room is the page length minus padded rows minus padded directory, and a
non-empty row is accepted by `append_row` and `insert_row` exactly when it is not longer than that. -/
theorem C06_room_exact (chk : Bool) (a : Nat) (ha : a < 2 ^ 64) (page0 : Bytes) (ops : List PageOp)
    (page : Bytes) (rows : Rows) (h : Reaches chk a page0 ops page rows) :
    maxInsertRowSize chk a page = .ok (page0.length - (footprint a rows + directory a rows)) ∧
    ∀ row, row ≠ [] → ∀ i, i ≤ rows.length →
      ((∃ p', appendRow chk a page row = .ok p') ↔
        footprint a rows + directory a rows + row.length ≤ page0.length) ∧
      ((∃ p', insertRow chk a page i row = .ok p') ↔
        footprint a rows + directory a rows + row.length ≤ page0.length) := by
  obtain ⟨k, rfl, hrep, hlen⟩ := h.rep ha
  refine ⟨by rw [hrep.maxInsertRowSize_eq, hlen]; rfl, fun row hne i hi => ?_⟩
  have hne' : row.length ≠ 0 := fun h0 => hne (List.length_eq_zero_iff.1 h0)
  have hiff : footprint (2 ^ k) rows + directory (2 ^ k) rows + row.length ≤ page0.length ↔
      row.length ≤ room page.length (2 ^ k) rows := by
    rw [hlen]; unfold room; omega
  rw [hiff]
  constructor
  · by_cases hr : row.length ≤ room page.length (2 ^ k) rows
    · obtain ⟨p', e, _⟩ := hrep.append chk row hr (.inl hne')
      exact ⟨fun _ => hr, fun _ => ⟨p', e⟩⟩
    · rw [hrep.append_bad chk row hr]
      exact ⟨fun ⟨_, h⟩ => (nomatch h), fun h => absurd h hr⟩
  · by_cases hr : row.length ≤ room page.length (2 ^ k) rows
    · obtain ⟨p', e, _⟩ := hrep.insert chk i row hi hr (.inl hne')
      exact ⟨fun _ => hr, fun _ => ⟨p', e⟩⟩
    · rw [hrep.insert_long chk i row hr]
      exact ⟨fun ⟨_, h⟩ => (nomatch h), fun h => absurd h hr⟩

/-- C06 instance: in the example page 32 bytes are left. -/
example : ∃ page, Reaches true 4 (List.replicate 64 0) exOps page [[9], [4, 5, 6, 7, 8], []] ∧
    maxInsertRowSize true 4 page = .ok 32 := by
  obtain ⟨page, h⟩ := exReaches
  exact ⟨page, h, (C06_room_exact true 4 (by decide) _ _ _ _ h).1⟩

/-- C07, the part that holds: a call that adds a row and returns keeps every earlier row readable,
unless the row is empty and the page has no room for its slot. Missing: the excluded call, for which
the claim is false (`C07_full_page_refuted`). -/
theorem C07_no_corruption_partial (chk : Bool) (a : Nat) (ha : a < 2 ^ 64) (page0 : Bytes)
    (ops : List PageOp) (page : Bytes) (rows : Rows) (h : Reaches chk a page0 ops page rows)
    (row : Bytes) (hd : row ≠ [] ∨ footprint a rows + 4 * (rows.length + 2) ≤ page0.length)
    (index : Nat) (page' : Bytes) :
    (appendRow chk a page row = .ok page' →
      ∀ i (hi : i < rows.length), getRow chk a page' i = .ok rows[i]) ∧
    (insertRow chk a page index row = .ok page' → ∀ i (hi : i < rows.length),
      getRow chk a page' (if i < index then i else i + 1) = .ok rows[i]) := by
  obtain ⟨k, rfl, hrep, hlen⟩ := h.rep ha
  have hd' : row.length ≠ 0 ∨ slotFits page.length (2 ^ k) rows := by
    rcases hd with hd | hd
    · exact .inl fun h0 => hd (List.length_eq_zero_iff.1 h0)
    · right; unfold slotFits; rw [hlen]; exact hd
  constructor
  · intro e i hi
    by_cases hr : row.length ≤ room page.length (2 ^ k) rows
    · obtain ⟨p', e', hp', _⟩ := hrep.append chk row hr hd'
      rw [e'] at e; cases e
      rw [hp'.getRow_eq i (by simp; omega), List.getElem_append_left hi]
    · rw [hrep.append_bad chk row hr] at e; cases e
  · intro e i hi
    by_cases hx : index ≤ rows.length
    · by_cases hr : row.length ≤ room page.length (2 ^ k) rows
      · obtain ⟨p', e', hp', _⟩ := hrep.insert chk index row hx hr hd'
        rw [e'] at e; cases e
        have hl : (rows.insertIdx index row).length = rows.length + 1 :=
          List.length_insertIdx_of_le_length hx ..
        split
        · rename_i hlt
          rw [hp'.getRow_eq i (by omega)]
          simp [List.getElem_insertIdx, hlt]
        · rename_i hge
          rw [hp'.getRow_eq (i + 1) (by omega)]
          simp only [List.getElem_insertIdx, show ¬ i + 1 < index by omega, dif_neg,
            not_false_eq_true, show i + 1 ≠ index by omega, Nat.add_sub_cancel]
      · rw [hrep.insert_long chk index row hr] at e; cases e
    · rw [hrep.insert_bad chk index row (by omega)] at e; cases e

/-- A page with three rows to which a row of five bytes is appended. -/
example : ∃ page page', Reaches true 4 (List.replicate 64 0) exOps page [[9], [4, 5, 6, 7, 8], []] ∧
    appendRow true 4 page [1, 2, 3, 4, 5] = .ok page' ∧ getRow true 4 page' 1 = .ok [4, 5, 6, 7, 8] := by
  obtain ⟨page, h⟩ := exReaches
  obtain ⟨p', e⟩ := (((C06_room_exact true 4 (by decide) _ _ _ _ h).2 [1, 2, 3, 4, 5] (by simp) 1
    (by simp)).1).2 (by decide)
  exact ⟨page, p', h, e,
    (C07_no_corruption_partial true 4 (by decide) _ _ _ _ h _ (.inl (by simp)) 0 p').1 e 1 (by decide)⟩

/-- C07, refuted in general: on a full 12-byte page holding the row `[1,2,3,4]`, appending an empty row
is accepted and the stored row reads `[8,0,0,0]` afterwards. -/
theorem C07_full_page_refuted :
    ∃ page page', Reaches true 4 (List.replicate 12 0) [.append [1, 2, 3, 4]] page [[1, 2, 3, 4]] ∧
      getRow true 4 page 0 = .ok [1, 2, 3, 4] ∧ maxInsertRowSize true 4 page = .ok 0 ∧
      appendRow true 4 page [] = .ok page' ∧ getRow true 4 page' 0 = .ok [8, 0, 0, 0] := by
  refine ⟨[1, 0, 0, 0, 8, 0, 0, 0, 1, 2, 3, 4], [2, 0, 0, 0, 8, 0, 0, 0, 8, 0, 0, 0],
    ⟨List.replicate 12 0, by decide, by decide, ?_, by decide⟩, by decide, by decide, by decide, by decide⟩
  simp [Regular, PageOp.degenerate]

theorem repW_shows {k : Nat} {page : Bytes} {rows : Rows} (h : RepW k page rows) :
    Shows (2 ^ k) page rows := by
  refine ⟨h.numRows_eq, fun chk i => ?_⟩
  by_cases hi : i < rows.length
  · rw [h.getRow_eq i hi, List.getElem?_eq_getElem hi]
  · rw [h.getRow_bad i hi, List.getElem?_eq_none (by omega)]

/-- C07, exactly what adding an empty row does on every reachable page, also a full one: the call panics exactly when the
slot would lie outside the page; otherwise it returns, and the page shows the earlier rows with the four bytes of one
slot written over them, wherever they reach into the place of that slot. -/
theorem C07_empty_row (chk : Bool) (a : Nat) (ha : a < 2 ^ 64) (page0 : Bytes)
    (ops : List PageOp) (page : Bytes) (rows : Rows) (h : Reaches chk a page0 ops page rows)
    (index : Nat) (hi : index ≤ rows.length) :
    (page0.length < 4 * (rows.length + 2) → insertRow chk a page index [] = .error .panic) ∧
    (4 * (rows.length + 2) ≤ page0.length → ∃ page', insertRow chk a page index [] = .ok page' ∧
      Shows a page' ((damaged page0.length a rows
        (word32 (slotAfter page0.length a rows index))).insertIdx index [])) ∧
    appendRow chk a page [] = insertRow chk a page rows.length [] := by
  obtain ⟨k, rfl, hrep, hlen⟩ := h.rep ha
  rw [← hlen]
  refine ⟨hrep.insert_empty_bad chk index hi, fun hf => ?_, ?_⟩
  · obtain ⟨page', e, hp, _⟩ := hrep.insert_empty chk index hi hf
    exact ⟨page', e, repW_shows hp⟩
  · simp only [insertRow, hrep.maxInsertRowSize_eq, Res.bind_ok, List.length_nil, Nat.zero_le,
      decide_true, assert_true, hrep.numRows_eq, if_true]

/-- C07 instance: on the full 12-byte page of the refutation the slot of the appended row replaces the stored row; on a
20-byte page with two rows, an empty row put first moves the slot of the second row over its own bytes. -/
example : damaged 12 4 [[1, 2, 3, 4]] (word32 (slotAfter 12 4 [[1, 2, 3, 4]] 1)) = [[8, 0, 0, 0]] ∧
    damaged 20 4 [[1, 2, 3, 4], [5, 6, 7]] (word32 (slotAfter 20 4 [[1, 2, 3, 4], [5, 6, 7]] 0)) =
      [[1, 2, 3, 4], [13, 0, 0]] ∧
    ∃ page, Reaches true 4 (List.replicate 20 0) [.append [1, 2, 3, 4], .append [5, 6, 7]] page
      [[1, 2, 3, 4], [5, 6, 7]] := by
  refine ⟨by decide, by decide, [2, 0, 0, 0, 16, 0, 0, 0, 13, 0, 0, 0, 5, 6, 7, 0, 1, 2, 3, 4],
    List.replicate 20 0, by decide, by decide, ?_, by decide⟩
  simp [Regular, PageOp.degenerate]

/-- Slots that fit damage nothing. -/
theorem damaged_of_fits {len a : Nat} {rows : Rows} (new : Bytes) (hn : new.length = 4)
    (h : footprint a rows + 4 * (rows.length + 2) ≤ len) : damaged len a rows new = rows := by
  apply List.ext_getElem
  · simp
  · intro i h1 h2
    rw [damaged_getElem _ _ _ _ _ h2]
    have := footprint_take_le a rows (i + 1)
    apply List.ext_getElem
    · simp
    · intro j h3 h4
      simp only [overwritten, List.getElem_mapIdx]
      rw [List.getD_eq_getElem?_getD, List.getElem?_eq_none (by omega)]
      simp

/-- C07, exactly when the earlier rows survive an accepted empty row: when the four bytes written are those that were
stored in their place, or fall on padding or unused bytes. That is so whenever the slot fits before the rows. -/
theorem C07_survive_iff (chk : Bool) (a : Nat) (ha : a < 2 ^ 64) (page0 : Bytes)
    (ops : List PageOp) (page : Bytes) (rows : Rows) (h : Reaches chk a page0 ops page rows)
    (index : Nat) (hi : index ≤ rows.length) (page' : Bytes)
    (e : insertRow chk a page index [] = .ok page') :
    ((∀ i (hi : i < rows.length), getRow chk a page' (if i < index then i else i + 1) = .ok rows[i]) ↔
      damaged page0.length a rows (word32 (slotAfter page0.length a rows index)) = rows) ∧
    (footprint a rows + 4 * (rows.length + 2) ≤ page0.length →
      damaged page0.length a rows (word32 (slotAfter page0.length a rows index)) = rows) := by
  refine ⟨?_, damaged_of_fits _ rfl⟩
  obtain ⟨hbad, hok, -⟩ := C07_empty_row chk a ha page0 ops page rows h index hi
  by_cases hf : 4 * (rows.length + 2) ≤ page0.length
  rotate_left
  · rw [hbad (by omega)] at e; cases e
  obtain ⟨p, e', hs⟩ := hok hf
  rw [e'] at e; cases e
  generalize hd : damaged page0.length a rows (word32 (slotAfter page0.length a rows index)) = ds at *
  have hl : ds.length = rows.length := by rw [← hd]; simp
  have key : ∀ i (hi : i < rows.length), getRow chk a page' (if i < index then i else i + 1) =
      .ok (ds[i]'(by omega)) := by
    intro i hi
    have hlen' : (ds.insertIdx index []).length = rows.length + 1 := by
      rw [List.length_insertIdx_of_le_length (by omega), hl]
    split
    · rename_i hc
      rw [hs.2 chk i, List.getElem?_eq_getElem (by omega)]
      simp [List.getElem_insertIdx, hc]
    · rename_i hc
      rw [hs.2 chk (i + 1), List.getElem?_eq_getElem (by omega)]
      simp [List.getElem_insertIdx, show ¬ i + 1 < index by omega, show i + 1 ≠ index by omega]
  constructor
  · intro hall
    apply List.ext_getElem hl
    intro i h1 h2
    have h3 := hall i h2
    rw [key i h2] at h3
    exact Except.ok.inj h3
  · intro hr i hi
    rw [key i hi]
    simp [hr]

/-- C07 instance: the first of the four bytes is the byte stored there, the others fall on the padding of the row. -/
example : damaged 12 4 [[8]] (word32 (slotAfter 12 4 [[8]] 1)) = [[8]] := by decide

/-- C08, the part that holds: removing what was just inserted restores all rows and the reported room. Missing: an empty
row inserted without room for its slot, for which the claim is false (`C08_full_page_refuted`). -/
theorem C08_remove_insert_partial (chk : Bool) (a : Nat) (ha : a < 2 ^ 64) (page0 : Bytes)
    (ops : List PageOp) (page : Bytes) (rows : Rows) (h : Reaches chk a page0 ops page rows)
    (row : Bytes) (hd : row ≠ [] ∨ footprint a rows + 4 * (rows.length + 2) ≤ page0.length)
    (index : Nat) (page' : Bytes) (hins : insertRow chk a page index row = .ok page') :
    ∃ page'', removeRow chk a page' index = .ok page'' ∧ Shows a page'' rows ∧
      maxInsertRowSize chk a page'' = maxInsertRowSize chk a page := by
  obtain ⟨k, rfl, hrep, hlen⟩ := h.rep ha
  have hd' : row.length ≠ 0 ∨ slotFits page.length (2 ^ k) rows := by
    rcases hd with hd | hd
    · exact .inl fun h0 => hd (List.length_eq_zero_iff.1 h0)
    · right; unfold slotFits; rw [hlen]; exact hd
  by_cases hx : index ≤ rows.length
  · by_cases hr : row.length ≤ room page.length (2 ^ k) rows
    · obtain ⟨p', e', hp', hl'⟩ := hrep.insert chk index row hx hr hd'
      rw [e'] at hins; cases hins
      have hl : (rows.insertIdx index row).length = rows.length + 1 :=
        List.length_insertIdx_of_le_length hx ..
      obtain ⟨p'', e'', hp'', hl''⟩ := hp'.remove index (by omega)
      have hrows : (rows.insertIdx index row).eraseIdx index = rows := by
        rw [List.eraseIdx_insertIdx_self]
      rw [hrows] at hp''
      exact ⟨p'', e'', rep_shows hp'', by
        rw [hp''.maxInsertRowSize_eq, hrep.maxInsertRowSize_eq, hl'', hl']⟩
    · rw [hrep.insert_long chk index row hr] at hins; cases hins
  · rw [hrep.insert_bad chk index row (by omega)] at hins; cases hins

/-- A row of five bytes is inserted before the second row and removed. -/
example : ∃ page page' page'', Reaches true 4 (List.replicate 64 0) exOps page [[9], [4, 5, 6, 7, 8], []] ∧
    insertRow true 4 page 1 [1, 2, 3, 4, 5] = .ok page' ∧ removeRow true 4 page' 1 = .ok page'' ∧
    Shows 4 page'' [[9], [4, 5, 6, 7, 8], []] := by
  obtain ⟨page, h⟩ := exReaches
  obtain ⟨p', e⟩ := (((C06_room_exact true 4 (by decide) _ _ _ _ h).2 [1, 2, 3, 4, 5] (by simp) 1
    (by simp)).2).2 (by decide)
  obtain ⟨p'', e1, e2, _⟩ := C08_remove_insert_partial true 4 (by decide) _ _ _ _ h _ (.inl (by simp)) 1 p' e
  exact ⟨page, p', p'', h, e, e1, e2⟩

/-- C08 for the empty row on every reachable page, also a full one: if inserting it returns, so does removing it; the
reported room is as before, and the rows are the earlier ones with the bytes of one slot written over them. -/
theorem C08_empty_row (chk : Bool) (a : Nat) (ha : a < 2 ^ 64) (page0 : Bytes)
    (ops : List PageOp) (page : Bytes) (rows : Rows) (h : Reaches chk a page0 ops page rows)
    (index : Nat) (page' : Bytes) (hins : insertRow chk a page index [] = .ok page') :
    ∃ page'', removeRow chk a page' index = .ok page'' ∧
      Shows a page'' (damaged page0.length a rows (word32 (slotAfter page0.length a rows index))) ∧
      maxInsertRowSize chk a page'' = maxInsertRowSize chk a page := by
  obtain ⟨k, rfl, hrep, hlen⟩ := h.rep ha
  by_cases hx : index ≤ rows.length
  · by_cases hf : 4 * (rows.length + 2) ≤ page.length
    · obtain ⟨p', e', hp', hl'⟩ := hrep.insert_empty chk index hx hf
      rw [e'] at hins; cases hins
      rw [hlen] at hp'
      generalize hd : damaged page0.length (2 ^ k) rows
        (word32 (slotAfter page0.length (2 ^ k) rows index)) = ds at *
      have hl : ds.length = rows.length := by rw [← hd]; simp
      have hfp : footprint (2 ^ k) ds = footprint (2 ^ k) rows := by
        rw [← hd]; exact footprint_map_length (damaged_map_length ..) _
      obtain ⟨p'', e'', hp'', hl''⟩ := hp'.remove (chk := chk) index (by
        rw [List.length_insertIdx_of_le_length (by omega)]; omega)
      rw [List.eraseIdx_insertIdx_self] at hp''
      refine ⟨p'', e'', rep_shows hp'', ?_⟩
      rw [hp''.maxInsertRowSize_eq, hrep.maxInsertRowSize_eq, hl'', hl', room, room, directory,
        directory, hfp, hl]
    · rw [hrep.insert_empty_bad chk index hx (by omega)] at hins; cases hins
  · rw [hrep.insert_bad chk index [] (by omega)] at hins; cases hins

/-- C08, refuted in general: on the full 12-byte page holding `[1,2,3,4]`, inserting an empty row at the end and removing
it leaves the row `[8,0,0,0]`. -/
theorem C08_full_page_refuted :
    ∃ page page' page'', Reaches true 4 (List.replicate 12 0) [.append [1, 2, 3, 4]] page [[1, 2, 3, 4]] ∧
      insertRow true 4 page 1 [] = .ok page' ∧ removeRow true 4 page' 1 = .ok page'' ∧
      getRow true 4 page'' 0 = .ok [8, 0, 0, 0] := by
  refine ⟨[1, 0, 0, 0, 8, 0, 0, 0, 1, 2, 3, 4], [2, 0, 0, 0, 8, 0, 0, 0, 8, 0, 0, 0],
    [1, 0, 0, 0, 8, 0, 0, 0, 8, 0, 0, 0],
    ⟨List.replicate 12 0, by decide, by decide, ?_, by decide⟩, by decide, by decide, by decide⟩
  simp [Regular, PageOp.degenerate]

/-- C08 instance: inserting five bytes in the middle of the example page is possible. -/
example : ∃ page page', Reaches true 4 (List.replicate 64 0) exOps page [[9], [4, 5, 6, 7, 8], []] ∧
    insertRow true 4 page 1 [1, 2, 3, 4, 5] = .ok page' := by
  obtain ⟨page, h⟩ := exReaches
  obtain ⟨p', e⟩ := (((C06_room_exact true 4 (by decide) _ _ _ _ h).2 [1, 2, 3, 4, 5] (by simp) 1
    (by simp)).2).2 (by decide)
  exact ⟨page, p', h, e⟩

/-- C09. Each row starts at a multiple of the alignment; rows overlap neither each other nor the slot
directory. `row_offset_padding` is the position `get_row` slices at. -/
theorem C09_rows_aligned (chk : Bool) (a : Nat) (ha : a < 2 ^ 64) (page0 : Bytes)
    (ops : List PageOp) (page : Bytes) (rows : Rows) (h : Reaches chk a page0 ops page rows) :
    ∃ pos : Nat → Nat, (∀ i (hi : i < rows.length),
      (rowOffsetPadding chk a page i).map (·.1) = .ok (pos i) ∧
      slice page (pos i) rows[i].length = rows[i] ∧
      a ∣ pos i ∧ 4 * (rows.length + 1) ≤ pos i ∧ pos i + rows[i].length ≤ page.length) ∧
      ∀ i j (_ : i < j) (hj : j < rows.length), pos j + rows[j].length ≤ pos i := by
  obtain ⟨k, rfl, hrep, hlen⟩ := h.rep ha
  refine ⟨fun i => start (2 ^ k) page.length rows (i + 1), fun i hi => ?_, fun i j hij hj => ?_⟩
  · have h1 := hrep.start_succ i hi
    have h2 := hrep.start_le i
    have h3 := le_alignUp' rows[i].length k
    refine ⟨?_, hrep.data i hi, start_dvd hrep.aligned _, hrep.start_ge _, ?_⟩
    rotate_left
    · show start (2 ^ k) page.length rows (i + 1) + _ ≤ _; omega
    simp only [rowOffsetPadding, hrep.numRows_eq, Res.bind_ok, hi, decide_true, assert_true,
      hrep.getRowOffset_eq i hi, alignmentMask_eq hrep.hk, Res.pure_eq]
    rw [and_mask hrep.hk (start_dvd hrep.aligned _) (pad_lt _ _) (hrep.slot_lt i hi)]
    rfl
  · have h1 := hrep.start_succ j hj
    have h2 := hrep.start_anti (i := i + 1) (j := j) (by omega)
    have h3 := le_alignUp' rows[j].length k
    show start (2 ^ k) page.length rows (j + 1) + _ ≤ start (2 ^ k) page.length rows (i + 1)
    omega

/-- C10. `get_row` and `remove_row` panic exactly for indices that are not below `num_rows`;
`insert_row` panics for every index above `num_rows`; rows longer than the room are refused. -/
theorem C10_bad_calls_refused (chk : Bool) (a : Nat) (ha : a < 2 ^ 64) (page0 : Bytes)
    (ops : List PageOp) (page : Bytes) (rows : Rows) (h : Reaches chk a page0 ops page rows) :
    (∀ i, getRow chk a page i = .error .panic ↔ rows.length ≤ i) ∧
    (∀ i, removeRow chk a page i = .error .panic ↔ rows.length ≤ i) ∧
    (∀ i, i < rows.length → ∃ p, removeRow chk a page i = .ok p) ∧
    (∀ i row, rows.length < i → insertRow chk a page i row = .error .panic) ∧
    (∀ i row m, maxInsertRowSize chk a page = .ok m → m < row.length →
      appendRow chk a page row = .error .panic ∧ insertRow chk a page i row = .error .panic) := by
  obtain ⟨k, rfl, hrep, hlen⟩ := h.rep ha
  refine ⟨fun i => ?_, fun i => ?_, fun i hi => ?_, fun i row hi => hrep.insert_bad chk i row hi,
    fun i row m hm hlt => ?_⟩
  · by_cases hi : i < rows.length
    · rw [hrep.getRow_eq i hi]; constructor
      · intro h; cases h
      · intro h; omega
    · exact ⟨fun _ => by omega, fun _ => hrep.getRow_bad i hi⟩
  · by_cases hi : i < rows.length
    · obtain ⟨p, e, _⟩ := hrep.remove i hi
      rw [e]; constructor
      · intro h; cases h
      · intro h; omega
    · exact ⟨fun _ => by omega, fun _ => hrep.remove_bad i hi⟩
  · obtain ⟨p, e, _⟩ := hrep.remove i hi
    exact ⟨p, e⟩
  · rw [hrep.maxInsertRowSize_eq] at hm
    cases hm
    exact ⟨hrep.append_bad chk row (by omega), hrep.insert_long chk i row (by omega)⟩

/-- C09, C10 instance: `exReaches` gives a page that meets the hypotheses, with three rows. -/
example : ∃ page, Reaches true 4 (List.replicate 64 0) exOps page [[9], [4, 5, 6, 7, 8], []] ∧
    getRow true 4 page 1 = .ok [4, 5, 6, 7, 8] ∧ getRow true 4 page 3 = .error .panic := by
  obtain ⟨page, h⟩ := exReaches
  obtain ⟨k, hk, hrep, _⟩ := h.rep (by decide)
  have hs := rep_shows hrep
  rw [← hk] at hs
  exact ⟨page, h, hs.2 true 1, hs.2 true 3⟩

/-! ## C103 -/

/-- C103, the part that holds.  Whatever a page contains, `initialize_page`, `num_rows`, `get_row`, `max_insert_row_size`
and `append_row` do not access memory outside it, rows that are read lie in the page, and calls that return keep the
length of the page.  `insert_row` and `remove_row` do not access memory outside a page whose rows lie in it one before
the other.

Full statement: the same for `insert_row` and `remove_row` on every page; `C103_damaged_refuted` shows that it is false,
`C103_insert` and `C103_remove` say exactly when. -/
theorem C103_damaged_partial (chk : Bool) (a : Nat) (page row : Bytes) (i : Nat) :
    (initializePage chk a page ≠ .error .ub ∧ numRows page ≠ .error .ub ∧ getRow chk a page i ≠ .error .ub ∧
      maxInsertRowSize chk a page ≠ .error .ub ∧ appendRow chk a page row ≠ .error .ub) ∧
    (∀ r, getRow chk a page i = .ok r → ∃ before after, page = before ++ r ++ after) ∧
    (∀ op page', pageStep chk a page op = .ok page' → page'.length = page.length) ∧
    (∀ k, a = 2 ^ k → k < 64 → page.length < 2 ^ 63 → Ordered a page →
      insertRow chk a page i row ≠ .error .ub ∧ removeRow chk a page i ≠ .error .ub) := by
  refine ⟨⟨fun h => initializePage_ub.1 h, fun h => numRows_ub.1 h, fun h => getRow_ub.1 h, fun h => maxInsertRowSize_ub.1 h,
    fun h => appendRow_ub.1 h⟩, fun r hr => ?_, fun op page' h => ?_, ?_⟩
  · obtain ⟨o, h1, h2⟩ := getRow_inside hr
    refine ⟨page.take o, page.drop (o + r.length), ?_⟩
    conv => rhs; rw [h2]
    rw [slice_length _ _ _ h1]
    unfold slice
    rw [← List.drop_drop, List.append_assoc, List.take_append_drop, List.take_append_drop]
  · cases op with
    | append r => exact appendRow_len h
    | insert j r => exact insertRow_len h
    | remove j => exact removeRow_len h
  · rintro k rfl hk hL ho
    have hlast : 0 < claimedRows page → claimedLimit (2 ^ k) page (claimedRows page) =
        claimedStart (2 ^ k) page (claimedRows page - 1) := by
      intro h
      obtain ⟨n, hn⟩ : ∃ n, claimedRows page = n + 1 := ⟨claimedRows page - 1, by omega⟩
      rw [hn]; rfl
    constructor
    · rw [ne_eq, insertRow_ub hk hL]
      rintro ⟨h1, _, _, _, h5⟩
      have g1 := ordered_limit ho (i := 0) (j := i) (by omega) (by omega)
      have g2 := ordered_limit ho (i := i) (j := claimedRows page) (by omega) (by omega)
      rw [hlast (by omega)] at g2
      have g0 : claimedLimit (2 ^ k) page 0 = page.length := rfl
      omega
    · rw [ne_eq, removeRow_ub hk hL]
      rintro ⟨h1, _, _, _, _, h5⟩
      have g1 := ordered_limit ho (i := 0) (j := i) (by omega) (by omega)
      have g2 := ordered_limit ho (i := i + 1) (j := claimedRows page) (by omega) (by omega)
      have g3 := ho i (by omega)
      rw [hlast (by omega)] at g2
      have g0 : claimedLimit (2 ^ k) page 0 = page.length := rfl
      have g4 : claimedLimit (2 ^ k) page (i + 1) = claimedStart (2 ^ k) page i := rfl
      split at h5 <;> omega

/-- A page of 16 bytes that claims three rows in a directory of 16 bytes, in order but with nothing in them. -/
example : Ordered 4 [3, 0, 0, 0, 16, 0, 0, 0, 16, 0, 0, 0, 12, 0, 0, 0] := by
  intro i hi
  match i, hi with
  | 0, _ => decide
  | 1, _ => decide
  | 2, _ => decide
  | n + 3, h => exact absurd h (by simp [claimedRows, wordAt])

/-- `insert_row` accesses memory outside the page exactly if the row is accepted and is not the new last one, the last row
starts in the page, and the row before the new one starts outside the page (or, without overflow checks, after the last
one). -/
theorem C103_insert (chk : Bool) (k i : Nat) (page row : Bytes) (hk : k < 64) (hL : page.length < 2 ^ 63) :
    insertRow chk (2 ^ k) page i row = .error .ub ↔ i < claimedRows page ∧ 4 * (claimedRows page + 1) ≤ page.length ∧
      row.length ≤ claimedStart (2 ^ k) page (claimedRows page - 1) - roundUp (4 * (claimedRows page + 2)) (2 ^ k) ∧
      claimedStart (2 ^ k) page (claimedRows page - 1) ≤ page.length ∧
      (page.length < claimedLimit (2 ^ k) page i ∨
        chk = false ∧ claimedLimit (2 ^ k) page i < claimedStart (2 ^ k) page (claimedRows page - 1)) :=
  insertRow_ub hk hL

/-- A page of 16 bytes whose first row is said to start at 1000. -/
example (chk : Bool) : insertRow chk (2 ^ 2) [2, 0, 0, 0, 0xE8, 3, 0, 0, 12, 0, 0, 0, 0, 0, 0, 0] 1 [] = .error .ub :=
  (C103_insert chk 2 1 _ [] (by decide) (by decide)).2 ⟨by decide, by decide, by decide, by decide, .inl (by decide)⟩

/-- `remove_row` accesses memory outside the page exactly if the row is not the last one, the last row starts in the page
and so does the place to which it is moved, and the rows are not in the page or, without overflow checks, not in order. -/
theorem C103_remove (chk : Bool) (k i : Nat) (page : Bytes) (hk : k < 64) (hL : page.length < 2 ^ 63) :
    removeRow chk (2 ^ k) page i = .error .ub ↔ i + 1 < claimedRows page ∧ 4 * (claimedRows page + 1) ≤ page.length ∧
      claimedStart (2 ^ k) page (claimedRows page - 1) ≤ page.length ∧
      claimedStart (2 ^ k) page i ≤ claimedStart (2 ^ k) page (claimedRows page - 1) + claimedLimit (2 ^ k) page i ∧
      claimedStart (2 ^ k) page (claimedRows page - 1) + claimedLimit (2 ^ k) page i - claimedStart (2 ^ k) page i ≤
        page.length ∧
      (if chk then claimedStart (2 ^ k) page (claimedRows page - 1) ≤ claimedStart (2 ^ k) page i ∧
          claimedStart (2 ^ k) page i ≤ claimedLimit (2 ^ k) page i ∧ page.length < claimedLimit (2 ^ k) page i
        else claimedStart (2 ^ k) page i < claimedStart (2 ^ k) page (claimedRows page - 1) ∨
          page.length < claimedStart (2 ^ k) page i ∨ page.length < claimedLimit (2 ^ k) page i) :=
  removeRow_ub hk hL

example (chk : Bool) : removeRow chk (2 ^ 2) [2, 0, 0, 0, 12, 0, 0, 0, 8, 0, 0, 0, 0, 0, 0, 0] 0 ≠ .error .ub := by
  rw [ne_eq, C103_remove chk 2 0 _ (by decide) (by decide)]
  cases chk <;> decide

/-- C103, refuted: a page of 16 bytes whose first row claims to start at byte 1000; inserting an empty row after it moves 988
bytes starting at byte 12.  A page of 20 bytes with rows that claim to start at 1000 and 996; removing the second one moves
980 bytes starting at byte 16.  Without overflow checks a page whose rows are in the page, but in the wrong order, is
enough. -/
theorem C103_damaged_refuted :
    (∀ chk, insertRow chk 4 [2, 0, 0, 0, 0xE8, 3, 0, 0, 12, 0, 0, 0, 0, 0, 0, 0] 1 [] = .error .ub) ∧
    (∀ chk, removeRow chk 4 [3, 0, 0, 0, 0xE8, 3, 0, 0, 0xE4, 3, 0, 0, 16, 0, 0, 0, 0, 0, 0, 0] 1 = .error .ub) ∧
    insertRow false 4 [2, 0, 0, 0, 8, 0, 0, 0, 12, 0, 0, 0, 0, 0, 0, 0] 1 [] = .error .ub := by
  refine ⟨by decide, by decide, by decide⟩

/-! ## C107 -/

/-- `get_row` returns exactly if the row and its slot exist and the row, without its padding, lies in the page and before
the end of the previous one; it returns the bytes from the start of the row to the padding.  Overflow checks make no
difference. -/
theorem C107_get (chk : Bool) (k i : Nat) (page r : Bytes) (hk : k < 64) (hL : page.length < 2 ^ 63) :
    getRow chk (2 ^ k) page i = .ok r ↔ i < claimedRows page ∧ 4 * (i + 2) ≤ page.length ∧
      claimedStart (2 ^ k) page i + claimedPadding (2 ^ k) page i ≤ claimedLimit (2 ^ k) page i ∧
      claimedLimit (2 ^ k) page i ≤ page.length + claimedPadding (2 ^ k) page i ∧
      r = (page.drop (claimedStart (2 ^ k) page i)).take
        (claimedLimit (2 ^ k) page i - claimedPadding (2 ^ k) page i - claimedStart (2 ^ k) page i) :=
  getRow_iff hk hL

/-- `max_insert_row_size` returns exactly if the directory lies in the page. -/
theorem C107_room (chk : Bool) (k m : Nat) (page : Bytes) (hk : k < 64) :
    maxInsertRowSize chk (2 ^ k) page = .ok m ↔ 4 * (claimedRows page + 1) ≤ page.length ∧
      m = claimedLimit (2 ^ k) page (claimedRows page) - roundUp (4 * (claimedRows page + 2)) (2 ^ k) := by
  rw [maxInsertRowSize_iff hk]
  exact ⟨fun h => h.2, fun h => ⟨by omega, h⟩⟩

/-- `append_row` returns exactly if there is room for the slot, the row is not longer than the room, and ends in the page;
then the row is written before the last one, and only its slot and the number of rows are changed besides. -/
theorem C107_append (chk : Bool) (k : Nat) (page page' row : Bytes) (hk : k < 64) (hL : page.length < 2 ^ 63) :
    appendRow chk (2 ^ k) page row = .ok page' ↔ 4 * (claimedRows page + 2) ≤ page.length ∧
      row.length ≤ claimedLimit (2 ^ k) page (claimedRows page) - roundUp (4 * (claimedRows page + 2)) (2 ^ k) ∧
      claimedLimit (2 ^ k) page (claimedRows page) + row.length ≤ page.length + roundUp row.length (2 ^ k) ∧
      page' = overwrite (overwrite (overwrite page (claimedLimit (2 ^ k) page (claimedRows page) - roundUp row.length (2 ^ k)) row)
        (4 * (claimedRows page + 1))
        (word32 ((claimedLimit (2 ^ k) page (claimedRows page) - roundUp row.length (2 ^ k)) |||
          (roundUp row.length (2 ^ k) - row.length)))) 0 (word32 (claimedRows page + 1)) := by
  rw [appendRow_iff hk hL]
  have e : ∀ v, leBytes 4 (v % 2 ^ 32) = word32 v := by
    intro v
    rw [← leBytes_word32]
    simp only [leBytes]
    rw [show v % 2 ^ 32 % 256 = v % 256 by omega, show v % 2 ^ 32 / 256 % 256 = v / 256 % 256 by omega,
      show v % 2 ^ 32 / 256 / 256 % 256 = v / 256 / 256 % 256 by omega,
      show v % 2 ^ 32 / 256 / 256 / 256 % 256 = v / 256 / 256 / 256 % 256 by omega]
  simp only [e]
  rfl

/-- `insert_row` before an existing row returns exactly if there is room for the slot, the row is not longer than the room,
the rows from it to the last one lie in the page, and (with overflow checks) no slot that is moved holds less than the
length of the row. -/
theorem C107_insert (chk : Bool) (k i : Nat) (page row : Bytes) (hk : k < 64) (hL : page.length < 2 ^ 63)
    (hi : i ≠ claimedRows page) :
    (∃ page', insertRow chk (2 ^ k) page i row = .ok page') ↔
      i < claimedRows page ∧ 4 * (claimedRows page + 2) ≤ page.length ∧
      row.length ≤ claimedStart (2 ^ k) page (claimedRows page - 1) - roundUp (4 * (claimedRows page + 2)) (2 ^ k) ∧
      claimedStart (2 ^ k) page (claimedRows page - 1) ≤ claimedLimit (2 ^ k) page i ∧
      claimedLimit (2 ^ k) page i ≤ page.length ∧
      ∀ j, i ≤ j → j < claimedRows page → chk = false ∨ roundUp row.length (2 ^ k) ≤ wordAt page (4 * (j + 1)) :=
  insertRow_iff hk hL hi

/-- `insert_row` after the last row is `append_row`. -/
theorem C107_insert_last (chk : Bool) (k : Nat) (page row : Bytes) (hk : k < 64) :
    insertRow chk (2 ^ k) page (claimedRows page) row = appendRow chk (2 ^ k) page row := by
  unfold insertRow
  cases hm : maxInsertRowSize chk (2 ^ k) page with
  | error e => rw [appendRow, hm, Res.bind_error, Res.bind_error]
  | ok m =>
    have h := numRows_iff.2 ⟨((maxInsertRowSize_iff hk).1 hm).1, rfl⟩
    rw [Res.bind_ok, h]
    by_cases hr : row.length ≤ m
    · have ha : assert (decide (row.length ≤ m)) = .ok () := assert_ok.2 (by simpa using hr)
      rw [ha, Res.bind_ok, Res.bind_ok, if_pos rfl]
    · have ha : assert (decide (row.length ≤ m)) = .error .panic := by simp [assert, hr]
      rw [ha, Res.bind_error, appendRow, hm, Res.bind_ok, ha, Res.bind_error]

/-- `remove_row` returns exactly if the row exists and, unless it is the last one, the directory lies in the page, the last
row starts before it, both lie in the page, and (with overflow checks) the row does not start after its end. -/
theorem C107_remove (chk : Bool) (k i : Nat) (page : Bytes) (hk : k < 64) (hL : page.length < 2 ^ 63) :
    (∃ page', removeRow chk (2 ^ k) page i = .ok page') ↔ i < claimedRows page ∧ 4 ≤ page.length ∧
      (i + 1 < claimedRows page → 4 * (claimedRows page + 1) ≤ page.length ∧
        claimedStart (2 ^ k) page (claimedRows page - 1) ≤ claimedStart (2 ^ k) page i ∧
        claimedStart (2 ^ k) page i ≤ page.length ∧ claimedLimit (2 ^ k) page i ≤ page.length ∧
        (claimedStart (2 ^ k) page i ≤ claimedLimit (2 ^ k) page i ∨ chk = false ∧
          claimedStart (2 ^ k) page i ≤
            claimedStart (2 ^ k) page (claimedRows page - 1) + claimedLimit (2 ^ k) page i)) :=
  removeRow_iff hk hL

example (chk : Bool) : ∃ page', removeRow chk (2 ^ 2) [2, 0, 0, 0, 12, 0, 0, 0, 8, 0, 0, 0, 0, 0, 0, 0] 0 = .ok page' :=
  (C107_remove chk 2 0 _ (by decide) (by decide)).2 (by cases chk <;> decide)

/-- Whatever a page contains, the two builds do the same in `get_row`, `max_insert_row_size` and `append_row`. -/
theorem C107_builds (k i : Nat) (page row : Bytes) (hk : k < 64) (hL : page.length < 2 ^ 63) :
    getRow true (2 ^ k) page i = getRow false (2 ^ k) page i ∧
    maxInsertRowSize true (2 ^ k) page = maxInsertRowSize false (2 ^ k) page ∧
    appendRow true (2 ^ k) page row = appendRow false (2 ^ k) page row := by
  have key : ∀ {α : Type} (f : Bool → Res α), (∀ chk, f chk ≠ .error .ub) →
      (∀ v, f true = .ok v ↔ f false = .ok v) → f true = f false := by
    intro α f h1 h2
    have panic : ∀ chk, (∀ v, f chk ≠ .ok v) → f chk = .error .panic := by
      intro chk h
      match hf : f chk with
      | .ok v => exact absurd hf (h v)
      | .error .ub => exact absurd hf (h1 chk)
      | .error .panic => rfl
    by_cases h : ∃ v, f true = .ok v
    · obtain ⟨v, hv⟩ := h
      rw [hv, (h2 v).1 hv]
    · rw [panic true fun v hv => h ⟨v, hv⟩, panic false fun v hv => h ⟨v, (h2 v).2 hv⟩]
  refine ⟨key (fun chk => getRow chk (2 ^ k) page i) (fun _ h => getRow_ub.1 h) fun v => ?_,
    key (fun chk => maxInsertRowSize chk (2 ^ k) page) (fun _ h => maxInsertRowSize_ub.1 h) fun v => ?_,
    key (fun chk => appendRow chk (2 ^ k) page row) (fun _ h => appendRow_ub.1 h) fun v => ?_⟩
  · rw [getRow_iff hk hL, getRow_iff hk hL]
  · rw [maxInsertRowSize_iff hk, maxInsertRowSize_iff hk]
  · rw [appendRow_iff hk hL, appendRow_iff hk hL]

/-- A page of 20 bytes with two rows in the wrong order: the second one is read across the first one, and the first one
cannot be read. -/
example : getRow true 4 [2, 0, 0, 0, 12, 0, 0, 0, 17, 0, 0, 0, 1, 2, 3, 4, 5, 6, 7, 8] 0 =
      .ok [1, 2, 3, 4, 5, 6, 7, 8] ∧
    getRow false 4 [2, 0, 0, 0, 12, 0, 0, 0, 17, 0, 0, 0, 1, 2, 3, 4, 5, 6, 7, 8] 1 = .error .panic := by
  decide

/-- A page of 24 bytes that claims two rows, the first one with offset 2: without overflow checks an insertion before the
first row wraps around and writes the offset 2^32 - 2 into its slot, with overflow checks it panics. -/
example : let page := [2, 0, 0, 0, 2, 0, 0, 0, 20, 0, 0, 0] ++ List.replicate 12 0
    insertRow true 4 page 0 [7, 7, 7, 7] = .error .panic ∧
    ∃ page', insertRow false 4 page 0 [7, 7, 7, 7] = .ok page' ∧ wordAt page' 8 = 2 ^ 32 - 2 := by
  refine ⟨by decide, _, rfl, by decide⟩

end Verif.Props
