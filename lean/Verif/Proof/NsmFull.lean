import Verif.Proof.Nsm

/-! # Adding an empty row to a page without room for its slot -/

namespace Verif.Nsm

open Verif Verif.Spec

variable {k : Nat} {page : Bytes} {rows : Rows}

/-! ## Overwritten bytes -/

theorem leBytes_word32 (v : Nat) : leBytes 4 v = word32 v := by
  have h : ∀ x : Nat, UInt8.ofNat (x % 256) = UInt8.ofNat x := fun x => by
    apply UInt8.toNat_inj.1; simp
  simp only [leBytes, word32, h, Nat.div_div_eq_div_mul]

theorem slice_splice_overwritten {buf new : Bytes} {lo o n : Nat} (h : lo + new.length ≤ buf.length) :
    slice (splice buf lo new) o n = overwritten (slice buf o n) o lo new := by
  apply List.ext_getElem?
  intro i
  rw [slice_getElem?, splice_getElem? _ _ _ _ h, overwritten, List.getElem?_mapIdx, slice_getElem?]
  by_cases hi : i < n
  · simp only [hi, if_true]
    by_cases h1 : lo ≤ o + i
    · by_cases h2 : o + i < lo + new.length
      · have hb : o + i < buf.length := by omega
        have hn : o + i - lo < new.length := by omega
        rw [if_pos ⟨h1, h2⟩, List.getElem?_eq_getElem hb, List.getElem?_eq_getElem hn]
        simp [h1, hn]
      · rw [if_neg (by omega)]
        cases hb : buf[o + i]? with
        | none => rfl
        | some b =>
          simp only [Option.map_some, h1, if_true]
          rw [List.getD_eq_getElem?_getD, List.getElem?_eq_none (by omega)]; rfl
    · rw [if_neg (by omega)]
      cases buf[o + i]? <;> simp [h1]
  · simp [hi]

@[simp] theorem overwritten_length (row : Bytes) (pos lo : Nat) (new : Bytes) :
    (overwritten row pos lo new).length = row.length := by simp [overwritten]

@[simp] theorem damaged_length (len a : Nat) (rows : Rows) (new : Bytes) :
    (damaged len a rows new).length = rows.length := by simp [damaged]

theorem damaged_getElem (len a : Nat) (rows : Rows) (new : Bytes) (i : Nat) (hi : i < rows.length) :
    (damaged len a rows new)[i]'(by simpa using hi) =
      overwritten rows[i] (len - footprint a (rows.take (i + 1))) (4 * (rows.length + 1)) new := by
  simp [damaged]

theorem footprint_map_length {xs ys : Rows} (h : xs.map List.length = ys.map List.length) (a : Nat) :
    footprint a xs = footprint a ys := by
  have : ∀ zs : Rows, footprint a zs = ((zs.map List.length).map fun n => roundUp n a).sum := by
    intro zs; simp [footprint, Function.comp_def]
  rw [this, this, h]

theorem damaged_map_length (len a : Nat) (rows : Rows) (new : Bytes) :
    (damaged len a rows new).map List.length = rows.map List.length := by
  apply List.ext_getElem
  · simp
  · intro i h1 h2
    simp only [List.getElem_map]
    rw [damaged_getElem _ _ _ _ _ (by simpa using h2)]
    simp

theorem damaged_start (len a : Nat) (rows : Rows) (new : Bytes) (i : Nat) :
    start a len (damaged len a rows new) i = start a len rows i := by
  unfold start
  congr 1
  apply footprint_map_length
  rw [List.map_take, List.map_take, damaged_map_length]

/-! ## The calls -/

theorem splice_nil (buf : Bytes) (off : Nat) : splice buf off [] = buf := by simp [splice]

theorem splice_self (buf : Bytes) (off n : Nat) (h : off + n ≤ buf.length) :
    splice buf off (slice buf off n) = buf := by
  apply List.ext_getElem?
  intro i
  have hl := slice_length buf off n h
  rw [splice_getElem? _ _ _ _ (by rw [hl]; exact h), hl, slice_getElem?]
  split
  · rename_i hc
    rw [if_pos (by omega), show off + (i - off) = i by omega]
  · rfl

theorem slice_of_parts {p page w : Bytes} {lo : Nat} (hw : w.length = 4) (hl : lo + 4 ≤ page.length)
    (h1 : slice p lo 4 = w) (h2 : ∀ o m, lo + 4 ≤ o → slice p o m = slice page o m) (o m : Nat)
    (ho : lo ≤ o) : slice p o m = slice (splice page lo w) o m := by
  apply List.ext_getElem?
  intro i
  rw [slice_getElem?, slice_getElem?, splice_getElem? _ _ _ _ (by omega), hw]
  by_cases hi : i < m
  · simp only [hi, if_true]
    by_cases hc : o + i < lo + 4
    · rw [if_pos (by omega), ← h1, slice_getElem?, if_pos (by omega),
        show lo + (o + i - lo) = o + i by omega]
    · rw [if_neg (by omega)]
      have := congrArg (·[0]?) (h2 (o + i) 1 (by omega))
      simpa [slice_getElem?] using this
  · simp [hi]

theorem alignUp_zero (k : Nat) : alignUp 0 (2 ^ k) = 0 :=
  Nat.le_zero.1 (alignUp_le_of_dvd (Nat.two_pow_pos k) (Nat.dvd_zero _) (Nat.le_refl _))

theorem pad_zero (k : Nat) : pad (2 ^ k) 0 = 0 := by rw [pad, alignUp_zero]

/-- The common part of both calls: what the page after the call must look like. -/
theorem Rep.damage (h : Rep k page rows) {idx : Nat} {page' w : Bytes} (hidx : idx ≤ rows.length)
    (hfit : 4 * (rows.length + 2) ≤ page.length) (hL : page'.length = page.length)
    (hw : w.length = 4)
    (hc : leVal (slice page' 0 4) = rows.length + 1)
    (hlo : ∀ i, i < idx → leVal (slice page' (4 * (i + 1)) 4) = leVal (slice page (4 * (i + 1)) 4))
    (hat : leVal (slice page' (4 * (idx + 1)) 4) = start (2 ^ k) page.length rows idx)
    (hhi : ∀ i, idx ≤ i → i < rows.length →
      leVal (slice page' (4 * (i + 2)) 4) = leVal (slice page (4 * (i + 1)) 4))
    (hdata : ∀ o m, 4 * (rows.length + 1) ≤ o →
      slice page' o m = slice (splice page (4 * (rows.length + 1)) w) o m) :
    RepW k page' ((damaged page.length (2 ^ k) rows w).insertIdx idx []) := by
  have hd : (damaged page.length (2 ^ k) rows w).length = rows.length := damaged_length ..
  have hlen' : ((damaged page.length (2 ^ k) rows w).insertIdx idx []).length = rows.length + 1 := by
    rw [List.length_insertIdx_of_le_length (by omega), hd]
  have hfp : footprint (2 ^ k) (damaged page.length (2 ^ k) rows w) = footprint (2 ^ k) rows :=
    footprint_map_length (damaged_map_length ..) _
  have hfits := h.fits
  have hstlo : ∀ i, i ≤ idx → start (2 ^ k) page.length
      ((damaged page.length (2 ^ k) rows w).insertIdx idx []) i =
      start (2 ^ k) page.length rows i := by
    intro i hi
    rw [← damaged_start page.length (2 ^ k) rows w i]
    unfold start; rw [footprint_insert_lo _ _ _ _ _ (by omega) hi]
  have hsthi : ∀ i, idx ≤ i → start (2 ^ k) page.length
      ((damaged page.length (2 ^ k) rows w).insertIdx idx []) (i + 1) =
      start (2 ^ k) page.length rows i := by
    intro i hi
    rw [← damaged_start page.length (2 ^ k) rows w i]
    unfold start; rw [footprint_insert_hi _ _ _ _ _ (by omega) hi, List.length_nil, alignUp_zero]; omega
  constructor
  · exact h.hk
  · rw [hL]; exact h.len_lt
  · rw [hL]; exact h.aligned
  · rw [hc, hlen']
  · rw [hL, hlen']; omega
  · rw [hL, footprint_insert _ _ _ _ (by omega), hfp, List.length_nil, alignUp_zero]; omega
  · intro i hi
    rw [hL]
    rw [hlen'] at hi
    simp only [List.getElem_insertIdx]
    rcases Nat.lt_trichotomy i idx with hlt | heq | hgt
    · simp only [hlt, dif_pos]
      rw [hlo i hlt, h.slot i (by omega), hstlo _ (by omega), damaged_getElem _ _ _ _ _ (by omega),
        overwritten_length]
    · subst heq
      simp only [Nat.lt_irrefl, dif_neg, not_false_eq_true, dif_pos, List.length_nil]
      rw [hat, hsthi _ (Nat.le_refl _), pad_zero, Nat.add_zero]
    · simp only [show ¬ i < idx by omega, dif_neg, not_false_eq_true, show i ≠ idx by omega]
      have h1 := hhi (i - 1) (by omega) (by omega)
      have h2 := h.slot (i - 1) (by omega)
      rw [show i - 1 + 2 = i + 1 by omega, show i - 1 + 1 = i by omega] at h1
      rw [show i - 1 + 1 = i by omega] at h2
      rw [h1, h2, hsthi _ (by omega), damaged_getElem _ _ _ _ _ (by omega), overwritten_length]
  · intro i hi
    rw [hL]
    rw [hlen'] at hi
    simp only [List.getElem_insertIdx]
    have hwr : 4 * (rows.length + 1) + w.length ≤ page.length := by omega
    rcases Nat.lt_trichotomy i idx with hlt | heq | hgt
    · simp only [hlt, dif_pos]
      rw [hstlo _ (by omega), damaged_getElem _ _ _ _ _ (by omega), overwritten_length,
        hdata _ _ (h.start_ge _), slice_splice_overwritten hwr, h.data i (by omega)]
      rfl
    · subst heq
      simp [slice]
    · simp only [show ¬ i < idx by omega, dif_neg, not_false_eq_true, show i ≠ idx by omega]
      have h2 := h.data (i - 1) (by omega)
      rw [show i - 1 + 1 = i by omega] at h2
      rw [hsthi _ (by omega), damaged_getElem _ _ _ _ _ (by omega), overwritten_length,
        hdata _ _ (h.start_ge _), slice_splice_overwritten hwr, h2]
      simp only [show i - 1 + 1 = i by omega]
      rfl

theorem Rep.append_empty (h : Rep k page rows) (chk : Bool)
    (hfit : 4 * (rows.length + 2) ≤ page.length) :
    ∃ page', appendRow chk (2 ^ k) page [] = .ok page' ∧
      RepW k page' (damaged page.length (2 ^ k) rows
        (word32 (slotAfter page.length (2 ^ k) rows rows.length)) ++ [[]]) ∧
      page'.length = page.length := by
  have hL := h.len_lt
  have hs := h.start_le rows.length
  have hlast := h.start_length
  have hfits := h.fits
  generalize hu : start (2 ^ k) page.length rows rows.length = u at *
  have hor : (u ||| 0) % 2 ^ 32 = u := by rw [Nat.or_zero]; exact Nat.mod_eq_of_lt (by omega)
  have hsa : slotAfter page.length (2 ^ k) rows rows.length = u := by
    rw [slotAfter, if_pos rfl, Nat.add_zero, hlast]
  have h1 : u + ([] : Bytes).length ≤ page.length := by simpa using hs
  refine ⟨finishPage page u rows.length (rows.length + 1) [] u, ?_, ?_, finishPage_length h1 (by omega)⟩
  · simp only [appendRow, h.maxInsertRowSize_eq, Res.bind_ok, List.length_nil, Nat.zero_le,
      decide_true, assert_true, h.numRows_eq, h.align_eq (Nat.zero_le _), alignUp_zero,
      h.upperBound_eq _ (Nat.le_refl _), hu]
    rw [subW_ok (by omega), Res.bind_ok, subW_ok (by omega), Res.bind_ok]
    show (do
      let p ← copyRow page u []
      let p ← setRowOffset p rows.length ((u ||| 0) % 2 ^ 32)
      setNumRows p (rows.length + 1)) = _
    rw [hor]
    exact finish_eq h1 (by omega) (by omega)
  · have := h.damage (idx := rows.length) (w := word32 u) (page' := finishPage page u rows.length
      (rows.length + 1) [] u) (Nat.le_refl _) hfit (finishPage_length h1 (by omega)) rfl
      (finishPage_count h1 (by omega) (by omega))
      (fun i hi => by rw [finishPage_other h1 (by omega) (by omega) (by omega) (by
        have := h.start_ge rows.length; rw [hu] at this; omega)])
      (by rw [finishPage_slot h1 (by omega) (by omega), hu])
      (fun i h1 h2 => by omega)
      (fun o m ho => by
        rw [finishPage, splice_nil, leBytes_word32, slice_splice_disjoint]
        · rw [splice_length _ _ _ (by show _ + 4 ≤ _; omega)]; simp; omega
        · simp; omega)
    rw [hsa]
    have hd : (damaged page.length (2 ^ k) rows (word32 u)).length = rows.length := damaged_length ..
    conv at this => arg 3; arg 2; rw [← hd]
    rw [List.insertIdx_length_self] at this
    exact this

theorem setValue_bad {n : Nat} {buf : Bytes} {off v : Nat} (h : ¬ off + n ≤ buf.length) :
    setValue n buf off v = .error .panic := by
  simp [setValue, h]

theorem Rep.append_empty_bad (h : Rep k page rows) (chk : Bool)
    (hfit : page.length < 4 * (rows.length + 2)) :
    appendRow chk (2 ^ k) page [] = .error .panic := by
  have hs := h.start_le rows.length
  simp only [appendRow, h.maxInsertRowSize_eq, Res.bind_ok, List.length_nil, Nat.zero_le,
    decide_true, assert_true, h.numRows_eq, h.align_eq (Nat.zero_le _), alignUp_zero,
    h.upperBound_eq _ (Nat.le_refl _)]
  rw [subW_ok (by omega), Res.bind_ok, subW_ok (by omega), Res.bind_ok,
    copyRow_ok (by simpa using hs), Res.bind_ok, splice_nil, setRowOffset, setValue_bad (by omega),
    Res.bind_error]

theorem Rep.insert_empty (h : Rep k page rows) (chk : Bool) (idx : Nat) (hidx : idx ≤ rows.length)
    (hfit : 4 * (rows.length + 2) ≤ page.length) :
    ∃ page', insertRow chk (2 ^ k) page idx [] = .ok page' ∧
      RepW k page' ((damaged page.length (2 ^ k) rows
        (word32 (slotAfter page.length (2 ^ k) rows idx))).insertIdx idx []) ∧
      page'.length = page.length := by
  by_cases hcase : idx = rows.length
  · obtain ⟨page', e, hr, hlen⟩ := h.append_empty chk hfit
    refine ⟨page', ?_, ?_, hlen⟩
    · simp only [insertRow, h.maxInsertRowSize_eq, Res.bind_ok, List.length_nil, Nat.zero_le,
        decide_true, assert_true, h.numRows_eq, hcase, if_true, e]
    · have hd : (damaged page.length (2 ^ k) rows
        (word32 (slotAfter page.length (2 ^ k) rows rows.length))).length = rows.length := damaged_length ..
      subst hcase
      conv => arg 3; arg 2; rw [← hd]
      rw [List.insertIdx_length_self]; exact hr
  · have hL := h.len_lt
    have hlast := h.start_length
    have hfits := h.fits
    generalize hlastv : start (2 ^ k) page.length rows rows.length = last at *
    have hrow : start (2 ^ k) page.length rows idx ≤ page.length := h.start_le idx
    have hge := h.start_ge idx
    have hanti := h.start_anti (i := idx) (j := rows.length) hidx
    rw [hlastv] at hanti
    generalize hrowv : start (2 ^ k) page.length rows idx = rowOff at *
    obtain ⟨p2, e2, hp2, hs2, ho2⟩ := shiftUp_ok (chk := chk) 0 idx (rows.length - idx) page
      (by omega) hL (fun _ _ _ => Nat.zero_le _)
    have hor : (rowOff ||| 0) % 2 ^ 32 = rowOff := by
      rw [Nat.or_zero]; exact Nat.mod_eq_of_lt (by omega)
    have hoff : rowOff + ([] : Bytes).length ≤ p2.length := by rw [hp2]; simpa using hrow
    have hslot := h.slot (rows.length - 1) (by omega)
    rw [show rows.length - 1 + 1 = rows.length by omega, hlastv] at hslot
    have hsa : slotAfter page.length (2 ^ k) rows idx = last + pad (2 ^ k) (rows[rows.length - 1]'(by omega)).length := by
      have : rows.getLastD [] = rows[rows.length - 1]'(by omega) := by
        rw [List.getLastD_eq_getLast?, List.getLast?_eq_getElem?, List.getElem?_eq_getElem (by omega)]; rfl
      rw [slotAfter, if_neg hcase, this, hlast, pad, roundUp_eq]
    have hw : slice p2 (4 * (rows.length + 1)) 4 = word32 (slotAfter page.length (2 ^ k) rows idx) := by
      have h1 := hs2 (rows.length - 1) (by omega) (by omega)
      rw [show rows.length - 1 + 2 = rows.length + 1 by omega, show rows.length - 1 + 1 = rows.length by omega,
        hslot, Nat.sub_zero] at h1
      have h2 := leBytes_leVal (slice p2 (4 * (rows.length + 1)) 4)
      rw [slice_length _ _ _ (by omega), h1] at h2
      rw [← h2, leBytes_word32, hsa]
    refine ⟨finishPage p2 rowOff idx (rows.length + 1) [] rowOff, ?_, ?_,
      by rw [finishPage_length hoff (by omega), hp2]⟩
    · have hal := h.alignedRowOffset_eq (chk := chk) (rows.length - 1) (by omega)
      rw [show rows.length - 1 + 1 = rows.length by omega, hlastv] at hal
      simp only [insertRow, h.maxInsertRowSize_eq, Res.bind_ok, List.length_nil, Nat.zero_le,
        decide_true, assert_true, h.numRows_eq, hcase, if_false, h.align_eq (Nat.zero_le _),
        alignUp_zero, subW_ok (show 1 ≤ rows.length by omega), hal, h.upperBound_eq _ hidx, hrowv,
        subW_ok (Nat.zero_le _), subW_ok hanti, Nat.sub_zero]
      rw [moveBytes_ok (by omega) (by omega), Res.bind_ok, splice_self _ _ _ (by omega), e2,
        Res.bind_ok, hor]
      exact finish_eq hoff (by omega) (by omega)
    · refine h.damage hidx hfit ?_ rfl (finishPage_count hoff (by omega) (by omega)) ?_ ?_ ?_ ?_
      · rw [finishPage_length hoff (by omega), hp2]
      · intro i hi
        rw [finishPage_other hoff (by omega) (by omega) (by omega) (by omega), ho2 _ _ (by omega)]
      · rw [finishPage_slot hoff (by omega) (by omega), hrowv]
      · intro i h1 h2
        have h3 := hs2 i h1 (by omega)
        rw [Nat.sub_zero] at h3
        rw [← h3, finishPage, splice_nil, slice_splice_disjoint, slice_splice_disjoint]
        · simp; omega
        · simp; omega
        · rw [splice_length _ _ _ (by simp; omega)]; simp; omega
        · simp; omega
      · intro o m ho
        rw [finishPage, splice_nil, slice_splice_disjoint, slice_splice_disjoint]
        · exact slice_of_parts rfl (by omega) hw (fun o m h => ho2 _ _ (by omega)) _ _ ho
        · simp; omega
        · simp; omega
        · rw [splice_length _ _ _ (by simp; omega)]; simp; omega
        · simp; omega

theorem Rep.insert_empty_bad (h : Rep k page rows) (chk : Bool) (idx : Nat) (hidx : idx ≤ rows.length)
    (hfit : page.length < 4 * (rows.length + 2)) :
    insertRow chk (2 ^ k) page idx [] = .error .panic := by
  by_cases hcase : idx = rows.length
  · simp only [insertRow, h.maxInsertRowSize_eq, Res.bind_ok, List.length_nil, Nat.zero_le,
      decide_true, assert_true, h.numRows_eq, hcase, if_true, h.append_empty_bad chk hfit]
  · have hlast := h.start_length
    have hfits := h.fits
    have hrow : start (2 ^ k) page.length rows idx ≤ page.length := h.start_le idx
    have hanti := h.start_anti (i := idx) (j := rows.length) hidx
    have hal := h.alignedRowOffset_eq (chk := chk) (rows.length - 1) (by omega)
    rw [show rows.length - 1 + 1 = rows.length by omega] at hal
    simp only [insertRow, h.maxInsertRowSize_eq, Res.bind_ok, List.length_nil, Nat.zero_le,
      decide_true, assert_true, h.numRows_eq, hcase, if_false, h.align_eq (Nat.zero_le _),
      alignUp_zero, subW_ok (show 1 ≤ rows.length by omega), hal, h.upperBound_eq _ hidx,
      subW_ok (Nat.zero_le _), subW_ok hanti, Nat.sub_zero]
    rw [moveBytes_ok (by omega) (by omega), Res.bind_ok, splice_self _ _ _ (by omega),
      show rows.length - idx = (rows.length - idx - 1) + 1 by omega, shiftUp, getRowOffset,
      getValue_ok (by omega), Res.bind_ok, subW_ok (Nat.zero_le _), Res.bind_ok, setRowOffset,
      setValue_bad (by omega), Res.bind_error, Res.bind_error]

end Verif.Nsm
