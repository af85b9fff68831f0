import Verif.Props.Rebuild
import Verif.Props.Unique

/-! # C148: rows can be replaced -/

namespace Verif.Props

open Verif Verif.Spec Verif.Nsm

/-! ## C148 -/

theorem insertIdx_eraseIdx {α : Type} (x : α) : ∀ (l : List α) (i : Nat), i < l.length →
    (l.eraseIdx i).insertIdx i x = l.set i x
  | [], _, h => by simp at h
  | _ :: _, 0, _ => by simp
  | y :: l, i + 1, h => by
    simp only [List.eraseIdx_cons_succ, List.insertIdx_succ_cons, List.set_cons_succ]
    rw [insertIdx_eraseIdx x l i (by simpa using h)]

/-- Pages whose rows are as long as each other have the same directory, and rows that are the same lie at the same
place. -/
theorem rep_bytes {k : Nat} {page page' : Bytes} {rows rows' : Rows} (h : Rep k page rows) (h' : Rep k page' rows')
    (hl : page.length = page'.length) (hrows : rows'.map List.length = rows.map List.length) (j : Nat)
    (hj : j < 4 * (rows.length + 1) ∨ ∃ i r, rows[i]? = some r ∧ rows'[i]? = some r ∧
      page.length - footprint (2 ^ k) (rows.take (i + 1)) ≤ j ∧
      j < page.length - footprint (2 ^ k) (rows.take (i + 1)) + r.length) : page[j]? = page'[j]? := by
  have hn : rows'.length = rows.length := by simpa using congrArg List.length hrows
  have hfoot : ∀ i, footprint (2 ^ k) (rows'.take i) = footprint (2 ^ k) (rows.take i) := fun i =>
    footprint_map_length (by rw [List.map_take, List.map_take, hrows]) _
  have part : ∀ o n, slice page o n = slice page' o n → o ≤ j → j < o + n → page[j]? = page'[j]? := by
    intro o n he h1 h2
    have := congrArg (fun b : Bytes => b[j - o]?) he
    simp only [slice_getElem?] at this
    rwa [if_pos (by omega), if_pos (by omega), show o + (j - o) = j by omega] at this
  have hf := h.fits
  have word : ∀ o, o + 4 ≤ page.length → leVal (slice page o 4) = leVal (slice page' o 4) →
      slice page o 4 = slice page' o 4 := fun o ho he =>
    leVal_inj (by rw [slice_length _ _ _ ho, slice_length _ _ _ (by omega)]) he
  rcases hj with hj | ⟨i, r, hi, hi', h1, h2⟩
  · by_cases h0 : j < 4
    · exact part 0 4 (word 0 (by omega) (by rw [h.count, h'.count, hn])) (by omega) (by omega)
    · have hi : j / 4 - 1 < rows.length := by omega
      have hi' : j / 4 - 1 < rows'.length := by omega
      have hlen : rows'[j / 4 - 1].length = rows[j / 4 - 1].length := by
        have := congrArg (fun l : List Nat => l[j / 4 - 1]?) hrows
        simpa [hi, hi'] using this
      refine part (4 * (j / 4 - 1 + 1)) 4 (word _ (by omega) ?_) (by omega) (by omega)
      rw [h.slot _ hi, h'.slot _ hi', start, start, hfoot, hlen, hl]
  · obtain ⟨hlt, rfl⟩ := List.getElem?_eq_some_iff.1 hi
    obtain ⟨hlt', e⟩ := List.getElem?_eq_some_iff.1 hi'
    have e1 := h.data i hlt
    have e2 := h'.data i hlt'
    rw [start, hfoot, ← hl, e] at e2
    rw [start] at e1
    exact part _ _ (e1.trans e2.symm) h1 h2

/-- Positions of a page that the directory or a row other than row `i` takes, if the rows are laid out from the end of
the page. -/
def TakenByOthers (len a : Nat) (rows : Rows) (i j : Nat) : Prop :=
  j < 4 * (rows.length + 1) ∨ ∃ m r, m ≠ i ∧ rows[m]? = some r ∧ len - footprint a (rows.take (m + 1)) ≤ j ∧
    j < len - footprint a (rows.take (m + 1)) + r.length

/-- C148. A row can be removed and another one inserted in its place if and only if the page has room for the padded
rows and four bytes for each of them and four more.  If the new row is as long as the old one, the directory and all
other rows have the same bytes at the same places as before. -/
theorem C148_replace (chk : Bool) (a : Nat) (ha : a < 2 ^ 64) (page0 : Bytes) (ops : List PageOp) (page : Bytes)
    (rows : Rows) (h : Reaches chk a page0 ops page rows) (i : Nat) (old : Bytes) (hi : rows[i]? = some old)
    (row : Bytes) : ∃ page1, removeRow chk a page i = .ok page1 ∧
      ((∃ page', insertRow chk a page1 i row = .ok page') ↔
        footprint a (rows.set i row) + 4 * (rows.length + 1) ≤ page0.length) ∧
      ∀ page', insertRow chk a page1 i row = .ok page' → Shows a page' (rows.set i row) ∧
        (row.length = old.length → ∀ j, TakenByOthers page0.length a rows i j → page[j]? = page'[j]?) := by
  obtain ⟨k, rfl, hr, hl⟩ := h.rep ha
  obtain ⟨hlt, hold⟩ := List.getElem?_eq_some_iff.1 hi
  obtain ⟨page1, e1, hr1, hl1⟩ := hr.remove (chk := chk) i hlt
  have hset := insertIdx_eraseIdx row rows i hlt
  have hn1 : (rows.eraseIdx i).length = rows.length - 1 := List.length_eraseIdx_of_lt hlt
  have hx : i ≤ (rows.eraseIdx i).length := by omega
  have hpos := Nat.two_pow_pos k
  have hfs : footprint (2 ^ k) (rows.set i row) =
      roundUp row.length (2 ^ k) + footprint (2 ^ k) (rows.eraseIdx i) := by
    rw [← hset, footprint_perm (List.perm_insertIdx row _ hx), footprint_cons, roundUp_eq]
  have hfo : footprint (2 ^ k) rows = roundUp old.length (2 ^ k) + footprint (2 ^ k) (rows.eraseIdx i) := by
    have e := insertIdx_eraseIdx old rows i hlt
    rw [← hold, List.set_getElem_self, hold] at e
    rw [roundUp_eq, ← footprint_cons, ← footprint_perm (List.perm_insertIdx old _ hx), e]
  have hfit := hr.fits
  have hslot : slotFits page1.length (2 ^ k) (rows.eraseIdx i) := by
    unfold slotFits
    omega
  have hdir : directory (2 ^ k) (rows.eraseIdx i) = roundUp (4 * (rows.length + 1)) (2 ^ k) := by
    rw [directory, hn1, show rows.length - 1 + 2 = rows.length + 1 by omega]
  have hdle : footprint (2 ^ k) (rows.eraseIdx i) + roundUp (4 * (rows.length + 1)) (2 ^ k) ≤ page1.length := by
    have := roundUp_least (m := page1.length - footprint (2 ^ k) (rows.eraseIdx i)) hpos
      (Nat.dvd_sub hr1.aligned (footprint_dvd _ _)) (x := 4 * (rows.length + 1)) (by omega)
    have := hr1.fits
    omega
  have hroom : row.length ≤ room page1.length (2 ^ k) (rows.eraseIdx i) ↔
      footprint (2 ^ k) (rows.set i row) + 4 * (rows.length + 1) ≤ page0.length := by
    rw [room, hdir, hfs]
    have g1 : row.length ≤ roundUp row.length (2 ^ k) := le_alignUp _ hpos
    have g2 : 4 * (rows.length + 1) ≤ roundUp (4 * (rows.length + 1)) (2 ^ k) := le_alignUp _ hpos
    have d1 : 2 ^ k ∣ roundUp (4 * (rows.length + 1)) (2 ^ k) := alignUp_dvd _ _
    have d2 : 2 ^ k ∣ roundUp row.length (2 ^ k) := alignUp_dvd _ _
    have d3 := footprint_dvd (2 ^ k) (rows.eraseIdx i)
    constructor
    · intro hle
      have := roundUp_least (m := page1.length - (footprint (2 ^ k) (rows.eraseIdx i) +
        roundUp (4 * (rows.length + 1)) (2 ^ k))) hpos
        (Nat.dvd_sub hr1.aligned (Nat.dvd_add d3 d1)) hle
      omega
    · intro hle
      have := roundUp_least (x := 4 * (rows.length + 1)) (m := page1.length - (footprint (2 ^ k) (rows.eraseIdx i) +
        roundUp row.length (2 ^ k))) hpos (Nat.dvd_sub hr1.aligned (Nat.dvd_add d3 d2)) (by omega)
      omega
  refine ⟨page1, e1, ?_, fun page' hins => ?_⟩
  · rw [← hroom]
    constructor
    · rintro ⟨page', hins⟩
      by_cases hle : row.length ≤ room page1.length (2 ^ k) (rows.eraseIdx i)
      · exact hle
      · rw [hr1.insert_long chk i row hle] at hins
        cases hins
    · intro hle
      obtain ⟨page', e', _⟩ := hr1.insert chk i row hx hle (.inr hslot)
      exact ⟨page', e'⟩
  · by_cases hle : row.length ≤ room page1.length (2 ^ k) (rows.eraseIdx i)
    · obtain ⟨q, e', hr', hl'⟩ := hr1.insert chk i row hx hle (.inr hslot)
      rw [e'] at hins
      cases hins
      rw [hset] at hr'
      refine ⟨rep_shows hr', fun hlen j hj => ?_⟩
      refine rep_bytes hr hr' (by omega) ?_ j ?_
      · rw [List.map_set, hlen, ← hold]
        refine List.ext_getElem (by simp) fun m g1 g2 => ?_
        rw [List.getElem_set]
        split
        · subst_vars; simp
        · rfl
      · rw [hl]
        rcases hj with hj | ⟨m, r, hne, hm, h1, h2⟩
        · exact .inl hj
        · exact .inr ⟨m, r, hm, by rw [List.getElem?_set_ne (Ne.symm hne)]; exact hm, h1, h2⟩
    · rw [hr1.insert_long chk i row hle] at hins
      cases hins

theorem footprint_set {a : Nat} (ha : 0 < a) {row : Bytes} : ∀ {rows : Rows} {i : Nat} {old : Bytes},
    rows[i]? = some old → row.length ≤ old.length → footprint a (rows.set i row) ≤ footprint a rows
  | [], _, _, h, _ => by simp at h
  | x :: rows, 0, old, h, hle => by
    cases h
    have : roundUp row.length a ≤ roundUp x.length a := roundUp_mono hle
    rw [List.set_cons_zero, footprint_cons, footprint_cons, ← roundUp_eq, ← roundUp_eq]
    omega
  | x :: rows, i + 1, old, h, hle => by
    have := footprint_set ha (rows := rows) (i := i) (by simpa using h) hle
    rw [List.set_cons_succ, footprint_cons, footprint_cons]
    omega

/-- C148. A row can always be replaced by one that is not longer. -/
theorem C148_shorter (chk : Bool) (a : Nat) (ha : a < 2 ^ 64) (page0 : Bytes) (ops : List PageOp) (page : Bytes)
    (rows : Rows) (h : Reaches chk a page0 ops page rows) (i : Nat) (old : Bytes) (hi : rows[i]? = some old)
    (row : Bytes) (hle : row.length ≤ old.length) : ∃ page1 page', removeRow chk a page i = .ok page1 ∧
      insertRow chk a page1 i row = .ok page' ∧ Shows a page' (rows.set i row) := by
  obtain ⟨page1, h1, h2, h3⟩ := C148_replace chk a ha page0 ops page rows h i old hi row
  obtain ⟨page', h4⟩ := h2.2 (by
    obtain ⟨k, rfl, hr, hl⟩ := h.rep ha
    have := hr.fits
    have := footprint_set (Nat.two_pow_pos k) hi hle
    omega)
  exact ⟨page1, page', h1, h4, (h3 page' h4).1⟩

/-- C148. The record of a value on a page can always be replaced by that of another value of the same form.  The
directory and all other rows keep their bytes and places, and the value read at the index is the new one only. -/
theorem C148_update (chk : Bool) (t : Ty) (l : Layout) (hl : Layout.new chk t = .ok l) (a : Nat) (ha : a < 2 ^ 64)
    (page0 : Bytes) (ops : List PageOp) (page : Bytes) (rows : Rows) (h : Reaches chk a page0 ops page rows) (i : Nat)
    (old row : Bytes) (hi : rows[i]? = some old) (v v' : Val) (hv : StoredAs chk t l v old)
    (hv' : StoredAs chk t l v' row) (hf : SameForm v v') : ∃ page1 page', removeRow chk a page i = .ok page1 ∧
      insertRow chk a page1 i row = .ok page' ∧ Shows a page' (rows.set i row) ∧
      (∀ j, TakenByOthers page0.length a rows i j → page[j]? = page'[j]?) ∧
      ∃ row', getRow chk a page' i = .ok row' ∧
        ∀ w, Typed t w → (Presents (l.source chk row') w [] ↔ w = v') := by
  have hlen : row.length = old.length := by
    have hp := (storedAs_reads hl hv []).1
    have hp' := (storedAs_reads hl hv' []).1
    have hs := (storedAs_reads hl hv []).2 _ hp
    have hs' := (storedAs_reads hl hv' []).2 _ hp'
    obtain ⟨_, _, _, e, _⟩ := C144_distance chk t v v' hv.1 hf hv'.1.typed l hl _ _ hp hp' _ hs
      (List.replicate old.length 0) (by simp)
    exact Except.ok.inj (hs'.symm.trans (encode_size e))
  obtain ⟨page1, page', h1, h2, h3⟩ := C148_shorter chk a ha page0 ops page rows h i old hi row (by omega)
  obtain ⟨q, q1, _, q3⟩ := C148_replace chk a ha page0 ops page rows h i old hi row
  rw [h1] at q1
  cases q1
  refine ⟨page1, page', h1, h2, h3, (q3 page' h2).2 hlen, row, ?_, fun w hw => ?_⟩
  · obtain ⟨hlt, _⟩ := List.getElem?_eq_some_iff.1 hi
    rw [h3.2 chk i, List.getElem?_set_self hlt]
  · have := C145_one_reading chk t l hl v' row hv' [] w hw
    rwa [List.append_nil] at this

/-- On the sample page five bytes are replaced by other five; a page of 12 bytes that is full takes four other bytes,
but not five. -/
example : ∃ page page1 page', Reaches true 4 (List.replicate 64 0) exOps page [[9], [4, 5, 6, 7, 8], []] ∧
    removeRow true 4 page 1 = .ok page1 ∧ insertRow true 4 page1 1 [5, 4, 3, 2, 1] = .ok page' ∧
    Shows 4 page' [[9], [5, 4, 3, 2, 1], []] ∧ page[60]? = page'[60]? := by
  obtain ⟨page, h⟩ := exReaches
  obtain ⟨page1, page', h1, h2, h3⟩ := C148_shorter true 4 (by decide) _ _ page _ h 1 _ rfl [5, 4, 3, 2, 1] (by decide)
  obtain ⟨q, q1, _, q3⟩ := C148_replace true 4 (by decide) _ _ page _ h 1 _ rfl [5, 4, 3, 2, 1]
  rw [h1] at q1
  cases q1
  exact ⟨page, page1, page', h, h1, h2, h3,
    (q3 page' h2).2 rfl 60 (.inr ⟨0, [9], by decide, rfl, by decide, by decide⟩)⟩

example : ∃ page page1, Reaches true 4 (List.replicate 12 0) [.append [1, 2, 3, 4]] page [[1, 2, 3, 4]] ∧
    removeRow true 4 page 0 = .ok page1 ∧ (∃ page', insertRow true 4 page1 0 [5, 6, 7, 8] = .ok page') ∧
    ¬ ∃ page', insertRow true 4 page1 0 [5, 6, 7, 8, 9] = .ok page' := by
  obtain ⟨p, hp⟩ : ∃ p, initializePage true 4 (List.replicate 12 0) = .ok p := ⟨_, rfl⟩
  obtain ⟨page, h⟩ := appends_reach true 4 (by decide) _ p hp [[1, 2, 3, 4]] (by decide)
  obtain ⟨page1, h1, h2, _⟩ := C148_replace true 4 (by decide) _ _ page _ h 0 _ rfl [5, 6, 7, 8]
  obtain ⟨q, q1, q2, _⟩ := C148_replace true 4 (by decide) _ _ page _ h 0 _ rfl [5, 6, 7, 8, 9]
  rw [h1] at q1
  cases q1
  exact ⟨page, page1, h, h1, h2.2 (by decide), fun e => absurd (q2.1 e) (by decide)⟩

/-- The record of the one sample is replaced by that of the other one. -/
example : ∃ l page page1 page' a b, Layout.new true recTy = .ok l ∧ StoredAs true recTy l recVal a ∧
    StoredAs true recTy l redVal b ∧ Reaches true 8 (List.replicate 64 0) [.append [1], .append a] page [[1], a] ∧
    removeRow true 8 page 1 = .ok page1 ∧ insertRow true 8 page1 1 b = .ok page' ∧ page[56]? = page'[56]? := by
  obtain ⟨l, hl, hsize⟩ := rec_size
  have hb : 24 ≤ (List.replicate 30 (255 : UInt8)).length := by decide
  obtain ⟨a, b, h1, h2, _⟩ := C144_distance true recTy recVal redVal (rec_fits true) red_form red_typed l hl recSrc
    redSrc rec_presents red_presents 24 hsize _ hb
  have ra : StoredAs true recTy l recVal (a.take 24) := ⟨rec_fits true, recSrc, _, a, 24, rec_presents, hb, h1, rfl⟩
  have rb : StoredAs true recTy l redVal (b.take 24) :=
    ⟨Fits.sameForm (rec_fits true) red_form red_typed, redSrc, _, b, 24, red_presents, hb, h2, rfl⟩
  have na := (encoded_presents ra.1 hl rec_presents hb h1 []).2.1
  generalize a.take 24 = a at ra na
  generalize b.take 24 = b at rb
  obtain ⟨p, hp⟩ : ∃ p, initializePage true 8 (List.replicate 64 0) = .ok p := ⟨_, rfl⟩
  obtain ⟨page, h⟩ := appends_reach true 8 (by decide) _ p hp [[1], a] (by simp [footprint, roundUp, na])
  obtain ⟨page1, page', k1, k2, _, k4, _⟩ := C148_update true recTy l hl 8 (by decide) _ _ page _ h 1 a b rfl recVal
    redVal ra rb red_form
  exact ⟨l, page, page1, page', a, b, hl, ra, rb, h, k1, k2,
    k4 56 (.inr ⟨0, [1], by decide, rfl, by simp [footprint, roundUp], by simp [footprint, roundUp]⟩)⟩

end Verif.Props
