import Verif.Props.Fill

/-! # C147: the rows of a page can be put on another page -/

namespace Verif.Props

open Verif Verif.Spec Verif.Nsm

/-! ## C147 -/

theorem roundUp_least {x a m : Nat} (ha : 0 < a) (hd : a ∣ m) (h : x ≤ m) : roundUp x a ≤ m := by
  obtain ⟨c, rfl⟩ := hd
  have h1 : (x + a - 1) / a < c + 1 := by
    rw [Nat.div_lt_iff_lt_mul ha, Nat.add_mul, Nat.mul_comm c a]
    omega
  unfold roundUp
  rw [Nat.mul_comm a c]
  exact Nat.mul_le_mul_right _ (by omega)

theorem footprint_finer {a b : Nat} (ha : 0 < a) (hb : 0 < b) (hd : b ∣ a) (rows : Rows) :
    footprint b rows ≤ footprint a rows := by
  induction rows with
  | nil => exact Nat.le_refl _
  | cons r rows ih =>
    have h1 : roundUp r.length b ≤ roundUp r.length a :=
      roundUp_least hb (Nat.dvd_trans hd (alignUp_dvd _ _)) (le_alignUp _ ha)
    have h2 : roundUp r.length b = alignUp r.length b := rfl
    have h3 : roundUp r.length a = alignUp r.length a := rfl
    rw [footprint_cons, footprint_cons]
    omega

theorem footprint_perm {a : Nat} {rows rows' : Rows} (h : rows'.Perm rows) : footprint a rows' = footprint a rows := by
  unfold footprint
  exact (h.map _).sum_nat

/-- Rows that fit are appended one after the other. -/
theorem appends_reach (chk : Bool) (a : Nat) (ha : a < 2 ^ 64) (page0 page : Bytes)
    (hinit : initializePage chk a page0 = .ok page) (rows : Rows)
    (h : footprint a rows + 4 * (rows.length + 1) ≤ page0.length) :
    ∃ page', Reaches chk a page0 (rows.map PageOp.append) page' rows := by
  obtain ⟨k, rfl, hrep, hlen⟩ := init_rep ha hinit
  have hpos := Nat.two_pow_pos k
  have hd : 2 ^ k ∣ page0.length := hlen ▸ hrep.aligned
  have hr : roundUp (4 * (rows.length + 1)) (2 ^ k) ≤ page0.length - footprint (2 ^ k) rows :=
    roundUp_least hpos (Nat.dvd_sub hd (footprint_dvd _ _)) (by omega)
  obtain ⟨h1, h2⟩ := appends_fit hpos (len := page0.length) rows [] (by
    rw [footprint_nil, List.length_nil, Nat.zero_add, Nat.zero_add]
    omega)
  have h3 := C05_page_refines_list chk (2 ^ k) ha page0 page hinit _ h2
  rw [h1] at h3
  obtain ⟨page', h4, _⟩ := h3
  exact ⟨page', page, hinit, h4, h2, h1⟩

/-- C147. Rows can be brought on a page by some calls if and only if the page has room for the padded rows and four
bytes for each of them and four more. -/
theorem C147_reachable (chk : Bool) (a : Nat) (ha : a < 2 ^ 64) (page0 page : Bytes)
    (hinit : initializePage chk a page0 = .ok page) (rows : Rows) :
    (∃ ops page', Reaches chk a page0 ops page' rows) ↔ footprint a rows + 4 * (rows.length + 1) ≤ page0.length := by
  constructor
  · rintro ⟨ops, page', h⟩
    obtain ⟨k, rfl, hrep, hlen⟩ := h.rep ha
    have := hrep.fits
    omega
  · intro h
    obtain ⟨page', h'⟩ := appends_reach chk a ha page0 page hinit rows h
    exact ⟨_, page', h'⟩

/-- C147. Whatever calls led to a page, its rows can be appended in any order to a fresh page that is not shorter and
does not have a larger alignment. The new page shows the rows in this order.  If the length and the alignment are the
same, as much room is reported as before. -/
theorem C147_rebuild (chk : Bool) (a b : Nat) (ha : a < 2 ^ 64) (hba : b ≤ a) (page0 : Bytes) (ops : List PageOp)
    (page : Bytes) (rows : Rows) (h : Reaches chk a page0 ops page rows) (new0 new : Bytes)
    (hinit : initializePage chk b new0 = .ok new) (hlen : page0.length ≤ new0.length) (rows' : Rows)
    (hp : rows'.Perm rows) : ∃ page', pageRun chk b (rows'.map PageOp.append) new = .ok page' ∧ Shows b page' rows' ∧
      (a = b → page0.length = new0.length → maxInsertRowSize chk b page' = maxInsertRowSize chk a page) := by
  have h0 := h
  obtain ⟨k, rfl, hrep, hpl⟩ := h.rep ha
  have hb : b < 2 ^ 64 := by omega
  have hfits := hrep.fits
  have hfine : footprint b rows ≤ footprint (2 ^ k) rows := by
    obtain ⟨j, rfl, _⟩ := init_rep hb hinit
    refine footprint_finer (Nat.two_pow_pos k) (Nat.two_pow_pos j) (Nat.pow_dvd_pow 2 ?_) rows
    exact (Nat.pow_le_pow_iff_right (by omega)).1 hba
  have hfoot : footprint b rows' = footprint b rows := footprint_perm hp
  obtain ⟨page', h'⟩ := appends_reach chk b hb new0 new hinit rows' (by rw [hfoot, hp.length_eq]; omega)
  have hroom := (C06_room_exact chk b hb new0 _ page' rows' h').1
  obtain ⟨q, q1, q2, q3, q4⟩ := h'
  rw [hinit] at q1
  cases q1
  have hs := C05_page_refines_list chk b hb new0 new hinit _ q3
  rw [q4] at hs
  obtain ⟨q', e, hs⟩ := hs
  rw [q2] at e
  cases e
  refine ⟨page', q2, hs, fun hab hl => ?_⟩
  subst hab
  rw [hroom, (C06_room_exact chk _ ha page0 ops page rows h0).1, hfoot, directory, directory, hp.length_eq, hl]

/-- C147. The bytes that `get_row` returns for a page of values, appended in their order to a fresh page that is not
shorter, give a page of the same values. -/
theorem C147_values (chk : Bool) (t : Ty) (l : Layout) (hl : Layout.new chk t = .ok l) (a : Nat) (ha : a < 2 ^ 64)
    (page0 page last : Bytes) (hinit : initializePage chk a page0 = .ok page) (ops : List (RecordOp Val))
    (hops : ∀ op ∈ ops, ∀ p ∈ op.adds, StoredAs chk t l p.1 p.2)
    (hreg : Regular page0.length a (ops.map RecordOp.page) [])
    (hrun : pageRun chk a (ops.map RecordOp.page) page = .ok last) (new0 new : Bytes)
    (hnew : initializePage chk a new0 = .ok new) (hlen : page0.length ≤ new0.length) :
    ∃ (rows : Rows) (page' : Bytes), (∀ i, getRow chk a last i = match rows[i]? with
        | some r => .ok r
        | none => .error .panic) ∧
      pageRun chk a (rows.map PageOp.append) new = .ok page' ∧ numRows page' = .ok (records ops).length ∧
      ∀ i v, (records ops)[i]? = some v → ∃ row, getRow chk a page' i = .ok row ∧
        Presents (l.source chk row) v [] := by
  have key := C106_values_on_a_page chk t l hl a ha page0 page hinit ops hops hreg
  have hs := C05_page_refines_list chk a ha page0 page hinit _ hreg
  cases hr : runRows page0.length a (ops.map RecordOp.page) [] with
  | none =>
    rw [hr] at hs
    rw [hrun] at hs
    cases hs
  | some rows =>
    rw [hr] at hs key
    obtain ⟨q, q1, q2, q3⟩ := hs
    obtain ⟨q', k1, k2, k3⟩ := key
    rw [hrun] at q1 k1
    cases q1
    cases k1
    obtain ⟨page', p1, ⟨p2, p3⟩, _⟩ := C147_rebuild chk a a ha (Nat.le_refl _) page0 _ last rows
      ⟨page, hinit, hrun, hreg, hr⟩ new0 new hnew hlen rows (.refl _)
    refine ⟨rows, page', q3 chk, p1, by rw [p2, ← q2, k2], fun i v hv => ?_⟩
    obtain ⟨row, _, r1, r2, _⟩ := k3 i v hv
    exact ⟨row, by rw [p3 chk i, ← q3 chk i, r1], r2⟩

/-- The two records of C106 moved from a page of 128 bytes to one of 256. -/
example : ∃ l page row last new rows page', Layout.new true recTy = .ok l ∧
    initializePage true 8 (List.replicate 128 0) = .ok page ∧
    pageRun true 8 ((recOps row).map RecordOp.page) page = .ok last ∧
    initializePage true 8 (List.replicate 256 7) = .ok new ∧
    pageRun true 8 (List.map PageOp.append rows) new = .ok page' ∧ numRows page' = .ok 2 ∧
    ∃ row', getRow true 8 page' 1 = .ok row' ∧ Presents (l.source true row') recVal [] := by
  obtain ⟨l, page, row, hl, hinit, hops, hreg, hsome, hrec, _⟩ := recOps_page true
  have hs := C05_page_refines_list true 8 (by decide) _ page hinit _ hreg
  obtain ⟨rs, hrs⟩ := Option.isSome_iff_exists.1 hsome
  rw [hrs] at hs
  obtain ⟨last, hrun, _⟩ := hs
  obtain ⟨new, hn⟩ : ∃ p, initializePage true 8 (List.replicate 256 7) = .ok p := by
    have h : (initializePage true 8 (List.replicate 256 7)).isOk = true := by decide +kernel
    cases hp : initializePage true 8 (List.replicate 256 7) with
    | ok p => exact ⟨p, rfl⟩
    | error e => rw [hp] at h; cases h
  obtain ⟨rows, page', _, h2, h3, h4⟩ := C147_values true recTy l hl 8 (by decide) _ page last hinit (recOps row) hops
    hreg hrun _ new hn (by rw [List.length_replicate, List.length_replicate]; decide)
  exact ⟨l, page, row, last, new, rows, page', hl, hinit, hrun, hn, h2, h3, h4 1 recVal (by rw [hrec]; rfl)⟩

theorem leVal_inj {a b : Bytes} (hl : a.length = b.length) (h : leVal a = leVal b) : a = b := by
  rw [← leBytes_leVal a, ← leBytes_leVal b, hl, h]

/-- Positions of a page that the directory or a row takes, if the rows are laid out from the end of the page. -/
def Taken (len a : Nat) (rows : Rows) (j : Nat) : Prop :=
  j < 4 * (rows.length + 1) ∨ ∃ i r, rows[i]? = some r ∧ len - footprint a (rows.take (i + 1)) ≤ j ∧
    j < len - footprint a (rows.take (i + 1)) + r.length

/-- C147. Two pages of the same length and alignment with the same rows have the same bytes in the directory and in
the rows, whatever calls led to them. -/
theorem C147_bytes (chk chk' : Bool) (a : Nat) (ha : a < 2 ^ 64) (page0 page0' : Bytes) (ops ops' : List PageOp)
    (page page' : Bytes) (rows : Rows) (h : Reaches chk a page0 ops page rows)
    (h' : Reaches chk' a page0' ops' page' rows) (hlen : page0.length = page0'.length) (j : Nat)
    (hj : Taken page0.length a rows j) : page[j]? = page'[j]? := by
  obtain ⟨k, rfl, hr, hl⟩ := h.rep ha
  obtain ⟨k', hk, hr', hl'⟩ := h'.rep ha
  obtain rfl : k = k' := Nat.pow_right_inj (by omega : 1 < 2) |>.1 hk
  have hll : page.length = page'.length := by omega
  have part : ∀ o n, slice page o n = slice page' o n → o ≤ j → j < o + n → page[j]? = page'[j]? := by
    intro o n he h1 h2
    have := congrArg (fun b : Bytes => b[j - o]?) he
    simp only [slice_getElem?] at this
    rwa [if_pos (by omega), if_pos (by omega), show o + (j - o) = j by omega] at this
  have hf := hr.fits
  have word : ∀ o, o + 4 ≤ page.length → leVal (slice page o 4) = leVal (slice page' o 4) →
      slice page o 4 = slice page' o 4 := fun o ho he =>
    leVal_inj (by rw [slice_length _ _ _ ho, slice_length _ _ _ (by omega)]) he
  rcases hj with hj | ⟨i, r, hi, h1, h2⟩
  · by_cases h0 : j < 4
    · exact part 0 4 (word 0 (by omega) (hr.count.trans hr'.count.symm)) (by omega) (by omega)
    · have hi : j / 4 - 1 < rows.length := by omega
      exact part (4 * (j / 4 - 1 + 1)) 4 (word _ (by omega) (by rw [hr.slot _ hi, hr'.slot _ hi, hll])) (by omega)
        (by omega)
  · obtain ⟨hlt, rfl⟩ := List.getElem?_eq_some_iff.1 hi
    have e1 := hr.data i hlt
    have e2 := hr'.data i hlt
    rw [← hll] at e2
    simp only [start, hl] at e1 e2
    exact part _ _ (e1.trans e2.symm) h1 h2

/-- The sample page and the page to which its rows are appended agree in the 16 bytes of the directory and in the rows
at 60 and at 52. -/
example : ∃ page page', Reaches true 4 (List.replicate 64 0) exOps page [[9], [4, 5, 6, 7, 8], []] ∧
    Reaches false 4 (List.replicate 64 1) [.append [9], .append [4, 5, 6, 7, 8], .append []] page'
      [[9], [4, 5, 6, 7, 8], []] ∧ page.take 16 = page'.take 16 ∧ page[60]? = page'[60]? ∧ page[56]? = page'[56]? := by
  obtain ⟨page, h⟩ := exReaches
  obtain ⟨new, hn⟩ : ∃ p, initializePage false 4 (List.replicate 64 1) = .ok p := ⟨_, rfl⟩
  obtain ⟨page', h'⟩ := appends_reach false 4 (by decide) _ new hn [[9], [4, 5, 6, 7, 8], []] (by decide)
  have key := C147_bytes true false 4 (by decide) _ _ _ _ page page' _ h h' (by simp)
  refine ⟨page, page', h, h', List.ext_getElem? fun j => ?_, key 60 (.inr ⟨0, [9], rfl, by decide, by decide⟩),
    key 56 (.inr ⟨1, [4, 5, 6, 7, 8], rfl, by decide, by decide⟩)⟩
  rw [List.getElem?_take, List.getElem?_take]
  split
  · exact key j (.inl (by simpa using ‹j < 16›))
  · rfl

/-- The rows of the sample page, in the opposite order on a page with alignment 2. -/
example : ∃ page new page', Reaches true 4 (List.replicate 64 0) exOps page [[9], [4, 5, 6, 7, 8], []] ∧
    initializePage true 2 (List.replicate 64 1) = .ok new ∧
    pageRun true 2 [.append [], .append [4, 5, 6, 7, 8], .append [9]] new = .ok page' ∧
    Shows 2 page' [[], [4, 5, 6, 7, 8], [9]] := by
  obtain ⟨page, h⟩ := exReaches
  obtain ⟨new, hn⟩ : ∃ p, initializePage true 2 (List.replicate 64 1) = .ok p := ⟨_, rfl⟩
  obtain ⟨page', h1, h2, _⟩ := C147_rebuild true 4 2 (by decide) (by decide) _ _ page _ h _ new hn (by simp)
    [[], [4, 5, 6, 7, 8], [9]] (List.reverse_perm [[9], [4, 5, 6, 7, 8], []])
  exact ⟨page, new, page', h, hn, h1, h2⟩

/-- A page of 20 bytes with alignment 4 can hold two rows of two bytes, but not two rows of two and five bytes. -/
example : (∃ ops page, Reaches true 4 (List.replicate 20 0) ops page [[1, 2], [3, 4]]) ∧
    ¬ ∃ ops page, Reaches true 4 (List.replicate 20 0) ops page [[1, 2], [3, 4, 5, 6, 7]] := by
  obtain ⟨p, hp⟩ : ∃ p, initializePage true 4 (List.replicate 20 0) = .ok p := ⟨_, rfl⟩
  exact ⟨(C147_reachable true 4 (by decide) _ p hp _).2 (by decide), fun h =>
    absurd ((C147_reachable true 4 (by decide) _ p hp _).1 h) (by decide)⟩

end Verif.Props
