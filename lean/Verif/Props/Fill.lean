import Verif.Props.Dense
import Verif.Props.Records

/-! # C142: a page has room for the records that its size suggests -/

namespace Verif.Props

open Verif Verif.Spec Verif.Nsm

/-! ## C142 -/

/-- Bytes that are enough for a value, whatever the layout of its type (C140). -/
def enough (t : Ty) (v : Val) : Nat := content v + tagWords v t + (2 * enums v + 1) * (widest t - 1)

theorem roundUp_mono {a x y : Nat} (h : x ≤ y) : roundUp x a ≤ roundUp y a :=
  Nat.mul_le_mul_right _ (Nat.div_le_div_right (by omega))

theorem appends_fit {len a : Nat} (ha : 0 < a) : ∀ (rs rows : Rows),
    footprint a rows + footprint a rs + roundUp (4 * (rows.length + rs.length + 1)) a ≤ len →
    runRows len a (rs.map PageOp.append) rows = some (rows ++ rs) ∧ Regular len a (rs.map PageOp.append) rows
  | [], rows, _ => by simp [runRows, Regular]
  | r :: rs, rows, h => by
    have h1 : footprint a (r :: rs) = roundUp r.length a + footprint a rs := by simp [footprint]
    have h2 : footprint a (rows ++ [r]) = footprint a rows + roundUp r.length a := by simp [footprint]
    have h3 : r.length ≤ roundUp r.length a := le_alignUp _ ha
    have h4 : roundUp (4 * (rows.length + 2)) a ≤ roundUp (4 * (rows.length + (r :: rs).length + 1)) a :=
      roundUp_mono (by rw [List.length_cons]; omega)
    have h5 : 4 * (rows.length + 2) ≤ roundUp (4 * (rows.length + 2)) a := le_alignUp _ ha
    have hleg : (PageOp.append r).legal len a rows := by
      simp only [PageOp.legal, room, directory]
      omega
    have hdeg : ¬ (PageOp.append r).degenerate len a rows := by
      rintro ⟨_, hd⟩
      simp only [slotFits] at hd
      omega
    have e : rows.length + (r :: rs).length + 1 = (rows ++ [r]).length + rs.length + 1 := by simp; omega
    obtain ⟨i1, i2⟩ := appends_fit (len := len) ha rs (rows ++ [r]) (by rw [e] at h; omega)
    refine ⟨?_, hdeg, fun _ => i2⟩
    rw [List.map_cons, runRows, if_pos hleg]
    simpa [PageOp.apply] using i1

theorem records_appends {α : Type} : ∀ (ps : List (α × Bytes)) (xs : List α),
    (ps.map fun p => RecordOp.append p.1 p.2).foldl (fun xs op => op.apply xs) xs = xs ++ ps.map (·.1)
  | [], xs => by simp
  | p :: ps, xs => by
    rw [List.map_cons, List.foldl_cons, records_appends ps]
    simp [RecordOp.apply]

/-- A stored row is not longer than that. -/
theorem stored_length {chk : Bool} {t : Ty} {l : Layout} (hl : Layout.new chk t = .ok l) {v : Val} {row : Bytes}
    (h : StoredAs chk t l v row) : row.length ≤ enough t v := by
  obtain ⟨hf, src, buf, data, n, hp, _, he, rfl⟩ := h
  have := C140_at_most chk t v hf.nodes hf.typed l hl src hp n (C22_size_any chk l src buf data n he)
  rw [List.length_take]
  unfold enough
  omega

/-- C142. Records can be appended to a page, and are read back, if the page has room for what their contents take,
one word for every tag and the padding of C140, each padded to the alignment of the page, and for the padded directory
of four bytes for every row and four more.  So whether the records fit can be told without encoding them. -/
theorem C142_fill (chk : Bool) (t : Ty) (l : Layout) (hl : Layout.new chk t = .ok l) (a : Nat) (ha : a < 2 ^ 64)
    (page0 page : Bytes) (hinit : initializePage chk a page0 = .ok page) (ps : List (Val × Bytes))
    (hps : ∀ p ∈ ps, StoredAs chk t l p.1 p.2)
    (hroom : (ps.map fun p => roundUp (enough t p.1) a).sum + roundUp (4 * (ps.length + 1)) a ≤ page0.length) :
    ∃ page', pageRun chk a (ps.map fun p => PageOp.append p.2) page = .ok page' ∧
      numRows page' = .ok ps.length ∧
      ∀ i v, (ps.map (·.1))[i]? = some v → ∃ row, getRow chk a page' i = .ok row ∧
        Presents (l.source chk row) v [] := by
  have hapos : 0 < a := by
    obtain ⟨k, rfl, _⟩ := init_rep ha hinit
    exact Nat.two_pow_pos k
  have hfoot : footprint a (ps.map (·.2)) ≤ (ps.map fun p => roundUp (enough t p.1) a).sum := by
    clear hroom
    induction ps with
    | nil => simp [footprint]
    | cons p ps ih =>
      have h1 := ih fun q hq => hps q (.tail _ hq)
      have h2 := roundUp_mono (a := a) (stored_length hl (hps p (.head _)))
      simp only [footprint, List.map_cons, List.sum_cons] at h1 ⊢
      omega
  obtain ⟨hrun, hreg⟩ := appends_fit hapos (len := page0.length) (ps.map (·.2)) [] (by
    simp only [footprint, List.map_nil, List.sum_nil, List.length_nil, List.length_map, Nat.zero_add] at hfoot ⊢
    omega)
  have hops : (ps.map fun p => RecordOp.append p.1 p.2).map RecordOp.page = (ps.map (·.2)).map PageOp.append := by
    simp only [List.map_map]; rfl
  have hops' : (ps.map fun p => PageOp.append p.2) = (ps.map (·.2)).map PageOp.append := by
    simp only [List.map_map]; rfl
  have key := C106_values_on_a_page chk t l hl a ha page0 page hinit (ps.map fun p => RecordOp.append p.1 p.2)
    (by
      intro op ho q hq
      obtain ⟨p, hp, rfl⟩ := List.mem_map.1 ho
      cases List.mem_singleton.1 hq
      exact hps p hp) (by rw [hops]; exact hreg)
  have hrec : records (ps.map fun p => RecordOp.append p.1 p.2) = ps.map (·.1) := by
    rw [records, records_appends]; simp
  rw [hops, hrun, hrec] at key
  obtain ⟨page', k1, k2, k3⟩ := key
  refine ⟨page', by rw [hops']; exact k1, by rw [k2]; simp, fun i v hv => ?_⟩
  obtain ⟨row, _, r1, r2, _⟩ := k3 i v hv
  exact ⟨row, r1, r2⟩

/-- The bytes of all rows. -/
def rowBytes (rows : Rows) : Nat := (rows.map List.length).sum

theorem appends_bytes {len a : Nat} (ha : 0 < a) : ∀ (rs rows rows' : Rows),
    rowBytes rows + 4 * (rows.length + 1) ≤ len → (∀ r ∈ rs, r ≠ []) →
    runRows len a (rs.map PageOp.append) rows = some rows' →
    rowBytes rows + rowBytes rs + 4 * (rows.length + rs.length + 1) ≤ len
  | [], rows, _, h, _, _ => by simpa [rowBytes] using h
  | r :: rs, rows, rows', h, hne, hrun => by
    rw [List.map_cons, runRows] at hrun
    split at hrun
    · rename_i hleg
      have h1 : rowBytes (r :: rs) = r.length + rowBytes rs := by simp [rowBytes]
      have h2 : rowBytes (rows ++ [r]) = rowBytes rows + r.length := by simp [rowBytes]
      have h3 : rowBytes rows ≤ footprint a rows := by
        clear h hrun hleg h2
        induction rows with
        | nil => simp [rowBytes]
        | cons x xs ih =>
          have : x.length ≤ roundUp x.length a := le_alignUp _ ha
          simp only [rowBytes, footprint, List.map_cons, List.sum_cons] at ih ⊢
          omega
      have h4 : 4 * (rows.length + 2) ≤ directory a rows := le_alignUp _ ha
      have h5 : 0 < r.length := List.length_pos_iff.2 (hne r (.head _))
      simp only [PageOp.legal, room] at hleg
      have h6 := appends_bytes ha rs (rows ++ [r]) rows' (by
        rw [h2, List.length_append, List.length_singleton]; omega) (fun x hx => hne x (.tail _ hx)) hrun
      rw [h2, List.length_append, List.length_singleton] at h6
      rw [h1, List.length_cons]
      omega
    · cases hrun

theorem appends_regular {len a : Nat} : ∀ (rs rows : Rows), (∀ r ∈ rs, r ≠ []) →
    Regular len a (rs.map PageOp.append) rows
  | [], _, _ => trivial
  | r :: rs, _, h => ⟨fun hd => h r (.head _) hd.1, fun _ => appends_regular rs _ fun x hx => h x (.tail _ hx)⟩

/-- C142. If the page has no room for the contents of the records and four bytes for every row and four more, then
appending them is refused. -/
theorem C142_full (chk : Bool) (t : Ty) (l : Layout) (hl : Layout.new chk t = .ok l) (a : Nat) (ha : a < 2 ^ 64)
    (page0 page : Bytes) (hinit : initializePage chk a page0 = .ok page) (ps : List (Val × Bytes))
    (hps : ∀ p ∈ ps, StoredAs chk t l p.1 p.2) (hfit : ∀ p ∈ ps, Fits true t p.1) (hne : ∀ p ∈ ps, p.2 ≠ [])
    (hfull : page0.length < (ps.map fun p => content p.1).sum + 4 * (ps.length + 1)) :
    pageRun chk a (ps.map fun p => PageOp.append p.2) page = .error .panic := by
  obtain ⟨k, rfl, hrep, hlen⟩ := init_rep ha hinit
  have hne' : ∀ r ∈ ps.map (·.2), r ≠ [] := by
    intro r hr
    obtain ⟨p, hp, rfl⟩ := List.mem_map.1 hr
    exact hne p hp
  have key := C05_page_refines_list chk (2 ^ k) ha page0 page hinit _ (appends_regular (ps.map (·.2)) [] hne')
  have hops : (ps.map fun p => PageOp.append p.2) = (ps.map (·.2)).map PageOp.append := by
    simp only [List.map_map]; rfl
  rw [hops]
  cases hr : runRows page0.length (2 ^ k) ((ps.map (·.2)).map PageOp.append) [] with
  | none => rw [hr] at key; exact key
  | some rows =>
    have h4 : 4 ≤ page0.length := by
      have h := hinit
      simp only [initializePage, Res.bind_eq_ok, assert_ok] at h
      obtain ⟨_, h4, _⟩ := h
      simpa using h4
    have h1 := appends_bytes (Nat.two_pow_pos k) _ [] rows (by simpa [rowBytes] using h4) hne' hr
    have h2 : (ps.map fun p => content p.1).sum ≤ rowBytes (ps.map (·.2)) := by
      clear hfull hr key hops hne' h1 hne
      induction ps with
      | nil => simp
      | cons p ps ih =>
        have i1 := ih (fun q hq => hps q (.tail _ hq)) (fun q hq => hfit q (.tail _ hq))
        have i2 : content p.1 ≤ p.2.length := by
          obtain ⟨hf, src, buf, data, n, hp, hb, he, e⟩ := hps p (.head _)
          have := C140_at_least_builds chk t p.1 (hfit p (.head _)) l hl src hp n
            (C22_size_any chk l src buf data n he)
          obtain ⟨data', e1, e2, _⟩ := C23_inside chk t p.1 hf l hl src hp n
            (C22_size_any chk l src buf data n he) buf hb
          rw [he] at e1
          cases e1
          rw [e, List.length_take]
          omega
        simp only [rowBytes, List.map_cons, List.sum_cons] at i1 ⊢
        omega
    simp only [rowBytes, List.map_nil, List.sum_nil, List.length_nil, List.length_map, Nat.zero_add] at h1 h2
    omega

/-- Two sample records fit into a page of 128 bytes with alignment 8. -/
example (chk : Bool) (l : Layout) (hl : Layout.new chk recTy = .ok l) (page : Bytes)
    (hinit : initializePage chk 8 (List.replicate 128 0) = .ok page) (r s : Bytes) (hr : StoredAs chk recTy l recVal r)
    (hs : StoredAs chk recTy l recVal s) :
    ∃ page', pageRun chk 8 [.append r, .append s] page = .ok page' ∧ numRows page' = .ok 2 := by
  obtain ⟨page', h1, h2, _⟩ := C142_fill chk recTy l hl 8 (by decide) _ page hinit [(recVal, r), (recVal, s)]
    (by
      intro p hp
      simp only [List.mem_cons, List.not_mem_nil, or_false] at hp
      rcases hp with rfl | rfl
      · exact hr
      · exact hs) (by
      have e : enough recTy recVal = 36 := by decide
      simp only [List.map_cons, List.map_nil, e, List.length_replicate, List.length_cons, List.length_nil]
      decide)
  exact ⟨page', h1, h2⟩

/-- But not into a page of 32 bytes. -/
example (chk : Bool) (l : Layout) (hl : Layout.new chk recTy = .ok l) (page : Bytes)
    (hinit : initializePage chk 8 (List.replicate 32 0) = .ok page) (r s : Bytes) (hr : StoredAs chk recTy l recVal r)
    (hs : StoredAs chk recTy l recVal s) (hr0 : r ≠ []) (hs0 : s ≠ []) :
    pageRun chk 8 [.append r, .append s] page = .error .panic := by
  refine C142_full chk recTy l hl 8 (by decide) _ page hinit [(recVal, r), (recVal, s)] ?_ ?_ ?_ ?_
  · intro p hp
    simp only [List.mem_cons, List.not_mem_nil, or_false] at hp
    rcases hp with rfl | rfl
    · exact hr
    · exact hs
  · intro p hp
    simp only [List.mem_cons, List.not_mem_nil, or_false] at hp
    rcases hp with rfl | rfl <;> exact rec_fits true
  · intro p hp
    simp only [List.mem_cons, List.not_mem_nil, or_false] at hp
    rcases hp with rfl | rfl
    · exact hr0
    · exact hs0
  · have e : content recVal = 14 := by decide
    simp only [List.map_cons, List.map_nil, e, List.length_replicate, List.length_cons, List.length_nil]
    decide

/-- There are such rows. -/
example (chk : Bool) : ∃ l r, Layout.new chk recTy = .ok l ∧ StoredAs chk recTy l recVal r ∧ r ≠ [] := by
  obtain ⟨l, hl⟩ := (C18_layout_new chk recTy (by decide)).2 rec_inhab
  obtain ⟨n, h1, _, h2⟩ := C22_size chk recTy recVal (rec_fits chk) l hl recSrc rec_presents
  obtain ⟨data, h3, h4, _⟩ := C23_inside chk recTy recVal (rec_fits chk) l hl recSrc rec_presents n h1
    (List.replicate n 0) (by simp)
  refine ⟨l, data.take n, hl, ⟨rec_fits chk, recSrc, List.replicate n 0, data, n, rec_presents, by simp, h3, rfl⟩, ?_⟩
  have h5 : 14 ≤ n := C140_at_least_builds chk recTy recVal (rec_fits true) l hl recSrc rec_presents n h1
  intro h
  have := congrArg List.length h
  rw [List.length_take, h4, List.length_replicate, List.length_nil] at this
  omega

end Verif.Props
