import Verif.Spec.Records
import Verif.Props.Page
import Verif.Props.Json

/-! # Property C106: records on a page

Values encoded by the marshaller (`src/core/marshaller.rs`) and stored as rows of a page (`src/core/nsm.rs`). -/

namespace Verif.Props

open Verif Verif.Spec Verif.Nsm Verif.Json

theorem map_insertIdx {α β : Type} (f : α → β) (x : α) : ∀ (i : Nat) (xs : List α),
    (xs.insertIdx i x).map f = (xs.map f).insertIdx i (f x)
  | 0, xs => by simp
  | i + 1, [] => by simp
  | i + 1, y :: xs => by simp [map_insertIdx f x i xs]

theorem map_eraseIdx {α β : Type} (f : α → β) : ∀ (i : Nat) (xs : List α),
    (xs.eraseIdx i).map f = (xs.map f).eraseIdx i
  | _, [] => by simp
  | 0, _ :: xs => by simp
  | i + 1, _ :: xs => by simp [map_eraseIdx f i xs]

/-- The same calls on a list of records and on a list of their rows. -/
theorem records_rows {α : Type} {len a : Nat} (R : α → Bytes → Prop) : ∀ (ops : List (RecordOp α))
    (ps : List (α × Bytes)) (rows : Rows), runRows len a (ops.map RecordOp.page) (ps.map (·.2)) = some rows →
    (∀ p ∈ ps, R p.1 p.2) → (∀ op ∈ ops, ∀ p ∈ op.adds, R p.1 p.2) →
    ∃ qs : List (α × Bytes), rows = qs.map (·.2) ∧
      ops.foldl (fun xs op => op.apply xs) (ps.map (·.1)) = qs.map (·.1) ∧ ∀ p ∈ qs, R p.1 p.2
  | [], ps, rows, h, hp, _ => ⟨ps, by simpa [runRows] using h.symm, rfl, hp⟩
  | op :: ops, ps, rows, h, hp, ho => by
    simp only [List.map_cons, runRows] at h
    split at h
    · rename_i hleg
      have hop := ho op List.mem_cons_self
      have hrest := fun o m => ho o (List.mem_cons_of_mem _ m)
      have key : ∃ ps' : List (α × Bytes), ps'.map (·.2) = op.page.apply (ps.map (·.2)) ∧
          ps'.map (·.1) = op.apply (ps.map (·.1)) ∧ ∀ p ∈ ps', R p.1 p.2 := by
        cases op with
        | append x row =>
          refine ⟨ps ++ [(x, row)], by simp [RecordOp.page, PageOp.apply], by simp [RecordOp.apply], ?_⟩
          intro p m
          rcases List.mem_append.1 m with m | m
          · exact hp p m
          · exact hop p m
        | insert i x row =>
          refine ⟨ps.insertIdx i (x, row), by rw [map_insertIdx]; rfl, by rw [map_insertIdx]; rfl, ?_⟩
          intro p m
          have hi : i ≤ ps.length := by simpa using hleg.1
          rcases (List.mem_insertIdx hi).1 m with m | m
          · exact hop p (m ▸ List.mem_cons_self)
          · exact hp p m
        | remove i =>
          exact ⟨ps.eraseIdx i, by rw [map_eraseIdx]; rfl, by rw [map_eraseIdx]; rfl,
            fun p m => hp p (List.mem_of_mem_eraseIdx m)⟩
      obtain ⟨ps', e2, e1, hp'⟩ := key
      rw [← e2] at h
      obtain ⟨qs, k1, k2, k3⟩ := records_rows R ops ps' rows h hp' hrest
      refine ⟨qs, k1, ?_, k3⟩
      rw [List.foldl_cons, ← e1]
      exact k2
    · cases h

/-- Records of any kind on a page: a history that has room ends with the records that a list would hold, each read
from its own row, and every row starts at a multiple of the alignment of the page. -/
theorem page_of_records {α : Type} (R : α → Bytes → Prop) (chk : Bool) (a : Nat) (ha : a < 2 ^ 64) (page0 page : Bytes)
    (hinit : initializePage chk a page0 = .ok page) (ops : List (RecordOp α))
    (hops : ∀ op ∈ ops, ∀ p ∈ op.adds, R p.1 p.2) (hreg : Regular page0.length a (ops.map RecordOp.page) []) :
    match runRows page0.length a (ops.map RecordOp.page) [] with
    | some _ => ∃ page', pageRun chk a (ops.map RecordOp.page) page = .ok page' ∧
        numRows page' = .ok (records ops).length ∧
        ∀ i x, (records ops)[i]? = some x → ∃ row pos, getRow chk a page' i = .ok row ∧ R x row ∧
          slice page' pos row.length = row ∧ a ∣ pos ∧ pos + row.length ≤ page'.length
    | none => pageRun chk a (ops.map RecordOp.page) page = .error .panic := by
  have h := C05_page_refines_list chk a ha page0 page hinit _ hreg
  cases hr : runRows page0.length a (ops.map RecordOp.page) [] with
  | none => rw [hr] at h; exact h
  | some rows =>
    rw [hr] at h
    obtain ⟨page', hrun, hn, hg⟩ := h
    obtain ⟨qs, k1, k2, k3⟩ := records_rows R ops [] rows hr (fun _ m => nomatch m) hops
    obtain ⟨pos, h9, _⟩ := C09_rows_aligned chk a ha page0 (ops.map RecordOp.page) page' rows
      ⟨page, hinit, hrun, hreg, hr⟩
    have k2 : records ops = qs.map (·.1) := k2
    refine ⟨page', hrun, by rw [hn, k1, k2]; simp, fun i x hx => ?_⟩
    rw [k2, List.getElem?_map] at hx
    cases hq : qs[i]? with
    | none => rw [hq] at hx; cases hx
    | some p =>
      rw [hq] at hx
      obtain rfl := Option.some.inj hx
      have hi : rows[i]? = some p.2 := by rw [k1, List.getElem?_map, hq]; rfl
      obtain ⟨hlt, hrow⟩ := List.getElem?_eq_some_iff.1 hi
      have := h9 i hlt
      rw [hrow] at this
      refine ⟨p.2, pos i, by rw [hg chk i, hi], k3 p (List.mem_of_getElem? hq), this.2.1, this.2.2.1, this.2.2.2.2⟩

/-- The row that stores a value: what `encode_with_source` wrote into a buffer with any contents. -/
def StoredAs (chk : Bool) (t : Ty) (l : Layout) (v : Val) (row : Bytes) : Prop :=
  Fits chk t v ∧ ∃ (src : DataSource) (buf data : Bytes) (n : Nat),
    Presents src v [] ∧ n ≤ buf.length ∧ l.encode chk src buf = .ok (data, n) ∧ row = data.take n

/-- C106. Values are encoded and the bytes appended to a page, inserted into it, and removed from it.  If the rows have
room, the page holds the values that a list would hold after the same calls: `num_rows` is their number, and the row
at an index, read through the `Marshaller`, is the value at that index.  If the alignment of the page is a multiple of
that of the layout, the fields are aligned in the page.  If some row has no room, there is a panic. -/
theorem C106_values_on_a_page (chk : Bool) (t : Ty) (l : Layout) (hl : Layout.new chk t = .ok l) (a : Nat)
    (ha : a < 2 ^ 64) (page0 page : Bytes) (hinit : initializePage chk a page0 = .ok page) (ops : List (RecordOp Val))
    (hops : ∀ op ∈ ops, ∀ p ∈ op.adds, StoredAs chk t l p.1 p.2)
    (hreg : Regular page0.length a (ops.map RecordOp.page) []) :
    match runRows page0.length a (ops.map RecordOp.page) [] with
    | some _ => ∃ page', pageRun chk a (ops.map RecordOp.page) page = .ok page' ∧
        numRows page' = .ok (records ops).length ∧
        ∀ i v, (records ops)[i]? = some v → ∃ row pos, getRow chk a page' i = .ok row ∧
          Presents (l.source chk row) v [] ∧ l.encodingSize chk row = .ok row.length ∧
          slice page' pos row.length = row ∧
          (l.alignment ∣ a → ∀ f ∈ l.fixed, wordSize f ∣ pos + f.offset)
    | none => pageRun chk a (ops.map RecordOp.page) page = .error .panic := by
  have h := page_of_records (StoredAs chk t l) chk a ha page0 page hinit ops hops hreg
  split at h
  · obtain ⟨page', h1, h2, h3⟩ := h
    refine ⟨page', h1, h2, fun i v hv => ?_⟩
    obtain ⟨row, pos, k1, ⟨hf, src, buf, data, n, hs, hb, he, rfl⟩, k3, k4, _⟩ := h3 i v hv
    have hsize := encode_size he
    obtain ⟨m, j1, j2, j3⟩ := C22_size chk t v hf l hl src hs
    refine ⟨_, pos, k1, (C25_round_trip chk t v hf l hl src hs buf data n he hb).2, ?_, k3, fun hd f hfm => ?_⟩
    · obtain rfl : m = n := Except.ok.inj (j1.symm.trans hsize)
      obtain ⟨data', e1, _, e3⟩ := j3 buf hb
      obtain ⟨data'', e4, e5, _⟩ := C23_inside chk t v hf l hl src hs m j1 buf hb
      rw [he] at e1 e4
      cases e1
      cases e4
      rw [e3, List.length_take]
      congr 1
      omega
    · have := (C20_aligned chk t hf.inhab hf.nodes l l hl (.self l)).1 f hfm
      exact Nat.dvd_add (Nat.dvd_trans (Nat.dvd_trans this.2 hd) k4) this.1
  · exact h

/-- Three records `recVal`, one in front of the first, one behind it, and one of them removed. -/
def recOps (row : Bytes) : List (RecordOp Val) :=
  [.append recVal row, .insert 0 recVal row, .append recVal row, .remove 1]

theorem recOps_page (chk : Bool) : ∃ l page row, Layout.new chk recTy = .ok l ∧
    initializePage chk 8 (List.replicate 128 0) = .ok page ∧
    (∀ op ∈ recOps row, ∀ p ∈ op.adds, StoredAs chk recTy l p.1 p.2) ∧
    Regular (List.replicate 128 (0 : UInt8)).length 8 ((recOps row).map RecordOp.page) [] ∧
    (runRows (List.replicate 128 (0 : UInt8)).length 8 ((recOps row).map RecordOp.page) []).isSome ∧
    records (recOps row) = [recVal, recVal] ∧ l.alignment ∣ 8 := by
  obtain ⟨l, hl⟩ := (C18_layout_new chk recTy (by decide)).2 rec_inhab
  have hsz : l.sizeWithSource chk recSrc = .ok 24 := by
    have : (Layout.new chk recTy >>= fun l => l.sizeWithSource chk recSrc) = .ok 24 := by cases chk <;> decide
    rwa [hl] at this
  have hal : l.alignment = 8 := by
    have : (Layout.new chk recTy >>= fun l => pure l.alignment) = .ok 8 := by cases chk <;> decide
    rw [hl] at this
    exact Except.ok.inj this
  obtain ⟨data, h1, h2, _⟩ := C23_inside chk recTy recVal (rec_fits chk) l hl recSrc rec_presents 24 hsz
    (List.replicate 30 255) (by simp)
  have hrow : (data.take 24).length = 24 := by rw [List.length_take, h2, List.length_replicate]; rfl
  have hne : data.take 24 ≠ [] := fun h => by rw [h] at hrow; cases hrow
  obtain ⟨page, hpage⟩ : ∃ p, initializePage chk 8 (List.replicate 128 0) = .ok p := by
    have h : (initializePage chk 8 (List.replicate 128 0)).isOk = true := by cases chk <;> decide +kernel
    cases hp : initializePage chk 8 (List.replicate 128 0) with
    | ok p => exact ⟨p, rfl⟩
    | error e => rw [hp] at h; cases h
  refine ⟨l, page, data.take 24, hl, hpage, ?_, ?_, ?_, rfl, by rw [hal]; exact Nat.dvd_refl 8⟩
  · have hst : StoredAs chk recTy l recVal (data.take 24) :=
      ⟨rec_fits chk, recSrc, List.replicate 30 255, data, 24, rec_presents, by simp, h1, rfl⟩
    intro op ho p hp
    simp only [recOps, List.mem_cons, List.not_mem_nil, or_false] at ho
    rcases ho with rfl | rfl | rfl | rfl <;> simp only [RecordOp.adds, List.mem_cons, List.not_mem_nil, or_false] at hp
    all_goals subst hp; exact hst
  · generalize data.take 24 = row at hrow hne
    simp [recOps, RecordOp.page, Regular, PageOp.degenerate, PageOp.apply, hne]
  · generalize data.take 24 = row at hrow hne
    simp [recOps, RecordOp.page, runRows, PageOp.legal, PageOp.apply, room, footprint, directory, roundUp, hrow]

/-- The row that stores a JSON document: the text that `JsonEncoder` writes for the decoded document, and the bytes
that `encode_with_source` wrote for it into a buffer with any contents. -/
def DocumentStoredAs (env : Env) (t : Ty) (l : Layout) (F : FloatText) (text row : Bytes) : Prop :=
  ∃ (input : Str) (d : IntermediateDataSource) (buf data : Bytes) (n : Nat), input.length < 2 ^ 26 ∧
    decode env t input = .ok d ∧ encode F t d.source = .ok text ∧ n ≤ buf.length ∧
    l.encode env.chk d.source buf = .ok (data, n) ∧ row = data.take n

/-- C106 for documents: JSON texts are decoded, encoded and stored on a page; the text written from the row at an
index is the text written from the decoded document at that index in the list. -/
theorem C106_documents_on_a_page (env : Env) (t : Ty) (hi : Inhab t) (hn : nodes t < 2 ^ 59)
    (l : Layout) (hl : Layout.new env.chk t = .ok l) (ht : ∀ m, Nested l m → ∀ f ∈ m.fixed, HasRoom env.chk f)
    (hs : AllStructs (fun n => n ≠ 64 ∨ env.chk = true) t) (F : FloatText) (a : Nat)
    (ha : a < 2 ^ 64) (page0 page : Bytes) (hinit : initializePage env.chk a page0 = .ok page)
    (ops : List (RecordOp Bytes)) (hops : ∀ op ∈ ops, ∀ p ∈ op.adds, DocumentStoredAs env t l F p.1 p.2)
    (hreg : Regular page0.length a (ops.map RecordOp.page) []) :
    match runRows page0.length a (ops.map RecordOp.page) [] with
    | some _ => ∃ page', pageRun env.chk a (ops.map RecordOp.page) page = .ok page' ∧
        numRows page' = .ok (records ops).length ∧
        ∀ i text, (records ops)[i]? = some text → ∃ row, getRow env.chk a page' i = .ok row ∧
          encode F t (l.source env.chk row) = .ok text
    | none => pageRun env.chk a (ops.map RecordOp.page) page = .error .panic := by
  have h := page_of_records (DocumentStoredAs env t l F) env.chk a ha page0 page hinit ops hops hreg
  split at h
  · obtain ⟨page', h1, h2, h3⟩ := h
    refine ⟨page', h1, h2, fun i text hx => ?_⟩
    obtain ⟨row, _, k1, ⟨input, d, buf, data, n, e1, e2, e3, e4, e5, rfl⟩, _⟩ := h3 i text hx
    obtain ⟨m, text', j1, j2, j3⟩ := C43_json_binary_json_partial env t hi hn l hl ht hs input e1 d e2 F
    obtain rfl : m = n := Except.ok.inj (j2.symm.trans (encode_size e5))
    obtain rfl : text = text' := Except.ok.inj (e3.symm.trans j1)
    obtain ⟨data', f1, _, f3⟩ := j3 buf e4
    rw [e5] at f1
    cases f1
    exact ⟨_, k1, f3⟩
  · exact h

example (chk : Bool) : ∃ l text row page, Layout.new chk recTy = .ok l ∧
    (∀ m, Nested l m → ∀ f ∈ m.fixed, HasRoom chk f) ∧
    DocumentStoredAs (plainEnv chk) recTy l noFloats text row ∧
    initializePage chk 8 (List.replicate 128 0) = .ok page ∧
    Regular (List.replicate 128 (0 : UInt8)).length 8 [.append row, .insert 0 row] [] ∧
    (runRows (List.replicate 128 (0 : UInt8)).length 8 [.append row, .insert 0 row] []).isSome := by
  obtain ⟨l, hl⟩ := (C18_layout_new chk recTy (by decide)).2 rec_inhab
  have hsz : l.sizeWithSource chk recSrc = .ok 24 := by
    have : (Layout.new chk recTy >>= fun l => l.sizeWithSource chk recSrc) = .ok 24 := by cases chk <;> decide
    rwa [hl] at this
  obtain ⟨d, hd, hh⟩ := recJson_decode chk
  have hp := presents_holds hh
  have hsz' : l.sizeWithSource chk d.source = .ok 24 := by
    obtain ⟨n, _, hc⟩ := fits_coded (rec_fits chk) hl
    rw [hc.szs _ hp, ← hc.szs _ rec_presents, hsz]
  have hroom : ∀ m, Nested l m → ∀ f ∈ m.fixed, HasRoom chk f :=
    fun _ hm => tags_room chk _ recTy (Nat.le_refl _) (by decide) rec_inhab
      (AllEnums_imp (fun _ => tagFits_ok) (rec_enums chk)) [] l _ hl hm
  obtain ⟨n, text, h1, h2, _⟩ := C43_json_binary_json_partial (plainEnv chk) recTy rec_inhab (by decide) l hl hroom
    (rec_structs (.inl (by decide))) recJson (by decide) d hd noFloats
  obtain ⟨data, e1, e2, _⟩ := C23_inside chk recTy recVal (rec_fits chk) l hl d.source hp 24 hsz'
    (List.replicate 30 255) (by simp)
  have hrow : (data.take 24).length = 24 := by rw [List.length_take, e2, List.length_replicate]; rfl
  have hne : data.take 24 ≠ [] := fun h => by rw [h] at hrow; cases hrow
  obtain ⟨page, hpage⟩ : ∃ p, initializePage chk 8 (List.replicate 128 0) = .ok p := by
    have h : (initializePage chk 8 (List.replicate 128 0)).isOk = true := by cases chk <;> decide +kernel
    cases hp : initializePage chk 8 (List.replicate 128 0) with
    | ok p => exact ⟨p, rfl⟩
    | error e => rw [hp] at h; cases h
  refine ⟨l, text, data.take 24, page, hl, hroom,
    ⟨recJson, d, List.replicate 30 255, data, 24, by decide, hd, h1, by simp, e1, rfl⟩, hpage, ?_, ?_⟩
  · simp [Regular, PageOp.degenerate, PageOp.apply, hne]
  · generalize data.take 24 = row at hrow hne
    simp [runRows, PageOp.legal, PageOp.apply, room, footprint, directory, roundUp, hrow]

end Verif.Props
