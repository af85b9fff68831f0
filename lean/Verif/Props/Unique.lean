import Verif.Proof.Unique
import Verif.Props.Records
import Verif.Props.Distance

/-! # C145: encodings can be told apart, also where they follow one another -/

namespace Verif.Props

open Verif Spec Nsm

/-! ## C145 -/

theorem storedAs_reads {chk : Bool} {t : Ty} {l : Layout} (hl : Layout.new chk t = .ok l) {v : Val} {row : Bytes}
    (h : StoredAs chk t l v row) (rest : Bytes) : Presents (l.source chk (row ++ rest)) v [] ∧
      ∀ src, Presents src v [] → l.sizeWithSource chk src = .ok row.length := by
  obtain ⟨hf, src, buf, data, n, hs, hn, he, rfl⟩ := h
  obtain ⟨h1, h2, h3⟩ := encoded_presents hf hl hs hn he rest
  exact ⟨h1, by rw [h2]; exact h3⟩

/-- C145. Bytes that begin with the encoding of a value are read as this value of the type and as no other one,
whatever follows. -/
theorem C145_one_reading (chk : Bool) (t : Ty) (l : Layout) (hl : Layout.new chk t = .ok l) (v : Val) (row : Bytes)
    (h : StoredAs chk t l v row) (rest : Bytes) (v' : Val) (ht : Typed t v') :
    Presents (l.source chk (row ++ rest)) v' [] ↔ v' = v := by
  constructor
  · exact fun hp => presents_unique ht h.1.typed hp (storedAs_reads hl h rest).1
  · rintro rfl
    exact (storedAs_reads hl h rest).1

/-- C145. No encoding begins with the encoding of another value of the type, or with another encoding of the same
value. -/
theorem C145_prefix_free (chk : Bool) (t : Ty) (l : Layout) (hl : Layout.new chk t = .ok l) (v v' : Val)
    (row row' : Bytes) (h : StoredAs chk t l v row) (h' : StoredAs chk t l v' row') (hp : row <+: row') :
    v = v' ∧ row = row' := by
  obtain ⟨rest, rfl⟩ := hp
  have h1 := (storedAs_reads hl h' []).1
  rw [List.append_nil] at h1
  have hv := (C145_one_reading chk t l hl v row h rest v' h'.1.typed).1 h1
  subst hv
  refine ⟨rfl, ?_⟩
  have e1 := (storedAs_reads hl h rest).2 _ h1
  have e2 := (storedAs_reads hl h' []).2 _ h1
  rw [e1] at e2
  have := Except.ok.inj e2
  rw [List.length_append] at this
  rw [List.eq_nil_of_length_eq_zero (l := rest) (by omega), List.append_nil]

/-- C145. Where encodings follow one another, none of them empty, the bytes tell how many there are and which value
each of them stores. -/
theorem C145_split (chk : Bool) (t : Ty) (l : Layout) (hl : Layout.new chk t = .ok l) :
    ∀ (xs ys : List (Val × Bytes)), (∀ x ∈ xs, StoredAs chk t l x.1 x.2 ∧ x.2 ≠ []) →
      (∀ y ∈ ys, StoredAs chk t l y.1 y.2 ∧ y.2 ≠ []) → xs.flatMap (·.2) = ys.flatMap (·.2) → xs = ys
  | [], [], _, _, _ => rfl
  | [], y :: ys, _, hy, he => by
    have := (hy y (by simp)).2
    simp only [List.flatMap_nil, List.flatMap_cons] at he
    exact absurd (List.append_eq_nil_iff.1 he.symm).1 this
  | x :: xs, [], hx, _, he => by
    have := (hx x (by simp)).2
    simp only [List.flatMap_nil, List.flatMap_cons] at he
    exact absurd (List.append_eq_nil_iff.1 he).1 this
  | x :: xs, y :: ys, hx, hy, he => by
    simp only [List.flatMap_cons] at he
    have h1 := (hx x (by simp)).1
    have h2 := (hy y (by simp)).1
    have hxy : x = y := by
      rcases List.append_eq_append_iff.1 he with ⟨r, hr, _⟩ | ⟨r, hr, _⟩
      · obtain ⟨e1, e2⟩ := C145_prefix_free chk t l hl _ _ _ _ h1 h2 ⟨r, hr.symm⟩
        exact Prod.ext e1 e2
      · obtain ⟨e1, e2⟩ := C145_prefix_free chk t l hl _ _ _ _ h2 h1 ⟨r, hr.symm⟩
        exact (Prod.ext e1 e2).symm
    subst hxy
    rw [C145_split chk t l hl xs ys (fun z hz => hx z (by simp [hz])) (fun z hz => hy z (by simp [hz]))
      (List.append_cancel_left he)]

/-- C145. Two values for which a buffer has room are encoded alike in it if and only if they are the same. -/
theorem C145_injective (chk : Bool) (t : Ty) (l : Layout) (hl : Layout.new chk t = .ok l) (v v' : Val)
    (h : Fits chk t v) (h' : Fits chk t v') (src src' : DataSource) (hs : Presents src v [])
    (hs' : Presents src' v' []) (size size' : Nat) (hsize : l.sizeWithSource chk src = .ok size)
    (hsize' : l.sizeWithSource chk src' = .ok size') (buf : Bytes) (hb : size ≤ buf.length)
    (hb' : size' ≤ buf.length) : l.encode chk src buf = l.encode chk src' buf ↔ v = v' := by
  obtain ⟨s, pl, hc⟩ := fits_coded h hl
  have := hc.szs src hs
  rw [hsize] at this
  cases this
  obtain ⟨a, a1, _⟩ := hc.enc buf hb
  constructor
  · intro e
    obtain ⟨s', pl', hc'⟩ := fits_coded h' hl
    have := hc'.szs src' hs'
    rw [hsize'] at this
    cases this
    obtain ⟨b, b1, _⟩ := hc'.enc buf hb'
    have ha := a1 src hs
    have hb1 := b1 src' hs'
    rw [ha, hb1] at e
    cases e
    exact (C145_prefix_free chk t l hl v v' _ _ ⟨h, src, buf, a, size, hs, hb, ha, rfl⟩
      ⟨h', src', buf, a, size, hs', hb, hb1, rfl⟩ (List.prefix_refl _)).1
  · rintro rfl
    rw [a1 src hs, a1 src' hs']

/-- C145. Two values of the same form, which a layout of the type can store, differ in no bit if and only if they are
the same. -/
theorem C145_apart (chk : Bool) (t : Ty) (l : Layout) (hl : Layout.new chk t = .ok l) (v v' : Val)
    (h : Fits chk t v) (hf : SameForm v v') (ht : Typed t v') : apart v v' = 0 ↔ v = v' := by
  have h' := Fits.sameForm h hf ht
  obtain ⟨size, pl, hc⟩ := fits_coded h hl
  obtain ⟨size', pl', hc'⟩ := fits_coded h' hl
  obtain ⟨src, hs⟩ := hc.source
  obtain ⟨src', hs'⟩ := hc'.source
  have hi := fun buf => C145_injective chk t l hl v v' h h' src src' hs hs' size size' (hc.szs src hs)
    (hc'.szs src' hs') buf
  have hsame := C144_same chk t v v' h hf ht l hl src hs src' hs' size (hc.szs src hs)
  obtain ⟨_, _, _, _, _, d1, d2, _⟩ := fits_distance h hf ht hl
  have e1 := (d1.szs src hs).symm.trans (hc.szs src hs)
  have e2 := (d2.szs src' hs').symm.trans (hc'.szs src' hs')
  cases e1
  cases e2
  rw [hsame]
  constructor
  · intro hall
    exact (hi (List.replicate size 0) (by simp) (by simp)).1 (hall _ (by simp))
  · intro e buf hb
    exact (hi buf hb hb).2 e

/-- The two samples, encoded one behind the other in either order. -/
example (buf : Bytes) (hb : 24 ≤ buf.length) : ∃ l a b, Layout.new true recTy = .ok l ∧
    StoredAs true recTy l recVal a ∧ StoredAs true recTy l redVal b ∧ a.length = 24 ∧ b.length = 24 ∧
    a ++ b ≠ b ++ a ∧ ¬ a <+: b ++ a := by
  obtain ⟨l, hl, hsize⟩ := rec_size
  obtain ⟨a, b, h1, h2, _⟩ := C144_distance true recTy recVal redVal (rec_fits true) red_form red_typed l hl recSrc
    redSrc rec_presents red_presents 24 hsize buf hb
  have ra : StoredAs true recTy l recVal (a.take 24) := ⟨rec_fits true, recSrc, buf, a, 24, rec_presents, hb, h1, rfl⟩
  have rb : StoredAs true recTy l redVal (b.take 24) :=
    ⟨Fits.sameForm (rec_fits true) red_form red_typed, redSrc, buf, b, 24, red_presents, hb, h2, rfl⟩
  have na := (encoded_presents ra.1 hl rec_presents hb h1 []).2.1
  have nb := (encoded_presents rb.1 hl red_presents hb h2 []).2.1
  have hne : recVal ≠ redVal := fun e => absurd (congrArg (apart recVal) e) (by decide)
  refine ⟨l, a.take 24, b.take 24, hl, ra, rb, na, nb, fun he => ?_, fun hp => ?_⟩
  · have := C145_split true recTy l hl [(recVal, a.take 24), (redVal, b.take 24)]
      [(redVal, b.take 24), (recVal, a.take 24)]
      (by simp only [List.mem_cons, List.not_mem_nil, or_false]
          rintro x (rfl | rfl)
          · exact ⟨ra, fun e => absurd (na.symm.trans (congrArg List.length e)) (by decide)⟩
          · exact ⟨rb, fun e => absurd (nb.symm.trans (congrArg List.length e)) (by decide)⟩)
      (by simp only [List.mem_cons, List.not_mem_nil, or_false]
          rintro x (rfl | rfl)
          · exact ⟨rb, fun e => absurd (nb.symm.trans (congrArg List.length e)) (by decide)⟩
          · exact ⟨ra, fun e => absurd (na.symm.trans (congrArg List.length e)) (by decide)⟩)
      (by simpa using he)
    exact hne (congrArg Prod.fst (List.cons.inj this).1)
  · have hpre : a.take 24 <+: b.take 24 :=
      List.prefix_of_prefix_length_le hp (List.prefix_append _ _) (by rw [na, nb]; exact Nat.le_refl _)
    exact hne (C145_prefix_free true recTy l hl _ _ _ _ ra rb hpre).1

example (buf : Bytes) (hb : 24 ≤ buf.length) : ∃ l, Layout.new true recTy = .ok l ∧
    l.encode true recSrc buf ≠ l.encode true redSrc buf := by
  obtain ⟨l, hl, hsize⟩ := rec_size
  obtain ⟨a, b, h1, h2, _⟩ := C144_distance true recTy recVal redVal (rec_fits true) red_form red_typed l hl recSrc
    redSrc rec_presents red_presents 24 hsize buf hb
  refine ⟨l, hl, fun e => ?_⟩
  have := (C145_injective true recTy l hl recVal redVal (rec_fits true)
    (Fits.sameForm (rec_fits true) red_form red_typed) recSrc redSrc rec_presents
    red_presents 24 24 hsize (encode_size h2) buf hb hb).1 e
  exact absurd (congrArg (apart recVal) this) (by decide)

example : ∃ l, Layout.new true recTy = .ok l ∧ ¬ recVal = redVal := by
  obtain ⟨l, hl, _⟩ := rec_size
  exact ⟨l, hl, fun e => absurd ((C145_apart true recTy l hl recVal redVal (rec_fits true) red_form red_typed).2 e)
    (by decide)⟩

/-- C145. If calls that put encoded values on a page, in whatever order and number, end with the same bytes, the pages
hold the same values in the same order. -/
theorem C145_pages (chk : Bool) (t : Ty) (l : Layout) (hl : Layout.new chk t = .ok l) (a : Nat) (ha : a < 2 ^ 64)
    (page0 page page0' page' : Bytes) (hinit : initializePage chk a page0 = .ok page)
    (hinit' : initializePage chk a page0' = .ok page') (ops ops' : List (RecordOp Val))
    (hops : ∀ op ∈ ops, ∀ p ∈ op.adds, StoredAs chk t l p.1 p.2)
    (hops' : ∀ op ∈ ops', ∀ p ∈ op.adds, StoredAs chk t l p.1 p.2)
    (hreg : Regular page0.length a (ops.map RecordOp.page) [])
    (hreg' : Regular page0'.length a (ops'.map RecordOp.page) []) (last : Bytes)
    (hrun : pageRun chk a (ops.map RecordOp.page) page = .ok last)
    (hrun' : pageRun chk a (ops'.map RecordOp.page) page' = .ok last) : records ops = records ops' := by
  have h := page_of_records (StoredAs chk t l) chk a ha page0 page hinit ops hops hreg
  have h' := page_of_records (StoredAs chk t l) chk a ha page0' page' hinit' ops' hops' hreg'
  split at h
  · split at h'
    · obtain ⟨q, h1, h2, h3⟩ := h
      obtain ⟨q', h1', h2', h3'⟩ := h'
      rw [hrun] at h1
      rw [hrun'] at h1'
      cases h1
      cases h1'
      rw [h2] at h2'
      refine List.ext_getElem (Except.ok.inj h2') fun i g g' => ?_
      obtain ⟨row, _, r1, r2, _⟩ := h3 i _ (List.getElem?_eq_getElem g)
      obtain ⟨row', _, r1', r2', _⟩ := h3' i _ (List.getElem?_eq_getElem g')
      rw [r1] at r1'
      cases r1'
      exact (C145_prefix_free chk t l hl _ _ _ _ r2 r2' (List.prefix_refl _)).1
    · rw [hrun'] at h'; cases h'
  · rw [hrun] at h; cases h

/-- A page with the one sample and a page with the other one differ. -/
example : ∃ l page x y a b, Layout.new true recTy = .ok l ∧ initializePage true 8 (List.replicate 128 0) = .ok page ∧
    StoredAs true recTy l recVal a ∧ StoredAs true recTy l redVal b ∧
    pageRun true 8 [RecordOp.page (.append recVal a)] page = .ok x ∧
    pageRun true 8 [RecordOp.page (.append redVal b)] page = .ok y ∧ x ≠ y := by
  obtain ⟨l, hl, hsize⟩ := rec_size
  have hb : 24 ≤ (List.replicate 30 (255 : UInt8)).length := by decide
  obtain ⟨a, b, h1, h2, _⟩ := C144_distance true recTy recVal redVal (rec_fits true) red_form red_typed l hl recSrc
    redSrc rec_presents red_presents 24 hsize _ hb
  have ra : StoredAs true recTy l recVal (a.take 24) := ⟨rec_fits true, recSrc, _, a, 24, rec_presents, hb, h1, rfl⟩
  have rb : StoredAs true recTy l redVal (b.take 24) :=
    ⟨Fits.sameForm (rec_fits true) red_form red_typed, redSrc, _, b, 24, red_presents, hb, h2, rfl⟩
  have na := (encoded_presents ra.1 hl rec_presents hb h1 []).2.1
  have nb := (encoded_presents rb.1 hl red_presents hb h2 []).2.1
  generalize a.take 24 = a at ra na
  generalize b.take 24 = b at rb nb
  obtain ⟨page, hpage⟩ : ∃ p, initializePage true 8 (List.replicate 128 0) = .ok p := by
    have h : (initializePage true 8 (List.replicate 128 0)).isOk = true := by decide +kernel
    cases hp : initializePage true 8 (List.replicate 128 0) with
    | ok p => exact ⟨p, rfl⟩
    | error e => rw [hp] at h; cases h
  have one : ∀ (v : Val) (row : Bytes), StoredAs true recTy l v row → row.length = 24 →
      (∀ op ∈ [RecordOp.append v row], ∀ p ∈ op.adds, StoredAs true recTy l p.1 p.2) ∧
      Regular (List.replicate 128 (0 : UInt8)).length 8 ([RecordOp.append v row].map RecordOp.page) [] ∧
      ∃ x, pageRun true 8 ([RecordOp.append v row].map RecordOp.page) page = .ok x := by
    intro v row hst hn
    have hne : row ≠ [] := fun h => by rw [h] at hn; cases hn
    have hops : ∀ op ∈ [RecordOp.append v row], ∀ p ∈ op.adds, StoredAs true recTy l p.1 p.2 := by
      intro op ho p hp
      simp only [List.mem_cons, List.not_mem_nil, or_false] at ho
      subst ho
      simp only [RecordOp.adds, List.mem_cons, List.not_mem_nil, or_false] at hp
      subst hp
      exact hst
    have hreg : Regular (List.replicate 128 (0 : UInt8)).length 8 ([RecordOp.append v row].map RecordOp.page) [] := by
      simp [RecordOp.page, Regular, PageOp.degenerate, hne]
    refine ⟨hops, hreg, ?_⟩
    have h := page_of_records (StoredAs true recTy l) true 8 (by decide) _ page hpage _ hops hreg
    have hr : runRows (List.replicate 128 (0 : UInt8)).length 8 ([RecordOp.append v row].map RecordOp.page) [] =
        some [row] := by
      simp [RecordOp.page, runRows, PageOp.legal, PageOp.apply, room, footprint, directory, roundUp, hn]
    rw [hr] at h
    obtain ⟨x, hx, _⟩ := h
    exact ⟨x, hx⟩
  obtain ⟨o1, g1, x, hx⟩ := one _ _ ra na
  obtain ⟨o2, g2, y, hy⟩ := one _ _ rb nb
  refine ⟨l, page, x, y, a, b, hl, hpage, ra, rb, hx, hy, ?_⟩
  rintro rfl
  have := C145_pages true recTy l hl 8 (by decide) _ page _ page hpage hpage _ _ o1 o2 g1 g2 x hx hy
  have e : recVal = redVal := (List.cons.inj (show [recVal] = [redVal] from this)).1
  exact absurd (congrArg (apart recVal) e) (by decide)

end Verif.Props
