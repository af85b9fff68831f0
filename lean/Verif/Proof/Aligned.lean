import Verif.Model.Aligned
import Verif.Spec.Aligned
import Verif.Props.Marshaller
import Verif.Proof.NsmDamaged

/-! # When every pointer that is followed is aligned -/

namespace Verif

open Spec

theorem atAddress_ok {n base off : Nat} (h : n ∣ base + off) : atAddress n base off = .ok () := by
  unfold atAddress
  rw [if_pos (Nat.mod_eq_zero_of_dvd h)]

theorem atAddress_ub {n base off : Nat} (h : ¬ n ∣ base + off) : atAddress n base off = .error .ub := by
  unfold atAddress
  rw [if_neg (fun e => h (Nat.dvd_of_mod_eq_zero e))]

theorem setValueAt_eq {base n : Nat} {b : Bytes} {o v : Nat} (h : n ∣ base + o) :
    setValueAt base n b o v = setValue n b o v := by
  unfold setValueAt setValue
  rw [atAddress_ok h]; rfl

theorem getValueAt_eq {base n : Nat} {b : Bytes} {o : Nat} (h : n ∣ base + o) :
    getValueAt base n b o = getValue n b o := by
  unfold getValueAt getValue
  rw [atAddress_ok h]; rfl

theorem readRawAt_eq {base n : Nat} {d : Bytes} {o : Nat} (h : n ∣ base + o) :
    readRawAt base n d o = readRaw n d o := by
  unfold readRawAt readRaw
  rw [atAddress_ok h]; rfl

theorem writeRawAt_eq {base n : Nat} {d : Bytes} {o v : Nat} (h : n ∣ base + o) :
    writeRawAt base n d o v = writeRaw n d o v := by
  unfold writeRawAt writeRaw
  rw [atAddress_ok h]; rfl

/-! ## Pages -/

namespace Nsm

section
variable {base : Nat} (h : 4 ∣ base)
include h

theorem word (i : Nat) : 4 ∣ base + 4 * (i + 1) := Nat.dvd_add h (Nat.dvd_mul_right _ _)

theorem initializePageAt_eq (chk : Bool) (a : Nat) (page : Bytes) :
    initializePageAt base chk a page = initializePage chk a page := by
  unfold initializePageAt initializePage
  simp only [setValueAt_eq (show 4 ∣ base + 0 from h)]

theorem numRowsAt_eq (page : Bytes) : numRowsAt base page = numRows page := getValueAt_eq h

theorem setNumRowsAt_eq (page : Bytes) (n : Nat) : setNumRowsAt base page n = setNumRows page n := setValueAt_eq h

theorem setRowOffsetAt_eq (page : Bytes) (i o : Nat) : setRowOffsetAt base page i o = setRowOffset page i o :=
  setValueAt_eq (word h i)

theorem getRowOffsetAt_eq (page : Bytes) (i : Nat) : getRowOffsetAt base page i = getRowOffset page i :=
  getValueAt_eq (word h i)

theorem alignedRowOffsetAt_eq (chk : Bool) (a : Nat) (page : Bytes) (i : Nat) :
    alignedRowOffsetAt base chk a page i = alignedRowOffset chk a page i := by
  unfold alignedRowOffsetAt alignedRowOffset
  simp only [numRowsAt_eq h, getRowOffsetAt_eq h]

theorem rowOffsetPaddingAt_eq (chk : Bool) (a : Nat) (page : Bytes) (i : Nat) :
    rowOffsetPaddingAt base chk a page i = rowOffsetPadding chk a page i := by
  unfold rowOffsetPaddingAt rowOffsetPadding
  simp only [numRowsAt_eq h, getRowOffsetAt_eq h]

theorem upperBoundAt_eq (chk : Bool) (a : Nat) (page : Bytes) (i : Nat) :
    upperBoundAt base chk a page i = upperBound chk a page i := by
  unfold upperBoundAt upperBound
  simp only [alignedRowOffsetAt_eq h]

theorem getRowAt_eq (chk : Bool) (a : Nat) (page : Bytes) (i : Nat) :
    getRowAt base chk a page i = getRow chk a page i := by
  unfold getRowAt getRow
  simp only [rowOffsetPaddingAt_eq h, upperBoundAt_eq h]

theorem maxInsertRowSizeAt_eq (chk : Bool) (a : Nat) (page : Bytes) :
    maxInsertRowSizeAt base chk a page = maxInsertRowSize chk a page := by
  unfold maxInsertRowSizeAt maxInsertRowSize
  simp only [numRowsAt_eq h, upperBoundAt_eq h]

theorem appendRowAt_eq (chk : Bool) (a : Nat) (page row : Bytes) :
    appendRowAt base chk a page row = appendRow chk a page row := by
  unfold appendRowAt appendRow
  simp only [numRowsAt_eq h, upperBoundAt_eq h, maxInsertRowSizeAt_eq h, setRowOffsetAt_eq h, setNumRowsAt_eq h]

theorem shiftUpAt_eq (chk : Bool) (delta i : Nat) (c : Nat) (page : Bytes) :
    shiftUpAt base chk delta i c page = shiftUp chk delta i c page := by
  induction c generalizing page with
  | zero => rfl
  | succ c ih =>
    rw [shiftUpAt, shiftUp]
    simp only [getRowOffsetAt_eq h, setRowOffsetAt_eq h, ih]

theorem insertRowAt_eq (chk : Bool) (a : Nat) (page : Bytes) (i : Nat) (row : Bytes) :
    insertRowAt base chk a page i row = insertRow chk a page i row := by
  unfold insertRowAt insertRow
  simp only [numRowsAt_eq h, upperBoundAt_eq h, maxInsertRowSizeAt_eq h, setRowOffsetAt_eq h, setNumRowsAt_eq h,
    appendRowAt_eq h, alignedRowOffsetAt_eq h, shiftUpAt_eq h]

theorem shiftDownAt_eq (delta i c : Nat) (page : Bytes) :
    shiftDownAt base delta i c page = shiftDown delta i c page := by
  induction c generalizing page i with
  | zero => rfl
  | succ c ih =>
    rw [shiftDownAt, shiftDown]
    simp only [getRowOffsetAt_eq h, setRowOffsetAt_eq h, ih]

theorem removeShiftAt_eq (chk : Bool) (a : Nat) (page : Bytes) (i n : Nat) :
    removeShiftAt base chk a page i n = removeShift chk a page i n := by
  unfold removeShiftAt removeShift
  simp only [upperBoundAt_eq h, alignedRowOffsetAt_eq h, shiftDownAt_eq h]

theorem removeRowAt_eq (chk : Bool) (a : Nat) (page : Bytes) (i : Nat) :
    removeRowAt base chk a page i = removeRow chk a page i := by
  unfold removeRowAt removeRow
  simp only [numRowsAt_eq h, setNumRowsAt_eq h, removeShiftAt_eq h]

end

/-- Elsewhere the number of rows cannot be read. -/
theorem numRowsAt_ub {base : Nat} {page : Bytes} (h : ¬ 4 ∣ base) (hp : 4 ≤ page.length) :
    numRowsAt base page = .error .ub := by
  unfold numRowsAt getValueAt
  rw [show decide (0 + 4 ≤ page.length) = true by simpa using hp, assert_true, Res.bind_ok, atAddress_ub (by simpa using h)]
  rfl

theorem maxInsertRowSizeAt_ub {base : Nat} {page : Bytes} (h : ¬ 4 ∣ base) (hp : 4 ≤ page.length) (chk : Bool)
    (a : Nat) : maxInsertRowSizeAt base chk a page = .error .ub := by
  unfold maxInsertRowSizeAt
  rw [numRowsAt_ub h hp]; rfl

theorem initializePageAt_ub {base : Nat} {page : Bytes} (h : ¬ 4 ∣ base) (chk : Bool) (a : Nat) :
    initializePageAt base chk a page = .error .ub ↔ ∃ page', initializePage chk a page = .ok page' := by
  have hs : setValueAt base 4 page 0 0 = .error .ub ↔ 4 ≤ page.length := by
    unfold setValueAt
    rw [atAddress_ub (by simpa using h)]
    simp [bind_ub, assert_ub, assert_ok]
  have hs' : (∃ p, setValue 4 page 0 0 = .ok p) ↔ 4 ≤ page.length := by
    unfold setValue
    by_cases hp : 4 ≤ page.length
    · simp [hp, assert]
    · simp [hp, assert]
  unfold initializePageAt initializePage
  simp only [bind_ub, assert_ub, align_ub, hs, false_or, assert_ok, Res.bind_eq_ok]
  constructor
  · rintro ⟨_, h1, _, h2, l, h3, _, h4, h5⟩
    obtain ⟨p, hp⟩ := hs'.2 h5
    exact ⟨p, (), h1, (), h2, l, h3, (), h4, hp⟩
  · rintro ⟨p, _, h1, _, h2, l, h3, _, h4, hp⟩
    exact ⟨(), h1, (), h2, l, h3, (), h4, hs'.1 ⟨p, hp⟩⟩

/-- The row found by `get_row` begins at a multiple of the alignment. -/
theorem getRow_dvd {chk : Bool} {k : Nat} {page row : Bytes} {i : Nat} (hk : k < 64)
    (h : getRow chk (2 ^ k) page i = .ok row) : ∃ o, 2 ^ k ∣ o ∧ o + row.length ≤ page.length ∧
      row = slice page o row.length := by
  unfold getRow at h
  obtain ⟨⟨o, pad⟩, ho, h⟩ := Res.bind_eq_ok.1 h
  obtain ⟨nx, _, h⟩ := Res.bind_eq_ok.1 h
  obtain ⟨st, _, h⟩ := Res.bind_eq_ok.1 h
  obtain ⟨_, hs, h⟩ := Res.bind_eq_ok.1 h
  have hs' := assert_eq_ok hs
  simp only [Bool.and_eq_true, decide_eq_true_eq] at hs'
  cases h
  have hlen : (slice page o (st - o)).length = st - o := by
    unfold slice; rw [List.length_take, List.length_drop]; omega
  refine ⟨o, ?_, by rw [hlen]; omega, by rw [hlen]⟩
  unfold rowOffsetPadding at ho
  obtain ⟨n, _, ho⟩ := Res.bind_eq_ok.1 ho
  obtain ⟨_, _, ho⟩ := Res.bind_eq_ok.1 ho
  obtain ⟨v, _, ho⟩ := Res.bind_eq_ok.1 ho
  obtain ⟨m, hm, ho⟩ := Res.bind_eq_ok.1 ho
  cases ho
  unfold alignmentMask at hm
  obtain ⟨s, hsub, hm⟩ := Res.bind_eq_ok.1 hm
  cases hm
  have he : s = 2 ^ k - 1 := by
    unfold subW at hsub
    rw [if_pos (show 1 ≤ 2 ^ k from Nat.two_pow_pos k)] at hsub
    cases hsub; rfl
  subst he
  apply Nat.dvd_of_mod_eq_zero
  apply Nat.eq_of_testBit_eq
  intro j
  rw [Nat.testBit_mod_two_pow, Nat.testBit_and, Nat.zero_testBit]
  by_cases hi : j < k
  · have : (notW (2 ^ k - 1) % 2 ^ 32).testBit j = false := by
      rw [Nat.testBit_mod_two_pow]
      unfold notW
      rw [show (18446744073709551616 : Nat) = 2 ^ 64 from rfl, Nat.sub_sub, Nat.add_comm,
        Nat.testBit_two_pow_sub_succ (by
          have := Nat.pow_lt_pow_right (a := 2) (m := k) (n := 64) (by decide) (by omega)
          omega)]
      simp [Nat.testBit_two_pow_sub_one, hi]
    simp [this]
  · simp [hi]

end Nsm

/-! ## The marshaller -/

/-- What one layout must satisfy for its accesses to be aligned. -/
structure Steady (m : Layout) : Prop where
  al : SmallPow m.alignment
  fixed : ∀ f ∈ m.fixed, f.size ∣ f.offset ∧ f.size ∣ m.alignment
  len : ∀ p fi, VarField.string p fi ∈ m.vars → ∀ f, m.fixed[fi]? = some f → f.kind = .length
  case : ∀ p fi cs, VarField.enum p fi cs ∈ m.vars → ∀ c ∈ cs, c.alignment ∣ m.varOffset ∧ c.alignment ∣ m.alignment
  order : m.vars.Pairwise fun v w => ∀ p fi cs, w = .enum p fi cs → ∀ c ∈ cs,
    (∀ q gi, v = .string q gi → c.alignment = 1) ∧
    (∀ q gi ds, v = .enum q gi ds → ∀ d ∈ ds, SizesBy d c.alignment)

def AllSteady (l : Layout) : Prop := ∀ m, Nested l m → Steady m

theorem AllSteady.self {l : Layout} (h : AllSteady l) : Steady l := h l (.self l)

theorem AllSteady.sub {l c : Layout} {p : Path} {fi : Nat} {cs : List Layout} (h : AllSteady l)
    (hv : VarField.enum p fi cs ∈ l.vars) (hc : c ∈ cs) : AllSteady c := fun m hm => h m (.case hv hc hm)

theorem allSteady {chk : Bool} {t : Ty} (hi : Inhab t) (hn : nodes t < 2 ^ 59) {l : Layout}
    (hl : Layout.new chk t = .ok l) (hd : Keeps l) : AllSteady l := by
  intro m hm
  obtain ⟨t', p', hf⟩ := Props.nested_facts' hi hn hl hm
  have hsub : ∀ p fi cs, VarField.enum p fi cs ∈ m.vars → ∀ c ∈ cs, SmallPow c.alignment := by
    intro p fi cs hv c hc
    obtain ⟨_, _, hcf⟩ := Props.nested_facts' hi hn hl (nested_trans hm (.case hv hc (.self _)))
    exact hcf.al
  refine ⟨hf.al, hf.aligned, ?_, (Props.C20_aligned chk t hi hn l m hl hm).2.2, ?_⟩
  · intro p fi hv f hff
    obtain ⟨g, hg, hgp⟩ := hf.guard _ hv
    rw [VarField.fixedIdx] at hg
    rw [hff] at hg
    cases hg
    simp only [VarField.path] at hgp
    have h1 := hf.vars.mem_iff.1 (List.mem_map_of_mem (f := (·.setFixedIdx 0)) hv)
    obtain ⟨w, hw, he⟩ := List.mem_map.1 h1
    obtain ⟨⟨xq, xs⟩, hx, hxw⟩ := List.mem_filterMap.1 hw
    have hxs : xs = .str ∧ xq = p := by
      cases xs with
      | prim pr => simp [Slot.var] at hxw
      | str => simp [Slot.var] at hxw; subst hxw; simp [VarField.setFixedIdx] at he; exact ⟨rfl, he⟩
      | enum es => simp [Slot.var] at hxw; subst hxw; simp [VarField.setFixedIdx] at he
    obtain ⟨rfl, rfl⟩ := hxs
    have huniq : ∀ s', (xq, s') ∈ slots t' p' → s' = .str := by
      intro s' hs'
      by_cases e : s' = .str
      · exact e
      · exfalso
        rcases pairwise_mem_ne (slots_apart t' p') hs' hx (by intro h; cases h; exact e rfl) with h | h
        · exact h.1 (List.prefix_refl _)
        · exact h.1 (List.prefix_refl _)
    rcases hf.kinds f (List.mem_of_getElem? hff) with ⟨g, hg, h3, h4⟩ | ⟨b, hb, pr, o, h3, h4, _⟩
    · obtain ⟨⟨yq, ys⟩, hy, hyg⟩ := List.mem_filterMap.1 hg
      cases ys with
      | prim k =>
        simp [Slot.fixed] at hyg; subst hyg
        simp only at h3 h4
        rw [h3, hgp] at hy
        cases huniq _ hy
      | str => simp [Slot.fixed] at hyg; subst hyg; exact h4.symm
      | enum es => simp [Slot.fixed] at hyg
    · obtain ⟨⟨yq, ys⟩, hy, hyg⟩ := List.mem_filterMap.1 hb
      cases ys with
      | prim k => simp [Slot.bits] at hyg
      | str => simp [Slot.bits] at hyg
      | enum es =>
        simp [Slot.bits] at hyg; subst hyg
        simp only at h3 h4
        rw [h3, hgp] at hy
        cases huniq _ hy
  · have h1 := hd m hm
    have h2 := hf.vsorted
    rw [List.pairwise_iff_getElem] at h1 h2 ⊢
    intro i j hi' hj hij p fi cs hw c hc
    have hwm : VarField.enum p fi cs ∈ m.vars := by rw [← hw]; exact List.getElem_mem _
    have hcp := hsub p fi cs hwm c hc
    constructor
    · intro q gi hv
      have h3 := h2 i j hi' hj hij
      rw [hv, hw] at h3
      have h4 := enum_alignment_le (p := p) (fi := fi) c hc
      have h5 : (VarField.string q gi).alignment = 1 := rfl
      have := hcp.pos
      omega
    · intro q gi ds hv d hdm
      exact h1 i j hi' hj hij q gi ds p fi cs hv hw d hdm c hc

theorem readTagAt_eq {chk : Bool} {base : Nat} {f : FixedField} {data : Bytes} (h : f.size ∣ base + f.offset) :
    readTagAt base chk f data = readTag chk f data := by
  unfold readTagAt readTag
  cases hk : f.kind with
  | bitfield p o n =>
    simp only
    rw [readRawAt_eq (by simpa [FixedField.size, hk] using h)]
  | _ => rfl

/-- The conditions on the variable size fields that remain, at the offset `o`. -/
structure Ready (base : Nat) (fs : List FixedField) (vs : List VarField) (o : Nat) : Prop where
  fixed : ∀ f ∈ fs, f.size ∣ base + f.offset
  len : ∀ p fi, VarField.string p fi ∈ vs → ∀ f, fs[fi]? = some f → f.kind = .length
  case : ∀ p fi cs, VarField.enum p fi cs ∈ vs → ∀ c ∈ cs, AllSteady c ∧ c.alignment ∣ base ∧ c.alignment ∣ o
  order : vs.Pairwise fun v w => ∀ p fi cs, w = .enum p fi cs → ∀ c ∈ cs,
    (∀ q gi, v = .string q gi → c.alignment = 1) ∧
    (∀ q gi ds, v = .enum q gi ds → ∀ d ∈ ds, SizesBy d c.alignment)

theorem AllSteady.ready {l : Layout} (h : AllSteady l) {base : Nat} (hb : l.alignment ∣ base) :
    Ready base l.fixed l.vars l.varOffset := by
  have hs := h.self
  refine ⟨fun f hf => ?_, hs.len, fun p fi cs hv c hc => ⟨h.sub hv hc, ?_, (hs.case p fi cs hv c hc).1⟩, hs.order⟩
  · obtain ⟨h1, h2⟩ := hs.fixed f hf
    exact Nat.dvd_add (Nat.dvd_trans h2 hb) h1
  · exact Nat.dvd_trans (hs.case p fi cs hv c hc).2 hb

theorem Ready.sub {base : Nat} {fixed : List FixedField} {vs ws : List VarField} {o : Nat} (h : Ready base fixed vs o)
    (hs : ws.Sublist vs) : Ready base fixed ws o :=
  ⟨h.fixed, fun p fi hv => h.len p fi (hs.subset hv), fun p fi cs hv => h.case p fi cs (hs.subset hv),
    h.order.sublist hs⟩

/-- After a field of a size that keeps the alignment. -/
theorem Ready.next {chk : Bool} {base : Nat} {fixed : List FixedField} {v : VarField} {vs : List VarField} {o n o' : Nat}
    (h : Ready base fixed (v :: vs) o)
    (hn : ∀ p fi cs, v = .enum p fi cs → ∃ c ∈ cs, ∀ a, SizesBy c a → a ∣ n) (ho : addW chk o n = .ok o') :
    Ready base fixed vs o' := by
  refine ⟨h.fixed, fun p fi hv => h.len p fi (by simp [hv]), fun p fi cs hv c hc => ?_, (List.pairwise_cons.1 h.order).2⟩
  obtain ⟨h1, h2, h3⟩ := h.case p fi cs (by simp [hv]) c hc
  refine ⟨h1, h2, ?_⟩
  obtain ⟨h4, h5⟩ := (List.pairwise_cons.1 h.order).1 _ hv p fi cs rfl c hc
  cases v with
  | string q gi => rw [h4 q gi rfl]; exact Nat.one_dvd _
  | enum q gi ds =>
    obtain ⟨d, hd, hdn⟩ := hn q gi ds rfl
    exact addW_dvd h1.self.al h3 (hdn _ (h5 q gi ds rfl d hd)) ho

mutual
theorem encodingSizeAt_eq (chk : Bool) : ∀ (l : Layout) (base : Nat) (data : Bytes), AllSteady l →
    l.alignment ∣ base → l.encodingSizeAt chk base data = l.encodingSize chk data
  | .mk al vo idx fixed vars, base, data, h, hb => by
    rw [Layout.encodingSizeAt, Layout.encodingSize, varsEndAt_eq chk vars base fixed data vo (h.ready hb)]
theorem varsEndAt_eq (chk : Bool) : ∀ (vs : List VarField) (base : Nat) (fixed : List FixedField) (data : Bytes)
    (o : Nat), Ready base fixed vs o → varsEndAt chk base fixed data vs o = varsEnd chk fixed data vs o
  | [], _, _, _, _, _ => by rw [varsEndAt, varsEnd]
  | v :: vs, base, fixed, data, o, h => by
    rw [varsEndAt, varsEnd, varEndAt_eq chk v base fixed data o
      (h.sub (by simp : [v].Sublist (v :: vs)))]
    cases hv : varEnd chk fixed data v o with
    | error e => rfl
    | ok o' =>
      rw [Res.bind_ok, Res.bind_ok]
      refine varsEndAt_eq chk vs base fixed data o' ?_
      cases v with
      | string p fi =>
        rw [varEnd] at hv
        obtain ⟨f, _, hv⟩ := Res.bind_eq_ok.1 hv
        obtain ⟨n, _, hv⟩ := Res.bind_eq_ok.1 hv
        exact h.next (fun _ _ _ e => by cases e) hv
      | enum p fi cs =>
        rw [varEnd] at hv
        obtain ⟨f, _, hv⟩ := Res.bind_eq_ok.1 hv
        obtain ⟨tag, _, hv⟩ := Res.bind_eq_ok.1 hv
        obtain ⟨_, _, hv⟩ := Res.bind_eq_ok.1 hv
        obtain ⟨n, hn, hv⟩ := Res.bind_eq_ok.1 hv
        obtain ⟨c, hc, hce⟩ := caseSize_mem hn
        refine h.next (fun q gi ds e => ?_) hv
        cases e
        exact ⟨c, hc, fun a ha => ha.1 _ _ _ hce⟩
theorem varEndAt_eq (chk : Bool) : ∀ (v : VarField) (base : Nat) (fixed : List FixedField) (data : Bytes)
    (o : Nat), Ready base fixed [v] o → varEndAt chk base fixed data v o = varEnd chk fixed data v o
  | .string p fi, base, fixed, data, o, h => by
    rw [varEndAt, varEnd]
    cases hf : getAt fixed fi with
    | error e => rfl
    | ok f =>
      rw [Res.bind_ok, Res.bind_ok]
      have hf' : fixed[fi]? = some f := by
        unfold getAt at hf
        split at hf
        · cases hf; assumption
        · cases hf
      have hk := h.len p fi (by simp) f hf'
      rw [readRawAt_eq (by simpa [FixedField.size, hk] using h.fixed f (List.mem_of_getElem? hf'))]
  | .enum p fi cs, base, fixed, data, o, h => by
    rw [varEndAt, varEnd]
    cases hf : getAt fixed fi with
    | error e => rfl
    | ok f =>
      rw [Res.bind_ok, Res.bind_ok]
      have hf' : fixed[fi]? = some f := by
        unfold getAt at hf
        split at hf
        · cases hf; assumption
        · cases hf
      rw [readTagAt_eq (h.fixed f (List.mem_of_getElem? hf'))]
      simp only [fun tag => caseSizeAt_eq chk cs tag (base + o) (data.drop o) (fun c hc =>
        ⟨(h.case p fi cs (by simp) c hc).1, Nat.dvd_add (h.case p fi cs (by simp) c hc).2.1
          (h.case p fi cs (by simp) c hc).2.2⟩)]
theorem caseSizeAt_eq (chk : Bool) : ∀ (cs : List Layout) (i base : Nat) (data : Bytes),
    (∀ c ∈ cs, AllSteady c ∧ c.alignment ∣ base) → caseSizeAt chk base cs i data = caseSize chk cs i data
  | [], _, _, _, _ => by rw [caseSizeAt, caseSize]
  | c :: cs, 0, base, data, h => by
    rw [caseSizeAt, caseSize]
    exact encodingSizeAt_eq chk c base data (h c (by simp)).1 (h c (by simp)).2
  | c :: cs, i + 1, base, data, h => by
    rw [caseSizeAt, caseSize]
    exact caseSizeAt_eq chk cs i base data (fun d hd => h d (by simp [hd]))
end

theorem variableFieldOffsetAt_eq {chk : Bool} {l : Layout} {base : Nat} (h : AllSteady l) (hb : l.alignment ∣ base)
    (i : Nat) (data : Bytes) : l.variableFieldOffsetAt chk base i data = l.variableFieldOffset chk i data := by
  unfold Layout.variableFieldOffsetAt Layout.variableFieldOffset
  rw [varsEndAt_eq chk _ base l.fixed data _ ((h.ready hb).sub (List.take_sublist _ _))]

theorem writeFixedAt_eq {chk : Bool} {src : DataSource} {base : Nat} {f : FixedField} {buf : Bytes}
    (h : f.size ∣ base + f.offset) : writeFixedAt chk src base f buf = writeFixed chk src f buf := by
  unfold writeFixedAt writeFixed
  cases hk : f.kind with
  | length => simp only; simp only [fun v => writeRawAt_eq (d := buf) (v := v) (show 4 ∣ base + f.offset by simpa [FixedField.size, hk] using h)]
  | prim p => simp only; simp only [fun v => writeRawAt_eq (d := buf) (v := v) (show p.size ∣ base + f.offset by simpa [FixedField.size, hk] using h)]
  | bitfield p o n =>
    have h' : p.size ∣ base + f.offset := by simpa [FixedField.size, hk] using h
    simp only
    simp only [readRawAt_eq h', fun v => writeRawAt_eq (d := buf) (v := v) h']
  | container => rfl

theorem writeFixedsAt_eq {chk : Bool} {src : DataSource} {base : Nat} (fs : List FixedField) (buf : Bytes)
    (h : ∀ f ∈ fs, f.size ∣ base + f.offset) : writeFixedsAt chk src base fs buf = writeFixeds chk src fs buf := by
  induction fs generalizing buf with
  | nil => rfl
  | cons f fs ih =>
    rw [writeFixedsAt, writeFixeds, writeFixedAt_eq (h f (by simp))]
    simp only [fun b => ih b (fun g hg => h g (by simp [hg]))]

theorem sizeWithSource_dvd {chk : Bool} {src : DataSource} {l : Layout} {n : Nat} (hl : SmallPow l.alignment)
    (h : l.sizeWithSource chk src = .ok n) : l.alignment ∣ n := by
  obtain ⟨al, vo, idx, fixed, vars⟩ := l
  rw [Layout.sizeWithSource] at h
  obtain ⟨o, _, h⟩ := Res.bind_eq_ok.1 h
  exact align_dvd hl h

theorem caseSizeWithSource_mem {chk : Bool} {src : DataSource} {cs : List Layout} {i n : Nat}
    (h : caseSizeWithSource chk src cs i = .ok n) : ∃ c ∈ cs, c.sizeWithSource chk src = .ok n := by
  induction cs generalizing i with
  | nil => rw [caseSizeWithSource] at h; cases h
  | cons c cs ih =>
    cases i with
    | zero => rw [caseSizeWithSource] at h; exact ⟨c, by simp, h⟩
    | succ i =>
      rw [caseSizeWithSource] at h
      obtain ⟨d, hd, he⟩ := ih h
      exact ⟨d, by simp [hd], he⟩

mutual
theorem encodeAt_eq (chk : Bool) (src : DataSource) : ∀ (l : Layout) (base : Nat) (buf : Bytes), AllSteady l →
    l.alignment ∣ base → l.encodeAt chk src base buf = l.encode chk src buf
  | .mk al vo idx fixed vars, base, buf, h, hb => by
    rw [Layout.encodeAt, Layout.encode]
    have hr := h.ready hb
    rw [writeFixedsAt_eq fixed buf hr.fixed]
    simp only [fun b => encodeVarsAt_eq chk src vars base fixed b vo hr]
theorem encodeVarsAt_eq (chk : Bool) (src : DataSource) : ∀ (vs : List VarField) (base : Nat)
    (fixed : List FixedField) (buf : Bytes) (o : Nat), Ready base fixed vs o →
    encodeVarsAt chk src base vs buf o = encodeVars chk src vs buf o
  | [], _, _, _, _, _ => by rw [encodeVarsAt, encodeVars]
  | v :: vs, base, fixed, buf, o, h => by
    rw [encodeVarsAt, encodeVars, encodeVarAt_eq chk src v base fixed buf o
      (h.sub (by simp : [v].Sublist (v :: vs)))]
    cases hv : encodeVar chk src v buf o with
    | error e => rfl
    | ok r =>
      obtain ⟨buf', o'⟩ := r
      rw [Res.bind_ok, Res.bind_ok]
      refine encodeVarsAt_eq chk src vs base fixed buf' o' ?_
      cases v with
      | string p fi =>
        rw [encodeVar] at hv
        obtain ⟨n, _, hv⟩ := Res.bind_eq_ok.1 hv
        obtain ⟨_, _, hv⟩ := Res.bind_eq_ok.1 hv
        obtain ⟨o1, ho, hv⟩ := Res.bind_eq_ok.1 hv
        cases hv
        exact h.next (fun _ _ _ e => by cases e) ho
      | enum p fi cs =>
        rw [encodeVar] at hv
        obtain ⟨tag, _, hv⟩ := Res.bind_eq_ok.1 hv
        obtain ⟨_, _, hv⟩ := Res.bind_eq_ok.1 hv
        obtain ⟨⟨sub, _⟩, _, hv⟩ := Res.bind_eq_ok.1 hv
        obtain ⟨n, hn, hv⟩ := Res.bind_eq_ok.1 hv
        obtain ⟨o1, ho, hv⟩ := Res.bind_eq_ok.1 hv
        cases hv
        obtain ⟨c, hc, hce⟩ := caseSizeWithSource_mem hn
        refine h.next (fun q gi ds e => ?_) ho
        cases e
        exact ⟨c, hc, fun a ha => ha.2 _ _ _ hce⟩
theorem encodeVarAt_eq (chk : Bool) (src : DataSource) : ∀ (v : VarField) (base : Nat)
    (fixed : List FixedField) (buf : Bytes) (o : Nat), Ready base fixed [v] o →
    encodeVarAt chk src base v buf o = encodeVar chk src v buf o
  | .string p fi, base, fixed, buf, o, h => by rw [encodeVarAt, encodeVar]
  | .enum p fi cs, base, fixed, buf, o, h => by
    rw [encodeVarAt, encodeVar]
    simp only [fun tag => encodeCaseAt_eq chk src cs tag (base + o) (buf.drop o) (fun c hc =>
        ⟨(h.case p fi cs (by simp) c hc).1, Nat.dvd_add (h.case p fi cs (by simp) c hc).2.1
          (h.case p fi cs (by simp) c hc).2.2⟩)]
theorem encodeCaseAt_eq (chk : Bool) (src : DataSource) : ∀ (cs : List Layout) (i base : Nat) (buf : Bytes),
    (∀ c ∈ cs, AllSteady c ∧ c.alignment ∣ base) →
    encodeCaseAt chk src base cs i buf = encodeCase chk src cs i buf
  | [], _, _, _, _ => by rw [encodeCaseAt, encodeCase]
  | c :: cs, 0, base, buf, h => by
    rw [encodeCaseAt, encodeCase]
    exact encodeAt_eq chk src c base buf (h c (by simp)).1 (h c (by simp)).2
  | c :: cs, i + 1, base, buf, h => by
    rw [encodeCaseAt, encodeCase]
    exact encodeCaseAt_eq chk src cs i base buf (fun d hd => h d (by simp [hd]))
end

/-- The search with addresses does what the search without does, and ends at an aligned address. -/
def Mirrors (x : Res LocatedAt) (y : Res Located) : Prop :=
  match y with
  | .ok w => ∃ b, x = .ok ⟨w, b⟩ ∧ w.layout.alignment ∣ b ∧ AllSteady w.layout
  | .error e => x = .error e

mutual
theorem locateAt_mirrors (chk : Bool) (path : Path) : ∀ (l : Layout) (base : Nat) (data : Bytes), AllSteady l →
    l.alignment ∣ base → Mirrors (l.locateAt chk path base data) (l.locate chk path data)
  | .mk al vo idx fixed vars, base, data, h, hb => by
    rw [Layout.locateAt, Layout.locate]
    cases hs : searchIndex path idx 0 with
    | «at» i =>
      simp only
      cases hg : getAt idx i with
      | error e => rfl
      | ok x => exact ⟨base, rfl, hb, h⟩
    | insertAt i =>
      simp only
      cases hx : idx[i]? with
      | none => rfl
      | some x =>
        simp only
        split
        · cases hg : getAt path x.path.length with
          | error e => rfl
          | ok tag =>
            rw [Res.bind_ok, Res.bind_ok, variableFieldOffsetAt_eq h hb]
            cases ho : (Layout.mk al vo idx fixed vars).variableFieldOffset chk x.varIdx data with
            | error e => rfl
            | ok o =>
              rw [Res.bind_ok, Res.bind_ok]
              cases ha : assert (decide (o ≤ data.length)) with
              | error e => rfl
              | ok u =>
                rw [Res.bind_ok, Res.bind_ok]
                refine locateVarsAt_mirrors chk path vars x.varIdx tag (base + o) (data.drop o) ?_
                intro p fi cs hv c hc
                have hr := h.ready hb
                have hvm : VarField.enum p fi cs ∈ vars := List.mem_of_getElem? hv
                refine ⟨h.sub hvm hc, Nat.dvd_add (hr.case p fi cs hvm c hc).2.1 ?_⟩
                -- the offset after the fields before it
                unfold Layout.variableFieldOffset at ho
                obtain ⟨_, _, ho⟩ := Res.bind_eq_ok.1 ho
                simp only [Layout.vars, Layout.fixed, Layout.varOffset] at ho
                have hj := (List.getElem?_eq_some_iff.1 hv).1
                have hget := (List.getElem?_eq_some_iff.1 hv).2
                have hord := hr.order
                simp only [Layout.vars] at hord
                rw [List.pairwise_iff_getElem] at hord
                have hbefore : ∀ v ∈ vars.take x.varIdx, ∃ (j : Nat) (hj : j < vars.length), j < x.varIdx ∧ vars[j] = v := by
                  intro v hvt
                  obtain ⟨j, hj⟩ := List.getElem?_of_mem hvt
                  rw [List.getElem?_take] at hj
                  split at hj
                  · rename_i hjlt
                    obtain ⟨hj1, hj2⟩ := List.getElem?_eq_some_iff.1 hj
                    exact ⟨j, hj1, hjlt, hj2⟩
                  · cases hj
                refine varsEnd_dvd (h.sub hvm hc).self.al (vars.take x.varIdx) vo o ?_
                  (hr.case p fi cs hvm c hc).2.2 ?_ ho
                · intro v hvt a b hvs
                  obtain ⟨j, hj1, hjlt, hj2⟩ := hbefore v hvt
                  exact (hord j x.varIdx hj1 hj hjlt p fi cs hget c hc).1 a b (by rw [hj2, hvs])
                · intro v hvt a b ds hvd d hd
                  obtain ⟨j, hj1, hjlt, hj2⟩ := hbefore v hvt
                  exact (hord j x.varIdx hj1 hj hjlt p fi cs hget c hc).2 a b ds (by rw [hj2, hvd]) d hd
        · rfl
theorem locateVarsAt_mirrors (chk : Bool) (path : Path) : ∀ (vs : List VarField) (i tag base : Nat) (data : Bytes),
    (∀ p fi cs, vs[i]? = some (.enum p fi cs) → ∀ c ∈ cs, AllSteady c ∧ c.alignment ∣ base) →
    Mirrors (locateVarsAt chk path base vs i tag data) (locateVars chk path vs i tag data)
  | [], _, _, _, _, _ => by rw [locateVarsAt, locateVars]; rfl
  | v :: vs, 0, tag, base, data, h => by
    rw [locateVarsAt, locateVars]
    exact locateVarAt_mirrors chk path v tag base data (fun p fi cs e => h p fi cs (by rw [e]; rfl))
  | v :: vs, i + 1, tag, base, data, h => by
    rw [locateVarsAt, locateVars]
    exact locateVarsAt_mirrors chk path vs i tag base data (fun p fi cs e => h p fi cs (by simpa using e))
theorem locateVarAt_mirrors (chk : Bool) (path : Path) : ∀ (v : VarField) (tag base : Nat) (data : Bytes),
    (∀ p fi cs, v = .enum p fi cs → ∀ c ∈ cs, AllSteady c ∧ c.alignment ∣ base) →
    Mirrors (locateVarAt chk path base v tag data) (locateVar chk path v tag data)
  | .string p fi, _, _, _, _ => by rw [locateVarAt, locateVar]; rfl
  | .enum p fi cs, tag, base, data, h => by
    rw [locateVarAt, locateVar]
    exact locateCaseAt_mirrors chk path cs tag base data (h p fi cs rfl)
theorem locateCaseAt_mirrors (chk : Bool) (path : Path) : ∀ (cs : List Layout) (i base : Nat) (data : Bytes),
    (∀ c ∈ cs, AllSteady c ∧ c.alignment ∣ base) →
    Mirrors (locateCaseAt chk path base cs i data) (locateCase chk path cs i data)
  | [], _, _, _, _ => by rw [locateCaseAt, locateCase]; rfl
  | c :: cs, 0, base, data, h => by
    rw [locateCaseAt, locateCase]
    exact locateAt_mirrors chk path c base data (h c (by simp)).1 (h c (by simp)).2
  | c :: cs, i + 1, base, data, h => by
    rw [locateCaseAt, locateCase]
    exact locateCaseAt_mirrors chk path cs i base data (fun d hd => h d (by simp [hd]))
end

theorem getAt_mem {α : Type} {xs : List α} {i : Nat} {x : α} (h : getAt xs i = .ok x) : x ∈ xs := by
  unfold getAt at h
  split at h
  · cases h; rename_i h; exact List.mem_of_getElem? h
  · cases h

section
variable {chk : Bool} {l : Layout} {base : Nat} (h : AllSteady l) (hb : l.alignment ∣ base)
include h hb

theorem getPrimitiveAt_eq (data : Bytes) (p : Prim) (q : Path) :
    l.getPrimitiveAt chk base data p q = l.getPrimitive chk data p q := by
  unfold Layout.getPrimitiveAt Layout.getPrimitive
  have hm := locateAt_mirrors chk q l base data h hb
  cases hw : l.locate chk q data with
  | error e =>
    rw [hw] at hm
    rw [show l.locateAt chk q base data = _ from hm]; rfl
  | ok w =>
    rw [hw] at hm
    obtain ⟨b, h1, h2, h3⟩ := hm
    rw [h1, Res.bind_ok, Res.bind_ok]
    simp only
    cases hf : getAt w.layout.fixed w.index.fixedIdx with
    | error e => rfl
    | ok f =>
      rw [Res.bind_ok, Res.bind_ok]
      have hff := (h3.ready h2).fixed f (getAt_mem hf)
      cases hk : f.kind with
      | prim k =>
        simp only
        by_cases hkp : k = p
        · subst hkp
          rw [readRawAt_eq (by simpa [FixedField.size, hk] using hff)]
        · rw [show (k == p) = false by simpa using hkp]; rfl
      | _ => rfl

theorem getLengthAt_eq (data : Bytes) (q : Path) : l.getLengthAt chk base data q = l.getLength chk data q := by
  unfold Layout.getLengthAt Layout.getLength
  have hm := locateAt_mirrors chk q l base data h hb
  cases hw : l.locate chk q data with
  | error e =>
    rw [hw] at hm
    rw [show l.locateAt chk q base data = _ from hm]; rfl
  | ok w =>
    rw [hw] at hm
    obtain ⟨b, h1, h2, h3⟩ := hm
    rw [h1, Res.bind_ok, Res.bind_ok]
    simp only
    cases hf : getAt w.layout.fixed w.index.fixedIdx with
    | error e => rfl
    | ok f =>
      rw [Res.bind_ok, Res.bind_ok]
      have hff := (h3.ready h2).fixed f (getAt_mem hf)
      cases hk : f.kind with
      | length => exact readRawAt_eq (by simpa [FixedField.size, hk] using hff)
      | _ => rfl

theorem getCaseTagAt_eq (data : Bytes) (q : Path) : l.getCaseTagAt chk base data q = l.getCaseTag chk data q := by
  unfold Layout.getCaseTagAt Layout.getCaseTag
  have hm := locateAt_mirrors chk q l base data h hb
  cases hw : l.locate chk q data with
  | error e =>
    rw [hw] at hm
    rw [show l.locateAt chk q base data = _ from hm]; rfl
  | ok w =>
    rw [hw] at hm
    obtain ⟨b, h1, h2, h3⟩ := hm
    rw [h1, Res.bind_ok, Res.bind_ok]
    simp only
    cases hf : getAt w.layout.fixed w.index.fixedIdx with
    | error e => rfl
    | ok f =>
      rw [Res.bind_ok, Res.bind_ok]
      exact readTagAt_eq ((h3.ready h2).fixed f (getAt_mem hf))

theorem getBytesAt_eq (data : Bytes) (q : Path) : l.getBytesAt chk base data q = l.getBytes chk data q := by
  unfold Layout.getBytesAt Layout.getBytes
  have hm := locateAt_mirrors chk q l base data h hb
  cases hw : l.locate chk q data with
  | error e =>
    rw [hw] at hm
    rw [show l.locateAt chk q base data = _ from hm]; rfl
  | ok w =>
    rw [hw] at hm
    obtain ⟨b, h1, h2, h3⟩ := hm
    rw [h1, Res.bind_ok, Res.bind_ok]
    simp only
    cases hf : getAt w.layout.fixed w.index.fixedIdx with
    | error e => rfl
    | ok f =>
      rw [Res.bind_ok, Res.bind_ok, variableFieldOffsetAt_eq h3 h2]
      have hff := (h3.ready h2).fixed f (getAt_mem hf)
      cases hk : f.kind with
      | length =>
        simp only
        rw [readRawAt_eq (by simpa [FixedField.size, hk] using hff)]
        rfl
      | _ => rfl

theorem sourceAt_eq (data : Bytes) : l.sourceAt chk base data = l.source chk data := by
  unfold Layout.sourceAt Layout.source
  simp only [getPrimitiveAt_eq h hb, getLengthAt_eq h hb, getCaseTagAt_eq h hb, getBytesAt_eq h hb]

end

/-! ## Types with at most one enum at every place -/

theorem enumsInL_mem {c : Ty} {cs : List Ty} (h : c ∈ cs) : enumsIn c ≤ enumsInL cs := by
  induction cs with
  | nil => cases h
  | cons d cs ih =>
    rw [enumsInL]
    rcases List.mem_cons.1 h with rfl | h
    · omega
    · have := ih h; omega

theorem enumsInF_mem {c : Str × Ty} {cs : List (Str × Ty)} (h : c ∈ cs) : enumsIn c.2 ≤ enumsInF cs := by
  induction cs with
  | nil => cases h
  | cons d cs ih =>
    rw [enumsInF]
    rcases List.mem_cons.1 h with rfl | h
    · rw [show enumsInP c = enumsIn c.2 by obtain ⟨a, b⟩ := c; rw [enumsInP]]; omega
    · have := ih h; omega

theorem calmL_mem {c : Ty} {cs : List Ty} (h : c ∈ cs) (hc : calmL cs = true) : calm c = true := by
  induction cs with
  | nil => cases h
  | cons d cs ih =>
    rw [calmL, Bool.and_eq_true] at hc
    rcases List.mem_cons.1 h with rfl | h
    · exact hc.1
    · exact ih h hc.2

theorem calmP_eq (c : Str × Ty) : calmP c = calm c.2 := by obtain ⟨a, b⟩ := c; rw [calmP]

theorem calmF_mem {c : Str × Ty} {cs : List (Str × Ty)} (h : c ∈ cs) (hc : calmF cs = true) : calm c.2 = true := by
  induction cs with
  | nil => cases h
  | cons d cs ih =>
    rw [calmF, Bool.and_eq_true, calmP_eq] at hc
    rcases List.mem_cons.1 h with rfl | h
    · exact hc.1
    · exact ih h hc.2

theorem calmC_mem {c : Str × Ty} {cs : List (Str × Ty)} (h : c ∈ cs) (hc : calmC cs = true) : LoneEnums c.2 := by
  induction cs with
  | nil => cases h
  | cons d cs ih =>
    rw [calmC, Bool.and_eq_true, Bool.and_eq_true, calmP_eq, decide_eq_true_eq] at hc
    rcases List.mem_cons.1 h with rfl | h
    · exact ⟨hc.1.2, hc.1.1⟩
    · exact ih h hc.2

theorem LoneEnums.child {t c : Ty} {i : Nat} (h : LoneEnums t) (hc : t.child i = .ok c) : LoneEnums c := by
  obtain ⟨h1, h2⟩ := h
  cases t with
  | unit => cases hc
  | prim p => cases hc
  | string => cases hc
  | tuple cs =>
    simp only [Ty.child] at hc
    split at hc
    · rename_i d hd
      cases hc
      have hm := List.mem_of_getElem? hd
      rw [enumsIn] at h1; rw [calm] at h2
      exact ⟨Nat.le_trans (enumsInL_mem hm) h1, calmL_mem hm h2⟩
    · cases hc
  | struct fs =>
    simp only [Ty.child] at hc
    split at hc
    · rename_i d hd
      cases hc
      have hm := List.mem_of_getElem? hd
      rw [enumsIn] at h1; rw [calm] at h2
      exact ⟨Nat.le_trans (enumsInF_mem hm) h1, calmF_mem hm h2⟩
    · cases hc
  | enum cs =>
    simp only [Ty.child] at hc
    split at hc
    · rename_i d hd
      cases hc
      rw [calm] at h2
      exact calmC_mem (List.mem_of_getElem? hd) h2
    · cases hc

theorem LoneEnums.extract {t t' : Ty} {s : Path} (h : LoneEnums t) (hs : t.extract s = .ok t') : LoneEnums t' := by
  induction s generalizing t with
  | nil => cases hs; exact h
  | cons i s ih =>
    rw [Ty.extract] at hs
    obtain ⟨c, hc, hs⟩ := Res.bind_eq_ok.1 hs
    exact ih (LoneEnums.child h hc) hs

def Slot.isEnum : Path × Slot → Bool
  | (_, .enum _) => true
  | _ => false

def VarField.isEnum : VarField → Bool
  | .enum .. => true
  | .string .. => false

mutual
theorem slots_enums : ∀ (t : Ty) (q : Path), ((slots t q).filter Slot.isEnum).length = enumsIn t
  | .unit, q => by simp [slots, enumsIn]
  | .prim p, q => by simp [slots, enumsIn, Slot.isEnum]
  | .string, q => by simp [slots, enumsIn, Slot.isEnum]
  | .tuple cs, q => by rw [slots, enumsIn]; exact slotsL_enums cs q 0
  | .struct fs, q => by rw [slots, enumsIn]; exact slotsF_enums fs q 0
  | .enum cs, q => by rw [slots, enumsIn]; rfl
theorem slotsL_enums : ∀ (cs : List Ty) (q : Path) (i : Nat), ((slotsL cs q i).filter Slot.isEnum).length = enumsInL cs
  | [], q, i => by simp [slotsL, enumsInL]
  | c :: cs, q, i => by rw [slotsL, enumsInL, List.filter_append, List.length_append, slots_enums c, slotsL_enums cs]
theorem slotsF_enums : ∀ (fs : List (Str × Ty)) (q : Path) (i : Nat),
    ((slotsF fs q i).filter Slot.isEnum).length = enumsInF fs
  | [], q, i => by simp [slotsF, enumsInF]
  | f :: fs, q, i => by rw [slotsF, enumsInF, List.filter_append, List.length_append, slotsP_enums f, slotsF_enums fs]
theorem slotsP_enums : ∀ (f : Str × Ty) (q : Path), ((slotsP f q).filter Slot.isEnum).length = enumsInP f
  | (_, t), q => by rw [slotsP, enumsInP]; exact slots_enums t q
end

theorem vars_enums {chk : Bool} (xs : List (Path × Slot)) :
    ((xs.filterMap (Slot.var chk)).filter VarField.isEnum).length = (xs.filter Slot.isEnum).length := by
  induction xs with
  | nil => rfl
  | cons x xs ih =>
    obtain ⟨q, s⟩ := x
    cases s with
    | prim p => exact ih
    | str => exact ih
    | enum cs => exact congrArg (· + 1) ih

theorem filter_reset (vs : List VarField) :
    ((vs.map (·.setFixedIdx 0)).filter VarField.isEnum).length = (vs.filter VarField.isEnum).length := by
  induction vs with
  | nil => rfl
  | cons v vs ih =>
    cases v with
    | string p fi => exact ih
    | enum p fi cs => exact congrArg (· + 1) ih

theorem lone_pairwise {vs : List VarField} (h : (vs.filter VarField.isEnum).length ≤ 1) :
    vs.Pairwise fun v w => ¬ (v.isEnum = true ∧ w.isEnum = true) := by
  induction vs with
  | nil => exact .nil
  | cons v vs ih =>
    refine .cons ?_ (ih ?_)
    · rintro w hw ⟨h1, h2⟩
      rw [List.filter_cons_of_pos h1, List.length_cons] at h
      have : w ∈ vs.filter VarField.isEnum := List.mem_filter.2 ⟨hw, h2⟩
      have := List.length_pos_of_mem this
      omega
    · cases hv : v.isEnum
      · rw [List.filter_cons_of_neg (by simp [hv])] at h; exact h
      · rw [List.filter_cons_of_pos hv, List.length_cons] at h; omega

theorem descending_of_lone {chk : Bool} {t : Ty} (hi : Inhab t) (hn : nodes t < 2 ^ 59) {l : Layout}
    (hl : Layout.new chk t = .ok l) (h : LoneEnums t) : Descending l := by
  intro m hm
  obtain ⟨t', s, h1, h2, h3, h4⟩ := nested_sub hm hi hn hl
  obtain ⟨_, _, l', hl', hf⟩ := unroll_and_layout chk t' h3 (by omega) ([] ++ s)
  rw [h1] at hl'
  cases hl'
  have hc : (m.vars.filter VarField.isEnum).length ≤ 1 := by
    rw [← filter_reset, (hf.vars.filter VarField.isEnum).length_eq, filter_reset, vars_enums, slots_enums]
    exact (LoneEnums.extract h h2).1
  exact (lone_pairwise hc).imp (fun hvw p fi cs q gi ds e1 e2 => absurd ⟨by rw [e1]; rfl, by rw [e2]; rfl⟩ hvw)

end Verif
