import Verif.Proof.SmoothExact
import Verif.Proof.Accepts
import Verif.Props.Slots

/-! # C110, C111: pointers that are followed are aligned -/

namespace Verif.Props

open Spec Nsm Storage

/-! ## C110: pages -/

/-- C110, the part that holds.  When the address of the page is a multiple of four, no call of the functions for pages
follows a pointer that is not aligned, whatever the page contains: with addresses all functions do what they do without.

Full statement: the same for every address, since the functions are safe and take any slice of bytes;
`C110_pages_refuted` shows that it is false, and at which addresses. -/
theorem C110_pages_partial (base : Nat) (h : 4 ∣ base) (chk : Bool) (a : Nat) (page row : Bytes) (i : Nat) :
    initializePageAt base chk a page = initializePage chk a page ∧
    numRowsAt base page = numRows page ∧
    getRowAt base chk a page i = getRow chk a page i ∧
    maxInsertRowSizeAt base chk a page = maxInsertRowSize chk a page ∧
    appendRowAt base chk a page row = appendRow chk a page row ∧
    insertRowAt base chk a page i row = insertRow chk a page i row ∧
    removeRowAt base chk a page i = removeRow chk a page i :=
  ⟨initializePageAt_eq h chk a page, numRowsAt_eq h page, getRowAt_eq h chk a page i, maxInsertRowSizeAt_eq h chk a page,
    appendRowAt_eq h chk a page row, insertRowAt_eq h chk a page i row, removeRowAt_eq h chk a page i⟩

/-- A page of 32 bytes at the address 4100. -/
example : ∃ p q, initializePageAt 4100 true 8 (List.replicate 32 7) = .ok p ∧ appendRowAt 4100 true 8 p [1, 2, 3] = .ok q ∧
    getRowAt 4100 true 8 q 0 = .ok [1, 2, 3] := ⟨_, _, rfl, rfl, rfl⟩

/-- C110, refuted: at every other address every call is undefined behaviour, whatever the page contains, if the page
has the four bytes for the number of rows.  (`initialize_page` first refuses pages of a wrong size.) -/
theorem C110_pages_refuted (base : Nat) (h : ¬ 4 ∣ base) (chk : Bool) (a : Nat) (page row : Bytes) (i : Nat)
    (hp : 4 ≤ page.length) :
    (initializePageAt base chk a page = .error .ub ↔ ∃ page', initializePage chk a page = .ok page') ∧
    numRowsAt base page = .error .ub ∧
    getRowAt base chk a page i = .error .ub ∧
    maxInsertRowSizeAt base chk a page = .error .ub ∧
    appendRowAt base chk a page row = .error .ub ∧
    insertRowAt base chk a page i row = .error .ub ∧
    removeRowAt base chk a page i = .error .ub := by
  have hn := numRowsAt_ub h hp
  have hm := maxInsertRowSizeAt_ub h hp chk a
  refine ⟨initializePageAt_ub h chk a, hn, ?_, hm, ?_, ?_, ?_⟩
  · unfold getRowAt rowOffsetPaddingAt; rw [hn]; rfl
  · unfold appendRowAt; rw [hm]; rfl
  · unfold insertRowAt; rw [hm]; rfl
  · unfold removeRowAt; rw [hn]; rfl

/-- The page of the previous example two bytes further. -/
example : initializePageAt 4102 true 8 (List.replicate 32 7) = .error .ub ∧ ¬ 4 ∣ 4102 := ⟨rfl, by decide⟩

/-! ## C111: encoded values -/

/-- C111, the part that holds.  For a type that can be laid out, when no enum is stored after one with a case whose size
can be no multiple of its alignment, and the bytes are at a multiple of the alignment of the layout,
`encode_with_source`, `encoding_size` and the four readers of the Marshaller follow only aligned pointers, whatever the
source and the bytes are: with addresses they do what they do without.

Full statement: the same for all types and for bytes at all addresses; `C111_order_refuted` and
`C111_address_refuted` show that it is false. -/
theorem C111_marshaller_partial (chk : Bool) (t : Ty) (hi : Inhab t) (hn : nodes t < 2 ^ 59) (l : Layout)
    (hl : Layout.new chk t = .ok l) (hd : Smooth l) (base : Nat) (hb : l.alignment ∣ base) (src : DataSource)
    (data : Bytes) :
    l.encodeAt chk src base data = l.encode chk src data ∧
    l.encodingSizeAt chk base data = l.encodingSize chk data ∧
    (∀ p q, l.getPrimitiveAt chk base data p q = l.getPrimitive chk data p q) ∧
    (∀ q, l.getBytesAt chk base data q = l.getBytes chk data q) ∧
    (∀ q, l.getCaseTagAt chk base data q = l.getCaseTag chk data q) ∧
    (∀ q, l.getLengthAt chk base data q = l.getLength chk data q) ∧
    l.sourceAt chk base data = l.source chk data := by
  have h := allSteady hi hn hl (Smooth.keeps hd (all_pow hi hn hl))
  exact ⟨encodeAt_eq chk src l base data h hb, encodingSizeAt_eq chk l base data h hb, getPrimitiveAt_eq h hb data,
    getBytesAt_eq h hb data, getCaseTagAt_eq h hb data, getLengthAt_eq h hb data, sourceAt_eq h hb data⟩

/-- C111 for a condition on the type alone: no value of the type, and no case of an enum in it, holds two enums. -/
theorem C111_lone (chk : Bool) (t : Ty) (hi : Inhab t) (hn : nodes t < 2 ^ 59) (hd : LoneEnums t) (l : Layout)
    (hl : Layout.new chk t = .ok l) (base : Nat) (hb : l.alignment ∣ base) (src : DataSource) (data : Bytes) :
    l.encodeAt chk src base data = l.encode chk src data ∧
    l.encodingSizeAt chk base data = l.encodingSize chk data ∧
    l.sourceAt chk base data = l.source chk data := by
  obtain ⟨h1, h2, _, _, _, _, h3⟩ :=
    C111_marshaller_partial chk t hi hn l hl (C21_descending chk t hi hn l hl (descending_of_lone hi hn hl hd)) base hb
      src data
  exact ⟨h1, h2, h3⟩

/-- `(u64, str, {u32 | (u8, {() | u16})})` -/
def loneTy : Ty := .tuple [.prim .u64, .string,
  .enum [([], .prim .u32), ([], .tuple [.prim .u8, .enum [([], .unit), ([], .prim .u16)]])]]

example : LoneEnums loneTy ∧ nodes loneTy < 2 ^ 59 ∧ ∃ l, Layout.new true loneTy = .ok l ∧ l.alignment = 8 ∧
    ∀ data, l.getPrimitiveAt true 4104 data .u16 [2, 1, 1, 1] = l.getPrimitive true data .u16 [2, 1, 1, 1] := by
  have hi : Inhab loneTy := by
    refine .tuple (by decide) ?_
    intro c hc
    simp only [List.mem_cons, List.not_mem_nil, or_false] at hc
    rcases hc with rfl | rfl | rfl
    · exact .prim _
    · exact .string
    · refine .enum (by decide) ?_
      intro c hc
      simp only [List.mem_cons, List.not_mem_nil, or_false] at hc
      rcases hc with rfl | rfl
      · exact .prim _
      · refine .tuple (by decide) ?_
        intro c hc
        simp only [List.mem_cons, List.not_mem_nil, or_false] at hc
        rcases hc with rfl | rfl
        · exact .prim _
        · refine .enum (by decide) ?_
          intro c hc
          simp only [List.mem_cons, List.not_mem_nil, or_false] at hc
          rcases hc with rfl | rfl
          · exact .unit
          · exact .prim _
  have hd : LoneEnums loneTy := ⟨by decide, by decide⟩
  have hl : ∃ l, Layout.new true loneTy = .ok l ∧ l.alignment = 8 := ⟨_, rfl, rfl⟩
  obtain ⟨l, hl, ha⟩ := hl
  refine ⟨hd, by decide, l, hl, ha, fun data => ?_⟩
  have h := (C111_lone true loneTy hi (by decide) hd l hl 4104 (by rw [ha]; decide)
    (IntermediateDataSource.new.source) data).2.2
  exact congrArg (fun s => DataSource.prim s .u16 [2, 1, 1, 1]) h

/-- C111 is false for types such as `({u64|u8}, {u64|()})`: at an address that is a multiple of 4096, encoding a value
writes an eight byte integer at an address that is not a multiple of eight, and reading the same value from the
encoded bytes reads it there. -/
theorem C111_order_refuted (chk : Bool) : ∃ (t : Ty) (v : Val) (src : DataSource) (l : Layout) (buf data : Bytes),
    Typed t v ∧ Presents src v [] ∧ Layout.new chk t = .ok l ∧ l.alignment ∣ 4096 ∧
    l.encode chk src buf = .ok (data, 24) ∧ l.encodeAt chk src 4096 buf = .error .ub ∧
    l.getPrimitive chk data .u64 [1, 0] = .ok (6 : BitVec 64) ∧ l.getPrimitiveAt chk 4096 data .u64 [1, 0] = .error .ub := by
  have hl : ∃ l, Layout.new chk crookedTy = .ok l ∧ l.alignment ∣ 4096 ∧
      ∃ data, l.encode chk crookedSrc (List.replicate 24 0) = .ok (data, 24) ∧
        l.encodeAt chk crookedSrc 4096 (List.replicate 24 0) = .error .ub ∧
        l.getPrimitive chk data .u64 [1, 0] = .ok (6 : BitVec 64) ∧
        l.getPrimitiveAt chk 4096 data .u64 [1, 0] = .error .ub := by
    cases chk
    · exact ⟨_, rfl, by decide, _, rfl, rfl, rfl, rfl⟩
    · exact ⟨_, rfl, by decide, _, rfl, rfl, rfl, rfl⟩
  obtain ⟨l, h1, h2, data, h3, h4, h5, h6⟩ := hl
  exact ⟨crookedTy, crookedVal, crookedSrc, l, _, data, crooked_typed, crooked_presents, h1, h2, h3, h4, h5, h6⟩

/-- The condition on the sizes in C111 and C21 is exact: if it does not hold then there is a value of the type for which
`encode_with_source`, given enough room at any multiple of the alignment of the layout, follows a pointer that is not
aligned, where without addresses it succeeds.  (In a build with overflow checks tags need room, C26.) -/
theorem C111_crooked (chk : Bool) (t : Ty) (hi : Inhab t) (hn : nodes t < 2 ^ 24) (l : Layout)
    (hl : Layout.new chk t = .ok l) (hr : chk = true → ∀ m, Nested l m → ∀ f ∈ m.fixed, HasRoom true f)
    (hd : ¬ Smooth l) : ∃ v src n, Typed t v ∧ Presents src v [] ∧ l.sizeWithSource chk src = .ok n ∧
      ∀ base buf, l.alignment ∣ base → n ≤ buf.length →
        (∃ data, l.encode chk src buf = .ok (data, n)) ∧ l.encodeAt chk src base buf = .error .ub := by
  obtain ⟨m, us, vs, ws, q1, q2, f1, f2, cs, ds, c, d, k, hm, hv, hc, hdm, hp, hnd⟩ := not_smooth hd
  obtain ⟨v, h1, h2, h3⟩ := makes_strays chk hm hv hc hdm hp hnd (all_pow hi (by omega) hl) t [] (by omega) hi hl
  have hs : ∀ q bs, (q, Leaf.str bs) ∈ leaves v [] → bs.length < 2 ^ 32 := fun q bs h => by
    have := h2 q bs h; omega
  have hw := weight_small h1 hn hs
  have hpr := valSource_presents v
  have key : ∃ n, l.sizeWithSource chk (valSource v) = .ok n ∧
      ∀ buf : Bytes, n ≤ buf.length → ∃ data, l.encode chk (valSource v) buf = .ok (data, n) := by
    cases chk with
    | false =>
      obtain ⟨n, g1, g2, _⟩ := C26_unchecked_iff t hi (by omega) v h1 hs hw l hl (valSource v) hpr
      exact ⟨n, g1, fun buf hb => (g2 buf hb).imp fun _ h => h.1⟩
    | true =>
      have hroom : TagsHaveRoom true (leaves v []) l := fun m hm f hf => hr rfl m (chosen_nested hm) f hf
      have hfit : Fits true t v :=
        ⟨hi, by omega, fun l' hl' => by rw [hl] at hl'; cases hl'; exact hroom, h1, hs, hw⟩
      obtain ⟨n, g1, _, g2⟩ := C22_size true t v hfit l hl (valSource v) hpr
      exact ⟨n, g1, fun buf hb => (g2 buf hb).imp fun _ h => h.1⟩
  obtain ⟨n, g1, g2⟩ := key
  refine ⟨v, valSource v, n, h1, hpr, g1, fun base buf hb hlen => ⟨g2 buf hlen, ?_⟩⟩
  obtain ⟨data, g3⟩ := g2 buf hlen
  rcases encodeAt_near chk (valSource v) l base buf with h | h
  · exact absurd (h.trans g3) (h3 _ hpr base buf _ hb)
  · exact h

/-- C111 and C21, exactly: the condition on the sizes holds if and only if encoding values of the type at multiples of
the alignment of the layout follows only aligned pointers. -/
theorem C111_exactly (chk : Bool) (t : Ty) (hi : Inhab t) (hn : nodes t < 2 ^ 24) (l : Layout)
    (hl : Layout.new chk t = .ok l) (hr : chk = true → ∀ m, Nested l m → ∀ f ∈ m.fixed, HasRoom true f) :
    Smooth l ↔ ∀ v src base buf, Typed t v → Presents src v [] → l.alignment ∣ base →
      l.encodeAt chk src base buf = l.encode chk src buf := by
  constructor
  · intro h v src base buf _ _ hb
    exact (C111_marshaller_partial chk t hi (by omega) l hl h base hb src buf).1
  · intro h
    refine Classical.byContradiction fun hd => ?_
    obtain ⟨v, src, n, h1, h2, _, h3⟩ := C111_crooked chk t hi hn l hl hr hd
    obtain ⟨⟨data, h4⟩, h5⟩ := h3 0 (List.replicate n 0) (Nat.dvd_zero _) (by simp)
    rw [h v src 0 _ h1 h2 (Nat.dvd_zero _), h4] at h5
    cases h5

/-- The layout of `({u64|u8}, {u64|()})` is not smooth, and its tags have room. -/
example : ∃ l, Layout.new true crookedTy = .ok l ∧ ¬ Smooth l ∧ ∀ m, Nested l m → ∀ f ∈ m.fixed, HasRoom true f := by
  have hl : ∃ l x y u v p1 f1 p2 f2, Layout.new true crookedTy = .ok l ∧
      l.vars = [.enum p1 f1 [x, y], .enum p2 f2 [u, v]] ∧ u.alignment = 8 ∧ y.alignment = 1 ∧ y.varOffset = 1 ∧
      (x.vars = [] ∧ y.vars = [] ∧ u.vars = [] ∧ v.vars = []) ∧
      l.fixed.map (·.kind) = [.bitfield .u8 0 1, .bitfield .u8 1 1] ∧
      (x.fixed.map (·.kind) = [.prim .u64] ∧ y.fixed.map (·.kind) = [.prim .u8] ∧ u.fixed.map (·.kind) = [.prim .u64] ∧
        v.fixed.map (·.kind) = []) :=
    ⟨_, _, _, _, _, _, _, _, _, rfl, rfl, by decide, by decide, by decide, ⟨rfl, rfl, rfl, rfl⟩, rfl, rfl, rfl, rfl, rfl⟩
  obtain ⟨l, x, y, u, v, p1, f1, p2, f2, h1, h2, h3, h4, h5, ⟨h6, h7, h8, h9⟩, k1, k2, k3, k4, k5⟩ := hl
  refine ⟨l, h1, ?_, ?_⟩
  · intro hs
    have := hs l (.self l)
    rw [h2, List.pairwise_cons] at this
    have h := this.1 _ (List.mem_singleton.2 rfl) p1 f1 [x, y] p2 f2 [u, v] rfl rfl y (by simp) 1
      (.mk (s := 0) (by rw [h7]; exact .nil) (by rw [h4]; decide) (by omega) (by omega)) u (by simp)
    rw [h3] at h
    exact absurd h (by decide)
  · intro m hm f hf p o n hk
    have hmk : f.kind ∈ m.fixed.map (·.kind) := List.mem_map_of_mem hf
    rw [hk] at hmk
    cases hm with
    | self =>
      rw [k1] at hmk
      simp at hmk
      rcases hmk with ⟨rfl, rfl, rfl⟩ | ⟨rfl, rfl, rfl⟩ <;> decide
    | case hv hc hm =>
      exfalso
      rw [h2] at hv
      simp at hv
      rcases hv with ⟨_, _, rfl⟩ | ⟨_, _, rfl⟩ <;> simp at hc <;> rcases hc with rfl | rfl
      · rw [nested_fixed hm h6, k2] at hmk; simp at hmk
      · rw [nested_fixed hm h7, k3] at hmk; simp at hmk
      · rw [nested_fixed hm h8, k4] at hmk; simp at hmk
      · rw [nested_fixed hm h9, k5] at hmk; simp at hmk

/-- The layout of `({(u32, u32) | u64}, {u64|()})` is smooth although a case of the first enum has a smaller
alignment than one of the second: two integers of four bytes take eight bytes. -/
example : ∃ l, Layout.new true (.tuple [.enum [([], .tuple [.prim .u32, .prim .u32]), ([], .prim .u64)],
      .enum [([], .prim .u64), ([], .unit)]]) = .ok l ∧ Smooth l ∧ ¬ Descending l := by
  have hl : ∃ l x y u v p1 f1 p2 f2, Layout.new true (.tuple [.enum [([], .tuple [.prim .u32, .prim .u32]),
      ([], .prim .u64)], .enum [([], .prim .u64), ([], .unit)]]) = .ok l ∧
      l.vars = [.enum p1 f1 [x, y], .enum p2 f2 [u, v]] ∧ u.alignment = 8 ∧ v.alignment = 1 ∧
      (x.alignment = 4 ∧ x.varOffset = 8) ∧ (y.alignment = 8) ∧
      (x.vars = [] ∧ y.vars = [] ∧ u.vars = [] ∧ v.vars = []) :=
    ⟨_, _, _, _, _, _, _, _, _, rfl, rfl, by decide, by decide, by decide, by decide, ⟨rfl, rfl, rfl, rfl⟩⟩
  obtain ⟨l, x, y, u, v, p1, f1, p2, f2, h1, h2, h3, h4, ⟨a1, a2⟩, a3, ⟨h6, h7, h8, h9⟩⟩ := hl
  refine ⟨l, h1, ?_, ?_⟩
  · intro m hm
    cases hm with
    | self =>
      rw [h2]
      refine .cons ?_ (.cons (by simp) .nil)
      rintro w hw p fi cs q gi ds e1 e2 c hc n hn d hd
      rw [List.mem_singleton.1 hw] at e2
      cases e1; cases e2
      simp at hc hd
      rcases hc with rfl | rfl
      · have := possible_fixed hn h6
        rw [a1, a2] at this
        rcases hd with rfl | rfl
        · rw [h3]; omega
        · rw [h4]; omega
      · have := (possible_fixed hn h7).1
        rw [a3] at this
        rcases hd with rfl | rfl
        · rw [h3]; omega
        · rw [h4]; omega
    | case hv hc hm =>
      have : m.vars = [] := by
        rw [h2] at hv
        simp at hv
        rcases hv with ⟨_, _, rfl⟩ | ⟨_, _, rfl⟩ <;> simp at hc <;> rcases hc with rfl | rfl
        · rw [nested_fixed hm h6]; exact h6
        · rw [nested_fixed hm h7]; exact h7
        · rw [nested_fixed hm h8]; exact h8
        · rw [nested_fixed hm h9]; exact h9
      rw [this]
      exact .nil
  · intro hd
    have := hd l (.self l)
    rw [h2, List.pairwise_cons] at this
    have h := this.1 _ (List.mem_singleton.2 rfl) p1 f1 [x, y] p2 f2 [u, v] rfl rfl x (by simp) u (by simp)
    omega

/-- C111 is false for bytes at an address that is not a multiple of the alignment, which the types of the arguments
allow: encoding an integer of more than one byte at such an address is undefined behaviour, and so is reading it. -/
theorem C111_address_refuted (chk : Bool) (p : Prim) (src : DataSource) (v : p.Val) (hv : src.prim p [] = .ok v) (base : Nat)
    (hb : ¬ p.size ∣ base) (data : Bytes) (hd : p.size ≤ data.length) :
    ∃ l, Layout.new chk (.prim p) = .ok l ∧ l.alignment = p.size ∧
      (∃ r, l.encode chk src data = .ok r) ∧ l.encodeAt chk src base data = .error .ub ∧
      l.getPrimitiveAt chk base data p [] = .error .ub := by
  have hl : Layout.new chk (.prim p) = .ok (.mk p.size p.size [⟨[], 0, 0⟩] [⟨[], .prim p, 0⟩] []) := by
    cases chk <;> cases p <;> rfl
  have ha : align chk p.size p.size = .ok p.size := by cases chk <;> cases p <;> rfl
  have hub : ∀ {α : Type} (k : Unit → Res α), (atAddress p.size base 0 >>= k) = .error .ub := by
    intro α k
    rw [atAddress_ub (by simpa using hb)]; rfl
  refine ⟨_, hl, rfl, ⟨(splice data 0 (leBytes p.size (p.store v)), p.size), ?_⟩, ?_, ?_⟩
  · rw [Layout.encode, show decide (data.length ≥ p.size) = true by simpa using hd, assert_true, Res.bind_ok, writeFixeds,
      writeFixed]
    simp only [hv, Res.bind_ok]
    unfold writeRaw
    rw [if_neg (by omega), if_neg (by omega)]
    simp only [Res.bind_ok, writeFixeds, encodeVars, ha]
    rfl
  · rw [Layout.encodeAt, show decide (data.length ≥ p.size) = true by simpa using hd, assert_true, Res.bind_ok,
      writeFixedsAt, writeFixedAt]
    simp only [hv, Res.bind_ok]
    unfold writeRawAt
    rw [if_neg (by omega), hub]
    rfl
  · unfold Layout.getPrimitiveAt
    rw [show Layout.locateAt chk [] base (.mk p.size p.size [⟨[], 0, 0⟩] [⟨[], .prim p, 0⟩] []) data =
      .ok ⟨⟨.mk p.size p.size [⟨[], 0, 0⟩] [⟨[], .prim p, 0⟩] [], data, ⟨[], 0, 0⟩⟩, base⟩ from rfl, Res.bind_ok]
    simp only [Layout.fixed]
    rw [show getAt [(⟨[], .prim p, 0⟩ : FixedField)] 0 = .ok ⟨[], .prim p, 0⟩ from rfl, Res.bind_ok]
    simp only [beq_self_eq_true, assert_true, Res.bind_ok]
    unfold readRawAt
    rw [if_neg (by omega), hub]
    rfl

/-- The integer 7 at the address 4098. -/
example : (IntermediateDataSource.new.addPrimitive [] ⟨.u32, (7 : BitVec 32)⟩).source.prim .u32 [] = .ok (7 : BitVec 32) ∧
    ¬ Prim.u32.size ∣ 4098 := ⟨rfl, by decide⟩

/-- The alignment of the page carries over to the bytes of its rows, so that records can be read in place: when the
address of the page is a multiple of the alignment of its rows and that is a multiple of the alignment of the layout,
reading a row through the Marshaller follows only aligned pointers, whatever the page contains. -/
theorem C111_rows_partial (chk : Bool) (t : Ty) (hi : Inhab t) (hn : nodes t < 2 ^ 59) (l : Layout)
    (hl : Layout.new chk t = .ok l) (hd : Smooth l) (k : Nat) (hk : 2 ≤ k) (hk' : k < 64) (hal : l.alignment ∣ 2 ^ k)
    (base : Nat) (hb : 2 ^ k ∣ base) (page row : Bytes) (i : Nat) (hr : getRow chk (2 ^ k) page i = .ok row) :
    getRowAt base chk (2 ^ k) page i = .ok row ∧
    ∃ o, o + row.length ≤ page.length ∧ row = (page.drop o).take row.length ∧
      l.sourceAt chk (base + o) row = l.source chk row := by
  have h4 : 4 ∣ base := Nat.dvd_trans (Nat.pow_dvd_pow 2 hk : 2 ^ 2 ∣ 2 ^ k) hb
  refine ⟨by rw [getRowAt_eq h4]; exact hr, ?_⟩
  obtain ⟨o, h1, h2, h3⟩ := getRow_dvd hk' hr
  exact ⟨o, h2, h3, sourceAt_eq (allSteady hi hn hl (Smooth.keeps hd (all_pow hi hn hl)))
    (Nat.dvd_trans hal (Nat.dvd_add hb h1)) row⟩

/-- The slices of the buffers of a pool are at multiples of every power of two that divides the size of a buffer and the
address of the mapped memory. -/
theorem C111_buffers (chk : Bool) (size mapped index start len k memory : Nat) (hk : k < 64) (hs : 2 ^ k ∣ size)
    (hm : 2 ^ k ∣ memory) (h : bufferSlice chk size mapped index = .ok (start, len)) : 2 ^ k ∣ memory + start := by
  refine Nat.dvd_add hm ?_
  unfold bufferSlice at h
  obtain ⟨s, h1, h2⟩ := Res.bind_eq_ok.1 h
  split at h2
  · cases h2
    have hW : 2 ^ k ∣ W64 := Nat.pow_dvd_pow (n := 64) 2 (by omega)
    have hp : 2 ^ k ∣ size * index := Nat.dvd_trans hs (Nat.dvd_mul_right _ _)
    unfold mulW at h1
    split at h1
    · cases h1; exact hp
    · split at h1
      · cases h1
      · cases h1; exact (Nat.dvd_mod_iff hW).2 hp
  · cases h2

example : bufferSlice true 4096 12288 2 = .ok (8192, 4096) ∧ 2 ^ 12 ∣ 4096 ∧ 2 ^ 12 ∣ 0x7f0000001000 :=
  ⟨by decide, by decide, by decide⟩

end Verif.Props
