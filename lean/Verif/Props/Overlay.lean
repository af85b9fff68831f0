import Verif.Proof.Overlay
import Verif.Props.Marshaller

/-! # Property C121: which bits encoding writes (`src/core/marshaller.rs`) -/

namespace Verif.Props

open Verif Spec

/-! ## C121 -/

/-- The sample is encoded in 24 bytes. -/
theorem rec_size : ∃ l, Layout.new true recTy = .ok l ∧ l.sizeWithSource true recSrc = .ok 24 := by
  obtain ⟨l, hl⟩ := (C18_layout_new true recTy (by decide)).2 rec_inhab
  refine ⟨l, hl, ?_⟩
  have : (Layout.new true recTy >>= fun l => l.sizeWithSource true recSrc) = .ok 24 := by decide
  rwa [hl] at this

/-- C121. For every value there is one list of bits that encoding it sets, the same for all buffers and data
sources: all other bits of the buffer stay as they were, also those inside the encoding. As many bits are set as
the value has; encoding the value again changes nothing. -/
theorem C121_overlay (chk : Bool) (t : Ty) (v : Val) (h : Fits chk t v) (l : Layout)
    (hl : Layout.new chk t = .ok l) : ∃ (size : Nat) (w : Nat → Option Bool),
      (∀ i, 8 * size ≤ i → w i = none) ∧
      (List.range (8 * size)).countP (fun i => (w i).isSome) = valueBits v t ∧
      ∀ src, Presents src v [] → ∀ buf : Bytes, size ≤ buf.length → ∃ buf' : Bytes,
        l.encode chk src buf = .ok (buf', size) ∧ buf'.length = buf.length ∧
        (∀ i, bitAt buf' i = (w i).getD (bitAt buf i)) ∧
        ∀ src', Presents src' v [] → l.encode chk src' buf' = .ok (buf', size) := by
  obtain ⟨size, place, w, hc, ho, hn⟩ := fits_overlaid h hl
  refine ⟨size, w, fun i hi => ?_, hn, fun src hs buf hb => ?_⟩
  · cases hw : w i with
    | none => rfl
    | some b => have := ho.dom i (by rw [hw]; rfl); omega
  · obtain ⟨b, h1, h2, _, h4⟩ := hc.enc buf hb
    refine ⟨b, h1 src hs, h2, fun i => ?_, fun src' hs' => ?_⟩
    · rw [bitAt_eq, bitAt_eq]
      exact ho.enc src buf _ hs hb (h1 src hs) i
    · exact (ho.fixed hc (by omega) ((h4 b (by omega) fun _ _ => rfl).1.1 lucky_nil).2 hs').1

/-- The sample has 114 bits: 16 for the number, 32 and 16 for the string, two for the tag, and 32, 8 and 8 for the
case. -/
example : ∃ (size : Nat) (w : Nat → Option Bool),
    (List.range (8 * size)).countP (fun i => (w i).isSome) = 114 ∧
    ∃ l, Layout.new true recTy = .ok l ∧ ∀ buf : Bytes, size ≤ buf.length → ∃ buf',
      l.encode true recSrc buf = .ok (buf', size) ∧ ∀ i, bitAt buf' i = (w i).getD (bitAt buf i) := by
  obtain ⟨l, hl, _⟩ := rec_size
  obtain ⟨size, w, _, h2, h3⟩ := C121_overlay true recTy recVal (rec_fits true) l hl
  refine ⟨size, w, h2, l, hl, fun buf hb => ?_⟩
  obtain ⟨b, e1, _, e3, _⟩ := h3 recSrc rec_presents buf hb
  exact ⟨b, e1, e3⟩

/-- C121. Encoding the value into a buffer of zeros and into one of ones gives bytes that differ in as many bits
as the encoding has more than the value. -/
theorem C121_leftover (chk : Bool) (t : Ty) (v : Val) (h : Fits chk t v) (l : Layout)
    (hl : Layout.new chk t = .ok l) (src : DataSource) (hs : Presents src v []) (size : Nat)
    (hsize : l.sizeWithSource chk src = .ok size) (n : Nat) (hn : size ≤ n) : ∃ a b : Bytes,
      l.encode chk src (List.replicate n 0) = .ok (a, size) ∧
      l.encode chk src (List.replicate n 255) = .ok (b, size) ∧
      valueBits v t + differing a b (8 * size) = 8 * size := by
  obtain ⟨size', place, w, hc, ho, hcount⟩ := fits_overlaid h hl
  have := hc.szs src hs
  rw [hsize] at this
  cases this
  obtain ⟨a, ha, _⟩ := hc.enc (List.replicate n 0) (by simpa using hn)
  obtain ⟨b, hb, _⟩ := hc.enc (List.replicate n 255) (by simpa using hn)
  have ha := ha src hs
  have hb := hb src hs
  have ea := ho.enc src _ _ hs (by simpa using hn) ha
  have eb := ho.enc src _ _ hs (by simpa using hn) hb
  refine ⟨a, b, ha, hb, ?_⟩
  rw [← hcount]
  have zero : ∀ i, bit (List.replicate n 0) i = false := by
    intro i
    rw [bit_eq, List.getElem?_replicate]
    split <;> simp
  have one : ∀ i, i < 8 * n → bit (List.replicate n 255) i = true := by
    intro i hi
    rw [bit_eq, List.getElem?_replicate, if_pos (by omega)]
    have : ∀ k, k < 8 → (255 : UInt8).toNat.testBit k = true := by decide
    exact this _ (Nat.mod_lt _ (by decide))
  have gen : ∀ m, m ≤ 8 * n → countW w m + differing a b m = m := by
    intro m
    induction m with
    | zero => intro _; rfl
    | succ m ih =>
      intro hm
      have ih := ih (by omega)
      have hd : differing a b (m + 1) = differing a b m + if bitAt a m != bitAt b m then 1 else 0 := by
        simp [differing, List.range_succ, List.countP_append, List.countP_cons]
      rw [countW_succ, hd, bitAt_eq, bitAt_eq, ea, eb, zero, one m (by omega)]
      cases w m <;> simp <;> omega
  exact gen _ (by omega)

/-- 78 of the 192 bits of the sample keep what was in the buffer. -/
example : ∃ l a b, Layout.new true recTy = .ok l ∧ l.encode true recSrc (List.replicate 24 0) = .ok (a, 24) ∧
    l.encode true recSrc (List.replicate 24 255) = .ok (b, 24) ∧ differing a b 192 = 78 := by
  obtain ⟨l, hl, hsize⟩ := rec_size
  obtain ⟨a, b, h1, h2, h3⟩ :=
    C121_leftover true recTy recVal (rec_fits true) l hl recSrc rec_presents 24 hsize 24 (by decide)
  have : valueBits recVal recTy = 114 := by decide
  have h3 : valueBits recVal recTy + differing a b 192 = 192 := h3
  exact ⟨l, a, b, hl, h1, h2, by omega⟩

/-- C121. Readers see the value in exactly the bytes that encoding the value does not change. -/
theorem C121_exactly (chk : Bool) (t : Ty) (v : Val) (h : Fits chk t v) (l : Layout)
    (hl : Layout.new chk t = .ok l) (src : DataSource) (hs : Presents src v []) (size : Nat)
    (hsize : l.sizeWithSource chk src = .ok size) (data : Bytes) (hd : size ≤ data.length) :
    Presents (l.source chk data) v [] ↔ l.encode chk src data = .ok (data, size) := by
  obtain ⟨size', place, w, hc, ho, hcount⟩ := fits_overlaid h hl
  have := hc.szs src hs
  rw [hsize] at this
  cases this
  constructor
  · exact fun hp => (ho.fixed hc hd hp hs).1
  · intro he
    obtain ⟨b, h1, _, _, h4⟩ := hc.enc data hd
    have h1 := h1 src hs
    rw [he] at h1
    cases h1
    exact ((h4 data hd fun _ _ => rfl).1.1 lucky_nil).2

/-- Bytes of zeros do not show the sample, and encoding it would change them. -/
example : ∃ l, Layout.new true recTy = .ok l ∧ ¬ Presents (l.source true (List.replicate 24 0)) recVal [] ∧
    l.encode true recSrc (List.replicate 24 0) ≠ .ok (List.replicate 24 0, 24) := by
  obtain ⟨l, hl, hsize⟩ := rec_size
  have hex := C121_exactly true recTy recVal (rec_fits true) l hl recSrc rec_presents 24 hsize
    (List.replicate 24 0) (by decide)
  have hne : l.encode true recSrc (List.replicate 24 0) ≠ .ok (List.replicate 24 0, 24) := by
    have : (Layout.new true recTy >>= fun l => l.encode true recSrc (List.replicate 24 0)) ≠
      .ok (List.replicate 24 0, 24) := by decide
    rwa [hl] at this
  exact ⟨l, hl, fun h => hne (hex.1 h), hne⟩

/-- C121. The encoding of a value does not depend on what was in the buffer if and only if the value has as many
bits as its encoding. -/
theorem C121_canonical_partial (chk : Bool) (t : Ty) (v : Val) (h : Fits chk t v) (l : Layout)
    (hl : Layout.new chk t = .ok l) (src : DataSource) (hs : Presents src v []) (size : Nat)
    (hsize : l.sizeWithSource chk src = .ok size) :
    (∀ buf buf' a a' : Bytes, buf.length = size → buf'.length = size →
      l.encode chk src buf = .ok (a, size) → l.encode chk src buf' = .ok (a', size) → a = a') ↔
    valueBits v t = 8 * size := by
  constructor
  · intro hall
    obtain ⟨a, b, h1, h2, h3⟩ := C121_leftover chk t v h l hl src hs size hsize size (Nat.le_refl _)
    have := hall _ _ a b (by simp) (by simp) h1 h2
    subst this
    have : differing a a (8 * size) = 0 := by simp [differing]
    omega
  · intro heq buf buf' a a' hb hb' ha ha'
    obtain ⟨size', place, w, hc, ho, hcount⟩ := fits_overlaid h hl
    have := hc.szs src hs
    rw [hsize] at this
    cases this
    rw [heq] at hcount
    have hsome : ∀ i, i < 8 * size → (w i).isSome := by
      have h1 : (List.range (8 * size)).countP (fun i => (w i).isSome) = (List.range (8 * size)).length := by
        rw [List.length_range]; exact hcount
      rw [List.countP_eq_length] at h1
      exact fun i hi => h1 i (List.mem_range.2 hi)
    have l1 := hc.len src buf _ hs ha
    have l2 := hc.len src buf' _ hs ha'
    simp only at l1 l2
    refine bytes_ext (by omega) fun i => ?_
    by_cases hi : i < 8 * size
    · obtain ⟨x, hx⟩ := Option.isSome_iff_exists.1 (hsome i hi)
      have e1 := ho.enc src buf _ hs (by omega) ha i
      have e2 := ho.enc src buf' _ hs (by omega) ha' i
      rw [hx] at e1 e2
      simp only [Option.getD_some] at e1 e2
      rw [e1, e2]
    · rw [bit_ge (by omega), bit_ge (by omega)]

/-- A pair of numbers of 16 bits. -/
def pairTy : Ty := .tuple [.prim .u16, .prim .u16]

def pairVal : Val := .seq [.prim ⟨.u16, (7 : BitVec 16)⟩, .prim ⟨.u16, (515 : BitVec 16)⟩]

def pairSrc : DataSource :=
  ((IntermediateDataSource.new.addPrimitive [0] ⟨.u16, (7 : BitVec 16)⟩).addPrimitive [1]
    ⟨.u16, (515 : BitVec 16)⟩).source

theorem pair_fits (chk : Bool) : Fits chk pairTy pairVal where
  inhab := by
    refine .tuple (by simp) ?_
    simp only [List.forall_mem_cons, List.not_mem_nil, false_imp_iff, implies_true, and_true]
    exact ⟨.prim _, .prim _⟩
  nodes := by decide
  tags := by
    refine tagFits_room (t := pairTy) ?_ (by decide) ?_ _
    · refine .tuple (by simp) ?_
      simp only [List.forall_mem_cons, List.not_mem_nil, false_imp_iff, implies_true, and_true]
      exact ⟨.prim _, .prim _⟩
    · refine .tuple ?_
      simp only [List.forall_mem_cons, List.not_mem_nil, false_imp_iff, implies_true, and_true]
      exact ⟨.prim _, .prim _⟩
  typed := by
    refine .tuple rfl ?_
    intro i c v hc hv
    match i, hc, hv with
    | 0, hc, hv => cases hc; cases hv; exact .prim ⟨.u16, (7 : BitVec 16)⟩
    | 1, hc, hv => cases hc; cases hv; exact .prim ⟨.u16, (515 : BitVec 16)⟩
  strings := by
    intro q bs h
    simp [pairVal, leaves, leavesFrom] at h
  total := by decide

theorem pair_presents : Presents pairSrc pairVal [] := by
  intro q l h
  simp only [pairVal, leaves, leavesFrom, List.nil_append, List.cons_append, List.append_nil, List.mem_cons,
    List.not_mem_nil, or_false, Prod.mk.injEq] at h
  rcases h with ⟨rfl, rfl⟩ | ⟨rfl, rfl⟩
  · exact show pairSrc.prim .u16 [0] = .ok (7 : BitVec 16) from rfl
  · exact show pairSrc.prim .u16 [1] = .ok (515 : BitVec 16) from rfl

/-- Its encoding leaves nothing of the buffer. -/
example : ∃ l, Layout.new true pairTy = .ok l ∧ ∀ buf buf' a a' : Bytes, buf.length = 4 → buf'.length = 4 →
    l.encode true pairSrc buf = .ok (a, 4) → l.encode true pairSrc buf' = .ok (a', 4) → a = a' := by
  obtain ⟨l, hl⟩ := (C18_layout_new true pairTy (by decide)).2 (pair_fits true).inhab
  refine ⟨l, hl, (C121_canonical_partial true pairTy pairVal (pair_fits true) l hl pairSrc pair_presents 4 ?_).2
    (by decide)⟩
  have : (Layout.new true pairTy >>= fun l => l.sizeWithSource true pairSrc) = .ok 4 := by decide
  rwa [hl] at this

/-- C121. That the same value always has the same encoding is false: the two bits of the tag are written to a
byte whose other bits stay as they were, and so do the bytes at the end. -/
theorem C121_canonical_refuted : ¬ ∀ (chk : Bool) (t : Ty) (v : Val) (l : Layout) (src : DataSource) (size : Nat)
    (buf buf' a a' : Bytes), Fits chk t v → Layout.new chk t = .ok l → Presents src v [] →
    buf.length = size → buf'.length = size →
    l.encode chk src buf = .ok (a, size) → l.encode chk src buf' = .ok (a', size) → a = a' := by
  intro hall
  obtain ⟨l, hl, hsize⟩ := rec_size
  have := (C121_canonical_partial true recTy recVal (rec_fits true) l hl recSrc rec_presents 24 hsize).1
    fun buf buf' a a' hb hb' ha ha' =>
      hall true recTy recVal l recSrc 24 buf buf' a a' (rec_fits true) hl rec_presents hb hb' ha ha'
  exact absurd this (by decide)

end Verif.Props
