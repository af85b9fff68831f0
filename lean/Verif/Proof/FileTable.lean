import Verif.Model.FileTable
import Verif.Spec.FileTable
import Verif.Spec.Volume
import Verif.Proof.Volume
import Verif.Proof.Bits

/-! # File headers, the mirror of the file table and the bytes of the bitmap -/

namespace Verif.Storage

open Spec

/-! ## Reading numbers -/

theorem byteIs_iff {r : Bytes} {o v : Nat} : ByteIs r o v ↔ o < r.length ∧ v = leVal (slice r o 1) := by
  unfold ByteIs
  by_cases h : o < r.length
  · have hs : slice r o 1 = [r[o]] := by
      unfold slice
      rw [List.drop_eq_getElem_cons h]
      rfl
    rw [hs, List.getElem?_eq_getElem h]
    simp only [leVal, Option.some.injEq, Nat.mul_zero, Nat.add_zero]
    constructor
    · rintro ⟨b, rfl, rfl⟩; exact ⟨h, rfl⟩
    · rintro ⟨_, rfl⟩; exact ⟨_, rfl, rfl⟩
  · rw [List.getElem?_eq_none (by omega)]
    constructor
    · rintro ⟨b, hb, _⟩; cases hb
    · rintro ⟨h', _⟩; exact absurd h' h

theorem slice_add (r : Bytes) (o m n : Nat) : slice r o (m + n) = slice r o m ++ slice r (o + m) n := by
  unfold slice
  rw [List.take_add, List.drop_drop]

theorem leVal_append (a b : Bytes) : leVal (a ++ b) = leVal a + 256 ^ a.length * leVal b := by
  induction a with
  | nil => simp [leVal]
  | cons x a ih =>
    simp only [List.cons_append, leVal, ih, List.length_cons, Nat.pow_succ]
    rw [Nat.mul_add, Nat.mul_comm (256 ^ a.length) 256, Nat.mul_assoc]
    omega

theorem wordIs_iff {r : Bytes} {o v : Nat} : WordIs r o v ↔ o + 2 ≤ r.length ∧ v = leVal (slice r o 2) := by
  unfold WordIs
  simp only [byteIs_iff]
  constructor
  · rintro ⟨a, b, ⟨_, rfl⟩, ⟨h, rfl⟩, rfl⟩
    refine ⟨by omega, ?_⟩
    rw [slice_add r o 1 1, leVal_append, slice_length _ _ _ (by omega)]
  · rintro ⟨h, rfl⟩
    refine ⟨_, _, ⟨by omega, rfl⟩, ⟨by omega, rfl⟩, ?_⟩
    rw [slice_add r o 1 1, leVal_append, slice_length _ _ _ (by omega)]

theorem quadIs_iff {r : Bytes} {o v : Nat} : QuadIs r o v ↔ o + 4 ≤ r.length ∧ v = leVal (slice r o 4) := by
  unfold QuadIs
  simp only [wordIs_iff]
  constructor
  · rintro ⟨a, b, ⟨_, rfl⟩, ⟨h, rfl⟩, rfl⟩
    refine ⟨by omega, ?_⟩
    rw [slice_add r o 2 2, leVal_append, slice_length _ _ _ (by omega)]
  · rintro ⟨h, rfl⟩
    refine ⟨_, _, ⟨by omega, rfl⟩, ⟨by omega, rfl⟩, ?_⟩
    rw [slice_add r o 2 2, leVal_append, slice_length _ _ _ (by omega)]

/-! ## The attributes -/

theorem alignN_two {chk : Bool} {o : Nat} (h : o < 2 ^ 63) : alignN chk 64 o 2 = .ok (upTo 2 o) := by
  rw [show (2 : Nat) = 2 ^ 1 from rfl, alignN_ok (by omega) (by omega)]
  rfl

theorem alignN_four {chk : Bool} {o : Nat} (h : o < 2 ^ 63) : alignN chk 64 o 4 = .ok (upTo 4 o) := by
  rw [show (4 : Nat) = 2 ^ 2 from rfl, alignN_ok (by omega) (by omega)]
  rfl

theorem store_ok {b : Bytes} {o a : Nat} {bs : Bytes} (h : o + bs.length ≤ b.length) (ha : o % a = 0) :
    store b o a bs = .ok (splice b o bs) := by
  unfold store
  rw [if_pos (by simp [h, ha])]
  rfl

theorem store_bad {b : Bytes} {o a : Nat} {bs : Bytes} (h : ¬ (o + bs.length ≤ b.length ∧ o % a = 0)) :
    store b o a bs = .error .ub := by
  unfold store
  rw [if_neg (by simpa using h)]

theorem store_eq_ok {b : Bytes} {o a : Nat} {bs b' : Bytes} (h : store b o a bs = .ok b') :
    o + bs.length ≤ b.length ∧ o % a = 0 ∧ b' = splice b o bs := by
  by_cases hc : o + bs.length ≤ b.length ∧ o % a = 0
  · rw [store_ok hc.1 hc.2] at h
    injection h with h
    exact ⟨hc.1, hc.2, h.symm⟩
  · rw [store_bad hc] at h
    cases h

/-- What the name attribute leaves behind. -/
theorem writeName_ok {b name : Bytes} {o : Nat} {out : Bytes × Nat} :
    writeName b name o = .ok out ↔
      b.length = o + 3 + name.length ∧ name.length ≤ 255 ∧ o % 2 = 0 ∧
      out = (splice (splice (splice b o (leBytes 2 1)) (o + 2) (leBytes 1 name.length)) (o + 3) name,
        b.length) := by
  unfold writeName
  constructor
  · intro h
    rw [Res.bind_eq_ok] at h
    obtain ⟨_, h0, h⟩ := h
    rw [Res.bind_eq_ok] at h
    obtain ⟨b1, h1, h⟩ := h
    rw [Res.bind_eq_ok] at h
    obtain ⟨_, h2, h⟩ := h
    rw [Res.bind_eq_ok] at h
    obtain ⟨b2, h3, h⟩ := h
    rw [Res.bind_eq_ok] at h
    obtain ⟨_, h4, h⟩ := h
    rw [Res.bind_eq_ok] at h
    obtain ⟨t, h5, h⟩ := h
    rw [Res.pure_eq] at h
    injection h with h
    obtain ⟨e1, e2, rfl⟩ := store_eq_ok h1
    obtain ⟨e3, _, rfl⟩ := store_eq_ok h3
    rw [assert_ok, decide_eq_true_iff] at h2 h4
    unfold copyFromSlice at h5
    rw [Res.bind_eq_ok] at h5
    obtain ⟨_, h6, h5⟩ := h5
    rw [assert_ok, beq_iff_eq] at h6
    rw [Res.pure_eq] at h5
    injection h5 with h5
    subst h5
    rw [leBytes_length] at e1
    rw [splice_length _ _ _ (by rw [leBytes_length]; exact e1), leBytes_length] at e3
    rw [splice_length _ _ _ (by rw [leBytes_length, splice_length _ _ _ (by rw [leBytes_length]; exact e1)]; exact e3),
      splice_length _ _ _ (by rw [leBytes_length]; exact e1)] at h4
    rw [List.length_drop, splice_length _ _ _
        (by rw [leBytes_length, splice_length _ _ _ (by rw [leBytes_length]; exact e1)]; exact e3),
      splice_length _ _ _ (by rw [leBytes_length]; exact e1)] at h6
    have hl : b.length = o + 3 + name.length := by omega
    exact ⟨hl, h2, e2, by rw [← h, hl]⟩
  · rintro ⟨hl, hn, he, rfl⟩
    have l1 : (splice b o (leBytes 2 1)).length = b.length := splice_length _ _ _ (by rw [leBytes_length]; omega)
    have l2 : (splice (splice b o (leBytes 2 1)) (o + 2) (leBytes 1 name.length)).length = b.length := by
      rw [splice_length _ _ _ (by rw [leBytes_length]; omega), l1]
    rw [assert_ok (u := ()) |>.2 (by simp; omega)]
    simp only [Res.bind_ok]
    rw [store_ok (by rw [leBytes_length]; omega) he]
    simp only [Res.bind_ok]
    rw [assert_ok (u := ()) |>.2 (by simpa using hn)]
    simp only [Res.bind_ok]
    rw [store_ok (by rw [leBytes_length]; omega) (by omega)]
    simp only [Res.bind_ok]
    rw [assert_ok (u := ()) |>.2 (by simp [l2]; omega)]
    simp only [Res.bind_ok]
    unfold copyFromSlice
    rw [assert_ok (u := ()) |>.2 (by simp [l2]; omega)]
    simp only [Res.bind_ok, Res.pure_eq]
    rw [hl]

/-- The outcome of writing the list of extents, for slices of possible sizes. -/
theorem writeExtents_some {chk : Bool} {b : Bytes} {o size : Nat} {e : Extent} (ho : o < 2 ^ 62) :
    writeExtents chk b o size (some e) =
      if b.length ≤ upTo 2 o then .error .panic
      else if upTo 2 o % 4 = 0 ∧ upTo 2 o + upTo 4 (upTo 2 o + 4) + 8 ≤ b.length then
        .ok (splice (splice (splice b (upTo 2 o) (leBytes 2 0x10)) (upTo 2 o + 2) (leBytes 2 1))
          (upTo 2 o + upTo 4 (upTo 2 o + 4)) e.bytes, upTo 4 (upTo 2 o + 4) + 8)
      else .error .ub := by
  unfold writeExtents
  rw [alignN_two (by omega)]
  simp only [Res.bind_ok]
  have hq : upTo 2 o ≤ o + 1 ∧ upTo 2 o % 2 = 0 := by unfold upTo; omega
  generalize upTo 2 o = q at hq ⊢
  have hr : upTo 4 (q + 4) % 4 = 0 ∧ q + 4 ≤ upTo 4 (q + 4) := by unfold upTo; omega
  by_cases h0 : b.length ≤ q
  · rw [if_pos h0]
    have : assert (decide (q < b.length)) = .error .panic := by
      unfold assert
      rw [if_neg (by simp; omega)]
    rw [this]
    rfl
  · rw [if_neg h0, assert_ok (u := ()) |>.2 (by simp; omega)]
    simp only [Res.bind_ok]
    by_cases h1 : q + 2 ≤ b.length
    · have l1 : (splice b q (leBytes 2 0x10)).length = b.length := splice_length _ _ _ (by rw [leBytes_length]; omega)
      rw [store_ok (by rw [leBytes_length]; omega) hq.2]
      simp only [Res.bind_ok]
      by_cases h2 : q + 4 ≤ b.length
      · have l2 : (splice (splice b q (leBytes 2 0x10)) (q + 2) (leBytes 2 1)).length = b.length := by
          rw [splice_length _ _ _ (by rw [leBytes_length]; omega), l1]
        rw [store_ok (by rw [leBytes_length]; omega) (by omega)]
        simp only [Res.bind_ok]
        rw [alignN_four (by omega)]
        simp only [Res.bind_ok]
        have lb : e.bytes.length = 8 := by simp [Extent.bytes]
        by_cases h3 : q % 4 = 0 ∧ q + upTo 4 (q + 4) + 8 ≤ b.length
        · rw [if_pos h3, store_ok (by rw [lb]; omega) (by omega)]
          rfl
        · rw [if_neg h3, store_bad (by rw [lb]; omega)]
          rfl
      · rw [store_bad (by rw [leBytes_length]; omega), if_neg (by omega)]
        rfl
    · rw [store_bad (by rw [leBytes_length]; omega), if_neg (by omega)]
      rfl

theorem writeEnd_ok {chk : Bool} {b : Bytes} {o : Nat} (ho : o < 2 ^ 63) :
    writeEnd chk b o =
      if b.length ≤ upTo 2 o then .error .panic
      else if b.length = upTo 2 o + 1 then .error .ub
      else .ok (splice b (upTo 2 o) (leBytes 2 0)) := by
  unfold writeEnd
  rw [alignN_two ho]
  simp only [Res.bind_ok]
  have hq : upTo 2 o % 2 = 0 := by unfold upTo; omega
  generalize upTo 2 o = q at hq ⊢
  by_cases h0 : b.length ≤ q
  · rw [if_pos h0]
    have : assert (decide (q < b.length)) = .error .panic := by
      unfold assert
      rw [if_neg (by simp; omega)]
    rw [this]
    rfl
  · rw [if_neg h0, assert_ok (u := ()) |>.2 (by simp; omega)]
    simp only [Res.bind_ok]
    split
    · rw [store_bad (by rw [leBytes_length]; omega)]
    · rw [store_ok (by rw [leBytes_length]; omega) hq]

/-! ## The mirror -/

theorem mirrorLoop_ok {chk : Bool} {v : Nat} {r : Regions} (hv : v < 256) (hb : 0 < r.blockSize) (n : Nat) :
    ∀ (k : Nat) (blocks : Blocks), r.tableOffset + (k + n) * r.blockSize ≤ r.mirrorOffset →
      r.mirrorOffset + (k + n) * r.blockSize ≤ 2 ^ 56 →
      (∀ l l', (blocks l).length = (blocks l').length) →
      ∃ out, mirrorLoop chk v r k n blocks = .ok out ∧
        (∀ j, k ≤ j → j < k + n → out (v * 2 ^ 56 + (r.mirrorOffset + j * r.blockSize))
          = blocks (v * 2 ^ 56 + (r.tableOffset + j * r.blockSize))) ∧
        ∀ l, (∀ j, k ≤ j → j < k + n → l ≠ v * 2 ^ 56 + (r.mirrorOffset + j * r.blockSize)) → out l = blocks l := by
  induction n with
  | zero =>
    intro k blocks _ _ _
    exact ⟨blocks, rfl, fun j h1 h2 => by omega, fun _ _ => rfl⟩
  | succ n ih =>
    intro k blocks ht hm hl
    have e1 : (k + (n + 1)) * r.blockSize = (k + 1 + n) * r.blockSize := by congr 1; omega
    have e2 : (k + 1 + n) * r.blockSize = k * r.blockSize + r.blockSize + n * r.blockSize := by
      rw [Nat.add_mul, Nat.add_mul, Nat.one_mul]
    rw [e1] at ht hm
    unfold mirrorLoop
    rw [mulW_ok (by omega)]
    simp only [Res.bind_ok]
    rw [addW_ok (by omega)]
    simp only [Res.bind_ok]
    rw [Location.new_ok hv (by omega)]
    simp only [Res.bind_ok]
    rw [addW_ok (by omega)]
    simp only [Res.bind_ok]
    rw [Location.new_ok hv (by omega)]
    simp only [Res.bind_ok]
    generalize hd : v * 2 ^ 56 + (r.mirrorOffset + k * r.blockSize) = dest
    generalize hsrc : v * 2 ^ 56 + (r.tableOffset + k * r.blockSize) = source
    have hcopy : copyFromSlice (blocks dest) (blocks source) = .ok (blocks source) := by
      unfold copyFromSlice
      rw [assert_ok (u := ()) |>.2 (by rw [hl dest source]; simp)]
      rfl
    rw [hcopy]
    simp only [Res.bind_ok]
    obtain ⟨out, o1, o2, o3⟩ := ih (k + 1) (fun l => if l = dest then blocks source else blocks l) ht hm (by
      intro l l'
      split <;> split <;> apply hl)
    have mul_le : ∀ a c : Nat, a < c → a * r.blockSize + r.blockSize ≤ c * r.blockSize := by
      intro a c h
      calc a * r.blockSize + r.blockSize = (a + 1) * r.blockSize := by rw [Nat.add_mul, Nat.one_mul]
        _ ≤ c * r.blockSize := Nat.mul_le_mul_right _ h
    refine ⟨out, o1, ?_, ?_⟩
    · intro j h1 h2
      by_cases hj : j = k
      · subst hj
        rw [hd, o3 dest, if_pos rfl, hsrc]
        intro i hi _ heq
        have := mul_le j i hi
        omega
      · rw [o2 j (by omega) (by omega), if_neg]
        intro heq
        have := mul_le j (k + 1 + n) (by omega)
        omega
    · intro l h
      rw [o3 l fun j h1 h2 => h j (by omega) (by omega), if_neg]
      rw [← hd]
      exact h k (Nat.le_refl _) (by omega)

/-! ## The bytes of the bitmap -/

/-- The bytes of words. -/
def wordBytes (ws : List Nat) : Bytes := ws.flatMap (leBytes 16)

theorem wordBytes_length (ws : List Nat) : (wordBytes ws).length = 16 * ws.length := by
  induction ws with
  | nil => rfl
  | cons w ws ih =>
    show (leBytes 16 w ++ wordBytes ws).length = _
    rw [List.length_append, leBytes_length, ih, List.length_cons]
    omega

theorem splice_splice {b x y : Bytes} {o : Nat} (h : o + (x ++ y).length ≤ b.length) :
    splice (splice b o x) (o + x.length) y = splice b o (x ++ y) := by
  rw [List.length_append] at h
  apply List.ext_getElem?
  intro i
  rw [splice_getElem? _ _ _ _ (by rw [splice_length _ _ _ (by omega)]; omega), splice_getElem? _ _ _ _ (by omega),
    splice_getElem? _ _ _ _ (by rw [List.length_append]; omega), List.length_append, List.getElem?_append]
  by_cases h1 : o + x.length ≤ i ∧ i < o + x.length + y.length
  · rw [if_pos h1, if_pos (by omega), if_neg (by omega)]
    congr 1; omega
  · rw [if_neg h1]
    by_cases h2 : o ≤ i ∧ i < o + x.length
    · rw [if_pos h2, if_pos (by omega), if_pos (by omega)]
    · rw [if_neg h2, if_neg (by omega)]

theorem storeWords_ok (ws : List Nat) : ∀ (i : Nat) (b : Bytes), 16 * (i + ws.length) ≤ b.length →
    storeWords i ws b = .ok (splice b (16 * i) (wordBytes ws)) := by
  induction ws with
  | nil =>
    intro i b _
    show Except.ok b = .ok (splice b (16 * i) [])
    simp [splice]
  | cons w ws ih =>
    intro i b h
    rw [List.length_cons] at h
    unfold storeWords
    rw [store_ok (by rw [leBytes_length]; omega) (by omega)]
    simp only [Res.bind_ok]
    have l1 : (splice b (i * 16) (leBytes 16 w)).length = b.length :=
      splice_length _ _ _ (by rw [leBytes_length]; omega)
    rw [ih (i + 1) _ (by omega)]
    have e : wordBytes (w :: ws) = leBytes 16 w ++ wordBytes ws := rfl
    have := splice_splice (b := b) (x := leBytes 16 w) (y := wordBytes ws) (o := 16 * i)
      (by rw [List.length_append, leBytes_length, wordBytes_length]; omega)
    rw [leBytes_length] at this
    rw [e, ← this, Nat.mul_comm i 16, Nat.mul_add]

theorem storeWords_bad (ws : List Nat) : ∀ (i : Nat) (b : Bytes), b.length < 16 * (i + ws.length) →
    16 * i ≤ b.length → storeWords i ws b = .error .ub := by
  induction ws with
  | nil => intro i b h _; simp at h; omega
  | cons w ws ih =>
    intro i b h hi
    rw [List.length_cons] at h
    unfold storeWords
    by_cases hc : i * 16 + 16 ≤ b.length
    · rw [store_ok (by rw [leBytes_length]; omega) (by omega)]
      simp only [Res.bind_ok]
      have l1 : (splice b (i * 16) (leBytes 16 w)).length = b.length :=
        splice_length _ _ _ (by rw [leBytes_length]; omega)
      exact ih (i + 1) _ (by omega) (by omega)
    · rw [store_bad (by rw [leBytes_length]; omega)]
      rfl

theorem bit_wordBytes (ws : List Nat) : ∀ j, bit (wordBytes ws) j = wordsBit ws j := by
  induction ws with
  | nil => intro j; simp [wordBytes, wordsBit, bit_nil]
  | cons w ws ih =>
    intro j
    show bit (leBytes 16 w ++ wordBytes ws) j = _
    rw [bit_append, leBytes_length]
    by_cases h : j < 128
    · rw [if_pos (by omega)]
      unfold bit wordsBit
      rw [leVal_leBytes, show (256 : Nat) ^ 16 = 2 ^ 128 from rfl, Nat.testBit_mod_two_pow]
      have : j / 128 = 0 := by omega
      rw [this, show j % 128 = j by omega]
      simp [h]
    · rw [if_neg (by omega), ih]
      unfold wordsBit
      rw [show (j - 8 * 16) / 128 = j / 128 - 1 by omega, show (j - 8 * 16) % 128 = j % 128 by omega]
      have : j / 128 = j / 128 - 1 + 1 := by omega
      rw [this, List.getElem?_cons_succ]
      simp

theorem bitmapLoop_ok {chk : Bool} {v : Nat} {r : Regions} (hv : v < 256) (hb : 0 < r.blockSize)
    (bs : List (List Nat)) : ∀ (k : Nat) (blocks : Blocks),
      r.bitmapOffset + (k + bs.length) * r.blockSize ≤ 2 ^ 56 →
      (∀ ws ∈ bs, ∀ l, 16 * ws.length ≤ (blocks l).length) →
      ∃ out, bitmapLoop chk v r k bs blocks = .ok out ∧
        (∀ j ws, bs[j]? = some ws → out (v * 2 ^ 56 + (r.bitmapOffset + (k + j) * r.blockSize))
          = splice (blocks (v * 2 ^ 56 + (r.bitmapOffset + (k + j) * r.blockSize))) 0 (wordBytes ws)) ∧
        ∀ l, (∀ j, j < bs.length → l ≠ v * 2 ^ 56 + (r.bitmapOffset + (k + j) * r.blockSize)) →
          out l = blocks l := by
  induction bs with
  | nil =>
    intro k blocks _ _
    exact ⟨blocks, rfl, fun j ws h => (by cases h), fun _ _ => rfl⟩
  | cons ws bs ih =>
    intro k blocks hm hl
    rw [List.length_cons] at hm
    have e1 : (k + (bs.length + 1)) * r.blockSize = (k + 1 + bs.length) * r.blockSize := by congr 1; omega
    have e2 : (k + 1 + bs.length) * r.blockSize = k * r.blockSize + r.blockSize + bs.length * r.blockSize := by
      rw [Nat.add_mul, Nat.add_mul, Nat.one_mul]
    rw [e1] at hm
    unfold bitmapLoop
    rw [mulW_ok (by omega)]
    simp only [Res.bind_ok]
    rw [addW_ok (by omega)]
    simp only [Res.bind_ok]
    rw [Location.new_ok hv (by omega)]
    simp only [Res.bind_ok]
    generalize hd : v * 2 ^ 56 + (r.bitmapOffset + k * r.blockSize) = dest
    have hw := hl ws List.mem_cons_self dest
    rw [storeWords_ok ws 0 _ (by omega)]
    simp only [Res.bind_ok]
    have hlen : (splice (blocks dest) (16 * 0) (wordBytes ws)).length = (blocks dest).length :=
      splice_length _ _ _ (by rw [wordBytes_length]; omega)
    obtain ⟨out, o1, o2, o3⟩ := ih (k + 1)
      (fun l => if l = dest then splice (blocks dest) (16 * 0) (wordBytes ws) else blocks l) hm (by
      intro ws' hws' l
      split
      · rw [hlen]; exact hl ws' (List.mem_cons_of_mem _ hws') dest
      · exact hl ws' (List.mem_cons_of_mem _ hws') l)
    have inj : ∀ j, k + j.succ ≠ k →
        v * 2 ^ 56 + (r.bitmapOffset + (k + 1 + j) * r.blockSize) ≠ dest := by
      intro j _ heq
      have : (k + 1) * r.blockSize ≤ (k + 1 + j) * r.blockSize := Nat.mul_le_mul_right _ (by omega)
      rw [Nat.add_mul, Nat.one_mul] at this
      omega
    refine ⟨out, o1, ?_, ?_⟩
    · intro j ws' h
      cases j with
      | zero =>
        rw [List.getElem?_cons_zero] at h
        injection h with h
        subst h
        rw [Nat.add_zero, hd, o3 dest, if_pos rfl]
        intro i _ heq
        exact inj i (by omega) heq.symm
      | succ j =>
        rw [List.getElem?_cons_succ] at h
        have := o2 j ws' h
        rw [if_neg (inj j (by omega))] at this
        rw [show k + (j + 1) = k + 1 + j by omega]
        exact this
    · intro l h
      rw [o3 l, if_neg]
      · rw [← hd]
        exact h 0 (by simp)
      · intro j hj
        have := h (j + 1) (by rw [List.length_cons]; omega)
        rwa [show k + (j + 1) = k + 1 + j by omega] at this

theorem wordsBit_flatten {w : Nat} (bs : List (List Nat)) (hw : ∀ b ∈ bs, b.length = w) : ∀ (k i : Nat)
    (ws : List Nat), bs[k]? = some ws → i < 128 * w → wordsBit bs.flatten (128 * w * k + i) = wordsBit ws i := by
  induction bs with
  | nil => intro k i ws h; cases h
  | cons b bs ih =>
    intro k i ws h hi
    have hb := hw b List.mem_cons_self
    unfold wordsBit
    rw [List.flatten_cons, List.getElem?_append]
    cases k with
    | zero =>
      rw [List.getElem?_cons_zero] at h
      injection h with h
      subst h
      rw [Nat.mul_zero, Nat.zero_add, if_pos (by omega)]
    | succ k =>
      rw [List.getElem?_cons_succ] at h
      have e : 128 * w * (k + 1) = 128 * w + 128 * w * k := by rw [Nat.mul_succ]; omega
      have := ih (fun b hb => hw b (List.mem_cons_of_mem _ hb)) k i ws h hi
      unfold wordsBit at this
      have ea : 128 * w * k = 128 * (w * k) := Nat.mul_assoc ..
      rw [ea] at this e
      rw [e, if_neg (by rw [hb]; omega), hb, ← this,
        show (128 * w + 128 * (w * k) + i) / 128 - w = (128 * (w * k) + i) / 128 by omega,
        show (128 * w + 128 * (w * k) + i) % 128 = (128 * (w * k) + i) % 128 by omega]

end Verif.Storage
