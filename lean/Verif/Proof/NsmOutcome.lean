import Verif.Proof.NsmDamaged

/-! # When the calls succeed on row pages with arbitrary contents -/

namespace Verif.Nsm

open Verif Verif.Spec

theorem pad_and {k v : Nat} (hk : k < 64) (hv : v < 2 ^ 32) :
    v &&& (2 ^ 32 - 1 - notW (2 ^ k - 1) % 2 ^ 32) = v % 2 ^ k := by
  have hp := Nat.two_pow_pos k
  have hk2 : 2 ^ k < 2 ^ 64 := Nat.pow_lt_pow_right (by omega) hk
  have e : notW (2 ^ k - 1) = 2 ^ 64 - 2 ^ k := by unfold notW; omega
  rw [e]
  by_cases h32 : k ≤ 32
  · have hle : 2 ^ k ≤ 2 ^ 32 := Nat.pow_le_pow_right (by omega) h32
    rw [show 2 ^ 32 - 1 - (2 ^ 64 - 2 ^ k) % 2 ^ 32 = 2 ^ k - 1 by omega, Nat.and_two_pow_sub_one_eq_mod]
  · obtain ⟨j, rfl⟩ : ∃ j, k = 32 + j := ⟨k - 32, by omega⟩
    have hd : (2 ^ 64 - 2 ^ (32 + j)) % 2 ^ 32 = 0 := by
      rw [Nat.pow_add]
      have hj : 2 ^ j ≤ 2 ^ 32 := Nat.pow_le_pow_right (by omega) (by omega)
      generalize 2 ^ j = x at *
      rw [show 2 ^ 64 - 2 ^ 32 * x = 2 ^ 32 * (2 ^ 32 - x) by omega, Nat.mul_mod_right]
    rw [hd, Nat.sub_zero, Nat.and_two_pow_sub_one_eq_mod, Nat.mod_eq_of_lt hv, Nat.mod_eq_of_lt]
    exact Nat.lt_of_lt_of_le hv (Nat.pow_le_pow_right (by omega) (by omega))

theorem rowOffsetPadding_iff {chk : Bool} {k i : Nat} {v : Nat × Nat} {p : Bytes} (hk : k < 64) :
    rowOffsetPadding chk (2 ^ k) p i = .ok v ↔
      i < claimedRows p ∧ 4 * (i + 2) ≤ p.length ∧ v = (claimedStart (2 ^ k) p i, wordAt p (4 * (i + 1)) % 2 ^ k) := by
  have hp := Nat.two_pow_pos k
  have hm : alignmentMask chk (2 ^ k) = .ok (notW (2 ^ k - 1) % 2 ^ 32) := by
    simp only [alignmentMask, subW_ok (show 1 ≤ 2 ^ k by omega), Res.bind_ok, Res.pure_eq]
  simp only [rowOffsetPadding, Res.bind_eq_ok, numRows_iff, assert_ok, decide_eq_true_eq, getRowOffset, getValue4_iff, hm]
  constructor
  · rintro ⟨_, ⟨_, rfl⟩, _, h1, _, ⟨h2, rfl⟩, _, h4, h3⟩
    cases h4
    cases h3
    exact ⟨h1, by omega, by rw [mask_and hk (wordAt_lt _ _), pad_and hk (wordAt_lt _ _)]; rfl⟩
  · rintro ⟨h1, h2, rfl⟩
    exact ⟨_, ⟨by omega, rfl⟩, (), h1, _, ⟨by omega, rfl⟩, _, rfl, by
      rw [mask_and hk (wordAt_lt _ _), pad_and hk (wordAt_lt _ _)]; rfl⟩

theorem getRow_iff {chk : Bool} {k i : Nat} {p r : Bytes} (hk : k < 64) (hL : p.length < 2 ^ 63) :
    getRow chk (2 ^ k) p i = .ok r ↔ i < claimedRows p ∧ 4 * (i + 2) ≤ p.length ∧
      claimedStart (2 ^ k) p i + wordAt p (4 * (i + 1)) % 2 ^ k ≤ claimedLimit (2 ^ k) p i ∧
      claimedLimit (2 ^ k) p i ≤ p.length + wordAt p (4 * (i + 1)) % 2 ^ k ∧
      r = (p.drop (claimedStart (2 ^ k) p i)).take
        (claimedLimit (2 ^ k) p i - wordAt p (4 * (i + 1)) % 2 ^ k - claimedStart (2 ^ k) p i) := by
  have hli := claimedLimit_lt (2 ^ k) i hL
  have hpad : wordAt p (4 * (i + 1)) % 2 ^ k < 2 ^ 32 := Nat.lt_of_le_of_lt (Nat.mod_le _ _) (wordAt_lt _ _)
  simp only [getRow, Res.bind_eq_ok, rowOffsetPadding_iff hk, upperBound_iff hk, assert_ok, Bool.and_eq_true,
    decide_eq_true_eq, subW_iff]
  constructor
  · rintro ⟨_, ⟨h1, h2, rfl⟩, _, ⟨h3, rfl⟩, st, h4, _, ⟨h5, h6⟩, h7⟩
    simp only at h4 h5 h7
    cases h7
    rcases h4 with ⟨h4, rfl⟩ | ⟨h4, _, rfl⟩
    · exact ⟨h1, h2, by omega, by omega, rfl⟩
    · omega
  · rintro ⟨h1, h2, h3, h4, rfl⟩
    exact ⟨_, ⟨h1, h2, rfl⟩, _, ⟨fun _ => ⟨by omega, by omega⟩, rfl⟩, _, .inl ⟨by omega, rfl⟩, (), ⟨by simp only; omega, by omega⟩, rfl⟩

theorem setValue4_iff {p q : Bytes} {o v : Nat} :
    setValue 4 p o v = .ok q ↔ o + 4 ≤ p.length ∧ q = splice p o (leBytes 4 v) := by
  by_cases h : o + 4 ≤ p.length
  · rw [setValue_ok h]
    exact ⟨fun e => ⟨h, by cases e; rfl⟩, fun e => by rw [e.2]⟩
  · simp [setValue, h]

theorem copyRow_iff {p q r : Bytes} {o : Nat} :
    copyRow p o r = .ok q ↔ o + r.length ≤ p.length ∧ q = splice p o r := by
  simp only [copyRow, Res.bind_eq_ok, assert_ok, decide_eq_true_eq]
  exact ⟨fun ⟨_, h1, h2⟩ => ⟨h1, by cases h2; rfl⟩, fun ⟨h1, h2⟩ => ⟨(), h1, by rw [h2]; rfl⟩⟩

theorem moveBytes_iff {p q : Bytes} {s d n : Nat} :
    moveBytes p s d n = .ok q ↔ s + n ≤ p.length ∧ d + n ≤ p.length ∧ q = splice p d (slice p s n) := by
  simp only [moveBytes, Res.bind_eq_ok, assert_ok, decide_eq_true_eq]
  constructor
  · rintro ⟨_, h1, _, h2, h3⟩
    split at h3
    · rename_i h4
      simp only [Bool.and_eq_true, decide_eq_true_eq] at h4
      cases h3
      exact ⟨h4.1, h4.2, rfl⟩
    · cases h3
  · rintro ⟨h1, h2, rfl⟩
    refine ⟨(), by omega, (), by omega, ?_⟩
    rw [if_pos (by simp [h1, h2])]
    rfl

theorem wordAt_splice {p : Bytes} {o v : Nat} {b : Bytes} (ho : o + b.length ≤ p.length) (h : v + 4 ≤ o ∨ o + b.length ≤ v)
    : wordAt (splice p o b) v = wordAt p v := by
  have key : ∀ j, j < o ∨ o + b.length ≤ j → (splice p o b).getD j 0 = p.getD j 0 := by
    intro j hj
    simp only [List.getD_eq_getElem?_getD]
    congr 1
    unfold splice
    rcases hj with hj | hj
    · rw [List.append_assoc, List.getElem?_append_left (by simp; omega), List.getElem?_take_of_lt hj]
    · rw [List.getElem?_append_right (by simp; omega)]
      simp only [List.length_append, List.length_take, List.getElem?_drop]
      congr 1
      omega
  unfold wordAt
  rw [key v (by omega), key (v + 1) (by omega), key (v + 2) (by omega), key (v + 3) (by omega)]

theorem shiftUp_iff {chk : Bool} {d i c : Nat} {p : Bytes} :
    (∃ q, shiftUp chk d i c p = .ok q) ↔
      (0 < c → 4 * (i + c + 2) ≤ p.length) ∧
      ∀ j, i ≤ j → j < i + c → chk = false ∨ d ≤ wordAt p (4 * (j + 1)) := by
  induction c generalizing p with
  | zero => exact ⟨fun _ => ⟨fun h => absurd h (by omega), fun j _ _ => by omega⟩, fun _ => ⟨p, rfl⟩⟩
  | succ c ih =>
    simp only [shiftUp, Res.bind_eq_ok, getRowOffset, getValue4_iff, setRowOffset, setValue4_iff]
    constructor
    · rintro ⟨q, _, ⟨h1, rfl⟩, w, h2, _, ⟨h3, rfl⟩, h4⟩
      obtain ⟨g1, g2⟩ := ih.1 ⟨_, h4⟩
      refine ⟨fun _ => by omega, fun j hj hj2 => ?_⟩
      by_cases e : j = i + c
      · subst e
        rcases subW_iff.1 h2 with ⟨h, _⟩ | ⟨_, h, _⟩
        · exact .inr h
        · exact .inl h
      · rw [← wordAt_splice (p := p) (b := leBytes 4 (w % 2 ^ 32)) (by rw [leBytes_length]; exact h3)
          (v := 4 * (j + 1)) (.inl (by omega))]
        exact g2 j hj (by omega)
    · rintro ⟨h1, h2⟩
      have h1 := h1 (by omega)
      obtain ⟨w, hw⟩ : ∃ w, subW chk (wordAt p (4 * (i + c + 1))) d = .ok w := by
        rcases h2 (i + c) (by omega) (by omega) with h | h
        · rcases Nat.lt_or_ge (wordAt p (4 * (i + c + 1))) d with h' | h'
          · exact ⟨_, subW_iff.2 (.inr ⟨h', h, rfl⟩)⟩
          · exact ⟨_, subW_ok h'⟩
        · exact ⟨_, subW_ok h⟩
      have hs : 4 * (i + c + 1 + 1) + (leBytes 4 (w % 2 ^ 32)).length ≤ p.length := by rw [leBytes_length]; omega
      obtain ⟨q, hq⟩ := ih (p := splice p (4 * (i + c + 1 + 1)) (leBytes 4 (w % 2 ^ 32))) |>.2 ⟨fun _ => by
          rw [splice_length _ _ _ hs]; omega, fun j hj hj2 => by
          rw [wordAt_splice hs (.inl (by omega))]
          exact h2 j hj (by omega)⟩
      exact ⟨q, _, ⟨by omega, rfl⟩, w, hw, _, ⟨by omega, rfl⟩, hq⟩

theorem alignUp_le_room {k r l n : Nat} (h : r ≤ l - roundUp (4 * (n + 2)) (2 ^ k)) : alignUp r (2 ^ k) ≤ l := by
  have hp := Nat.two_pow_pos k
  by_cases h0 : r = 0
  · subst h0
    have : alignUp 0 (2 ^ k) = 0 := by
      unfold alignUp
      rw [Nat.div_eq_of_lt (by omega), Nat.zero_mul]
    omega
  · have h1 : 2 ^ k ≤ roundUp (4 * (n + 2)) (2 ^ k) := by
      unfold roundUp
      have : 1 ≤ (4 * (n + 2) + 2 ^ k - 1) / 2 ^ k := (Nat.le_div_iff_mul_le hp).2 (by omega)
      calc 2 ^ k = 1 * 2 ^ k := (Nat.one_mul _).symm
        _ ≤ _ := Nat.mul_le_mul_right _ this
    have h2 : alignUp r (2 ^ k) ≤ r + 2 ^ k - 1 := by
      unfold alignUp
      exact Nat.div_mul_le_self _ _
    omega

theorem le_alignUp_pow (r k : Nat) : r ≤ alignUp r (2 ^ k) := by
  have hp := Nat.two_pow_pos k
  unfold alignUp
  have h := Nat.div_add_mod (r + 2 ^ k - 1) (2 ^ k)
  have := Nat.mod_lt (r + 2 ^ k - 1) hp
  rw [Nat.mul_comm] at h
  omega

/-- When `append_row` succeeds, and the page it makes. -/
theorem appendRow_iff {chk : Bool} {k : Nat} {p q r : Bytes} (hk : k < 64) (hL : p.length < 2 ^ 63) :
    appendRow chk (2 ^ k) p r = .ok q ↔ 4 * (claimedRows p + 2) ≤ p.length ∧
      r.length ≤ claimedLimit (2 ^ k) p (claimedRows p) - roundUp (4 * (claimedRows p + 2)) (2 ^ k) ∧
      claimedLimit (2 ^ k) p (claimedRows p) + r.length ≤ p.length + alignUp r.length (2 ^ k) ∧
      q = splice (splice (splice p (claimedLimit (2 ^ k) p (claimedRows p) - alignUp r.length (2 ^ k)) r)
        (4 * (claimedRows p + 1)) (leBytes 4 (((claimedLimit (2 ^ k) p (claimedRows p) - alignUp r.length (2 ^ k)) |||
          (alignUp r.length (2 ^ k) - r.length)) % 2 ^ 32))) 0 (leBytes 4 ((claimedRows p + 1) % 2 ^ 32)) := by
  have hk2 : 2 ^ k ≤ 2 ^ 63 := Nat.pow_le_pow_right (by omega) (by omega)
  have hli := claimedLimit_lt (2 ^ k) (claimedRows p) hL
  have hlr := le_alignUp_pow r.length k
  simp only [appendRow, Res.bind_eq_ok, maxInsertRowSize_iff hk, assert_ok, decide_eq_true_eq, numRows_iff, upperBound_iff hk,
    copyRow_iff, setRowOffset, setValue4_iff, setNumRows]
  constructor
  · rintro ⟨_, ⟨h1, h2, rfl⟩, _, h3, _, ⟨_, rfl⟩, al, h4, _, ⟨h5, rfl⟩, o, h6, pd, h7, _, ⟨h8, rfl⟩, _, ⟨h9, rfl⟩, h10, rfl⟩
    rw [align_ok hk (by omega)] at h4
    obtain rfl := Except.ok.inj h4
    have h11 := alignUp_le_room h3
    rw [subW_ok h11] at h6
    obtain rfl := Except.ok.inj h6
    rw [subW_ok hlr] at h7
    obtain rfl := Except.ok.inj h7
    rw [splice_length _ _ _ h8] at h9
    exact ⟨by omega, h3, by omega, rfl⟩
  · rintro ⟨h1, h3, h8, rfl⟩
    have h11 := alignUp_le_room h3
    have h8' : claimedLimit (2 ^ k) p (claimedRows p) - alignUp r.length (2 ^ k) + r.length ≤ p.length := by omega
    refine ⟨_, ⟨by omega, by omega, rfl⟩, (), h3, _, ⟨by omega, rfl⟩, _, align_ok hk (by omega), _,
      ⟨fun _ => ⟨Nat.le_refl _, by omega⟩, rfl⟩, _, subW_ok h11, _, subW_ok hlr, _, ⟨h8', rfl⟩, _,
      ⟨by rw [splice_length _ _ _ h8']; omega, rfl⟩, ?_, rfl⟩
    rw [splice_length _ _ _ (by rw [splice_length _ _ _ h8', leBytes_length]; omega), splice_length _ _ _ h8']
    omega

/-- When `insert_row` succeeds before the last row. -/
theorem insertRow_iff {chk : Bool} {k i : Nat} {p r : Bytes} (hk : k < 64) (hL : p.length < 2 ^ 63)
    (hi : i ≠ claimedRows p) :
    (∃ q, insertRow chk (2 ^ k) p i r = .ok q) ↔ i < claimedRows p ∧ 4 * (claimedRows p + 2) ≤ p.length ∧
      r.length ≤ claimedStart (2 ^ k) p (claimedRows p - 1) - roundUp (4 * (claimedRows p + 2)) (2 ^ k) ∧
      claimedStart (2 ^ k) p (claimedRows p - 1) ≤ claimedLimit (2 ^ k) p i ∧ claimedLimit (2 ^ k) p i ≤ p.length ∧
      ∀ j, i ≤ j → j < claimedRows p → chk = false ∨ alignUp r.length (2 ^ k) ≤ wordAt p (4 * (j + 1)) := by
  have hk2 : 2 ^ k ≤ 2 ^ 63 := Nat.pow_le_pow_right (by omega) (by omega)
  have hn := claimedRows_lt p
  have hli := claimedLimit_lt (2 ^ k) i hL
  have hlr := le_alignUp_pow r.length k
  have hlast := claimedStart_lt (2 ^ k) p (claimedRows p - 1)
  have hup : 0 < claimedRows p → claimedLimit (2 ^ k) p (claimedRows p) = claimedStart (2 ^ k) p (claimedRows p - 1) := by
    intro h
    obtain ⟨n, hn⟩ : ∃ n, claimedRows p = n + 1 := ⟨claimedRows p - 1, by omega⟩
    rw [hn]; rfl
  -- the bytes that are moved do not touch the directory
  have hdir : 0 < r.length →
      r.length ≤ claimedStart (2 ^ k) p (claimedRows p - 1) - roundUp (4 * (claimedRows p + 2)) (2 ^ k) →
      4 * (claimedRows p + 2) ≤ claimedStart (2 ^ k) p (claimedRows p - 1) - alignUp r.length (2 ^ k) := by
    intro h0 h
    have h1 : 2 ^ k ∣ claimedStart (2 ^ k) p (claimedRows p - 1) - roundUp (4 * (claimedRows p + 2)) (2 ^ k) :=
      Nat.dvd_sub (claimedStart_dvd _ _ _) (Nat.dvd_mul_left _ _)
    have h2 := alignUp_le_of_dvd (Nat.two_pow_pos k) h1 h
    have h3 : 4 * (claimedRows p + 2) ≤ roundUp (4 * (claimedRows p + 2)) (2 ^ k) := le_alignUp_pow _ _
    omega
  have hzero : r.length = 0 → alignUp r.length (2 ^ k) = 0 := by
    intro h
    have hp := Nat.two_pow_pos k
    unfold alignUp
    rw [h, Nat.div_eq_of_lt (by omega), Nat.zero_mul]
  have hsame : ∀ {q : Bytes},
      r.length ≤ claimedStart (2 ^ k) p (claimedRows p - 1) - roundUp (4 * (claimedRows p + 2)) (2 ^ k) →
      4 * (claimedRows p + 2) ≤ p.length →
      moveBytes p (claimedStart (2 ^ k) p (claimedRows p - 1))
        (claimedStart (2 ^ k) p (claimedRows p - 1) - alignUp r.length (2 ^ k))
        (claimedLimit (2 ^ k) p i - claimedStart (2 ^ k) p (claimedRows p - 1)) = .ok q →
      q.length = p.length ∧ ∀ j, j < claimedRows p → wordAt q (4 * (j + 1)) = wordAt p (4 * (j + 1)) := by
    intro q h1 h2 hq
    refine ⟨moveBytes_len hq, fun j hj => ?_⟩
    obtain ⟨g1, g2, rfl⟩ := moveBytes_iff.1 hq
    by_cases h0 : r.length = 0
    · rw [hzero h0, Nat.sub_zero]
      have : splice p (claimedStart (2 ^ k) p (claimedRows p - 1)) (slice p (claimedStart (2 ^ k) p (claimedRows p - 1))
          (claimedLimit (2 ^ k) p i - claimedStart (2 ^ k) p (claimedRows p - 1))) = p := by
        unfold splice
        rw [slice_length _ _ _ g1]
        unfold slice
        rw [← List.drop_drop, List.append_assoc, List.take_append_drop, List.take_append_drop]
      rw [this]
    · have := hdir (by omega) h1
      exact wordAt_splice (by rw [slice_length _ _ _ g1]; exact g2) (.inl (by omega))
  simp only [insertRow, Res.bind_eq_ok, maxInsertRowSize_iff hk, assert_ok, decide_eq_true_eq, numRows_iff]
  constructor
  · rintro ⟨q, _, ⟨h1, h2, rfl⟩, _, h3, _, ⟨_, rfl⟩, h⟩
    rw [if_neg hi] at h
    simp only [Res.bind_eq_ok, alignedRowOffset_iff hk, upperBound_iff hk, copyRow_iff, setRowOffset, setValue4_iff,
      setNumRows] at h
    obtain ⟨al, h4, ln, h5, _, ⟨h6, h7, rfl⟩, _, ⟨h8, rfl⟩, ds, h9, len, h10, p1, h11, p2, h12, pd, h13, ro, h14, _, ⟨h15, rfl⟩,
      _, ⟨h16, rfl⟩, h17, rfl⟩ := h
    have hpos : 0 < claimedRows p := by omega
    have hi' : i < claimedRows p := by
      by_cases h0 : 0 < i
      · have := (h8 h0).1; omega
      · omega
    rw [hup hpos] at h3
    rw [align_ok hk (by omega)] at h4
    obtain rfl := Except.ok.inj h4
    rw [subW_ok (show 1 ≤ claimedRows p from hpos)] at h5
    obtain rfl := Except.ok.inj h5
    have h20 := alignUp_le_room h3
    rw [subW_ok h20] at h9
    obtain rfl := Except.ok.inj h9
    obtain ⟨m1, m2, _⟩ := moveBytes_iff.1 h11
    rcases subW_iff.1 h10 with ⟨g1, rfl⟩ | ⟨_, _, rfl⟩
    · obtain ⟨s1, s2⟩ := shiftUp_iff.1 ⟨_, h12⟩
      have hl := moveBytes_len h11
      have s1 := s1 (by omega)
      rw [hl] at s1
      have hsame := hsame h3 (by omega) h11
      exact ⟨hi', by omega, h3, g1, by omega, fun j hj hj2 => by
        rw [← hsame.2 j hj2]; exact s2 j hj (by omega)⟩
    · omega
  · rintro ⟨hi', h2, h3, h4, h5, h6⟩
    have hpos : 0 < claimedRows p := by omega
    have h20 := alignUp_le_room h3
    have hm := moveBytes_iff (p := p) (s := claimedStart (2 ^ k) p (claimedRows p - 1))
      (d := claimedStart (2 ^ k) p (claimedRows p - 1) - alignUp r.length (2 ^ k))
      (n := claimedLimit (2 ^ k) p i - claimedStart (2 ^ k) p (claimedRows p - 1)) |>.2 ⟨by omega, by omega, rfl⟩
    obtain ⟨hl, hw⟩ := hsame h3 h2 hm
    obtain ⟨p2, hp2⟩ := shiftUp_iff (chk := chk) (d := alignUp r.length (2 ^ k)) (i := i) (c := claimedRows p - i) |>.2
      ⟨fun _ => by rw [hl]; omega, fun j hj hj2 => by rw [hw j (by omega)]; exact h6 j hj (by omega)⟩
    have hl2 := (shiftUp_len hp2).trans hl
    have hc : claimedLimit (2 ^ k) p i - alignUp r.length (2 ^ k) + r.length ≤ p2.length := by omega
    have hl3 := splice_length p2 (claimedLimit (2 ^ k) p i - alignUp r.length (2 ^ k)) r hc
    apply Exists.intro
    refine ⟨_, ⟨by omega, by omega, rfl⟩, (), by rw [hup hpos]; exact h3, _, ⟨by omega, rfl⟩, ?_⟩
    rw [if_neg hi]
    simp only [Res.bind_eq_ok, alignedRowOffset_iff hk, upperBound_iff hk, copyRow_iff, setRowOffset, setValue4_iff,
      setNumRows]
    refine ⟨_, align_ok hk (by omega), _, subW_ok (show 1 ≤ claimedRows p from hpos), _, ⟨by omega, by omega, rfl⟩, _,
      ⟨fun _ => ⟨by omega, by omega⟩, rfl⟩, _, subW_ok h20, _, subW_ok h4, _, hm, _, hp2, _, subW_ok hlr, _,
      subW_ok (by omega), _, ⟨hc, rfl⟩, _, ⟨by rw [hl3]; omega, rfl⟩, ?_, rfl⟩
    rw [splice_length _ _ _ (by rw [hl3, leBytes_length]; omega), hl3]
    omega

/-- When `remove_row` succeeds. -/
theorem removeRow_iff {chk : Bool} {k i : Nat} {p : Bytes} (hk : k < 64) (hL : p.length < 2 ^ 63) :
    (∃ q, removeRow chk (2 ^ k) p i = .ok q) ↔ i < claimedRows p ∧ 4 ≤ p.length ∧
      (i + 1 < claimedRows p → 4 * (claimedRows p + 1) ≤ p.length ∧
        claimedStart (2 ^ k) p (claimedRows p - 1) ≤ claimedStart (2 ^ k) p i ∧ claimedStart (2 ^ k) p i ≤ p.length ∧
        claimedLimit (2 ^ k) p i ≤ p.length ∧
        (claimedStart (2 ^ k) p i ≤ claimedLimit (2 ^ k) p i ∨ chk = false ∧
          claimedStart (2 ^ k) p i ≤ claimedStart (2 ^ k) p (claimedRows p - 1) + claimedLimit (2 ^ k) p i)) := by
  have hn := claimedRows_lt p
  have hli := claimedLimit_lt (2 ^ k) i hL
  have hlast := claimedStart_lt (2 ^ k) p (claimedRows p - 1)
  have hst := claimedStart_lt (2 ^ k) p i
  simp only [removeRow, Res.bind_eq_ok, assert_ok, decide_eq_true_eq, numRows_iff, setNumRows, setValue4_iff]
  constructor
  · rintro ⟨q, _, ⟨h1, rfl⟩, _, h2, p1, h3, h4, rfl⟩
    refine ⟨h2, h1, fun hlt => ?_⟩
    rw [removeShift, if_pos (by omega)] at h3
    simp only [Res.bind_eq_ok, alignedRowOffset_iff hk, upperBound_iff hk, moveBytes_iff] at h3
    obtain ⟨_, ⟨_, g1, rfl⟩, _, ⟨g2, rfl⟩, _, ⟨_, g3, rfl⟩, d, g4, q, g5, n, g6, ds, g7, g8, g9, rfl⟩ := h3
    rw [shiftDown_len g5] at g8 g9
    refine ⟨by omega, ?_⟩
    clear g5 h4 g2 g1
    generalize claimedStart (2 ^ k) p (claimedRows p - 1) = last at *
    generalize claimedStart (2 ^ k) p i = st at *
    generalize claimedLimit (2 ^ k) p i = li at *
    generalize p.length = L at *
    rw [subW_iff] at g4 g6
    rw [addW_iff] at g7
    rcases g4 with ⟨a1, rfl⟩ | ⟨a1, a2, rfl⟩ <;> rcases g6 with ⟨b1, rfl⟩ | ⟨b1, b2, rfl⟩ <;>
      rcases g7 with ⟨c1, rfl⟩ | ⟨c1, c2, rfl⟩
    all_goals first
      | (exfalso; omega)
      | exact ⟨by omega, by omega, by omega, .inl (by omega)⟩
      | exact ⟨by omega, by omega, by omega, .inr ⟨a2, by omega⟩⟩
  · rintro ⟨h1, h2, h3⟩
    by_cases hlt : i + 1 < claimedRows p
    · obtain ⟨h4, h5, h6, h7, h8⟩ := h3 hlt
      have hshift : ∀ d, ∃ q, shiftDown d (i + 1) (claimedRows p - (i + 1)) p = .ok q ∧ q.length = p.length := fun d =>
        shiftDown_total d (i + 1) _ p (by omega) (by omega)
      have key : ∃ d ds, subW chk (claimedLimit (2 ^ k) p i) (claimedStart (2 ^ k) p i) = .ok d ∧
          addW chk (claimedStart (2 ^ k) p (claimedRows p - 1)) d = .ok ds ∧
          ds + (claimedStart (2 ^ k) p i - claimedStart (2 ^ k) p (claimedRows p - 1)) ≤ p.length := by
        generalize claimedStart (2 ^ k) p (claimedRows p - 1) = last at *
        generalize claimedStart (2 ^ k) p i = st at *
        generalize claimedLimit (2 ^ k) p i = li at *
        clear hshift
        by_cases hle : st ≤ li
        · exact ⟨_, _, subW_ok hle, addW_iff.2 (.inl ⟨by omega, rfl⟩), by omega⟩
        · obtain ⟨hc, h9⟩ := h8.resolve_left hle
          refine ⟨_, _, subW_iff.2 (.inr ⟨by omega, hc, rfl⟩), addW_iff.2 (.inr ⟨by omega, hc, rfl⟩), ?_⟩
          rw [show last + (li + W64 - st) = W64 + (last + li - st) by omega, Nat.add_mod_left, Nat.mod_eq_of_lt (by omega)]
          omega
      obtain ⟨d, ds, k1, k2, k3⟩ := key
      obtain ⟨q, hq, hql⟩ := hshift d
      have hm := moveBytes_iff (p := q) (s := claimedStart (2 ^ k) p (claimedRows p - 1)) (d := ds)
        (n := claimedStart (2 ^ k) p i - claimedStart (2 ^ k) p (claimedRows p - 1)) |>.2
        ⟨by rw [hql]; omega, by rw [hql]; exact k3, rfl⟩
      refine ⟨_, _, ⟨h2, rfl⟩, (), h1, splice q ds (slice q (claimedStart (2 ^ k) p (claimedRows p - 1))
        (claimedStart (2 ^ k) p i - claimedStart (2 ^ k) p (claimedRows p - 1))), ?_, ?_, rfl⟩
      · rw [removeShift, if_pos (by omega)]
        simp only [Res.bind_eq_ok, alignedRowOffset_iff hk, upperBound_iff hk]
        exact ⟨_, ⟨by omega, by omega, rfl⟩, _, ⟨fun _ => ⟨by omega, by omega⟩, rfl⟩, _, ⟨by omega, by omega, rfl⟩, d, k1, q, hq, _,
          subW_ok h5, ds, k2, hm⟩
      · rw [moveBytes_len hm, hql]; omega
    · refine ⟨_, _, ⟨h2, rfl⟩, (), h1, p, ?_, by omega, rfl⟩
      rw [removeShift, if_neg (by omega)]
      rfl

end Verif.Nsm
