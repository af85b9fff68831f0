import Verif.Proof.Nsm
import Verif.Proof.Nested

/-! # Row pages with arbitrary contents -/

namespace Verif.Nsm

open Verif Verif.Spec

theorem bind_ub {α β : Type} {m : Res α} {f : α → Res β} :
    (m >>= f) = .error .ub ↔ m = .error .ub ∨ ∃ a, m = .ok a ∧ f a = .error .ub := by
  cases m <;> simp

theorem assert_ub {b : Bool} : assert b = .error .ub ↔ False := iff_false_intro (assert_no_ub b)
theorem subW_ub {chk : Bool} {a b : Nat} : subW chk a b = .error .ub ↔ False := iff_false_intro (subW_no_ub chk a b)
theorem addW_ub {chk : Bool} {a b : Nat} : addW chk a b = .error .ub ↔ False := iff_false_intro (addW_no_ub chk a b)
theorem align_ub {chk : Bool} {a b : Nat} : align chk a b = .error .ub ↔ False := iff_false_intro (align_no_ub chk a b)

theorem getValue_ub {n o : Nat} {p : Bytes} : getValue n p o = .error .ub ↔ False := by
  simp [getValue, bind_ub, assert_ub]

theorem setValue_ub {n o v : Nat} {p : Bytes} : setValue n p o v = .error .ub ↔ False := by
  simp [setValue, bind_ub, assert_ub]

theorem numRows_ub {p : Bytes} : numRows p = .error .ub ↔ False := getValue_ub
theorem setNumRows_ub {p : Bytes} {n : Nat} : setNumRows p n = .error .ub ↔ False := setValue_ub
theorem getRowOffset_ub {p : Bytes} {i : Nat} : getRowOffset p i = .error .ub ↔ False := getValue_ub
theorem setRowOffset_ub {p : Bytes} {i v : Nat} : setRowOffset p i v = .error .ub ↔ False := setValue_ub

theorem alignmentMask_ub {chk : Bool} {a : Nat} : alignmentMask chk a = .error .ub ↔ False := by
  simp [alignmentMask, bind_ub, subW_ub]

theorem alignedRowOffset_ub {chk : Bool} {a i : Nat} {p : Bytes} : alignedRowOffset chk a p i = .error .ub ↔ False := by
  simp [alignedRowOffset, bind_ub, assert_ub, numRows_ub, getRowOffset_ub, alignmentMask_ub]

theorem rowOffsetPadding_ub {chk : Bool} {a i : Nat} {p : Bytes} : rowOffsetPadding chk a p i = .error .ub ↔ False := by
  simp [rowOffsetPadding, bind_ub, assert_ub, numRows_ub, getRowOffset_ub, alignmentMask_ub]

theorem upperBound_ub {chk : Bool} {a i : Nat} {p : Bytes} : upperBound chk a p i = .error .ub ↔ False := by
  unfold upperBound; split
  · exact alignedRowOffset_ub
  · simp

theorem maxInsertRowSize_ub {chk : Bool} {a : Nat} {p : Bytes} : maxInsertRowSize chk a p = .error .ub ↔ False := by
  simp [maxInsertRowSize, bind_ub, numRows_ub, align_ub, upperBound_ub]

theorem getRow_ub {chk : Bool} {a i : Nat} {p : Bytes} : getRow chk a p i = .error .ub ↔ False := by
  simp [getRow, bind_ub, rowOffsetPadding_ub, upperBound_ub, subW_ub, assert_ub]

theorem copyRow_ub {p r : Bytes} {o : Nat} : copyRow p o r = .error .ub ↔ False := by
  simp [copyRow, bind_ub, assert_ub]

theorem appendRow_ub {chk : Bool} {a : Nat} {p r : Bytes} : appendRow chk a p r = .error .ub ↔ False := by
  simp [appendRow, bind_ub, maxInsertRowSize_ub, assert_ub, numRows_ub, align_ub, upperBound_ub, subW_ub, copyRow_ub,
    setRowOffset_ub, setNumRows_ub]

theorem shiftUp_ub {chk : Bool} {d i c : Nat} {p : Bytes} : shiftUp chk d i c p = .error .ub ↔ False := by
  induction c generalizing p with
  | zero => simp [shiftUp]
  | succ c ih => simp [shiftUp, bind_ub, getRowOffset_ub, subW_ub, setRowOffset_ub, ih]

theorem shiftDown_ub {d i c : Nat} {p : Bytes} : shiftDown d i c p = .error .ub ↔ False := by
  induction c generalizing p i with
  | zero => simp [shiftDown]
  | succ c ih => simp [shiftDown, bind_ub, getRowOffset_ub, setRowOffset_ub, ih]

theorem initializePage_ub {chk : Bool} {a : Nat} {p : Bytes} : initializePage chk a p = .error .ub ↔ False := by
  simp [initializePage, bind_ub, assert_ub, align_ub, setValue_ub]

theorem moveBytes_ub {p : Bytes} {s d n : Nat} :
    moveBytes p s d n = .error .ub ↔ s ≤ p.length ∧ d ≤ p.length ∧ (p.length < s + n ∨ p.length < d + n) := by
  simp only [moveBytes, bind_ub, assert_ub, false_or, assert_ok, decide_eq_true_eq]
  constructor
  · rintro ⟨_, h1, _, h2, h3⟩
    refine ⟨h1, h2, ?_⟩
    split at h3
    · cases h3
    · rename_i h4
      simp only [Bool.and_eq_true, decide_eq_true_eq] at h4
      omega
  · rintro ⟨h1, h2, h3⟩
    refine ⟨(), h1, (), h2, if_neg ?_⟩
    simp only [Bool.and_eq_true, decide_eq_true_eq]
    omega

/-! ## Lengths -/

theorem setValue_len {n o v : Nat} {p q : Bytes} (h : setValue n p o v = .ok q) : q.length = p.length := by
  simp only [setValue, Res.bind_eq_ok, assert_ok, decide_eq_true_eq] at h
  obtain ⟨_, h1, h2⟩ := h
  cases h2
  exact splice_length _ _ _ (by simpa using h1)

theorem copyRow_len {o : Nat} {p q r : Bytes} (h : copyRow p o r = .ok q) : q.length = p.length := by
  simp only [copyRow, Res.bind_eq_ok, assert_ok, decide_eq_true_eq] at h
  obtain ⟨_, h1, h2⟩ := h
  cases h2
  exact splice_length _ _ _ h1

theorem moveBytes_len {s d n : Nat} {p q : Bytes} (h : moveBytes p s d n = .ok q) : q.length = p.length := by
  simp only [moveBytes, Res.bind_eq_ok, assert_ok, decide_eq_true_eq] at h
  obtain ⟨_, h1, _, h2, h3⟩ := h
  split at h3
  · rename_i h4
    simp only [Bool.and_eq_true, decide_eq_true_eq] at h4
    cases h3
    exact splice_length _ _ _ (by rw [slice_length _ _ _ h4.1]; exact h4.2)
  · cases h3

theorem shiftUp_len {chk : Bool} {d i c : Nat} {p q : Bytes} (h : shiftUp chk d i c p = .ok q) : q.length = p.length := by
  induction c generalizing p with
  | zero => cases h; rfl
  | succ c ih =>
    simp only [shiftUp, Res.bind_eq_ok] at h
    obtain ⟨_, _, _, _, _, h1, h2⟩ := h
    rw [ih h2, setValue_len h1]

theorem shiftDown_len {d i c : Nat} {p q : Bytes} (h : shiftDown d i c p = .ok q) : q.length = p.length := by
  induction c generalizing p i with
  | zero => cases h; rfl
  | succ c ih =>
    simp only [shiftDown, Res.bind_eq_ok] at h
    obtain ⟨_, _, _, h1, h2⟩ := h
    rw [ih h2, setValue_len h1]

theorem appendRow_len {chk : Bool} {a : Nat} {p q r : Bytes} (h : appendRow chk a p r = .ok q) : q.length = p.length := by
  simp only [appendRow, Res.bind_eq_ok] at h
  obtain ⟨_, _, _, _, _, _, _, _, _, _, _, _, _, _, _, h1, _, h2, h3⟩ := h
  rw [setValue_len h3, setValue_len h2, copyRow_len h1]

theorem insertRow_len {chk : Bool} {a i : Nat} {p q r : Bytes} (h : insertRow chk a p i r = .ok q) :
    q.length = p.length := by
  simp only [insertRow, Res.bind_eq_ok] at h
  obtain ⟨_, _, _, _, _, _, h⟩ := h
  split at h
  · exact appendRow_len h
  · simp only [Res.bind_eq_ok] at h
    obtain ⟨_, _, _, _, _, _, _, _, _, _, _, _, _, h1, _, h2, _, _, _, _, _, h3, _, h4, h5⟩ := h
    rw [setValue_len h5, setValue_len h4, copyRow_len h3, shiftUp_len h2, moveBytes_len h1]

theorem removeRow_len {chk : Bool} {a i : Nat} {p q : Bytes} (h : removeRow chk a p i = .ok q) :
    q.length = p.length := by
  simp only [removeRow, Res.bind_eq_ok] at h
  obtain ⟨_, _, _, _, p1, h, h6⟩ := h
  rw [setValue_len h6]
  unfold removeShift at h
  split at h
  · simp only [Res.bind_eq_ok] at h
    obtain ⟨_, _, _, _, _, _, _, _, _, h1, _, _, _, _, h2⟩ := h
    rw [moveBytes_len h2, shiftDown_len h1]
  · cases h; rfl

/-! ## What is read -/

theorem wordAt_eq {p : Bytes} {o : Nat} (h : o + 4 ≤ p.length) : leVal (slice p o 4) = wordAt p o := by
  have e : slice p o 4 = [p[o], p[o + 1], p[o + 2], p[o + 3]] := by
    unfold slice
    rw [List.drop_eq_getElem_cons (by omega), List.drop_eq_getElem_cons (by omega), List.drop_eq_getElem_cons (by omega),
      List.drop_eq_getElem_cons (by omega)]
    rfl
  rw [e]
  simp only [leVal, wordAt, List.getD_eq_getElem?_getD, List.getElem?_eq_getElem (show o < p.length by omega),
    List.getElem?_eq_getElem (show o + 1 < p.length by omega), List.getElem?_eq_getElem (show o + 2 < p.length by omega),
    List.getElem?_eq_getElem (show o + 3 < p.length by omega), Option.getD_some]
  omega

theorem wordAt_lt (p : Bytes) (o : Nat) : wordAt p o < 2 ^ 32 := by
  unfold wordAt
  have := (p.getD o 0).toNat_lt
  have := (p.getD (o + 1) 0).toNat_lt
  have := (p.getD (o + 2) 0).toNat_lt
  have := (p.getD (o + 3) 0).toNat_lt
  omega

theorem getValue4_iff {p : Bytes} {o v : Nat} : getValue 4 p o = .ok v ↔ o + 4 ≤ p.length ∧ v = wordAt p o := by
  by_cases h : o + 4 ≤ p.length
  · rw [getValue_ok h, wordAt_eq h]
    exact ⟨fun e => ⟨h, by cases e; rfl⟩, fun e => by rw [e.2]⟩
  · simp [getValue, h]

theorem numRows_iff {p : Bytes} {n : Nat} : numRows p = .ok n ↔ 4 ≤ p.length ∧ n = claimedRows p := by
  unfold numRows claimedRows; rw [getValue4_iff, Nat.zero_add]

theorem mask_and {k v : Nat} (hk : k < 64) (hv : v < 2 ^ 32) :
    v &&& (notW (2 ^ k - 1) % 2 ^ 32) = v / 2 ^ k * 2 ^ k := by
  have hp := Nat.two_pow_pos k
  have hk2 : 2 ^ k < 2 ^ 64 := Nat.pow_lt_pow_right (by omega) hk
  have e : notW (2 ^ k - 1) = 2 ^ 64 - 2 ^ k := by unfold notW; omega
  have h1 : v &&& notW (2 ^ k - 1) = v / 2 ^ k * 2 ^ k := by
    rw [e]; exact and_notMask v k 64 (by omega) (by omega)
  rw [← h1]
  apply Nat.eq_of_testBit_eq
  intro i
  rw [Nat.testBit_and, Nat.testBit_and, Nat.testBit_mod_two_pow]
  by_cases hi : i < 32
  · simp [hi]
  · have : v.testBit i = false := Nat.testBit_lt_two_pow (Nat.lt_of_lt_of_le hv (Nat.pow_le_pow_right (by omega) (by omega)))
    simp [this]

theorem alignedRowOffset_iff {chk : Bool} {k i v : Nat} {p : Bytes} (hk : k < 64) :
    alignedRowOffset chk (2 ^ k) p i = .ok v ↔
      i < claimedRows p ∧ 4 * (i + 2) ≤ p.length ∧ v = claimedStart (2 ^ k) p i := by
  have hp := Nat.two_pow_pos k
  have hm : alignmentMask chk (2 ^ k) = .ok (notW (2 ^ k - 1) % 2 ^ 32) := by
    simp only [alignmentMask, subW_ok (show 1 ≤ 2 ^ k by omega), Res.bind_ok, Res.pure_eq]
  simp only [alignedRowOffset, Res.bind_eq_ok, numRows_iff, assert_ok, decide_eq_true_eq, getRowOffset, getValue4_iff, hm]
  constructor
  · rintro ⟨_, ⟨_, rfl⟩, _, h1, _, ⟨h2, rfl⟩, _, h4, h3⟩
    cases h4
    cases h3
    exact ⟨h1, by omega, mask_and hk (wordAt_lt _ _)⟩
  · rintro ⟨h1, h2, rfl⟩
    exact ⟨_, ⟨by omega, rfl⟩, (), h1, _, ⟨by omega, rfl⟩, _, rfl, by rw [mask_and hk (wordAt_lt _ _)]; rfl⟩

theorem upperBound_iff {chk : Bool} {k i v : Nat} {p : Bytes} (hk : k < 64) :
    upperBound chk (2 ^ k) p i = .ok v ↔
      (0 < i → i ≤ claimedRows p ∧ 4 * (i + 1) ≤ p.length) ∧ v = claimedLimit (2 ^ k) p i := by
  cases i with
  | zero => simp [upperBound, claimedLimit, eq_comm]
  | succ i =>
    rw [upperBound, if_pos (by omega), show i + 1 - 1 = i by omega, alignedRowOffset_iff hk]
    simp only [claimedLimit]
    constructor
    · rintro ⟨h1, h2, h3⟩; exact ⟨fun _ => ⟨h1, by omega⟩, h3⟩
    · rintro ⟨h1, h3⟩
      have := h1 (by omega)
      exact ⟨by omega, by omega, h3⟩

theorem claimedStart_lt (a : Nat) (p : Bytes) (i : Nat) : claimedStart a p i < 2 ^ 32 :=
  Nat.lt_of_le_of_lt (Nat.div_mul_le_self _ _) (wordAt_lt _ _)

theorem claimedLimit_lt (a : Nat) {p : Bytes} (i : Nat) (h : p.length < 2 ^ 63) : claimedLimit a p i < 2 ^ 63 := by
  cases i with
  | zero => exact h
  | succ i => exact Nat.lt_trans (claimedStart_lt a p i) (by decide)

theorem claimedRows_lt (p : Bytes) : claimedRows p < 2 ^ 32 := wordAt_lt _ _

theorem subW_iff {chk : Bool} {a b v : Nat} :
    subW chk a b = .ok v ↔ (b ≤ a ∧ v = a - b) ∨ (a < b ∧ chk = false ∧ v = a + W64 - b) := by
  unfold subW
  by_cases h : b ≤ a
  · rw [if_pos h]
    exact ⟨fun e => .inl ⟨h, (Except.ok.inj e).symm⟩, fun e => by
      rcases e with ⟨_, rfl⟩ | ⟨h2, _⟩
      · rfl
      · omega⟩
  · rw [if_neg h]
    cases chk
    · exact ⟨fun e => .inr ⟨by omega, rfl, (Except.ok.inj e).symm⟩, fun e => by
        rcases e with ⟨h2, _⟩ | ⟨_, _, e⟩
        · exact absurd h2 h
        · rw [e]; rfl⟩
    · exact ⟨fun e => (by cases e), fun e => by
        rcases e with ⟨h2, _⟩ | ⟨_, e, _⟩
        · exact absurd h2 h
        · cases e⟩

theorem addW_iff {chk : Bool} {a b v : Nat} :
    addW chk a b = .ok v ↔ (a + b < W64 ∧ v = a + b) ∨ (W64 ≤ a + b ∧ chk = false ∧ v = (a + b) % W64) := by
  unfold addW
  by_cases h : a + b < W64
  · rw [if_pos h]
    exact ⟨fun e => .inl ⟨h, (Except.ok.inj e).symm⟩, fun e => by
      rcases e with ⟨_, rfl⟩ | ⟨h2, _⟩
      · rfl
      · omega⟩
  · rw [if_neg h]
    cases chk
    · exact ⟨fun e => .inr ⟨by omega, rfl, (Except.ok.inj e).symm⟩, fun e => by
        rcases e with ⟨h2, _⟩ | ⟨_, _, e⟩
        · exact absurd h2 h
        · rw [e]; rfl⟩
    · exact ⟨fun e => (by cases e), fun e => by
        rcases e with ⟨h2, _⟩ | ⟨_, e, _⟩
        · exact absurd h2 h
        · cases e⟩

theorem maxInsertRowSize_iff {chk : Bool} {k m : Nat} {p : Bytes} (hk : k < 64) :
    maxInsertRowSize chk (2 ^ k) p = .ok m ↔ 4 ≤ p.length ∧ 4 * (claimedRows p + 1) ≤ p.length ∧
      m = claimedLimit (2 ^ k) p (claimedRows p) - roundUp (4 * (claimedRows p + 2)) (2 ^ k) := by
  have hk2 : 2 ^ k ≤ 2 ^ 63 := Nat.pow_le_pow_right (by omega) (by omega)
  have hn := claimedRows_lt p
  have hm : ∀ a b : Nat, (if a ≥ b then a - b else 0) = a - b := fun a b => by split <;> omega
  simp only [maxInsertRowSize, Res.bind_eq_ok, numRows_iff, upperBound_iff hk, hm]
  constructor
  · rintro ⟨_, ⟨h1, rfl⟩, l, h2, _, ⟨h3, rfl⟩, h4⟩
    rw [align_ok hk (by omega)] at h2
    cases h2
    refine ⟨h1, ?_, (Except.ok.inj h4).symm⟩
    by_cases h : 0 < claimedRows p
    · exact (h3 h).2
    · omega
  · rintro ⟨h1, h2, rfl⟩
    exact ⟨_, ⟨h1, rfl⟩, _, align_ok hk (by omega), _, ⟨fun _ => ⟨Nat.le_refl _, h2⟩, rfl⟩, rfl⟩

theorem claimedStart_dvd (a : Nat) (p : Bytes) (i : Nat) : a ∣ claimedStart a p i := Nat.dvd_mul_left _ _

/-- When `insert_row` accesses memory outside the page. -/
theorem insertRow_ub {chk : Bool} {k i : Nat} {p r : Bytes} (hk : k < 64) (hL : p.length < 2 ^ 63) :
    insertRow chk (2 ^ k) p i r = .error .ub ↔ i < claimedRows p ∧ 4 * (claimedRows p + 1) ≤ p.length ∧
      r.length ≤ claimedStart (2 ^ k) p (claimedRows p - 1) - roundUp (4 * (claimedRows p + 2)) (2 ^ k) ∧
      claimedStart (2 ^ k) p (claimedRows p - 1) ≤ p.length ∧
      (p.length < claimedLimit (2 ^ k) p i ∨
        chk = false ∧ claimedLimit (2 ^ k) p i < claimedStart (2 ^ k) p (claimedRows p - 1)) := by
  have hk2 : 2 ^ k ≤ 2 ^ 63 := Nat.pow_le_pow_right (by omega) (by omega)
  have hn := claimedRows_lt p
  have hli := claimedLimit_lt (2 ^ k) i hL
  have hlast := claimedStart_lt (2 ^ k) p (claimedRows p - 1)
  have hup : 0 < claimedRows p → claimedLimit (2 ^ k) p (claimedRows p) = claimedStart (2 ^ k) p (claimedRows p - 1) := by
    intro h
    obtain ⟨n, hn⟩ : ∃ n, claimedRows p = n + 1 := ⟨claimedRows p - 1, by omega⟩
    rw [hn]; rfl
  have hdelta : 0 < claimedRows p →
      r.length ≤ claimedStart (2 ^ k) p (claimedRows p - 1) - roundUp (4 * (claimedRows p + 2)) (2 ^ k) →
      alignUp r.length (2 ^ k) ≤ claimedStart (2 ^ k) p (claimedRows p - 1) := fun _ hr =>
    alignUp_le_of_dvd (Nat.two_pow_pos k) (claimedStart_dvd _ _ _) (by omega)
  have hal : r.length ≤ 2 ^ 32 → align chk r.length (2 ^ k) = .ok (alignUp r.length (2 ^ k)) := fun h =>
    align_ok hk (by omega)
  unfold insertRow
  simp only [bind_ub, maxInsertRowSize_ub, assert_ub, numRows_ub, false_or, maxInsertRowSize_iff hk, assert_ok,
    decide_eq_true_eq, numRows_iff]
  constructor
  · rintro ⟨_, ⟨h1, h2, rfl⟩, _, h3, _, ⟨_, rfl⟩, h⟩
    split at h
    · exact absurd h (by rw [appendRow_ub]; exact id)
    · rename_i hne
      simp only [bind_ub, align_ub, subW_ub, alignedRowOffset_ub, upperBound_ub, shiftUp_ub, copyRow_ub, setRowOffset_ub,
        setNumRows_ub, false_or, alignedRowOffset_iff hk, upperBound_iff hk, and_false, exists_false, or_false,
        moveBytes_ub] at h
      obtain ⟨d, hd, li, hli', la, ⟨g1, g2, rfl⟩, _, ⟨g3, rfl⟩, ds, g4, n, g5, g6, g7, g8⟩ := h
      have hpos : 0 < claimedRows p := by omega
      rw [hup hpos] at h3
      rw [hal (by omega)] at hd
      cases hd
      rw [subW_ok (show 1 ≤ claimedRows p from hpos)] at hli'
      obtain rfl := Except.ok.inj hli'
      rw [subW_ok (hdelta hpos h3)] at g4
      cases g4
      have hi : i < claimedRows p := by
        by_cases h0 : 0 < i
        · have := (g3 h0).1; omega
        · omega
      refine ⟨hi, h2, h3, g6, ?_⟩
      rcases subW_iff.1 g5 with ⟨c1, rfl⟩ | ⟨c1, c2, rfl⟩
      · left; omega
      · exact .inr ⟨c2, c1⟩
  · rintro ⟨h1, h2, h3, h4, h5⟩
    have hpos : 0 < claimedRows p := by omega
    refine ⟨_, ⟨by omega, h2, rfl⟩, (), by rw [hup hpos]; exact h3, _, ⟨by omega, rfl⟩, ?_⟩
    rw [if_neg (by omega)]
    simp only [bind_ub, align_ub, subW_ub, alignedRowOffset_ub, upperBound_ub, shiftUp_ub, copyRow_ub, setRowOffset_ub,
        setNumRows_ub, false_or, alignedRowOffset_iff hk, upperBound_iff hk, and_false, exists_false, or_false,
        moveBytes_ub]
    refine ⟨_, hal (by omega), _, subW_ok (show 1 ≤ claimedRows p from hpos), _, ⟨by omega, by omega, rfl⟩, _, ⟨fun h0 => ⟨by omega, by omega⟩, rfl⟩, _,
      subW_ok (hdelta hpos h3), ?_⟩
    rcases h5 with h5 | ⟨rfl, h5⟩
    · exact ⟨_, subW_ok (by omega), h4, by omega, by omega⟩
    · exact ⟨_, subW_iff.2 (.inr ⟨h5, rfl, rfl⟩), h4, by omega, by omega⟩

theorem shiftDown_total (d i c : Nat) (p : Bytes) (hi : 1 ≤ i) (h : 4 * (i + c + 1) ≤ p.length) :
    ∃ q, shiftDown d i c p = .ok q ∧ q.length = p.length := by
  induction c generalizing p i with
  | zero => exact ⟨p, rfl, rfl⟩
  | succ c ih =>
    rw [shiftDown, getRowOffset, getValue_ok (by omega), Res.bind_ok, setRowOffset, setValue_ok (by omega), Res.bind_ok]
    have hl : (splice p (4 * (i - 1 + 1)) (leBytes 4 ((leVal (slice p (4 * (i + 1)) 4) + d) % 2 ^ 32))).length = p.length :=
      splice_length _ _ _ (by rw [leBytes_length]; omega)
    obtain ⟨q, h1, h2⟩ := ih (i + 1) _ (by omega) (by rw [hl]; omega)
    exact ⟨q, h1, by rw [h2, hl]⟩

/-- When `remove_row` accesses memory outside the page. -/
theorem removeRow_ub {chk : Bool} {k i : Nat} {p : Bytes} (hk : k < 64) (hL : p.length < 2 ^ 63) :
    removeRow chk (2 ^ k) p i = .error .ub ↔ i + 1 < claimedRows p ∧ 4 * (claimedRows p + 1) ≤ p.length ∧
      claimedStart (2 ^ k) p (claimedRows p - 1) ≤ p.length ∧
      claimedStart (2 ^ k) p i ≤ claimedStart (2 ^ k) p (claimedRows p - 1) + claimedLimit (2 ^ k) p i ∧
      claimedStart (2 ^ k) p (claimedRows p - 1) + claimedLimit (2 ^ k) p i - claimedStart (2 ^ k) p i ≤ p.length ∧
      (if chk then claimedStart (2 ^ k) p (claimedRows p - 1) ≤ claimedStart (2 ^ k) p i ∧
          claimedStart (2 ^ k) p i ≤ claimedLimit (2 ^ k) p i ∧ p.length < claimedLimit (2 ^ k) p i
        else claimedStart (2 ^ k) p i < claimedStart (2 ^ k) p (claimedRows p - 1) ∨
          p.length < claimedStart (2 ^ k) p i ∨ p.length < claimedLimit (2 ^ k) p i) := by
  have hn := claimedRows_lt p
  have hli := claimedLimit_lt (2 ^ k) i hL
  have hlast := claimedStart_lt (2 ^ k) p (claimedRows p - 1)
  have hst := claimedStart_lt (2 ^ k) p i
  unfold removeRow
  simp only [bind_ub, assert_ub, numRows_ub, false_or, assert_ok, decide_eq_true_eq, numRows_iff, setNumRows_ub, and_false,
    exists_false, or_false]
  unfold removeShift
  constructor
  · rintro ⟨_, ⟨h1, rfl⟩, _, h2, h⟩
    split at h
    · rename_i hlt
      simp only [bind_ub, subW_ub, addW_ub, alignedRowOffset_ub, upperBound_ub, shiftDown_ub, false_or,
        alignedRowOffset_iff hk, upperBound_iff hk, moveBytes_ub] at h
      obtain ⟨_, ⟨_, g1, rfl⟩, _, ⟨g2, rfl⟩, _, ⟨_, g3, rfl⟩, d, g4, q, g5, n, g6, ds, g7, g8, g9, g10⟩ := h
      rw [shiftDown_len g5] at g8 g9 g10
      generalize claimedStart (2 ^ k) p (claimedRows p - 1) = last at *
      generalize claimedStart (2 ^ k) p i = st at *
      generalize claimedLimit (2 ^ k) p i = li at *
      generalize p.length = L at *
      generalize claimedRows p = nr at *
      clear g5 g1 g2
      refine ⟨by omega, by omega, g8, ?_⟩
      replace g4 := subW_iff.1 g4
      replace g6 := subW_iff.1 g6
      replace g7 := addW_iff.1 g7
      cases chk
      · simp only [Bool.false_eq_true, if_false]
        rcases g4 with ⟨a1, rfl⟩ | ⟨a1, _, rfl⟩ <;> rcases g6 with ⟨a2, rfl⟩ | ⟨a2, _, rfl⟩ <;>
          rcases g7 with ⟨a3, rfl⟩ | ⟨a3, _, rfl⟩ <;> omega
      · simp only [if_true]
        rcases g4 with ⟨a1, rfl⟩ | ⟨_, a1, _⟩
        · rcases g6 with ⟨a2, rfl⟩ | ⟨_, a2, _⟩
          · rcases g7 with ⟨a3, rfl⟩ | ⟨_, a3, _⟩
            · omega
            · cases a3
          · cases a2
        · cases a1
    · cases h
  · rintro ⟨h1, h2, h3, h4, h5, h6⟩
    refine ⟨_, ⟨by omega, rfl⟩, (), by omega, ?_⟩
    rw [if_pos (by omega)]
    simp only [bind_ub, subW_ub, addW_ub, alignedRowOffset_ub, upperBound_ub, shiftDown_ub, false_or,
        alignedRowOffset_iff hk, upperBound_iff hk, moveBytes_ub]
    have hshift : ∀ d, ∃ q, shiftDown d (i + 1) (claimedRows p - (i + 1)) p = .ok q ∧ q.length = p.length := fun d =>
      shiftDown_total d (i + 1) _ p (by omega) (by omega)
    refine ⟨_, ⟨by omega, by omega, rfl⟩, _, ⟨fun h0 => ⟨by omega, by omega⟩, rfl⟩, _, ⟨by omega, by omega, rfl⟩, ?_⟩
    have hchk : ∀ {b a : Nat}, chk = false ∨ b ≤ a → ∃ v, subW chk a b = .ok v ∧ (b ≤ a → v = a - b) ∧
        (a < b → v = a + W64 - b) := by
      intro b a h
      by_cases hab : b ≤ a
      · exact ⟨_, subW_ok hab, fun _ => rfl, fun h => by omega⟩
      · have hc := h.resolve_right hab
        exact ⟨_, subW_iff.2 (.inr ⟨by omega, hc, rfl⟩), fun h => absurd h hab, fun _ => rfl⟩
    have hadd : ∀ {a b : Nat}, chk = false ∨ a + b < W64 → ∃ v, addW chk a b = .ok v ∧ (a + b < W64 → v = a + b) ∧
        (W64 ≤ a + b → v = (a + b) % W64) := by
      intro a b h
      by_cases hab : a + b < W64
      · exact ⟨_, addW_iff.2 (.inl ⟨hab, rfl⟩), fun _ => rfl, fun h => by omega⟩
      · have hc := h.resolve_right hab
        exact ⟨_, addW_iff.2 (.inr ⟨by omega, hc, rfl⟩), fun h => absurd h hab, fun _ => rfl⟩
    generalize claimedStart (2 ^ k) p (claimedRows p - 1) = last at *
    generalize claimedStart (2 ^ k) p i = st at *
    generalize claimedLimit (2 ^ k) p i = li at *
    obtain ⟨d, hd, hd1, hd2⟩ := hchk (b := st) (a := li) (by
      cases chk
      · exact .inl rfl
      · simp only [if_true] at h6; omega)
    obtain ⟨n, hn', hn1, hn2⟩ := hchk (b := last) (a := st) (by
      cases chk
      · exact .inl rfl
      · simp only [if_true] at h6; omega)
    obtain ⟨ds, hds, hs1, hs2⟩ := hadd (a := last) (b := d) (by
      cases chk
      · exact .inl rfl
      · simp only [if_true] at h6; omega)
    obtain ⟨q, hq, hql⟩ := hshift d
    refine ⟨d, hd, q, hq, n, hn', ds, hds, ?_⟩
    rw [hql]
    clear hshift hchk hadd hd hn' hds hq
    generalize p.length = L at *
    generalize claimedRows p = nr at *
    cases chk
    · simp only [Bool.false_eq_true, if_false] at h6
      omega
    · simp only [if_true] at h6
      omega

theorem ordered_limit {a : Nat} {p : Bytes} (h : Ordered a p) {i : Nat} : ∀ {j : Nat}, i ≤ j → j ≤ claimedRows p →
    claimedLimit a p j ≤ claimedLimit a p i
  | 0, hij, _ => by rw [Nat.le_zero.1 hij]; exact Nat.le_refl _
  | j + 1, hij, hj => by
    rcases Nat.lt_or_ge j i with h1 | h1
    · rw [show i = j + 1 by omega]; exact Nat.le_refl _
    · exact Nat.le_trans (h j hj) (ordered_limit h h1 (by omega))

theorem getRow_inside {chk : Bool} {a i : Nat} {p r : Bytes} (h : getRow chk a p i = .ok r) :
    ∃ o, o + r.length ≤ p.length ∧ r = slice p o r.length := by
  simp only [getRow, Res.bind_eq_ok, assert_ok, Bool.and_eq_true, decide_eq_true_eq] at h
  obtain ⟨⟨o, pa⟩, _, nx, _, st, _, _, ⟨h1, h2⟩, h3⟩ := h
  cases h3
  have : (slice p o (st - o)).length = st - o := slice_length _ _ _ (by omega)
  exact ⟨o, by rw [this]; omega, by rw [this]⟩

end Verif.Nsm
