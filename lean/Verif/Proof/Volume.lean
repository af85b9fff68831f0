import Verif.Model.Volume
import Verif.Proof.Util

/-! # Facts about the storage arithmetic -/

namespace Verif.Storage

open Verif

/-! ## Locations -/

theorem and_offsetMask (x : Nat) : x &&& offsetMask = x % 2 ^ 56 :=
  Nat.and_two_pow_sub_one_eq_mod x 56

theorem Location.new_ok {i o : Nat} (hi : i < 256) (ho : o < 2 ^ 56) :
    Location.new i o = .ok (i * 2 ^ 56 + o) := by
  have h : i * 2 ^ 56 < W64 := by omega
  have e : 2 ^ 56 * i + o = 2 ^ 56 * i ||| o := Nat.two_pow_add_eq_or_of_lt ho i
  unfold Location.new
  rw [and_offsetMask, Nat.mod_eq_of_lt ho]
  simp only [beq_self_eq_true, assert_true, Res.bind_ok, Res.pure_eq, shiftBits]
  rw [Nat.mod_eq_of_lt h, Nat.mul_comm i, e]

theorem Location.new_bad {i o : Nat} (ho : ¬ o < 2 ^ 56) : Location.new i o = .error .panic := by
  unfold Location.new
  rw [and_offsetMask]
  have : (o % 2 ^ 56 == o) = false := by
    rw [beq_eq_false_iff_ne]
    have := Nat.mod_lt o (show 2 ^ 56 > 0 by decide)
    omega
  simp only [this]; rfl

theorem Location.index_eq (l : Nat) : Location.index l = l / 2 ^ 56 % 256 := by
  unfold Location.index shiftBits
  rw [Nat.shiftRight_eq_div_pow]

theorem Location.offset_eq (l : Nat) : Location.offset l = l % 2 ^ 56 := and_offsetMask l

/-! ## Arithmetic without overflow -/

theorem addW_ok {chk : Bool} {a b : Nat} (h : a + b < W64) : addW chk a b = .ok (a + b) := by
  unfold addW; rw [if_pos h]

theorem mulW_ok {chk : Bool} {a b : Nat} (h : a * b < W64) : mulW chk a b = .ok (a * b) := by
  unfold mulW; rw [if_pos h]

theorem divW_ok {a b : Nat} (h : 0 < b) : divW a b = .ok (a / b) := by
  unfold divW; rw [if_neg (by omega)]

theorem modW_ok {a b : Nat} (h : 0 < b) : modW a b = .ok (a % b) := by
  unfold modW; rw [if_neg (by omega)]

theorem shl1_ok {chk : Bool} {n : Nat} (h : n < 64) : shl1 chk n = .ok (2 ^ n) := by
  unfold shl1; rw [if_pos h]

theorem addN_ok {chk : Bool} {w a b : Nat} (h : a + b < 2 ^ w) : addN chk w a b = .ok (a + b) := by
  unfold addN; rw [if_pos h]

theorem subN_ok {chk : Bool} {w a b : Nat} (h : b ≤ a) : subN chk w a b = .ok (a - b) := by
  unfold subN; rw [if_pos h]

theorem calcFileBlocks_ok {chk : Bool} {s b : Nat} (hb : 0 < b) (h : s + b < W64) :
    calcFileBlocks chk s b = .ok ((s + b - 1) / b) := by
  unfold calcFileBlocks
  rw [addW_ok h]
  simp only [Res.bind_ok]
  rw [subW_ok (by omega)]
  simp only [Res.bind_ok]
  rw [divW_ok hb]

/-- Rounding up a quotient gives the least number of blocks. -/
theorem ceil_least {s b : Nat} (hb : 0 < b) :
    s ≤ (s + b - 1) / b * b ∧ ∀ m, s ≤ m * b → (s + b - 1) / b ≤ m := by
  have e := Nat.div_add_mod (s + b - 1) b
  have l := Nat.mod_lt (s + b - 1) hb
  rw [Nat.mul_comm] at e
  refine ⟨by omega, fun m hm => ?_⟩
  refine Nat.le_of_lt_succ ?_
  rw [Nat.div_lt_iff_lt_mul hb, Nat.succ_mul]
  omega

theorem ceil_mul_lt {s b : Nat} (hb : 0 < b) : (s + b - 1) / b * b < s + b := by
  have := Nat.div_mul_le_self (s + b - 1) b
  omega

/-- A number strictly between two powers of two is not a power of two. -/
theorem not_pow2_of_bounds {x : Nat} (n : Nat) (h1 : 2 ^ n < x) (h2 : x < 2 ^ (n + 1)) (k : Nat) : x ≠ 2 ^ k := by
  rintro rfl
  have a := (Nat.pow_lt_pow_iff_right (a := 2) (by omega)).1 h1
  have b := (Nat.pow_lt_pow_iff_right (a := 2) (by omega)).1 h2
  omega

theorem alignN_ok {chk : Bool} {w v k : Nat} (hk : k < w) (hv : v + 2 ^ k < 2 ^ w) :
    alignN chk w v (2 ^ k) = .ok (alignUp v (2 ^ k)) := by
  have hp := Nat.two_pow_pos k
  unfold alignN
  rw [addN_ok hv]
  simp only [Res.bind_ok]
  rw [subN_ok (by omega)]
  simp only [Res.bind_ok]
  rw [subN_ok (by omega)]
  simp only [Res.bind_ok, Res.pure_eq]
  have e : 2 ^ w - 1 - (2 ^ k - 1) = 2 ^ w - 2 ^ k := by omega
  rw [e, and_notMask _ _ _ (Nat.le_of_lt hk) (by omega)]
  rfl

/-! ## Regions -/

/-- The regions of a volume whose sizes do not overflow. -/
theorem regions_ok {chk : Bool} {p : Params} (hb : p.logBlock ≤ 32) (hh : p.logHeader ≤ 32)
    (hv : p.volumeSize < 2 ^ 63) (hd : 2 ^ p.logBlock ∣ p.volumeSize) :
    ∃ tb bb, tb = (2 ^ p.logHeader * 16 + 2 ^ p.logBlock - 1) / 2 ^ p.logBlock ∧
      bb = ((p.volumeSize / 2 ^ p.logBlock + 7) / 8 + 2 ^ p.logBlock - 1) / 2 ^ p.logBlock ∧
      tb ≤ 2 ^ 37 ∧
      regions chk p = .ok
        { blockSize := 2 ^ p.logBlock, tableOffset := 2 ^ p.logBlock, tableSize := 2 ^ p.logHeader * 16,
          tableBlocks := tb, mirrorOffset := 2 ^ p.logBlock + tb * 2 ^ p.logBlock,
          bitmapOffset := 2 ^ p.logBlock + tb * 2 ^ p.logBlock + tb,
          bitmapBits := p.volumeSize / 2 ^ p.logBlock, bitmapSize := (p.volumeSize / 2 ^ p.logBlock + 7) / 8,
          bitmapBlocks := bb, total := 1 + tb * 2 + bb } := by
  have hbp := Nat.two_pow_pos p.logBlock
  have hB : 2 ^ p.logBlock ≤ 2 ^ 32 := Nat.pow_le_pow_right (by omega) hb
  have hH : 2 ^ p.logHeader ≤ 2 ^ 32 := Nat.pow_le_pow_right (by omega) hh
  have hs1 := @shl1_ok chk p.logBlock (by omega)
  have hs2 := @shl1_ok chk p.logHeader (by omega)
  obtain ⟨vs, lb, lh⟩ := p
  simp only at *
  generalize hBB : 2 ^ lb = B at *
  generalize 2 ^ lh = H at *
  generalize htb : (H * 16 + B - 1) / B = tb
  have htb1 : tb * B < H * 16 + B := by
    have := Nat.div_mul_le_self (H * 16 + B - 1) B
    rw [htb] at this; omega
  have htb2 : tb ≤ 2 ^ 37 := by
    rw [← htb]
    have := Nat.div_le_self (H * 16 + B - 1) B
    omega
  have hq : vs / B ≤ vs := Nat.div_le_self ..
  generalize hbits : vs / B = bits at *
  generalize hbb : ((bits + 7) / 8 + B - 1) / B = bb
  have hbb2 : bb ≤ 2 ^ 61 + 2 ^ 32 := by
    rw [← hbb]
    have := Nat.div_le_self ((bits + 7) / 8 + B - 1) B
    omega
  refine ⟨tb, bb, rfl, rfl, htb2, ?_⟩
  have ha : alignN chk 64 bits 8 = .ok (alignUp bits (2 ^ 3)) := alignN_ok (k := 3) (by omega) (by omega)
  have hau : alignUp bits (2 ^ 3) >>> 3 = (bits + 7) / 8 := by
    rw [Nat.shiftRight_eq_div_pow, alignUp]
    simp
  have hc := @calcFileBlocks_ok chk ((bits + 7) / 8) B hbp (by omega)
  have hm : vs % B = 0 := Nat.mod_eq_zero_of_dvd hd
  unfold regions
  simp only [hs1, hs2, Res.bind_ok, numReserved]
  rw [mulW_ok (by omega)]
  simp only [Res.bind_ok]
  rw [addW_ok (by omega)]
  simp only [Res.bind_ok]
  rw [subW_ok (by omega)]
  simp only [Res.bind_ok]
  rw [divW_ok hbp, htb]
  simp only [Res.bind_ok]
  rw [mulW_ok (by omega)]
  simp only [Res.bind_ok]
  rw [addW_ok (by omega)]
  simp only [Res.bind_ok]
  rw [addW_ok (by omega)]
  simp only [Res.bind_ok]
  rw [modW_ok hbp, divW_ok hbp, hm, hbits]
  simp only [Res.bind_ok, beq_self_eq_true, assert_true]
  rw [ha]
  simp only [Res.bind_ok, hau]
  rw [hc, hbb]
  simp only [Res.bind_ok]
  rw [mulW_ok (by omega)]
  simp only [Res.bind_ok]
  rw [addW_ok (by omega)]
  simp only [Res.bind_ok]
  rw [addW_ok (by omega)]
  rfl

/-! ## The bitmap -/

theorem testBit_allOnes (b : Nat) : allOnes.testBit b = decide (b < 128) := by
  unfold allOnes; rw [Nat.testBit_two_pow_sub_one]

theorem testBit_maskLeft (t i b : Nat) (hb : b < 128) :
    (maskLeft t i (i + 128)).testBit b = decide (i ≤ t ∧ t < i + 128 → t ≤ i + b) := by
  unfold maskLeft
  split
  · rename_i h
    rw [Nat.testBit_mod_two_pow, Nat.testBit_shiftLeft, testBit_allOnes]
    simp only [hb, decide_true, Bool.true_and]
    by_cases h2 : t ≤ i + b
    · have h3 : b ≥ t - i := by omega
      have h4 : b - (t - i) < 128 := by omega
      simp [h2, h3, h4]
    · have h3 : ¬ b ≥ t - i := by omega
      have h4 : i ≤ t ∧ t < i + 128 := ⟨h.1, h.2⟩
      simp [h2, h3, h4]
  · rename_i h
    rw [testBit_allOnes]
    have h4 : ¬ (i ≤ t ∧ t < i + 128) := h
    simp [hb, h4]

theorem testBit_maskRight (m i b : Nat) (hb : b < 128) :
    (maskRight m i (i + 128)).testBit b = decide (i ≤ m ∧ m < i + 128 → (m - i) + b < 128) := by
  unfold maskRight
  split
  · rename_i h
    rw [Nat.testBit_shiftRight, testBit_allOnes]
    have h4 : i ≤ m ∧ m < i + 128 := ⟨h.1, h.2⟩
    simp [h4]
  · rename_i h
    rw [testBit_allOnes]
    have h4 : ¬ (i ≤ m ∧ m < i + 128) := h
    simp [hb, h4]

/-- The word of the bitmap that starts at bit `i`. -/
def bitmapWord (t m i : Nat) : Nat := maskLeft t i (i + 128) &&& maskRight m i (i + 128)

theorem testBit_bitmapWord (t m i b : Nat) (hb : b < 128) :
    (bitmapWord t m i).testBit b = true ↔
      (i ≤ t ∧ t < i + 128 → t ≤ i + b) ∧ (i ≤ m ∧ m < i + 128 → (m - i) + b < 128) := by
  unfold bitmapWord
  rw [Nat.testBit_and, testBit_maskLeft _ _ _ hb, testBit_maskRight _ _ _ hb, Bool.and_eq_true,
    decide_eq_true_iff, decide_eq_true_iff]

theorem bitmapWords_ok {chk : Bool} {t m : Nat} (n : Nat) : ∀ i, i + 128 * n < W64 →
    bitmapWords chk t m n i = .ok ((List.range n).map (fun w => bitmapWord t m (i + 128 * w)), i + 128 * n) := by
  induction n with
  | zero => intro i _; rfl
  | succ n ih =>
    intro i h
    unfold bitmapWords
    rw [addW_ok (by omega)]
    simp only [Res.bind_ok]
    rw [ih (i + 128) (by omega)]
    simp only [Res.bind_ok, Res.pure_eq]
    rw [List.range_succ_eq_map, List.map_cons, List.map_map]
    congr 2
    · congr 1
      apply List.map_congr_left
      intro w _
      simp only [Function.comp]
      congr 1; omega
    · omega

theorem bitmapBlocks_ok {chk : Bool} {t m w : Nat} (n : Nat) : ∀ i, i + 128 * w * n < W64 →
    ∃ bs, bitmapBlocks chk t m w n i = .ok bs ∧ bs.length = n ∧ (∀ b ∈ bs, b.length = w) ∧
      bs.flatten = (List.range (w * n)).map (fun g => bitmapWord t m (i + 128 * g)) := by
  induction n with
  | zero => intro i _; exact ⟨[], rfl, rfl, by simp, by simp⟩
  | succ n ih =>
    intro i h
    have e : 128 * w * (n + 1) = 128 * w + 128 * w * n := by rw [Nat.mul_succ]; omega
    obtain ⟨bs, h1, h2, h3, h4⟩ := ih (i + 128 * w) (by omega)
    refine ⟨(List.range w).map (fun g => bitmapWord t m (i + 128 * g)) :: bs, ?_, ?_, ?_, ?_⟩
    · unfold bitmapBlocks
      rw [bitmapWords_ok w i (by omega)]
      simp only [Res.bind_ok]
      rw [h1]; rfl
    · simp [h2]
    · intro b hb
      rcases List.mem_cons.1 hb with hb | hb
      · rw [hb]; simp
      · exact h3 b hb
    · rw [List.flatten_cons, h4, Nat.mul_succ, Nat.add_comm (w * n) w, List.range_add, List.map_append,
        List.map_map]
      congr 1
      apply List.map_congr_left
      intro g _
      simp only [Function.comp]
      congr 1; omega

end Verif.Storage
