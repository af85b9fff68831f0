import Verif.Spec.Volume
import Verif.Proof.Volume

/-! # Properties of volumes: `src/storage/mod.rs` L31-643 and `src/storage/utils.rs` -/

namespace Verif.Props

open Verif Verif.Storage

/-! ## C44 -/

/-- C44. A location returns the index and the offset it was built from, distinct pairs give distinct locations,
locations are ordered by index and then by offset, and an offset of 2^56 or more is refused by a panic. -/
theorem C44_location :
    (∀ i o, i < 256 → o < 2 ^ 56 →
      ∃ l, Location.new i o = .ok l ∧ l < 2 ^ 64 ∧ Location.index l = i ∧ Location.offset l = o) ∧
    (∀ i o, 2 ^ 56 ≤ o → Location.new i o = .error .panic) ∧
    (∀ i o i' o' l, i < 256 → i' < 256 → Location.new i o = .ok l → Location.new i' o' = .ok l →
      i = i' ∧ o = o') ∧
    (∀ i o i' o' l l', i < 256 → i' < 256 → Location.new i o = .ok l → Location.new i' o' = .ok l' →
      (l < l' ↔ i < i' ∨ i = i' ∧ o < o')) ∧
    (∀ l, l < 2 ^ 64 → Location.new (Location.index l) (Location.offset l) = .ok l) := by
  have inv : ∀ i o l, i < 256 → Location.new i o = .ok l → o < 2 ^ 56 ∧ l = i * 2 ^ 56 + o := by
    intro i o l hi h
    by_cases ho : o < 2 ^ 56
    · rw [Location.new_ok hi ho] at h
      injection h with h
      exact ⟨ho, h.symm⟩
    · rw [Location.new_bad ho] at h; cases h
  refine ⟨?_, ?_, ?_, ?_, ?_⟩
  · intro i o hi ho
    refine ⟨_, Location.new_ok hi ho, by omega, ?_, ?_⟩
    · rw [Location.index_eq]; omega
    · rw [Location.offset_eq]; omega
  · intro i o ho; exact Location.new_bad (by omega)
  · intro i o i' o' l hi hi' h h'
    obtain ⟨h1, h2⟩ := inv _ _ _ hi h
    obtain ⟨h3, h4⟩ := inv _ _ _ hi' h'
    omega
  · intro i o i' o' l l' hi hi' h h'
    obtain ⟨h1, h2⟩ := inv _ _ _ hi h
    obtain ⟨h3, h4⟩ := inv _ _ _ hi' h'
    omega
  · intro l hl
    have h1 : Location.index l < 256 := by rw [Location.index_eq]; omega
    have h2 : Location.offset l < 2 ^ 56 := by rw [Location.offset_eq]; omega
    rw [Location.new_ok h1 h2, Location.index_eq, Location.offset_eq]
    congr 1; omega

example : Location.new 3 4096 = .ok 216172782113787904 ∧ Location.new 3 (2 ^ 56) = .error .panic ∧
    Location.index 216172782113787904 = 3 ∧ Location.offset 216172782113787904 = 4096 := by decide

/-! ## C45 -/

/-- C45. `calc_file_blocks` returns the least number of blocks that holds the bytes, whenever the size plus the
block size is below 2^64. A block size of zero panics in both overflow modes, unless the subtraction panics
first.

Full statement: the same without the bound; `C45_blocks_refuted` shows that it is false. -/
theorem C45_blocks_partial (chk : Bool) (s b : Nat) :
    (0 < b → s + b < 2 ^ 64 → ∃ n, calcFileBlocks chk s b = .ok n ∧ Spec.LeastBlocks s b n) ∧
    (b = 0 → s < 2 ^ 64 → calcFileBlocks chk s b = .error .panic) := by
  refine ⟨fun hb h => ⟨_, calcFileBlocks_ok hb h, ceil_least hb⟩, ?_⟩
  rintro rfl hs
  have h1 : s + 0 < 18446744073709551616 := hs
  cases s with
  | zero => cases chk <;> rfl
  | succ s =>
    unfold calcFileBlocks
    rw [addW_ok h1]
    simp only [Res.bind_ok]
    rw [subW_ok (by omega)]
    simp only [Res.bind_ok]
    unfold divW
    rw [if_pos rfl]

/-- The result of `calc_file_blocks` when the sum does not fit in 64 bits: a panic with overflow checks; without
them, the wrapped sum is divided, which is too small for every sum above 2^64. -/
theorem C45_blocks_overflow (s b : Nat) (hs : s < 2 ^ 64) (hb : b < 2 ^ 64) (h : 2 ^ 64 < s + b) :
    calcFileBlocks true s b = .error .panic ∧
    calcFileBlocks false s b = .ok ((s + b - 2 ^ 64 - 1) / b) ∧ ¬ s ≤ (s + b - 2 ^ 64 - 1) / b * b := by
  have h1 : ¬ s + b < 18446744073709551616 := by omega
  refine ⟨?_, ?_, ?_⟩
  · unfold calcFileBlocks addW; rw [if_neg h1, if_pos rfl, Res.bind_error]
  · unfold calcFileBlocks addW; rw [if_neg h1]
    have e : (s + b) % 18446744073709551616 = s + b - 2 ^ 64 := by omega
    rw [if_neg Bool.false_ne_true, e, Res.bind_ok]
    rw [subW_ok (by omega)]
    simp only [Res.bind_ok]
    rw [divW_ok (by omega)]
  · have := Nat.div_mul_le_self (s + b - 2 ^ 64 - 1) b
    omega

example : calcFileBlocks true 4097 4096 = .ok 2 ∧ calcFileBlocks true 8192 4096 = .ok 2 ∧
    Spec.LeastBlocks 4097 4096 2 := ⟨rfl, rfl, by decide, fun m h => by omega⟩

/-- C45 does not hold for sizes near 2^64: without overflow checks 2^64 - 1 bytes are given no block at all. -/
theorem C45_blocks_refuted :
    ¬ ∀ chk s b, s < 2 ^ 64 → 0 < b → b < 2 ^ 64 → ∃ n, calcFileBlocks chk s b = .ok n ∧ Spec.LeastBlocks s b n := by
  intro h
  obtain ⟨n, h1, h2, _⟩ := h false (2 ^ 64 - 1) 4096 (by decide) (by decide) (by decide)
  have e : calcFileBlocks false (2 ^ 64 - 1) 4096 = .ok 0 := rfl
  rw [e] at h1
  injection h1 with h1
  subst h1
  omega

/-! ## C72: the alignment functions of the storage module -/

/-- C72. `align_u8`, `align_u16`, `align_u32`, `align_u64`, `align_usize` and `align_u128` (`w` bits) return the
least multiple of a power of two that is not below the value, whenever the sum of the two fits in the type; with
overflow checks they panic when it does not. -/
theorem C72_align (w : Nat) (chk : Bool) (v a : Nat) (ha : ∃ k, k < w ∧ a = 2 ^ k) :
    (v + a < 2 ^ w → ∃ r, alignN chk w v a = .ok r ∧ a ∣ r ∧ v ≤ r ∧ ∀ m, a ∣ m → v ≤ m → r ≤ m) ∧
    (2 ^ w ≤ v + a → alignN true w v a = .error .panic) := by
  obtain ⟨k, hk, rfl⟩ := ha
  have hp := Nat.two_pow_pos k
  refine ⟨fun h => ⟨_, alignN_ok hk h, alignUp_dvd _ _, le_alignUp _ hp,
    fun m h1 h2 => alignUp_le_of_dvd hp h1 h2⟩, fun h => ?_⟩
  unfold alignN addN
  rw [if_neg (by omega)]
  rfl

example : alignN true 8 13 4 = .ok 16 ∧ alignN true 8 253 4 = .error .panic ∧ alignN true 128 4097 4096 = .ok 8192 :=
  ⟨rfl, rfl, rfl⟩

/-- C72 without overflow checks: the result is the least multiple that is not below the value, reduced modulo
2^w, for all values. -/
theorem C72_align_wraps (w v a : Nat) (ha : ∃ k, k < w ∧ a = 2 ^ k) (hv : v < 2 ^ w) :
    ∃ r, alignN false w v a = .ok (r % 2 ^ w) ∧ a ∣ r ∧ v ≤ r ∧ ∀ m, a ∣ m → v ≤ m → r ≤ m := by
  obtain ⟨k, hk, rfl⟩ := ha
  have hp := Nat.two_pow_pos k
  have hpw : 2 ^ k < 2 ^ w := (Nat.pow_lt_pow_iff_right (by omega)).2 hk
  refine ⟨alignUp v (2 ^ k), ?_, alignUp_dvd _ _, le_alignUp _ hp, fun m h1 h2 => alignUp_le_of_dvd hp h1 h2⟩
  obtain ⟨c, hc⟩ : 2 ^ k ∣ 2 ^ w := Nat.pow_dvd_pow 2 (Nat.le_of_lt hk)
  by_cases h : v + 2 ^ k < 2 ^ w
  · rw [alignN_ok hk h, Nat.mod_eq_of_lt]
    unfold alignUp
    have := Nat.div_mul_le_self (v + 2 ^ k - 1) (2 ^ k)
    omega
  · have e1 : addN false w v (2 ^ k) = .ok (v + 2 ^ k - 2 ^ w) := by
      unfold addN
      rw [if_neg h, if_neg Bool.false_ne_true, Nat.mod_eq_sub_mod (by omega), Nat.mod_eq_of_lt (by omega)]
    have e2 : subN false w (2 ^ k) 1 = .ok (2 ^ k - 1) := subN_ok (by omega)
    have e3 : 2 ^ w - 1 - (2 ^ k - 1) = 2 ^ w - 2 ^ k := by omega
    unfold alignN
    by_cases hz : v + 2 ^ k = 2 ^ w
    · have e4 : subN false w (v + 2 ^ k - 2 ^ w) 1 = .ok (2 ^ w - 1) := by
        unfold subN
        rw [if_neg (by omega), if_neg Bool.false_ne_true, show v + 2 ^ k - 2 ^ w = 0 by omega, Nat.zero_add]
      rw [e1, Res.bind_ok, e4, Res.bind_ok, e2, Res.bind_ok, Res.pure_eq, e3,
        and_notMask _ _ _ (Nat.le_of_lt hk) (by omega), alignUp, hz, Nat.mod_eq_of_lt]
      have := Nat.div_mul_le_self (2 ^ w - 1) (2 ^ k)
      omega
    · have e4 : subN false w (v + 2 ^ k - 2 ^ w) 1 = .ok (v + 2 ^ k - 2 ^ w - 1) := subN_ok (by omega)
      rw [e1, Res.bind_ok, e4, Res.bind_ok, e2, Res.bind_ok, Res.pure_eq, e3,
        and_notMask _ _ _ (Nat.le_of_lt hk) (by omega), Nat.div_eq_of_lt (by omega), Nat.zero_mul]
      have : alignUp v (2 ^ k) = 2 ^ w := by
        apply Nat.le_antisymm
        · exact alignUp_le_of_dvd hp ⟨c, hc⟩ (by omega)
        · obtain ⟨d, hd⟩ := alignUp_dvd v (2 ^ k)
          have h1 := le_alignUp v hp
          rw [hd] at h1 ⊢
          rw [hc] at h hz hpw ⊢
          have : c - 1 < d := by
            apply Nat.lt_of_mul_lt_mul_left (a := 2 ^ k)
            rw [Nat.mul_sub, Nat.mul_one]
            omega
          exact Nat.mul_le_mul_left _ (by omega)
      rw [this, Nat.mod_self]

example : alignN false 8 253 4 = .ok 0 ∧ alignN false 8 252 4 = .ok 252 ∧ alignN false 8 250 4 = .ok 252 := ⟨rfl, rfl, rfl⟩

/-- Unlike `util::align` these functions do not check the alignment: for other alignments the result need not be
a multiple of it. -/
theorem C72_align_unchecked : ∃ r, alignN true 64 5 6 = .ok r ∧ ¬ 6 ∣ r := ⟨10, rfl, by decide⟩

/-! ## C55 -/

/-- Parameters whose sizes cannot overflow 64 bits: blocks and headers of up to 4 GiB (the limits in the source
are 256 KiB and the block size), volumes of less than 2^63 bytes, and a whole number of blocks. -/
structure Sane (p : Params) : Prop where
  block : p.logBlock ≤ 32
  header : p.logHeader ≤ 32
  size : p.volumeSize < 2 ^ 63
  whole : 2 ^ p.logBlock ∣ p.volumeSize

/-- The ranges written by `VolumeManager::create`. -/
def headerRange (r : Regions) : Spec.Range := ⟨0, r.blockSize⟩
def tableRange (r : Regions) : Spec.Range := ⟨r.tableOffset, r.tableBlocks * r.blockSize⟩
def mirrorRange (r : Regions) : Spec.Range := ⟨r.mirrorOffset, r.tableBlocks * r.blockSize⟩
def bitmapRange (r : Regions) : Spec.Range := ⟨r.bitmapOffset, r.bitmapBlocks * r.blockSize⟩

/-- A 1 MiB volume with blocks of 4096 bytes and file headers of 1024 bytes. -/
def smallVolume : Params := ⟨1048576, 12, 10⟩

theorem smallVolume_sane : Sane smallVolume := ⟨by decide, by decide, by decide, by decide⟩

/-- C55. The header block, the file table and its mirror occupy disjoint, block aligned ranges; the table is
large enough for its 16 records; the bitmap is large enough for one bit per block; and all are inside the volume
if the volume has at least as many blocks as the metadata.

Full statement: the same for the bitmap, and inside every volume; `C55_bitmap_refuted` and
`C55_outside_refuted` show that both are false. -/
theorem C55_regions_partial (chk : Bool) (p : Params) (h : Sane p) :
    ∃ r, regions chk p = .ok r ∧
      (headerRange r).Apart (tableRange r) ∧ (headerRange r).Apart (mirrorRange r) ∧
      (tableRange r).Apart (mirrorRange r) ∧
      (headerRange r).Aligned (2 ^ p.logBlock) ∧ (tableRange r).Aligned (2 ^ p.logBlock) ∧
      (mirrorRange r).Aligned (2 ^ p.logBlock) ∧
      16 * 2 ^ p.logHeader ≤ (tableRange r).len ∧
      p.volumeSize / 2 ^ p.logBlock ≤ 8 * (bitmapRange r).len ∧
      r.total * 2 ^ p.logBlock = (headerRange r).len + (tableRange r).len + (mirrorRange r).len + (bitmapRange r).len ∧
      (r.total * 2 ^ p.logBlock ≤ p.volumeSize →
        (headerRange r).Inside p.volumeSize ∧ (tableRange r).Inside p.volumeSize ∧
        (mirrorRange r).Inside p.volumeSize) := by
  obtain ⟨tb, bb, h1, h2, _, h4⟩ := @regions_ok chk p h.block h.header h.size h.whole
  refine ⟨_, h4, ?_⟩
  have hp := Nat.two_pow_pos p.logBlock
  have t := (ceil_least (s := 2 ^ p.logHeader * 16) hp).1
  have b := (ceil_least (s := (p.volumeSize / 2 ^ p.logBlock + 7) / 8) hp).1
  rw [← h1] at t
  rw [← h2] at b
  simp only [headerRange, tableRange, mirrorRange, bitmapRange, Spec.Range.Apart, Spec.Range.Has,
    Spec.Range.Aligned, Spec.Range.Inside]
  have e : (1 + tb * 2 + bb) * 2 ^ p.logBlock =
      2 ^ p.logBlock + tb * 2 ^ p.logBlock + tb * 2 ^ p.logBlock + bb * 2 ^ p.logBlock := by
    rw [Nat.add_mul, Nat.add_mul, Nat.mul_assoc, Nat.mul_left_comm, Nat.one_mul]; omega
  rw [e]
  have d1 : 2 ^ p.logBlock ∣ 2 ^ p.logBlock + tb * 2 ^ p.logBlock :=
    Nat.dvd_add (Nat.dvd_refl _) (Nat.dvd_mul_left ..)
  refine ⟨?_, ?_, ?_, ⟨Nat.dvd_zero _, Nat.dvd_refl _⟩, ⟨Nat.dvd_refl _, Nat.dvd_mul_left ..⟩,
    ⟨d1, Nat.dvd_mul_left ..⟩, ?_, ?_, ?_, ?_⟩
  · intro x; omega
  · intro x; omega
  · intro x; omega
  · omega
  · omega
  · rfl
  · intro hv
    refine ⟨?_, ?_, ?_⟩ <;> intro x <;> omega

example : Sane smallVolume ∧ regions true smallVolume = .ok
    ⟨4096, 4096, 16384, 4, 20480, 20484, 256, 32, 1, 10⟩ ∧ 10 * 4096 ≤ smallVolume.volumeSize :=
  ⟨smallVolume_sane, by decide, by decide⟩

/-- C55 fails for the bitmap: with blocks of more than one byte it overlaps the mirror of the file table in every
non-empty volume, because its offset is the mirror's plus the *number* of its blocks; and with headers not larger
than blocks of at least 32 bytes it is not block aligned. -/
theorem C55_bitmap_refuted (chk : Bool) (p : Params) (h : Sane p) (hb : 0 < p.logBlock) (hv : 0 < p.volumeSize) :
    ∃ r, regions chk p = .ok r ∧ ¬ (mirrorRange r).Apart (bitmapRange r) ∧
      (p.logHeader ≤ p.logBlock → 5 ≤ p.logBlock → ¬ (bitmapRange r).Aligned (2 ^ p.logBlock)) := by
  obtain ⟨tb, bb, h1, h2, _, h4⟩ := @regions_ok chk p h.block h.header h.size h.whole
  refine ⟨_, h4, ?_, ?_⟩
  · have hp : 2 ^ 1 ≤ 2 ^ p.logBlock := Nat.pow_le_pow_right (by omega) hb
    have hH := Nat.two_pow_pos p.logHeader
    have t := (ceil_least (s := 2 ^ p.logHeader * 16) (Nat.two_pow_pos p.logBlock)).1
    have b := (ceil_least (s := (p.volumeSize / 2 ^ p.logBlock + 7) / 8) (Nat.two_pow_pos p.logBlock)).1
    rw [← h1] at t
    rw [← h2] at b
    have hq : 0 < p.volumeSize / 2 ^ p.logBlock :=
      Nat.div_pos (Nat.le_of_dvd hv h.whole) (Nat.two_pow_pos _)
    have htb : 0 < tb := by
      rcases Nat.eq_zero_or_pos tb with z | z
      · rw [z] at t; omega
      · exact z
    have hlt : tb < tb * 2 ^ p.logBlock :=
      Nat.lt_of_lt_of_le (by omega) (Nat.mul_le_mul_left tb hp)
    intro ha
    refine ha (2 ^ p.logBlock + tb * 2 ^ p.logBlock + tb) ⟨⟨?_, ?_⟩, ⟨?_, ?_⟩⟩
    · show 2 ^ p.logBlock + tb * 2 ^ p.logBlock ≤ _; omega
    · show _ < 2 ^ p.logBlock + tb * 2 ^ p.logBlock + tb * 2 ^ p.logBlock; omega
    · exact Nat.le_refl _
    · show _ < 2 ^ p.logBlock + tb * 2 ^ p.logBlock + tb + bb * 2 ^ p.logBlock; omega
  · intro hl h5 ⟨ha, _⟩
    have hle : 2 ^ p.logHeader ≤ 2 ^ p.logBlock := Nat.pow_le_pow_right (by omega) hl
    have h32 : 2 ^ 5 ≤ 2 ^ p.logBlock := Nat.pow_le_pow_right (by omega) h5
    have hH := Nat.two_pow_pos p.logHeader
    have ht : tb ≤ 16 := by
      rw [h1]
      exact (ceil_least (Nat.two_pow_pos _)).2 16 (by omega)
    have ht0 : 0 < tb := by
      have t := (ceil_least (s := 2 ^ p.logHeader * 16) (Nat.two_pow_pos p.logBlock)).1
      rw [← h1] at t
      rcases Nat.eq_zero_or_pos tb with z | z
      · rw [z] at t; omega
      · exact z
    have d1 : 2 ^ p.logBlock ∣ 2 ^ p.logBlock + tb * 2 ^ p.logBlock :=
      Nat.dvd_add (Nat.dvd_refl _) (Nat.dvd_mul_left ..)
    have d2 : 2 ^ p.logBlock ∣ tb := (Nat.dvd_add_right d1).1 ha
    have := Nat.le_of_dvd ht0 d2
    omega

example : Sane smallVolume ∧ 0 < smallVolume.logBlock ∧ smallVolume.logHeader ≤ smallVolume.logBlock ∧
    5 ≤ smallVolume.logBlock ∧ 0 < smallVolume.volumeSize := ⟨smallVolume_sane, by decide⟩

/-- C55 fails inside the volume: nothing checks that the volume has room for the metadata. A volume of one
4096-byte block is accepted, and its file table lies outside. -/
theorem C55_outside_refuted : ∃ p r, Sane p ∧ regions true p = .ok r ∧ ¬ (tableRange r).Inside p.volumeSize :=
  ⟨⟨4096, 12, 10⟩, _, ⟨by decide, by decide, by decide, by decide⟩, rfl,
    fun h => absurd (h 4096 (by unfold Spec.Range.Has; decide)) (by decide)⟩

/-! ## C56 -/

/-- C56, what the code writes: bit `j` of the bitmap is set exactly when neither mask of its word clears it. The
left mask is only applied in the word that contains the number of used blocks; the right mask is only applied in
the word that contains the number of blocks, and then keeps as many bits as it should clear. -/
theorem C56_written (chk : Bool) (p : Params) (h : Sane p) (hb : 4 ≤ p.logBlock) :
    ∃ r bs, regions chk p = .ok r ∧ bitmap chk p = .ok bs ∧ bs.length = r.bitmapBlocks ∧
      (∀ b ∈ bs, b.length * 16 = 2 ^ p.logBlock) ∧ bs.flatten.length * 128 = 8 * (bitmapRange r).len ∧
      ∀ j, j < bs.flatten.length * 128 → (Spec.wordsBit bs.flatten j = true ↔
        (r.total / 128 = j / 128 → r.total ≤ j) ∧
        (r.bitmapBits / 128 = j / 128 → r.bitmapBits % 128 + j % 128 < 128)) := by
  obtain ⟨tb, bb, h1, h2, h3, h4⟩ := @regions_ok chk p h.block h.header h.size h.whole
  have hB : 2 ^ p.logBlock ≤ 2 ^ 32 := Nat.pow_le_pow_right (by omega) h.block
  obtain ⟨w, hw⟩ : ∃ w, 2 ^ p.logBlock = 16 * w :=
    Nat.pow_dvd_pow 2 hb
  have hbb : bb * 2 ^ p.logBlock < (p.volumeSize / 2 ^ p.logBlock + 7) / 8 + 2 ^ p.logBlock := by
    rw [h2]; exact ceil_mul_lt (Nat.two_pow_pos _)
  have hvs : p.volumeSize / 2 ^ p.logBlock ≤ p.volumeSize / 16 := by
    apply Nat.div_le_div_left _ (by decide)
    exact Nat.pow_le_pow_right (n := 2) (by omega) hb
  have hsz := h.size
  have e : 128 * w * bb = 8 * (bb * 2 ^ p.logBlock) := by
    rw [hw, Nat.mul_comm bb, Nat.mul_assoc 16, Nat.mul_assoc 128]; omega
  obtain ⟨bs, g1, g2, g3, g4⟩ := @bitmapBlocks_ok chk (1 + tb * 2 + bb) (p.volumeSize / 2 ^ p.logBlock) w bb 0
    (by rw [e]; omega)
  refine ⟨_, bs, h4, ?_, g2, ?_, ?_, ?_⟩
  · unfold bitmap
    rw [h4]
    simp only [Res.bind_ok]
    rw [mulW_ok (by omega)]
    simp only [Res.bind_ok]
    rw [show 2 ^ p.logBlock * 8 / 128 = w by omega]
    exact g1
  · intro b hb
    rw [g3 b hb, hw]; omega
  · rw [g4, List.length_map, List.length_range]
    simp only [bitmapRange]
    rw [← e]
    rw [Nat.mul_comm, Nat.mul_assoc]
  · intro j hj
    rw [g4, List.length_map, List.length_range] at hj
    have hj2 : j / 128 < w * bb := by omega
    have hw2 : (bs.flatten[j / 128]?).getD 0 =
        bitmapWord (1 + tb * 2 + bb) (p.volumeSize / 2 ^ p.logBlock) (128 * (j / 128)) := by
      rw [g4, List.getElem?_map, List.getElem?_range hj2]
      simp
    simp only [Spec.wordsBit]
    rw [hw2, testBit_bitmapWord _ _ _ _ (by omega)]
    constructor
    · rintro ⟨a, b⟩
      exact ⟨fun c => by omega, fun c => by have := b (by omega); omega⟩
    · rintro ⟨a, b⟩
      exact ⟨fun c => by omega, fun c => by have := b (by omega); omega⟩

/-- C56, exactly when the bits are right. The bit of every existing block is set exactly when the metadata does not use
it, if and only if the metadata uses fewer than 128 blocks and either no block is free or the number of blocks is at most
64 above a multiple of 128. The bits of the blocks that do not exist are clear as well if and only if, in addition, the
bitmap ends with the last block, or in the word after it and the mask of that word clears the rest.

Full statement: both without any restriction; `C56_bitmap_refuted` shows that it is false. -/
theorem C56_bitmap_partial (chk : Bool) (p : Params) (h : Sane p) (hb : 4 ≤ p.logBlock) (hv : 0 < p.volumeSize) :
    ∃ r bs blocks bits, regions chk p = .ok r ∧ bitmap chk p = .ok bs ∧ blocks * 2 ^ p.logBlock = p.volumeSize ∧
      bits = bs.flatten.length * 128 ∧
      ((∀ j, j < blocks → (Spec.wordsBit bs.flatten j = true ↔ r.total ≤ j)) ↔
        r.total < 128 ∧ (blocks ≤ r.total ∨ blocks % 128 ≤ 64)) ∧
      ((∀ j, j < bits → (Spec.wordsBit bs.flatten j = true ↔ r.total ≤ j ∧ j < blocks)) ↔
        r.total < 128 ∧ (blocks ≤ r.total ∨ blocks % 128 ≤ 64) ∧
        (bits = blocks ∨
          bits = 128 * (blocks / 128 + 1) ∧ (64 ≤ blocks % 128 ∨ blocks < r.total ∧ 128 ≤ blocks + r.total))) := by
  obtain ⟨r, bs, h1, h2, _, _, h5, h6⟩ := C56_written chk p h hb
  refine ⟨r, bs, p.volumeSize / 2 ^ p.logBlock, _, h1, h2, Nat.div_mul_cancel h.whole, rfl, ?_⟩
  obtain ⟨tb, bb, _, _, _, g4⟩ := @regions_ok chk p h.block h.header h.size h.whole
  obtain ⟨r', q1, _, _, _, _, _, _, _, q9, _⟩ := C55_regions_partial chk p h
  rw [h1] at q1
  injection q1 with q1
  subst q1
  have hbits : r.bitmapBits = p.volumeSize / 2 ^ p.logBlock := by
    rw [g4] at h1
    injection h1 with h1
    rw [← h1]
  have hpos : 0 < p.volumeSize / 2 ^ p.logBlock :=
    Nat.div_pos (Nat.le_of_dvd hv h.whole) (Nat.two_pow_pos _)
  rw [hbits] at h6
  generalize p.volumeSize / 2 ^ p.logBlock = n at *
  rw [← h5] at q9
  generalize bs.flatten.length = l at *
  generalize r.total = t at *
  have first : (∀ j, j < n → (Spec.wordsBit bs.flatten j = true ↔ t ≤ j)) ↔ t < 128 ∧ (n ≤ t ∨ n % 128 ≤ 64) := by
    constructor
    · intro ha
      have ht : t < 128 := by
        have h0 := ha 0 hpos
        rw [h6 0 (by omega)] at h0
        apply Nat.lt_of_not_le
        intro hc
        have := h0.1 ⟨by omega, by omega⟩
        omega
      refine ⟨ht, ?_⟩
      rcases Nat.lt_or_ge t n with hn | hn
      · have h0 := ha (n - 1) (by omega)
        rw [h6 _ (by omega)] at h0
        have := (h0.2 (by omega)).2
        omega
      · exact .inl hn
    · rintro ⟨ht, hm⟩ j hj
      rw [h6 j (by omega)]
      constructor
      · rintro ⟨a, b⟩
        by_cases c : t / 128 = j / 128
        · exact a c
        · omega
      · intro a
        exact ⟨fun _ => a, fun c => by omega⟩
  refine ⟨first, ?_⟩
  constructor
  · intro ha
    obtain ⟨ht, hm⟩ := first.1 fun j hj => by
      rw [ha j (by omega)]; exact ⟨fun c => c.1, fun c => ⟨c, hj⟩⟩
    refine ⟨ht, hm, ?_⟩
    have clear : ∀ j, n ≤ j → j < l * 128 →
        ¬ ((t / 128 = j / 128 → t ≤ j) ∧ (n / 128 = j / 128 → n % 128 + j % 128 < 128)) := by
      intro j h1 h2 hc
      rw [← h6 j h2, ha j h2] at hc
      omega
    rcases Nat.lt_or_ge n (l * 128) with hl | hl
    · right
      have c1 : l * 128 = 128 * (n / 128 + 1) := by
        rcases Nat.lt_or_ge (128 * (n / 128 + 1)) (l * 128) with hw | hw
        · exact absurd ⟨by omega, by omega⟩ (clear (128 * (n / 128 + 1)) (by omega) hw)
        · omega
      refine ⟨c1, ?_⟩
      rcases Nat.lt_or_ge n t with hnt | hnt
      · by_cases h64 : 64 ≤ n % 128
        · exact .inl h64
        · right
          refine ⟨hnt, ?_⟩
          apply Nat.le_of_not_lt
          intro hc
          exact clear t (by omega) (by omega) ⟨fun _ => Nat.le_refl _, fun _ => by omega⟩
      · left
        apply Nat.le_of_not_lt
        intro hc
        exact clear n (Nat.le_refl _) hl ⟨fun _ => hnt, fun _ => by omega⟩
    · left; omega
  · rintro ⟨ht, hm, hc⟩ j hj
    rcases Nat.lt_or_ge j n with hjn | hjn
    · rw [first.2 ⟨ht, hm⟩ j hjn]
      exact ⟨fun c => ⟨c, hjn⟩, fun c => c.1⟩
    · rw [h6 j hj]
      constructor
      · rintro ⟨a, b⟩
        exfalso
        have hjw : n / 128 = j / 128 := by omega
        have := b hjw
        by_cases hw : t / 128 = j / 128
        · have := a hw
          omega
        · omega
      · rintro ⟨_, b⟩; omega

/-- C56 instances: with blocks of 4096 bytes and headers of 1024 bytes (metadata of 10 blocks) all bits are right in a
volume of 128 MiB, whose bitmap ends with the last block; in one of 1 MiB those of the existing blocks are. -/
example : Sane ⟨134217728, 12, 10⟩ ∧
    regions false ⟨134217728, 12, 10⟩ = .ok ⟨4096, 4096, 16384, 4, 20480, 20484, 32768, 4096, 1, 10⟩ ∧
    (10 < 128 ∧ (32768 ≤ 10 ∨ 32768 % 128 ≤ 64) ∧ (8 * 4096 = 32768 ∨
      8 * 4096 = 128 * (32768 / 128 + 1) ∧ (64 ≤ 32768 % 128 ∨ 32768 < 10 ∧ 128 ≤ 32768 + 10))) ∧
    (10 < 128 ∧ (256 ≤ 10 ∨ (smallVolume.volumeSize / 2 ^ smallVolume.logBlock) % 128 ≤ 64)) ∧
    regions false smallVolume = .ok ⟨4096, 4096, 16384, 4, 20480, 20484, 256, 32, 1, 10⟩ :=
  ⟨⟨by decide, by decide, by decide, by decide⟩, by decide, by decide, by decide, by decide⟩

/-- C56 is false in general, in each of its three parts: in a volume of 100 blocks the free block 50 is not marked
free; in the same volume block 1000, which does not exist, is; and with blocks of 512 bytes and headers of 8192
bytes the first 128 blocks of the metadata are marked free. -/
theorem C56_bitmap_refuted :
    (∃ r bs, regions true ⟨409600, 12, 10⟩ = .ok r ∧ bitmap true ⟨409600, 12, 10⟩ = .ok bs ∧
      (r.total ≤ 50 ∧ 50 < r.bitmapBits ∧ Spec.wordsBit bs.flatten 50 = false) ∧
      (r.bitmapBits ≤ 1000 ∧ Spec.wordsBit bs.flatten 1000 = true)) ∧
    (∃ r bs, regions true ⟨1048576, 9, 13⟩ = .ok r ∧ bitmap true ⟨1048576, 9, 13⟩ = .ok bs ∧
      100 < r.total ∧ Spec.wordsBit bs.flatten 100 = true) := by
  refine ⟨?_, ?_⟩
  · obtain ⟨r, bs, h1, h2, _, _, h5, h6⟩ := C56_written true ⟨409600, 12, 10⟩
      ⟨by decide, by decide, by decide, by decide⟩ (by decide)
    have hr : regions true ⟨409600, 12, 10⟩ = .ok ⟨4096, 4096, 16384, 4, 20480, 20484, 100, 13, 1, 10⟩ := by decide
    rw [hr] at h1
    injection h1 with h1
    subst h1
    refine ⟨_, bs, hr, h2, ⟨by decide, by decide, ?_⟩, by decide, ?_⟩
    · have hl : 50 < bs.flatten.length * 128 := by rw [h5]; decide
      have := h6 50 hl
      rw [Bool.eq_false_iff]
      intro hc
      have := (this.1 hc).2 (by decide)
      revert this; decide
    · have hl : 1000 < bs.flatten.length * 128 := by rw [h5]; decide
      exact (h6 1000 hl).2 ⟨by decide, by decide⟩
  · obtain ⟨r, bs, h1, h2, _, _, h5, h6⟩ := C56_written true ⟨1048576, 9, 13⟩
      ⟨by decide, by decide, by decide, by decide⟩ (by decide)
    have hr : regions true ⟨1048576, 9, 13⟩ = .ok ⟨512, 512, 131072, 256, 131584, 131840, 2048, 256, 1, 514⟩ := by
      decide
    rw [hr] at h1
    injection h1 with h1
    subst h1
    refine ⟨_, bs, hr, h2, by decide, ?_⟩
    have hl : 100 < bs.flatten.length * 128 := by rw [h5]; decide
    exact (h6 100 hl).2 ⟨by decide, by decide⟩

/-! ## C57 -/

/-- C57 is false: `new_with_defaults` chooses blocks of 8192 bytes, not `DEFAULT_VOLUME_BLOCK_SIZE` = 4096, because
the number of significant bits of 4096 is taken for its logarithm. -/
theorem C57_default_block_refuted (vs : Nat) (p : Params) (h : Params.newWithDefaults vs = .ok p) :
    2 ^ p.logBlock = 8192 ∧ 2 ^ p.logBlock ≠ 4096 := by
  have e : 32 - leadingZeros 32 defaultBlockSize = 13 := by decide
  unfold Params.newWithDefaults at h
  simp only [e] at h
  rw [Res.bind_eq_ok] at h
  obtain ⟨_, _, h⟩ := h
  rw [Res.bind_eq_ok] at h
  obtain ⟨_, _, h⟩ := h
  injection h with h
  rw [← h]
  exact ⟨rfl, by show 2 ^ 13 ≠ 4096; decide⟩

/-- C57. The sizes accepted by `new_with_defaults` are exactly the non-zero multiples of 8192 up to 2^45; the
parameters keep the size and have file headers of 1024 bytes; every other size panics.

Full statement: the same with blocks of 4096 bytes; `C57_default_block_refuted` shows that it is false. -/
theorem C57_defaults_partial (vs : Nat) :
    (8192 ∣ vs ∧ 0 < vs ∧ vs ≤ 2 ^ 45 → Params.newWithDefaults vs = .ok ⟨vs, 13, 10⟩) ∧
    (¬ (8192 ∣ vs ∧ 0 < vs ∧ vs ≤ 2 ^ 45) → Params.newWithDefaults vs = .error .panic) := by
  have e : 32 - leadingZeros 32 defaultBlockSize = 13 := by decide
  unfold Params.newWithDefaults
  simp only [e]
  refine ⟨fun ⟨h1, h2, h3⟩ => ?_, fun h => ?_⟩
  · have a1 : (vs % 2 ^ 13 == 0 && decide (vs / 2 ^ 13 ≥ 1)) = true := by
      simp; omega
    have a2 : decide (vs / 2 ^ 13 ≤ 2 ^ 32 - 1 + 1) = true := by
      simp; omega
    rw [a1, a2]; rfl
  · by_cases a1 : (vs % 2 ^ 13 == 0 && decide (vs / 2 ^ 13 ≥ 1)) = true
    · have a2 : decide (vs / 2 ^ 13 ≤ 2 ^ 32 - 1 + 1) = false := by
        simp at a1
        simp
        omega
      rw [a1, a2]; rfl
    · rw [Bool.not_eq_true] at a1
      rw [a1]; rfl

example : Params.newWithDefaults 81920 = .ok ⟨81920, 13, 10⟩ ∧ Params.newWithDefaults 4096 = .error .panic := by decide

/-! ## C58 -/

/-- The results of `n` successive calls of `next_volume` on a manager whose next index is `s`. -/
def volumeCalls (chk : Bool) : Nat → Nat → Res (List (Option Nat))
  | 0, _ => .ok []
  | n + 1, s => do
    let (r, s) ← nextVolume chk s
    let rs ← volumeCalls chk n s
    pure (r :: rs)

theorem nextVolume_low {chk : Bool} {s : Nat} (h : s < 255) : nextVolume chk s = .ok (some s, s + 1) := by
  unfold nextVolume
  rw [addN_ok (by omega)]
  simp only [Res.bind_ok]
  rw [if_neg (by omega)]
  rfl

theorem volumeCalls_low {chk : Bool} (n : Nat) : ∀ s, s + n ≤ 255 →
    volumeCalls chk n s = .ok ((List.range n).map (fun i => some (s + i))) := by
  induction n with
  | zero => intro s _; rfl
  | succ n ih =>
    intro s h
    unfold volumeCalls
    rw [nextVolume_low (by omega)]
    simp only [Res.bind_ok]
    rw [ih (s + 1) (by omega)]
    rw [List.range_succ_eq_map, List.map_cons, List.map_map]
    simp only [Res.bind_ok, Res.pure_eq]
    congr 2
    apply List.map_congr_left
    intro i _
    simp only [Function.comp]
    congr 1; omega

/-- C58. Without overflow checks the calls of `next_volume` on a new manager return the indices 0, 1, …, 254 in
this order, and from then on an error.  With overflow checks the same holds for the first 255 calls.

Full statement: the same in both overflow modes; `C58_indices_refuted` shows that it is false. -/
theorem C58_indices_partial (n : Nat) :
    volumeCalls false n 0 = .ok ((List.range n).map (fun i => if i < 255 then some i else none)) ∧
    (n ≤ 255 → ∀ chk, ∃ l : List Nat, volumeCalls chk n 0 = .ok (l.map some) ∧ l.length = n ∧ l.Nodup ∧
      ∀ i ∈ l, i < 255) := by
  have stuck : ∀ n, volumeCalls false n 255 = .ok (List.replicate n none) := by
    intro n
    induction n with
    | zero => rfl
    | succ n ih =>
      unfold volumeCalls
      have e : nextVolume false 255 = .ok (none, 255) := rfl
      rw [e]
      simp only [Res.bind_ok]
      rw [ih]; rfl
  have gen : ∀ n s, s ≤ 255 →
      volumeCalls false n s = .ok ((List.range n).map (fun i => if s + i < 255 then some (s + i) else none)) := by
    intro n
    induction n with
    | zero => intro s _; rfl
    | succ n ih =>
      intro s hs
      by_cases h : s < 255
      · unfold volumeCalls
        rw [nextVolume_low h]
        simp only [Res.bind_ok]
        rw [ih (s + 1) (by omega)]
        rw [List.range_succ_eq_map, List.map_cons, List.map_map]
        simp only [Res.bind_ok, Res.pure_eq, Nat.add_zero, if_pos h]
        congr 2
        apply List.map_congr_left
        intro i _
        simp only [Function.comp, Nat.succ_eq_add_one]
        rw [show s + 1 + i = s + (i + 1) by omega]
      · have : s = 255 := by omega
        subst this
        rw [stuck]
        congr 1
        symm
        rw [List.eq_replicate_iff]
        refine ⟨by simp, ?_⟩
        intro b hb
        obtain ⟨i, _, rfl⟩ := List.mem_map.1 hb
        rw [if_neg (by omega)]
  refine ⟨?_, fun h chk => ⟨List.range n, ?_, by simp, List.nodup_range, ?_⟩⟩
  · rw [gen n 0 (by omega)]
    simp
  · rw [volumeCalls_low n 0 (by omega)]
    simp
  · intro i hi
    have := List.mem_range.1 hi
    omega

example : volumeCalls true 3 0 = .ok [some 0, some 1, some 2] ∧ nextVolume false 255 = .ok (none, 255) := ⟨rfl, rfl⟩

/-- C58 fails with overflow checks: call 256 panics instead of returning an error. -/
theorem C58_indices_refuted (n : Nat) (h : 256 ≤ n) : volumeCalls true n 0 = .error .panic := by
  have gen : ∀ k n s, s + k = 255 → k < n → volumeCalls true n s = .error .panic := by
    intro k
    induction k with
    | zero =>
      intro n s hs hn
      obtain ⟨m, rfl⟩ : ∃ m, n = m + 1 := ⟨n - 1, by omega⟩
      have : s = 255 := by omega
      subst this
      rfl
    | succ k ih =>
      intro n s hs hn
      obtain ⟨m, rfl⟩ : ∃ m, n = m + 1 := ⟨n - 1, by omega⟩
      unfold volumeCalls
      rw [nextVolume_low (by omega)]
      simp only [Res.bind_ok]
      rw [ih m (s + 1) (by omega) (by omega)]
      rfl
  exact gen 255 n 0 (by omega) (by omega)

/-! ## C73 -/

/-- C73 is false for every input: `VolumeManager::create` never returns an index. Whatever the buffer pool
provides, its buffers have a power of two of bytes (`BufferPool::new` asserts it), and `copy_from_slice` panics
because the volume header has 48 bytes. -/
theorem C73_create_refuted (chk : Bool) (p : Params) (opened : Bool) (next volumes : Nat) (access : Nat → Res Bytes)
    (header : Bytes) (rest : Nat → Res Unit) (i : Nat)
    (hacc : ∀ l b, access l = .ok b → ∃ k, b.length = 2 ^ k) (hh : header.length = volumeHeaderSize) :
    create chk p opened next volumes access header rest ≠ .ok (some i) := by
  intro h
  unfold create at h
  rw [Res.bind_eq_ok] at h
  obtain ⟨_, _, h⟩ := h
  cases opened with
  | false => cases h
  | true =>
    simp only [if_true] at h
    rw [Res.bind_eq_ok] at h
    obtain ⟨⟨x, y⟩, _, h⟩ := h
    cases x with
    | none => cases h
    | some x =>
      simp only at h
      rw [Res.bind_eq_ok] at h
      obtain ⟨_, _, h⟩ := h
      rw [Res.bind_eq_ok] at h
      obtain ⟨l, _, h⟩ := h
      rw [Res.bind_eq_ok] at h
      obtain ⟨b, hb, h⟩ := h
      rw [Res.bind_eq_ok] at h
      obtain ⟨_, hw, _⟩ := h
      unfold writeVolumeHeader copyFromSlice at hw
      rw [Res.bind_eq_ok] at hw
      obtain ⟨_, _, hw⟩ := hw
      rw [Res.bind_eq_ok] at hw
      obtain ⟨_, hw, _⟩ := hw
      rw [assert_ok, beq_iff_eq, hh] at hw
      obtain ⟨k, hk⟩ := hacc l b hb
      rw [hw] at hk
      exact not_pow2_of_bounds 5 (by decide) (by decide) k hk

/-- C73, exactly when the header block is written: only into a buffer of 48 bytes, which then holds the header. -/
theorem C73_header_block (buffer header b : Bytes) (hh : header.length = volumeHeaderSize) :
    writeVolumeHeader buffer header = .ok b ↔ buffer.length = 48 ∧ b = header := by
  have h48 : volumeHeaderSize = 48 := rfl
  unfold writeVolumeHeader copyFromSlice
  rw [Res.bind_eq_ok]
  constructor
  · rintro ⟨_, h1, h2⟩
    rw [Res.bind_eq_ok] at h2
    obtain ⟨_, h2, h3⟩ := h2
    rw [assert_ok, beq_iff_eq] at h2
    cases h3
    exact ⟨by omega, rfl⟩
  · rintro ⟨h1, rfl⟩
    refine ⟨(), by rw [assert_ok, decide_eq_true_iff]; omega, ?_⟩
    rw [Res.bind_eq_ok]
    exact ⟨(), by rw [assert_ok, beq_iff_eq]; omega, rfl⟩

example : writeVolumeHeader (List.replicate 48 0) (List.replicate 48 7) = .ok (List.replicate 48 7) ∧
    writeVolumeHeader (List.replicate 64 0) (List.replicate 48 7) = .error .panic := by decide

/-- The hypotheses of `C73_create_refuted` are met by a pool of zeroed 4096-byte buffers, and the result is a
panic. -/
example : (∀ l b, (fun _ => .ok (List.replicate 4096 0) : Nat → Res Bytes) l = .ok b → ∃ k, b.length = 2 ^ k) ∧
    create true smallVolume true 0 0 (fun _ => .ok (List.replicate 4096 0)) (List.replicate 48 0) (fun _ => .ok ())
      = .error .panic :=
  ⟨fun _ b h => ⟨12, by injection h with h; rw [← h]; exact List.length_replicate⟩, by decide +kernel⟩

/-- C73, the file table: `init_file_header` never completes either; the file header has 40 bytes and is copied to a
slice of `1 << log_file_header_size` bytes. -/
theorem C73_file_header_refuted (chk : Bool) (p : Params) (volume base index size : Nat) (clock : Nat × Nat)
    (header : Nat → Nat × Nat → Bytes) (access : Nat → Res Bytes) (b : Bytes)
    (hh : ∀ t u, (header t u).length = fileHeaderSize) :
    initFileHeader chk p volume base index size clock header access ≠ .ok b := by
  intro h
  unfold initFileHeader at h
  rw [Res.bind_eq_ok] at h
  obtain ⟨⟨pos, off⟩, _, h⟩ := h
  simp only at h
  rw [Res.bind_eq_ok] at h
  obtain ⟨_, _, h⟩ := h
  rw [Res.bind_eq_ok] at h
  obtain ⟨buf, _, h⟩ := h
  rw [Res.bind_eq_ok] at h
  obtain ⟨_, _, h⟩ := h
  rw [Res.bind_eq_ok] at h
  obtain ⟨hs, hhs, h⟩ := h
  rw [Res.bind_eq_ok] at h
  obtain ⟨e, he, h⟩ := h
  rw [Res.bind_eq_ok] at h
  obtain ⟨_, ha, h⟩ := h
  rw [Res.bind_eq_ok] at h
  obtain ⟨u, _, h⟩ := h
  rw [Res.bind_eq_ok] at h
  obtain ⟨t, _, h⟩ := h
  unfold copyFromSlice at h
  rw [Res.bind_eq_ok] at h
  obtain ⟨_, hw, _⟩ := h
  rw [assert_ok, beq_iff_eq, hh] at hw
  rw [assert_ok, decide_eq_true_iff] at ha
  obtain ⟨k, hk⟩ : ∃ k, hs = 2 ^ k := by
    unfold shl1 at hhs
    split at hhs
    · injection hhs with hhs; exact ⟨_, hhs.symm⟩
    · split at hhs
      · cases hhs
      · injection hhs with hhs; exact ⟨_, hhs.symm⟩
  have hlen : off + hs ≤ buf.length := by
    unfold addW at he
    split at he
    · injection he with he; omega
    · split at he
      · cases he
      · rename_i h1 _
        injection he with he
        have hs64 : hs < 2 ^ 64 := by
          unfold shl1 at hhs
          split at hhs
          · injection hhs with hhs
            rw [← hhs]; exact Nat.pow_lt_pow_right (by omega) (by omega)
          · injection hhs with hhs
            rw [← hhs]; exact Nat.pow_lt_pow_right (by omega) (Nat.mod_lt _ (by omega))
        omega
  rw [slice_length _ _ _ hlen] at hw
  rw [hk] at hw
  exact not_pow2_of_bounds 5 (by decide) (by decide) k hw.symm

example : initFileHeader true smallVolume 0 4096 2 32 (1605000000, 5) (fun _ _ => List.replicate 40 0)
    (fun _ => .ok (List.replicate 4096 0)) = .error .panic := by decide +kernel

/-! ## C74 -/

/-- C74. A file of `size` bytes that does not end with a full block is described exactly: the blocks before the
last are full and the last holds `last_block_use` bytes.  (Block counts are stored in 32 bits.)

Full statement: for all sizes; `C74_block_use_refuted` shows that it is false. -/
theorem C74_block_use_partial (chk : Bool) (b size : Nat) (hb : 0 < b) (hb32 : b ≤ 2 ^ 32) (hs : size + b < 2 ^ 64)
    (h32 : size ≤ (2 ^ 32 - 1) * b) (hf : ¬ b ∣ size) :
    ∃ n u, blockUse chk b size = .ok (n, u) ∧ 0 < n ∧ 0 < u ∧ u < b ∧ size = (n - 1) * b + u := by
  have hq : (size + b - 1) / b = size / b + 1 := by
    have h1 := Nat.div_add_mod size b
    have h2 : 0 < size % b := Nat.pos_of_ne_zero (fun h => hf (Nat.dvd_of_mod_eq_zero h))
    have h3 := Nat.mod_lt size hb
    rw [Nat.div_eq_iff hb]
    rw [Nat.add_mul, Nat.mul_comm (size / b) b]
    omega
  have hle := (ceil_least (s := size) hb).2 (2 ^ 32 - 1) h32
  refine ⟨size / b + 1, size % b, ?_, Nat.succ_pos _, ?_, Nat.mod_lt _ hb, ?_⟩
  · unfold blockUse
    rw [addW_ok hs]
    simp only [Res.bind_ok]
    rw [subW_ok (by omega)]
    simp only [Res.bind_ok]
    rw [divW_ok hb, modW_ok hb, hq]
    simp only [Res.bind_ok, Res.pure_eq]
    have := Nat.mod_lt size hb
    rw [Nat.mod_eq_of_lt (by omega), Nat.mod_eq_of_lt (by omega)]
  · exact Nat.pos_of_ne_zero (fun h => hf (Nat.dvd_of_mod_eq_zero h))
  · rw [Nat.add_sub_cancel, Nat.mul_comm]
    exact (Nat.div_add_mod size b).symm

example : blockUse true 4096 10000 = .ok (3, 1808) ∧ ¬ 4096 ∣ 10000 ∧ 10000 = 2 * 4096 + 1808 := by decide

/-- C74 fails for every file of full blocks, among them the file tables and the volume header: the last block is
described as empty. -/
theorem C74_block_use_refuted (chk : Bool) (b n : Nat) (hb : 0 < b) (hn : 0 < n) (hn32 : n < 2 ^ 32)
    (hs : n * b + b < 2 ^ 64) : blockUse chk b (n * b) = .ok (n, 0) ∧ n * b ≠ (n - 1) * b + 0 := by
  have hq : (n * b + b - 1) / b = n := by
    rw [Nat.div_eq_iff hb]; omega
  refine ⟨?_, ?_⟩
  · unfold blockUse
    rw [addW_ok hs]
    simp only [Res.bind_ok]
    rw [subW_ok (by omega)]
    simp only [Res.bind_ok]
    rw [divW_ok hb, modW_ok hb, hq, Nat.mul_mod_left]
    simp only [Res.bind_ok, Res.pure_eq]
    rw [Nat.mod_eq_of_lt hn32, Nat.zero_mod]
  · obtain ⟨m, rfl⟩ : ∃ m, n = m + 1 := ⟨n - 1, by omega⟩
    rw [Nat.add_sub_cancel, Nat.succ_mul]; omega

example : blockUse true 4096 16384 = .ok (4, 0) := by decide

/-- C74 exactly: the first number is the number of blocks the file needs and the second the remainder, both modulo
2^32.  They give the size back if and only if the file is empty, or its last block is not full and both numbers
are below 2^32. -/
theorem C74_exactly (chk : Bool) (b size : Nat) (hb : 0 < b) (hs : size + b < 2 ^ 64) :
    ∃ c, (size ≤ c * b ∧ ∀ d, size ≤ d * b → c ≤ d) ∧
      blockUse chk b size = .ok (c % 2 ^ 32, size % b % 2 ^ 32) ∧
      ∀ n u, blockUse chk b size = .ok (n, u) → (size = (n - 1) * b + u ↔
        size = 0 ∨ (¬ b ∣ size ∧ c < 2 ^ 32 ∧ size % b < 2 ^ 32)) := by
  have hbu : blockUse chk b size = .ok ((size + b - 1) / b % 2 ^ 32, size % b % 2 ^ 32) := by
    unfold blockUse
    rw [addW_ok hs]
    simp only [Res.bind_ok]
    rw [subW_ok (by omega)]
    simp only [Res.bind_ok]
    rw [divW_ok hb, modW_ok hb]
    rfl
  refine ⟨_, ceil_least (s := size) hb, hbu, fun n u h => ?_⟩
  rw [hbu] at h
  cases h
  have hdm := Nat.div_add_mod size b
  have hm := Nat.mod_lt size hb
  by_cases h0 : size = 0
  · subst h0
    have : (0 + b - 1) / b = 0 := Nat.div_eq_of_lt (by omega)
    rw [this]
    simp
  by_cases hd : b ∣ size
  · obtain ⟨q, rfl⟩ := hd
    have hc : (b * q + b - 1) / b = q := by
      rw [Nat.div_eq_iff hb, Nat.mul_comm q b]; omega
    have hq : 0 < q := Nat.pos_of_ne_zero (fun h => h0 (by rw [h, Nat.mul_zero]))
    rw [hc, Nat.mul_mod_right]
    simp only [Nat.dvd_mul_right, not_true_eq_false, false_and, or_false, iff_false_intro h0]
    rw [iff_false]
    intro he
    have h1 : q % 2 ^ 32 - 1 ≤ q - 1 := Nat.sub_le_sub_right (Nat.mod_le _ _) _
    have h2 := Nat.mul_le_mul_right b h1
    have h3 : (q - 1) * b + b = q * b := by
      rw [← Nat.succ_mul, Nat.succ_eq_add_one, Nat.sub_add_cancel hq]
    rw [Nat.mul_comm b q] at he
    simp only [Nat.zero_mod, Nat.add_zero] at he
    omega
  · have hc : (size + b - 1) / b = size / b + 1 := by
      have h2 : 0 < size % b := Nat.pos_of_ne_zero (fun h => hd (Nat.dvd_of_mod_eq_zero h))
      rw [Nat.div_eq_iff hb, Nat.add_mul, Nat.mul_comm (size / b) b]
      omega
    rw [hc]
    constructor
    · intro he
      refine Or.inr ⟨hd, ?_⟩
      have h1 : (size / b + 1) % 2 ^ 32 - 1 ≤ size / b := by
        exact Nat.sub_le_of_le_add (Nat.mod_le (size / b + 1) (2 ^ 32))
      have h2 := Nat.mul_le_mul_right b h1
      have h3 := Nat.mod_le (size % b) (2 ^ 32)
      rw [Nat.mul_comm (size / b) b] at h2
      have h45 : ((size / b + 1) % 2 ^ 32 - 1) * b = b * (size / b) ∧ size % b % 2 ^ 32 = size % b := by
        generalize ((size / b + 1) % 2 ^ 32 - 1) * b = x at he h2 ⊢
        generalize b * (size / b) = y at hdm h2 ⊢
        generalize size % b % 2 ^ 32 = z at he h3 ⊢
        generalize size % b = w at hdm h3 ⊢
        omega
      obtain ⟨h4, h5⟩ := h45
      rw [Nat.mul_comm] at h4
      have h6 := Nat.eq_of_mul_eq_mul_left hb h4
      refine ⟨?_, ?_⟩
      · have := Nat.mod_lt (size / b + 1) (show 0 < 2 ^ 32 by decide)
        by_cases hz : (size / b + 1) % 2 ^ 32 = 0
        · rw [hz] at h6; rw [← h6]; decide
        · omega
      · rw [← h5]; exact Nat.mod_lt _ (by decide)
    · rintro (he | ⟨_, h1, h2⟩)
      · exact absurd he h0
      · rw [Nat.mod_eq_of_lt h1, Nat.mod_eq_of_lt h2, Nat.add_sub_cancel, Nat.mul_comm]
        exact hdm.symm

/-- Blocks larger than 4 GiB: the use of the last block is truncated, a file of 2^32 + 5 bytes in one block of 2^33
bytes is described as having 5 bytes. -/
example : blockUse true (2 ^ 33) (2 ^ 32 + 5) = .ok (1, 5) ∧ ¬ 2 ^ 33 ∣ 2 ^ 32 + 5 := by decide

/-! ## C75 -/

/-- C75. When a timestamp is made it has the seconds (modulo 2^48) in its upper 48 bits and the nanoseconds divided
by 2^14 in its lower 16 bits, so that timestamps within 2^48 seconds are ordered like the clock.

Full statement: a timestamp is made at every time of the clock; `C75_timestamp_refuted` shows that it is false. -/
theorem C75_timestamp_partial (s n t : Nat) (hn : n < 10 ^ 9) (h : timestamp s n = .ok t) :
    t / 2 ^ 16 = s % 2 ^ 48 ∧ t % 2 ^ 16 = n / 2 ^ 14 := by
  unfold timestamp at h
  rw [Res.bind_eq_ok] at h
  obtain ⟨_, _, h⟩ := h
  injection h with h
  have hl : n / 2 ^ 14 < 2 ^ 16 := by omega
  have e : s * 2 ^ 16 % W64 = 2 ^ 16 * (s % 2 ^ 48) := by omega
  rw [e, Nat.shiftRight_eq_div_pow, ← Nat.two_pow_add_eq_or_of_lt hl] at h
  omega

example : timestamp 1605000000 0x3FFF = .ok 105185280000000 ∧ timestamp 1605000000 16777216 = .ok 105185280001024 := by
  decide

/-- C75 fails: the assertion meant to check that the nanoseconds have 30 bits tests bits 14 and 15 instead and
panics for most times of the clock, for example 16384 nanoseconds after a full second. -/
theorem C75_timestamp_refuted (s : Nat) : timestamp s 16384 = .error .panic ∧ 16384 < 10 ^ 9 := ⟨rfl, by decide⟩

/-- C75 fails exactly for the nanoseconds with bit 14 or 15 set, that is three times out of four. -/
theorem C75_timestamp_panics (s n : Nat) : timestamp s n = .error .panic ↔ n / 2 ^ 14 % 4 ≠ 0 := by
  have e : n &&& 0xC000 = n / 2 ^ 14 % 4 * 2 ^ 14 := by
    apply Nat.eq_of_testBit_eq
    intro i
    rw [Nat.testBit_and, Nat.testBit_mul_two_pow]
    rw [show (0xC000 : Nat) = (2 ^ 2 - 1) * 2 ^ 14 from rfl, Nat.testBit_mul_two_pow, Nat.testBit_two_pow_sub_one,
      show (4 : Nat) = 2 ^ 2 from rfl, Nat.testBit_mod_two_pow, Nat.testBit_div_two_pow]
    by_cases h : 14 ≤ i
    · rw [show i - 14 + 14 = i by omega]
      simp [h, Bool.and_comm]
    · simp [h]
  unfold timestamp
  rw [e]
  by_cases h : n / 2 ^ 14 % 4 = 0
  · rw [h]; simp
  · have h0 : (n / 2 ^ 14 % 4 * 2 ^ 14 == 0) = false := by
      rw [beq_eq_false_iff_ne]
      intro hc
      rw [Nat.mul_eq_zero] at hc
      rcases hc with hc | hc
      · exact h hc
      · exact absurd hc (by decide)
    rw [h0]
    simp [h]

end Verif.Props
