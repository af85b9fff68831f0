import Verif.Spec.Volume
import Verif.Model.BufferMemory
import Verif.Props.Volume
import Verif.Props.BufferPool

/-! # Properties of the places of file headers and of buffers: `src/storage/mod.rs` L257-273 and L1132-1142 -/

namespace Verif.Props

open Verif Verif.Storage

/-! ## C55: a volume is a whole number of blocks -/

/-- C55. The layout of a volume is computed only if the volume is a whole number of blocks. -/
theorem C55_whole (chk : Bool) (p : Params) (hb : p.logBlock < 64) {r : Regions} (h : regions chk p = .ok r) :
    2 ^ p.logBlock ∣ p.volumeSize := by
  have hm : modW p.volumeSize (2 ^ p.logBlock) = .ok (p.volumeSize % 2 ^ p.logBlock) := modW_ok (Nat.two_pow_pos _)
  have key : ∀ {α β : Type} {x : Res α} {f : α → Res β} {b : β}, x >>= f = .ok b → ∃ a, x = .ok a ∧ f a = .ok b := by
    intro α β x f b e
    cases x with
    | error _ => cases e
    | ok a => exact ⟨a, rfl, e⟩
  unfold regions at h
  rw [shl1_ok hb] at h
  simp only [Res.bind_ok] at h
  obtain ⟨_, _, h⟩ := key h
  obtain ⟨_, _, h⟩ := key h
  obtain ⟨_, _, h⟩ := key h
  obtain ⟨_, _, h⟩ := key h
  obtain ⟨_, _, h⟩ := key h
  obtain ⟨_, _, h⟩ := key h
  obtain ⟨_, _, h⟩ := key h
  obtain ⟨_, _, h⟩ := key h
  rw [hm] at h
  simp only [Res.bind_ok] at h
  obtain ⟨_, h1, _⟩ := key h
  unfold assert at h1
  split at h1
  · rename_i h2
    exact Nat.dvd_of_mod_eq_zero (by simpa using h2)
  · cases h1

example : regions true smallVolume ≠ .error .panic ∧ regions true ⟨1048577, 12, 10⟩ = .error .panic := by decide

/-! ## C98: the places of file headers -/

/-- The bytes of the volume that the header with index `index` occupies when it is written at `offset` in the
block at `location`. -/
def slot (p : Params) (location offset : Nat) : Spec.Range := ⟨location + offset, 2 ^ p.logHeader⟩

/-- The place of a header is computed without overflow when the end of the table is below 2^64. -/
theorem headerPosition_ok {chk : Bool} {p : Params} {base index : Nat} (hb : p.logBlock < 64)
    (hh : p.logHeader < 64) (h : base + index * 2 ^ p.logHeader < 2 ^ 64) :
    headerPosition chk p base index =
      .ok (base + index * 2 ^ p.logHeader / 2 ^ p.logBlock * 2 ^ p.logBlock,
        index * 2 ^ p.logHeader % 2 ^ p.logBlock) := by
  have hd := Nat.div_mul_le_self (index * 2 ^ p.logHeader) (2 ^ p.logBlock)
  unfold headerPosition
  rw [shl1_ok hb, shl1_ok hh]
  simp only [Res.bind_ok]
  rw [mulW_ok (by omega)]
  simp only [Res.bind_ok]
  rw [divW_ok (Nat.two_pow_pos _)]
  simp only [Res.bind_ok]
  rw [mulW_ok (by omega)]
  simp only [Res.bind_ok]
  rw [addW_ok (by omega)]
  simp only [Res.bind_ok]
  rw [modW_ok (Nat.two_pow_pos _)]
  rfl

/-- C98. With headers not larger than blocks, the header with index `i` of a table at `base` occupies the bytes
from `base + i * headerSize` on, it is written within one block, the block is a whole number of blocks after the
start of the table, and different headers have no byte in common.

Full statement: the same for all header and block sizes; `C98_slots_refuted` shows that it is false for headers
larger than blocks. -/
theorem C98_slots_partial (chk : Bool) (p : Params) (base : Nat) (hb : p.logBlock < 64)
    (hh : p.logHeader ≤ p.logBlock) (i : Nat) (hi : base + i * 2 ^ p.logHeader < 2 ^ 64) :
    ∃ location offset, headerPosition chk p base i = .ok (location, offset) ∧
      location + offset = base + i * 2 ^ p.logHeader ∧
      (∃ k, location = base + k * 2 ^ p.logBlock) ∧
      offset + 2 ^ p.logHeader ≤ 2 ^ p.logBlock ∧
      ∀ j location' offset', j ≠ i → base + j * 2 ^ p.logHeader < 2 ^ 64 →
        headerPosition chk p base j = .ok (location', offset') →
        (slot p location offset).Apart (slot p location' offset') := by
  have sum : ∀ k, base + k * 2 ^ p.logHeader / 2 ^ p.logBlock * 2 ^ p.logBlock + k * 2 ^ p.logHeader % 2 ^ p.logBlock
      = base + k * 2 ^ p.logHeader := by
    intro k
    have := Nat.div_add_mod (k * 2 ^ p.logHeader) (2 ^ p.logBlock)
    rw [Nat.mul_comm (2 ^ p.logBlock)] at this
    omega
  refine ⟨_, _, headerPosition_ok hb (by omega) hi, sum i, ⟨_, rfl⟩, ?_, ?_⟩
  · obtain ⟨d, e⟩ : ∃ d, p.logBlock = p.logHeader + d := ⟨p.logBlock - p.logHeader, by omega⟩
    rw [e, Nat.pow_add]
    have hd := Nat.two_pow_pos d
    have : i * 2 ^ p.logHeader % (2 ^ p.logHeader * 2 ^ d) = (i % 2 ^ d) * 2 ^ p.logHeader := by
      rw [Nat.mul_comm (2 ^ p.logHeader), Nat.mul_mod_mul_right]
    rw [this, ← Nat.succ_mul, Nat.mul_comm (2 ^ p.logHeader)]
    exact Nat.mul_le_mul_right _ (Nat.mod_lt _ hd)
  · intro j l o hj hj2 he
    rw [headerPosition_ok hb (by omega) hj2] at he
    injection he with he
    injection he with h1 h2
    subst h1 h2
    intro x ⟨⟨a1, a2⟩, ⟨b1, b2⟩⟩
    simp only [slot, sum] at a1 a2 b1 b2
    rcases Nat.lt_or_gt_of_ne hj with h | h
    · have := Nat.mul_le_mul_right (2 ^ p.logHeader) (Nat.succ_le_of_lt h)
      rw [Nat.succ_mul] at this; omega
    · have := Nat.mul_le_mul_right (2 ^ p.logHeader) (Nat.succ_le_of_lt h)
      rw [Nat.succ_mul] at this; omega

/-- C98. The 16 headers of the file table and of its mirror are inside the ranges that the layout gives to them,
and no header of one shares a byte with a header of the other. -/
theorem C98_in_table (chk : Bool) (p : Params) (h : Sane p) :
    ∃ r, regions chk p = .ok r ∧
      ∀ i j, i < 16 → j < 16 → ∃ l o l' o',
        headerPosition chk p r.tableOffset i = .ok (l, o) ∧ headerPosition chk p r.mirrorOffset j = .ok (l', o') ∧
        (∀ x, (slot p l o).Has x → (tableRange r).Has x) ∧
        (∀ x, (slot p l' o').Has x → (mirrorRange r).Has x) ∧
        (slot p l o).Apart (slot p l' o') := by
  obtain ⟨tb, bb, h1, h2, h3, h4⟩ := @regions_ok chk p h.block h.header h.size h.whole
  refine ⟨_, h4, ?_⟩
  intro i j hi hj
  have hB : 2 ^ p.logBlock ≤ 2 ^ 32 := Nat.pow_le_pow_right (by omega) h.block
  have hH : 2 ^ p.logHeader ≤ 2 ^ 32 := Nat.pow_le_pow_right (by omega) h.header
  have t := (ceil_least (s := 2 ^ p.logHeader * 16) (Nat.two_pow_pos p.logBlock)).1
  have t2 := ceil_mul_lt (s := 2 ^ p.logHeader * 16) (Nat.two_pow_pos p.logBlock)
  rw [← h1] at t t2
  have mi : (i + 1) * 2 ^ p.logHeader ≤ 16 * 2 ^ p.logHeader := Nat.mul_le_mul_right _ hi
  have mj : (j + 1) * 2 ^ p.logHeader ≤ 16 * 2 ^ p.logHeader := Nat.mul_le_mul_right _ hj
  rw [Nat.succ_mul] at mi mj
  have sum : ∀ b k, b + k * 2 ^ p.logHeader / 2 ^ p.logBlock * 2 ^ p.logBlock + k * 2 ^ p.logHeader % 2 ^ p.logBlock
      = b + k * 2 ^ p.logHeader := by
    intro b k
    have := Nat.div_add_mod (k * 2 ^ p.logHeader) (2 ^ p.logBlock)
    rw [Nat.mul_comm (2 ^ p.logBlock)] at this
    omega
  have b1 := h.block
  have b2 := h.header
  refine ⟨_, _, _, _, headerPosition_ok (by omega) (by omega) (by show 2 ^ p.logBlock + _ < _; omega),
    headerPosition_ok (by omega) (by omega) (by show 2 ^ p.logBlock + tb * 2 ^ p.logBlock + _ < _; omega), ?_, ?_, ?_⟩
  · intro x ⟨a1, a2⟩
    simp only [slot, sum] at a1 a2
    exact ⟨by show 2 ^ p.logBlock ≤ x; omega, by show x < 2 ^ p.logBlock + tb * 2 ^ p.logBlock; omega⟩
  · intro x ⟨a1, a2⟩
    simp only [slot, sum] at a1 a2
    exact ⟨by show 2 ^ p.logBlock + tb * 2 ^ p.logBlock ≤ x; omega,
      by show x < 2 ^ p.logBlock + tb * 2 ^ p.logBlock + tb * 2 ^ p.logBlock; omega⟩
  · intro x ⟨⟨a1, a2⟩, ⟨c1, c2⟩⟩
    simp only [slot, sum] at a1 a2 c1 c2
    omega

example : Sane smallVolume ∧ smallVolume.logHeader ≤ smallVolume.logBlock ∧
    headerPosition true smallVolume 4096 5 = .ok (8192, 1024) ∧
    headerPosition true smallVolume 20480 5 = .ok (24576, 1024) := ⟨smallVolume_sane, by decide, rfl, rfl⟩

/-- C98 fails for headers larger than blocks: every header then extends beyond its block, so writing it panics
whatever the buffer contains, if the buffer has the size of a block. -/
theorem C98_slots_refuted (chk : Bool) (p : Params) (base i : Nat) (hb : p.logBlock < p.logHeader)
    (hh : p.logHeader < 63) (hi : base + i * 2 ^ p.logHeader < 2 ^ 64) :
    (∃ location offset, headerPosition chk p base i = .ok (location, offset) ∧
      ¬ offset + 2 ^ p.logHeader ≤ 2 ^ p.logBlock) ∧
    ∀ volume size clock header (access : Nat → Res Bytes),
      (∀ l b, access l = .ok b → b.length = 2 ^ p.logBlock) →
      ∀ out, initFileHeader chk p volume base i size clock header access ≠ .ok out := by
  have hp := headerPosition_ok (chk := chk) (by omega : p.logBlock < 64) (by omega) hi
  have hlt : 2 ^ p.logBlock < 2 ^ p.logHeader := (Nat.pow_lt_pow_iff_right (by omega)).2 hb
  have ho := Nat.mod_lt (i * 2 ^ p.logHeader) (Nat.two_pow_pos p.logBlock)
  have h63 : 2 ^ p.logHeader < 2 ^ 63 := (Nat.pow_lt_pow_iff_right (by omega)).2 hh
  refine ⟨⟨_, _, hp, by omega⟩, ?_⟩
  intro volume size clock header access ha out e
  unfold initFileHeader at e
  rw [hp] at e
  simp only [Res.bind_ok] at e
  cases hl : Location.new volume (base + i * 2 ^ p.logHeader / 2 ^ p.logBlock * 2 ^ p.logBlock) with
  | error f => rw [hl] at e; cases e
  | ok l =>
    rw [hl] at e
    simp only [Res.bind_ok] at e
    cases hc : access l with
    | error f => rw [hc] at e; cases e
    | ok b =>
      rw [hc, shl1_ok (by omega : p.logBlock < 64), shl1_ok (by omega : p.logHeader < 64)] at e
      simp only [Res.bind_ok] at e
      rw [addW_ok (by omega)] at e
      simp only [Res.bind_ok] at e
      have hn : ¬ (i * 2 ^ p.logHeader % 2 ^ p.logBlock ≤ i * 2 ^ p.logHeader % 2 ^ p.logBlock + 2 ^ p.logHeader ∧
          i * 2 ^ p.logHeader % 2 ^ p.logBlock + 2 ^ p.logHeader ≤ b.length) := by
        rw [ha l b hc]; omega
      rw [decide_eq_false hn] at e
      cases e

example : headerPosition true ⟨1048576, 9, 10⟩ 512 3 = .ok (3584, 0) ∧ ¬ 0 + 2 ^ 10 ≤ 2 ^ 9 := ⟨rfl, by decide⟩

/-! ## C99: the memory of the buffers -/

/-- The bytes of buffer `i`, as its slice gives them. -/
def bufferRange (s : Nat × Nat) : Spec.Range := ⟨s.1, s.2⟩

/-- C99. When the memory of the pool is smaller than 2^64 bytes, every buffer has a slice of the size of a buffer
inside the mapped memory, the slices of different buffers have no byte in common, and every byte of the memory
belongs to a buffer.

Full statement: the same for all sizes; `C99_slices_refuted` shows that it is false. -/
theorem C99_slices_partial (chk : Bool) (size n : Nat) (hs : 0 < size) (h : size * n < 2 ^ 64) :
    ∃ total, mappedSize chk size n = .ok total ∧ total = size * n ∧
      (∀ i, i < n → ∃ s, bufferSlice chk size total i = .ok s ∧ (bufferRange s).len = size ∧
        (bufferRange s).Inside total) ∧
      (∀ i j s t, i < n → j < n → i ≠ j → bufferSlice chk size total i = .ok s → bufferSlice chk size total j = .ok t →
        (bufferRange s).Apart (bufferRange t)) ∧
      (∀ x, x < total → ∃ i s, i < n ∧ bufferSlice chk size total i = .ok s ∧ (bufferRange s).Has x) ∧
      (∀ i, n ≤ i → size * i < 2 ^ 64 → bufferSlice chk size total i = .error .ub) := by
  have step : ∀ i, i < n → size * i + size ≤ size * n := by
    intro i hi
    have := Nat.mul_le_mul_left size (Nat.succ_le_of_lt hi)
    rw [Nat.mul_succ] at this; exact this
  have ok : ∀ i, i < n → bufferSlice chk size (size * n) i = .ok (size * i, size) := by
    intro i hi
    have := step i hi
    unfold bufferSlice
    rw [mulW_ok (by omega)]
    simp only [Res.bind_ok]
    rw [if_pos this]; rfl
  refine ⟨_, mulW_ok h, rfl, ?_, ?_, ?_, ?_⟩
  · intro i hi
    refine ⟨_, ok i hi, rfl, ?_⟩
    intro x ⟨_, b⟩
    have := step i hi
    simp only [bufferRange] at b
    omega
  · intro i j s t hi hj hij e1 e2
    rw [ok i hi] at e1
    rw [ok j hj] at e2
    injection e1 with e1
    injection e2 with e2
    subst e1 e2
    intro x ⟨⟨a1, a2⟩, ⟨b1, b2⟩⟩
    simp only [bufferRange] at a1 a2 b1 b2
    rcases Nat.lt_or_gt_of_ne hij with h | h
    · have := Nat.mul_le_mul_left size (Nat.succ_le_of_lt h)
      rw [Nat.mul_succ] at this; omega
    · have := Nat.mul_le_mul_left size (Nat.succ_le_of_lt h)
      rw [Nat.mul_succ] at this; omega
  · intro x hx
    have hd : x / size < n := (Nat.div_lt_iff_lt_mul hs).2 (by rw [Nat.mul_comm]; exact hx)
    refine ⟨_, _, hd, ok _ hd, ?_⟩
    have := Nat.div_add_mod x size
    have := Nat.mod_lt x hs
    exact ⟨by show size * (x / size) ≤ x; omega, by show x < size * (x / size) + size; omega⟩
  · intro i hi h2
    have := Nat.mul_le_mul_left size hi
    unfold bufferSlice
    rw [mulW_ok h2]
    simp only [Res.bind_ok]
    rw [if_neg (by omega)]

example : mappedSize true 4096 3 = .ok 12288 ∧ bufferSlice true 4096 12288 2 = .ok (8192, 4096) ∧
    bufferSlice true 4096 12288 3 = .error .ub := by decide

/-- C99 does not hold when the size of the memory exceeds 2^64: with overflow checks making the pool panics, and
without them a pool of 2^24 + 1 buffers of 2^40 bytes maps the memory of one buffer only, so that the slice of the
second buffer is outside the mapped memory. -/
theorem C99_slices_refuted :
    (∀ size n, 2 ^ 64 ≤ size * n → mappedSize true size n = .error .panic) ∧
    (∃ p, Pool.new false (2 ^ 40) (2 ^ 24 + 1) true = .ok (some p) ∧ 1 < p.buffers.length) ∧
    mappedSize false (2 ^ 40) (2 ^ 24 + 1) = .ok (2 ^ 40) ∧
    bufferSlice false (2 ^ 40) (2 ^ 40) 1 = .error .ub := by
  refine ⟨?_, ?_, by decide, by decide⟩
  rotate_left
  · obtain ⟨p, h1, h2, _⟩ := C47_new_pool_partial (size := 2 ^ 40) (n := 2 ^ 24 + 1) ⟨40, rfl, by decide⟩
      (by decide) (by decide)
    exact ⟨p, h1, by rw [h2]; decide⟩
  intro size n h
  unfold mappedSize mulW
  rw [if_neg (by omega), if_pos rfl]

end Verif.Props
