import Verif.Proof.Util

/-! # Buffers as bit strings

A little endian buffer is the number `leVal buf`; a field of `n` bits at bit position `s` is
`getBits buf s n`, and overwriting it is `setBits buf s n x`. -/

namespace Verif

/-- Bit `i` of a buffer. -/
def bit (buf : Bytes) (i : Nat) : Bool := (leVal buf).testBit i

theorem bit_cons (b : UInt8) (bs : Bytes) (i : Nat) :
    bit (b :: bs) i = if i < 8 then b.toNat.testBit i else bit bs (i - 8) := by
  have hb : b.toNat < 2 ^ 8 := UInt8.toNat_lt b
  rw [bit, leVal, Nat.add_comm, show (256 : Nat) = 2 ^ 8 from rfl, Nat.testBit_two_pow_mul_add _ hb]
  rfl

theorem bit_nil (i : Nat) : bit [] i = false := by simp [bit, leVal]

theorem bit_eq (bs : Bytes) (i : Nat) :
    bit bs i = ((bs[i / 8]?).getD 0).toNat.testBit (i % 8) := by
  induction bs generalizing i with
  | nil => simp [bit_nil]
  | cons b bs ih =>
    rw [bit_cons]
    by_cases h : i < 8
    · have : i / 8 = 0 := by omega
      simp [h, this, show i % 8 = i by omega]
    · rw [if_neg h, ih]
      have h1 : i / 8 = (i - 8) / 8 + 1 := by omega
      rw [h1, show (i - 8) % 8 = i % 8 by omega]
      simp

theorem bit_ge {bs : Bytes} {i : Nat} (h : 8 * bs.length ≤ i) : bit bs i = false := by
  rw [bit_eq, List.getElem?_eq_none (by omega)]; simp

theorem bytes_ext {a b : Bytes} (hl : a.length = b.length) (h : ∀ i, bit a i = bit b i) : a = b := by
  have : leVal a = leVal b := Nat.eq_of_testBit_eq h
  rw [← leBytes_leVal a, ← leBytes_leVal b, hl, this]

theorem bit_splice {buf bs : Bytes} {off : Nat} (h : off + bs.length ≤ buf.length) (i : Nat) :
    bit (splice buf off bs) i =
      if 8 * off ≤ i ∧ i < 8 * (off + bs.length) then bit bs (i - 8 * off) else bit buf i := by
  rw [bit_eq, splice_getElem? _ _ _ _ h]
  split
  · rename_i h1
    rw [if_pos (by omega), bit_eq, show (i - 8 * off) / 8 = i / 8 - off by omega,
      show (i - 8 * off) % 8 = i % 8 by omega]
  · rename_i h1
    rw [if_neg (by omega), bit_eq]

theorem bit_drop (buf : Bytes) (o i : Nat) : bit (buf.drop o) i = bit buf (8 * o + i) := by
  rw [bit_eq, bit_eq, List.getElem?_drop, show (8 * o + i) / 8 = o + i / 8 by omega,
    show (8 * o + i) % 8 = i % 8 by omega]

theorem bit_take (buf : Bytes) (n i : Nat) :
    bit (buf.take n) i = if i < 8 * n then bit buf i else false := by
  rw [bit_eq, bit_eq, List.getElem?_take]
  by_cases h : i < 8 * n
  · rw [if_pos h, if_pos (by omega)]
  · rw [if_neg h, if_neg (by omega)]; simp

theorem bit_slice (buf : Bytes) (o n i : Nat) :
    bit (slice buf o n) i = if i < 8 * n then bit buf (8 * o + i) else false := by
  rw [slice, bit_take, bit_drop]

theorem bit_append {a b : Bytes} (i : Nat) :
    bit (a ++ b) i = if i < 8 * a.length then bit a i else bit b (i - 8 * a.length) := by
  rw [bit_eq, bit_eq, bit_eq, List.getElem?_append]
  by_cases h : i < 8 * a.length
  · rw [if_pos h, if_pos (by omega)]
  · rw [if_neg h, if_neg (by omega), show (i - 8 * a.length) / 8 = i / 8 - a.length by omega,
      show (i - 8 * a.length) % 8 = i % 8 by omega]

/-- The `n` bit number at bit position `s`. -/
def getBits (buf : Bytes) (s n : Nat) : Nat := (leVal buf >>> s) % 2 ^ n

theorem getBits_testBit (buf : Bytes) (s n i : Nat) :
    (getBits buf s n).testBit i = (decide (i < n) && bit buf (s + i)) := by
  rw [getBits, Nat.testBit_mod_two_pow, Nat.testBit_shiftRight, bit]

theorem getBits_lt (buf : Bytes) (s n : Nat) : getBits buf s n < 2 ^ n :=
  Nat.mod_lt _ (Nat.two_pow_pos n)

theorem getBits_congr {a b : Bytes} {s t n : Nat} (h : ∀ i, i < n → bit a (s + i) = bit b (t + i)) :
    getBits a s n = getBits b t n := by
  apply Nat.eq_of_testBit_eq
  intro i
  rw [getBits_testBit, getBits_testBit]
  by_cases hi : i < n
  · simp [hi, h i hi]
  · simp [hi]

theorem leVal_slice (buf : Bytes) (o n : Nat) : leVal (slice buf o n) = getBits buf (8 * o) (8 * n) := by
  apply Nat.eq_of_testBit_eq
  intro i
  rw [getBits_testBit]
  have := bit_slice buf o n i
  rw [bit] at this
  rw [this]
  by_cases h : i < 8 * n <;> simp [h]

/-- Overwrite the `n` bits at bit position `s` by those of `x`. -/
def setBits (buf : Bytes) (s n x : Nat) : Bytes :=
  leBytes buf.length (leVal buf ^^^ (((leVal buf >>> s) ^^^ x) % 2 ^ n) <<< s)

@[simp] theorem setBits_length (buf : Bytes) (s n x : Nat) : (setBits buf s n x).length = buf.length := by
  simp [setBits]

theorem bit_setBits {buf : Bytes} {s n : Nat} (x : Nat) (h : s + n ≤ 8 * buf.length) (i : Nat) :
    bit (setBits buf s n x) i = if s ≤ i ∧ i < s + n then x.testBit (i - s) else bit buf i := by
  rw [bit, setBits, leVal_leBytes, show (256 : Nat) ^ buf.length = 2 ^ (8 * buf.length) by
    rw [show (256 : Nat) = 2 ^ 8 from rfl, ← Nat.pow_mul], Nat.testBit_mod_two_pow,
    Nat.testBit_xor, Nat.testBit_shiftLeft, Nat.testBit_mod_two_pow, Nat.testBit_xor,
    Nat.testBit_shiftRight]
  change (decide (i < 8 * buf.length) && (bit buf i ^^ (decide (i ≥ s) && (decide (i - s < n) &&
    (bit buf (s + (i - s)) ^^ x.testBit (i - s)))))) = _
  by_cases h1 : i < 8 * buf.length
  · by_cases h2 : s ≤ i
    · by_cases h3 : i < s + n
      · rw [show s + (i - s) = i by omega]
        simp [h1, h2, h3, show i - s < n by omega]
      · simp [h1, h3, show ¬ i - s < n by omega]
    · simp [h1, h2]
  · simp [h1, show ¬ (s ≤ i ∧ i < s + n) by omega, bit_ge (show 8 * buf.length ≤ i by omega)]

theorem getBits_setBits_same {buf : Bytes} {s n x : Nat} (h : s + n ≤ 8 * buf.length)
    (hx : x < 2 ^ n) : getBits (setBits buf s n x) s n = x := by
  apply Nat.eq_of_testBit_eq
  intro i
  rw [getBits_testBit, bit_setBits x h]
  by_cases hi : i < n
  · simp [hi]
  · simp only [hi, decide_false, Bool.false_and]
    exact (Nat.testBit_lt_two_pow (Nat.lt_of_lt_of_le hx (Nat.pow_le_pow_right (by omega) (by omega)))).symm

theorem splice_leBytes_eq_setBits {buf : Bytes} {o n v : Nat} (h : o + n ≤ buf.length) :
    splice buf o (leBytes n v) = setBits buf (8 * o) (8 * n) v := by
  apply bytes_ext
  · rw [splice_length _ _ _ (by simpa using h), setBits_length]
  · intro i
    rw [bit_splice (by simpa using h), bit_setBits _ (by omega), leBytes_length]
    by_cases hi : 8 * o ≤ i ∧ i < 8 * (o + n)
    · rw [if_pos hi, if_pos (by omega), bit, leVal_leBytes, show (256 : Nat) ^ n = 2 ^ (8 * n) by
        rw [show (256 : Nat) = 2 ^ 8 from rfl, ← Nat.pow_mul], Nat.testBit_mod_two_pow]
      simp [show i - 8 * o < 8 * n by omega]
    · rw [if_neg hi, if_neg (by omega)]

end Verif
