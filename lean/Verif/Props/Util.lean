import Verif.Proof.Util

/-! # Properties C01–C04: `src/core/util.rs` -/

namespace Verif.Props

open Verif

/-- C01. `align` returns the least multiple of a power-of-two alignment that is not below the value,
panics for every other alignment, and otherwise fails only when `value + alignment` does not fit in
64 bits (a panic with overflow checks; without them the result is 0, except that the one value
`2^64 - alignment` is still rounded correctly). -/
theorem C01_align (chk : Bool) (v a : Nat) (hv : v < 2 ^ 64) (ha : a < 2 ^ 64) :
    ((¬ ∃ k, a = 2 ^ k) → align chk v a = .error .panic) ∧
    ((∃ k, a = 2 ^ k) → v + a < 2 ^ 64 →
      ∃ r, align chk v a = .ok r ∧ a ∣ r ∧ v ≤ r ∧ ∀ m, a ∣ m → v ≤ m → r ≤ m) ∧
    ((∃ k, a = 2 ^ k) → 2 ^ 64 ≤ v + a → chk = true → align chk v a = .error .panic) ∧
    ((∃ k, a = 2 ^ k) → v + a = 2 ^ 64 → chk = false → align chk v a = .ok v) ∧
    ((∃ k, a = 2 ^ k) → 2 ^ 64 < v + a → chk = false → align chk v a = .ok 0) := by
  have key : ∀ k, a = 2 ^ k → k < 64 := by
    intro k hk
    exact (Nat.pow_lt_pow_iff_right (a := 2) (by omega)).1 (hk ▸ ha)
  have e : ∀ k, a = 2 ^ k → notW (2 ^ k - 1) = 2 ^ 64 - 2 ^ k := by
    intro k hk
    have := Nat.two_pow_pos k
    unfold notW; omega
  refine ⟨?_, ?_, ?_, ?_, ?_⟩
  · intro h
    refine align_not_pow2 ?_
    rw [Bool.eq_false_iff]
    intro hp
    obtain ⟨k, _, hk⟩ := (isPow2_iff ha).1 hp
    exact h ⟨k, hk⟩
  · rintro ⟨k, rfl⟩ hs
    have hp := Nat.two_pow_pos k
    exact ⟨_, align_ok (key k rfl) hs, alignUp_dvd _ _, le_alignUp _ hp,
      fun m h1 h2 => alignUp_le_of_dvd hp h1 h2⟩
  · rintro ⟨k, rfl⟩ hs rfl
    simp [align, isPow2_two_pow (key k rfl), addW, show ¬ v + 2 ^ k < 18446744073709551616 by omega]
  · rintro ⟨k, rfl⟩ hs rfl
    have hp := Nat.two_pow_pos k
    have hk := key k rfl
    have h1 : (v + 2 ^ k) % 18446744073709551616 = 0 := by omega
    have h2 : v = 2 ^ 64 - 2 ^ k := by omega
    have h3 := and_notMask (2 ^ 64 - 1) k 64 (by omega) (by omega)
    have h4 : (2 ^ 64 - 1) / 2 ^ k * 2 ^ k = 2 ^ 64 - 2 ^ k := by
      have hd : 2 ^ k ∣ 2 ^ 64 := Nat.pow_dvd_pow 2 (by omega)
      obtain ⟨q, hq⟩ := hd
      have hq0 : 0 < q := by
        rcases Nat.eq_zero_or_pos q with h | h
        · subst h; simp at hq
        · exact h
      have : (2 ^ 64 - 1) / 2 ^ k = q - 1 := by
        rw [hq, Nat.div_eq_iff hp, Nat.mul_comm (2 ^ k) q]
        have : (q - 1) * 2 ^ k + 2 ^ k = q * 2 ^ k := by
          rw [← Nat.succ_mul]; congr 1; omega
        omega
      rw [this, hq, Nat.mul_comm (2 ^ k) q, Nat.sub_mul, Nat.one_mul]
    simp only [align, isPow2_two_pow hk, assert_true, Res.bind_ok, addW,
      show ¬ v + 2 ^ k < 18446744073709551616 by omega, if_false, Bool.false_eq_true, h1, subW,
      show ¬ 1 ≤ 0 by omega, show 1 ≤ 2 ^ k by omega, if_true, Res.pure_eq, e k rfl]
    rw [Nat.zero_add]
    exact congrArg Except.ok ((h3.trans h4).trans h2.symm)
  · rintro ⟨k, rfl⟩ hs rfl
    have hp := Nat.two_pow_pos k
    have hk := key k rfl
    obtain ⟨t, ht, htk⟩ : ∃ t, (v + 2 ^ k) % 18446744073709551616 = t + 1 ∧ t < 2 ^ k :=
      ⟨(v + 2 ^ k) % 18446744073709551616 - 1, by omega, by omega⟩
    have hk2 : 2 ^ k ≤ 2 ^ 64 := Nat.pow_le_pow_right (by omega) (by omega)
    have hadd : addW false v (2 ^ k) = .ok (t + 1) := by
      rw [addW, if_neg (by omega), if_neg (by simp), ht]
    have hm : subW false (2 ^ k) 1 = .ok (2 ^ k - 1) := by rw [subW, if_pos (by omega)]
    have hs1 : subW false (t + 1) 1 = .ok t := by simp [subW]
    rw [align, isPow2_two_pow hk, assert_true, Res.bind_ok, hadd, Res.bind_ok, hs1, Res.bind_ok, hm,
      Res.bind_ok, e k rfl, and_notMask t k 64 (by omega) (by omega), Nat.div_eq_of_lt htk,
      Nat.zero_mul]
    rfl

/-- C01 instance: a value that is not a multiple, and the extreme values. -/
example : align true 158273 16 = .ok 158288 ∧ align true 5 12 = .error .panic ∧
    align true (2 ^ 64 - 5) 16 = .error .panic ∧ align false (2 ^ 64 - 5) 16 = .ok 0 := by decide

/-- C02. `required_bits v` bits are enough for `0..=v`, and no smaller number is. -/
theorem C02_required_bits (v : Nat) (hv : v < 2 ^ 64) :
    (∀ t, t ≤ v → t < 2 ^ requiredBits v) ∧ (∀ k, v < 2 ^ k → requiredBits v ≤ k) := by
  unfold requiredBits
  by_cases h0 : v = 0
  · subst h0
    exact ⟨fun t ht => by simp; omega, fun k _ => by simp⟩
  · rw [if_neg h0]
    have h := leadingZeros_spec 64 v hv h0
    refine ⟨fun t ht => by omega, fun k hk => ?_⟩
    have : 2 ^ (64 - leadingZeros 64 v - 1) < 2 ^ k := by omega
    have := (Nat.pow_lt_pow_iff_right (a := 2) (by omega)).1 this
    omega

/-- C02 instance. -/
example : requiredBits 32767 = 15 ∧ requiredBits 32768 = 16 ∧ requiredBits (2 ^ 64 - 1) = 64 := by
  decide

/-- C03. `log2` is the exact logarithm and panics when there is none. -/
theorem C03_log2 (v k : Nat) (hv : v < 2 ^ 64) :
    (log2 v = .ok k ↔ v = 2 ^ k) ∧ ((∀ j, v ≠ 2 ^ j) → log2 v = .error .panic) := by
  have hpow : ∀ j, v = 2 ^ j → log2 v = .ok j := by
    rintro j rfl
    have hj : j < 64 := (Nat.pow_lt_pow_iff_right (a := 2) (by omega)).1 hv
    have hne : (2 ^ j != 0) = true := by
      have := Nat.two_pow_pos j
      simp
    simp only [log2, hne, isPow2_two_pow hj, assert_true, Res.bind_ok, Res.pure_eq, trailingZeros]
    rw [trailingZerosFrom_two_pow _ _ _ hj (by omega), Nat.sub_zero]
  have hbad : (∀ j, v ≠ 2 ^ j) → log2 v = .error .panic := by
    intro h
    have hp : isPow2 v = false := by
      rw [Bool.eq_false_iff]
      intro hp
      obtain ⟨j, _, hj⟩ := (isPow2_iff hv).1 hp
      exact h j hj
    unfold log2
    cases hz : (v != 0) <;> simp [hp]
  refine ⟨⟨fun h => ?_, fun h => hpow k h⟩, hbad⟩
  by_cases hex : ∃ j, v = 2 ^ j
  · obtain ⟨j, hj⟩ := hex
    rw [hpow j hj] at h
    cases h
    exact hj
  · rw [hbad (fun j hj => hex ⟨j, hj⟩)] at h
    cases h

/-- C03 instance. -/
example : log2 4096 = .ok 12 ∧ log2 4097 = .error .panic ∧ log2 0 = .error .panic := by
  refine ⟨(C03_log2 4096 12 (by decide)).1.2 (by decide), by decide, by decide⟩

/-- C04. `set_value` then `get_value` of an `n`-byte integer: the value comes back, all bytes outside
the written range and the length are unchanged; both panic exactly when the range is not inside. -/
theorem C04_set_get (n : Nat) (buf : Bytes) (off v : Nat) (hv : v < 256 ^ n) :
    (off + n ≤ buf.length →
      ∃ buf', setValue n buf off v = .ok buf' ∧ getValue n buf' off = .ok v ∧
        buf'.length = buf.length ∧ ∀ i, i < off ∨ off + n ≤ i → buf'[i]? = buf[i]?) ∧
    (¬ off + n ≤ buf.length →
      setValue n buf off v = .error .panic ∧ getValue n buf off = .error .panic) := by
  constructor
  · intro h
    have hb : off + (leBytes n v).length ≤ buf.length := by simpa using h
    refine ⟨_, setValue_ok h, ?_, splice_length _ _ _ hb, ?_⟩
    · rw [getValue_ok (by rw [splice_length _ _ _ hb]; exact h)]
      have := slice_splice_same hb
      rw [leBytes_length] at this
      rw [this, leVal_leBytes, Nat.mod_eq_of_lt hv]
    · intro i hi
      rw [splice_getElem? _ _ _ _ hb, if_neg (by simp; omega)]
  · intro h
    simp [setValue, getValue, h]

/-- C04 instance: a 32-bit store in the middle of a buffer. -/
example : setValue 4 [9, 9, 9, 9, 9, 9] 1 0x04030201 = .ok [9, 1, 2, 3, 4, 9] ∧
    getValue 4 [9, 1, 2, 3, 4, 9] 1 = .ok 0x04030201 ∧
    setValue 4 [9, 9, 9, 9, 9, 9] 3 0 = .error .panic := by decide

end Verif.Props
