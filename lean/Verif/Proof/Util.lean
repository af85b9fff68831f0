import Verif.Model.Util

/-! # Lemmas on machine arithmetic and byte buffers -/

namespace Verif

/-! ## Faults -/

@[simp] theorem assert_ok {b : Bool} {u : Unit} : assert b = .ok u ↔ b = true := by
  cases b <;> simp [assert]

@[simp] theorem assert_true : assert true = .ok () := rfl
@[simp] theorem assert_false : assert false = .error .panic := rfl

@[simp] theorem Res.bind_ok {α β : Type} (x : α) (f : α → Res β) :
    ((Except.ok x : Res α) >>= f) = f x := rfl

@[simp] theorem Res.bind_error {α β : Type} (e : Fault) (f : α → Res β) :
    ((Except.error e : Res α) >>= f) = .error e := rfl

@[simp] theorem Res.pure_eq {α : Type} (x : α) : (pure x : Res α) = .ok x := rfl

theorem Res.bind_eq_ok {α β : Type} {m : Res α} {f : α → Res β} {b : β} :
    (m >>= f) = .ok b ↔ ∃ a, m = .ok a ∧ f a = .ok b := by
  cases m <;> simp

theorem subP_ok {a b : Nat} (h : b ≤ a) : subP a b = .ok (a - b) := by simp [subP, h]
theorem subW_ok {chk : Bool} {a b : Nat} (h : b ≤ a) : subW chk a b = .ok (a - b) := by simp [subW, h]

/-! ## Powers of two -/

theorem mod_two_pow_succ (x w : Nat) :
    x % 2 ^ (w + 1) = x % 2 ^ w + 2 ^ w * (x.testBit w).toNat := by
  rw [Nat.pow_succ, Nat.mod_mul, Nat.testBit_eq_decide_div_mod_eq]
  have := Nat.mod_two_eq_zero_or_one (x / 2 ^ w)
  rcases this with h | h <;> simp [h]

theorem countOnes_eq_zero (w x : Nat) : countOnes w x = 0 ↔ x % 2 ^ w = 0 := by
  induction w with
  | zero => simp [countOnes, Nat.mod_one]
  | succ w ih =>
    rw [mod_two_pow_succ]
    cases h : x.testBit w
    · simp [countOnes, h, ih]
    · have := Nat.two_pow_pos w
      simp [countOnes, h]

theorem countOnes_eq_one (w x : Nat) : countOnes w x = 1 ↔ ∃ k, k < w ∧ x % 2 ^ w = 2 ^ k := by
  induction w with
  | zero => simp [countOnes]
  | succ w ih =>
    rw [mod_two_pow_succ]
    have hlt := Nat.mod_lt x (Nat.two_pow_pos w)
    cases h : x.testBit w
    · simp only [countOnes, h, Bool.false_eq_true, if_false, Nat.zero_add, ih,
        Bool.toNat_false, Nat.mul_zero]
      constructor
      · rintro ⟨k, hk, e⟩; exact ⟨k, by omega, e⟩
      · rintro ⟨k, hk, e⟩
        rcases Nat.lt_or_ge k w with h1 | h1
        · exact ⟨k, h1, e⟩
        · have := Nat.pow_le_pow_right (n := 2) (by omega) h1; omega
    · simp only [countOnes, h, if_true, Bool.toNat_true, Nat.mul_one]
      have h0 := countOnes_eq_zero w x
      constructor
      · intro hc
        have : x % 2 ^ w = 0 := h0.1 (by omega)
        exact ⟨w, by omega, by omega⟩
      · rintro ⟨k, hk, e⟩
        rcases Nat.lt_or_ge k w with h1 | h1
        · have := Nat.pow_lt_pow_right (a := 2) (by omega) h1; omega
        · have hkw : k = w := by omega
          subst hkw
          have : x % 2 ^ k = 0 := by omega
          rw [h0.2 this]

theorem isPow2_iff {x : Nat} (hx : x < W64) : isPow2 x = true ↔ ∃ k, k < 64 ∧ x = 2 ^ k := by
  unfold isPow2
  rw [beq_iff_eq, countOnes_eq_one, Nat.mod_eq_of_lt hx]

theorem isPow2_two_pow {k : Nat} (hk : k < 64) : isPow2 (2 ^ k) = true :=
  (isPow2_iff (Nat.pow_lt_pow_right (by omega) hk)).2 ⟨k, hk, rfl⟩

/-- Rounding up, as arithmetic. -/
def alignUp (v a : Nat) : Nat := (v + a - 1) / a * a

theorem and_notMask (t k w : Nat) (hk : k ≤ w) (ht : t < 2 ^ w) :
    t &&& (2 ^ w - 2 ^ k) = t / 2 ^ k * 2 ^ k := by
  apply Nat.eq_of_testBit_eq
  intro i
  rw [Nat.testBit_and, Nat.mul_comm, Nat.testBit_two_pow_mul, Nat.testBit_div_two_pow]
  have e : 2 ^ w - 2 ^ k = 2 ^ k * (2 ^ (w - k) - 1) := by
    rw [Nat.mul_sub, ← Nat.pow_add, Nat.mul_one]; congr 2; omega
  rw [e, Nat.testBit_two_pow_mul, Nat.testBit_two_pow_sub_one]
  by_cases h1 : k ≤ i
  · have : i - k + k = i := by omega
    by_cases h2 : i < w
    · have h3 : i - k < w - k := by omega
      simp [h1, h3, this]
    · have h3 : ¬ i - k < w - k := by omega
      have : t.testBit i = false := Nat.testBit_lt_two_pow (Nat.lt_of_lt_of_le ht
        (Nat.pow_le_pow_right (by omega) (by omega)))
      simp [this, h1, h3]
  · simp [h1]

theorem align_ok {chk : Bool} {v k : Nat} (hk : k < 64) (hv : v + 2 ^ k < W64) :
    align chk v (2 ^ k) = .ok (alignUp v (2 ^ k)) := by
  have hp := Nat.two_pow_pos k
  have hk2 : 2 ^ k < W64 := Nat.pow_lt_pow_right (by omega) hk
  have e : notW (2 ^ k - 1) = 2 ^ 64 - 2 ^ k := by unfold notW; omega
  simp only [align, isPow2_two_pow hk, assert_true, Res.bind_ok, addW, hv, if_true, subW,
    show 1 ≤ v + 2 ^ k by omega, show 1 ≤ 2 ^ k by omega, Res.pure_eq, e]
  rw [and_notMask _ _ _ (by omega) (by omega), alignUp]

theorem align_not_pow2 {chk : Bool} {v a : Nat} (h : isPow2 a = false) :
    align chk v a = .error .panic := by
  simp [align, h]

/-- Multiples. -/
theorem alignUp_dvd (v a : Nat) : a ∣ alignUp v a := Nat.dvd_mul_left ..

theorem le_alignUp (v : Nat) {a : Nat} (ha : 0 < a) : v ≤ alignUp v a := by
  unfold alignUp
  have h1 := Nat.div_add_mod (v + a - 1) a
  have h2 := Nat.mod_lt (v + a - 1) ha
  rw [Nat.mul_comm] at h1
  omega

theorem alignUp_lt (v : Nat) {a : Nat} (ha : 0 < a) : alignUp v a < v + a := by
  unfold alignUp
  have h1 := Nat.div_mul_le_self (v + a - 1) a
  omega

theorem alignUp_le_of_dvd {v a m : Nat} (ha : 0 < a) (hm : a ∣ m) (hv : v ≤ m) :
    alignUp v a ≤ m := by
  obtain ⟨q, rfl⟩ := hm
  unfold alignUp
  have : (v + a - 1) / a ≤ q := by
    rw [← Nat.lt_succ_iff, Nat.div_lt_iff_lt_mul ha, Nat.succ_mul]
    rw [Nat.mul_comm] at hv; omega
  calc _ ≤ q * a := Nat.mul_le_mul_right _ this
    _ = _ := Nat.mul_comm ..

/-! ## Little endian -/

@[simp] theorem leBytes_length (n v : Nat) : (leBytes n v).length = n := by
  induction n generalizing v with
  | zero => rfl
  | succ n ih => simp [leBytes, ih]

theorem leVal_leBytes (n v : Nat) : leVal (leBytes n v) = v % 256 ^ n := by
  induction n generalizing v with
  | zero => simp [leBytes, leVal, Nat.mod_one]
  | succ n ih =>
    have : (v % 256) % 2 ^ 8 = v % 256 := by omega
    simp only [leBytes, leVal, ih, UInt8.toNat_ofNat', this]
    rw [Nat.pow_succ, Nat.mul_comm (256 ^ n) 256, Nat.mod_mul]

theorem leVal_lt (bs : Bytes) : leVal bs < 256 ^ bs.length := by
  induction bs with
  | nil => simp [leVal]
  | cons b bs ih =>
    have := b.toNat_lt
    simp only [leVal, List.length_cons, Nat.pow_succ]
    omega

theorem leBytes_leVal (bs : Bytes) : leBytes bs.length (leVal bs) = bs := by
  induction bs with
  | nil => rfl
  | cons b bs ih =>
    have := b.toNat_lt
    have h1 : (b.toNat + 256 * leVal bs) % 256 = b.toNat := by omega
    have h2 : (b.toNat + 256 * leVal bs) / 256 = leVal bs := by omega
    simp only [leVal, List.length_cons, leBytes, h1, h2, ih, UInt8.ofNat_toNat]

/-! ## Slices and splices -/

@[simp] theorem slice_length (buf : Bytes) (off n : Nat) (h : off + n ≤ buf.length) :
    (slice buf off n).length = n := by
  simp [slice]; omega

theorem slice_getElem? (buf : Bytes) (off n i : Nat) :
    (slice buf off n)[i]? = if i < n then buf[off + i]? else none := by
  simp [slice, List.getElem?_take, List.getElem?_drop]

@[simp] theorem splice_length (buf : Bytes) (off : Nat) (bs : Bytes)
    (h : off + bs.length ≤ buf.length) : (splice buf off bs).length = buf.length := by
  simp [splice]; omega

theorem splice_getElem? (buf : Bytes) (off : Nat) (bs : Bytes) (i : Nat)
    (h : off + bs.length ≤ buf.length) :
    (splice buf off bs)[i]? =
      if off ≤ i ∧ i < off + bs.length then bs[i - off]? else buf[i]? := by
  have ht : (buf.take off).length = off := by simp; omega
  unfold splice
  rw [List.append_assoc, List.getElem?_append, ht]
  by_cases h1 : i < off
  · simp [h1, show ¬ off ≤ i by omega]
  · rw [if_neg h1, List.getElem?_append]
    by_cases h2 : i - off < bs.length
    · simp [h2, show off ≤ i ∧ i < off + bs.length by omega]
    · simp [h2, show ¬ i < off + bs.length by omega, List.getElem?_drop]
      congr 1; omega

theorem slice_splice_disjoint {buf bs : Bytes} {off o n : Nat}
    (h : off + bs.length ≤ buf.length) (hd : o + n ≤ off ∨ off + bs.length ≤ o) :
    slice (splice buf off bs) o n = slice buf o n := by
  apply List.ext_getElem?
  intro i
  rw [slice_getElem?, slice_getElem?]
  by_cases hi : i < n
  · simp only [hi, if_true]
    rw [splice_getElem? _ _ _ _ h, if_neg (by omega)]
  · simp [hi]

theorem slice_splice_inside {buf bs : Bytes} {off o n : Nat}
    (h : off + bs.length ≤ buf.length) (h1 : off ≤ o) (h2 : o + n ≤ off + bs.length) :
    slice (splice buf off bs) o n = slice bs (o - off) n := by
  apply List.ext_getElem?
  intro i
  rw [slice_getElem?, slice_getElem?]
  by_cases hi : i < n
  · simp only [hi, if_true]
    rw [splice_getElem? _ _ _ _ h, if_pos (by omega)]
    congr 1; omega
  · simp [hi]

theorem slice_slice {buf : Bytes} {s m o n : Nat} (h : o + n ≤ m) :
    slice (slice buf s m) o n = slice buf (s + o) n := by
  apply List.ext_getElem?
  intro i
  rw [slice_getElem?, slice_getElem? buf (s + o)]
  by_cases hi : i < n
  · simp only [hi, if_true]
    rw [slice_getElem?, if_pos (by omega)]
    congr 1; omega
  · simp only [hi, if_false]

theorem slice_all (bs : Bytes) : slice bs 0 bs.length = bs := by simp [slice]

theorem slice_splice_same {buf bs : Bytes} {off : Nat} (h : off + bs.length ≤ buf.length) :
    slice (splice buf off bs) off bs.length = bs := by
  rw [slice_splice_inside h (Nat.le_refl _) (Nat.le_refl _), Nat.sub_self, slice_all]

/-! ## `setValue`, `getValue` -/

theorem setValue_ok {n : Nat} {buf : Bytes} {off v : Nat} (h : off + n ≤ buf.length) :
    setValue n buf off v = .ok (splice buf off (leBytes n v)) := by
  simp [setValue, h]

theorem getValue_ok {n : Nat} {buf : Bytes} {off : Nat} (h : off + n ≤ buf.length) :
    getValue n buf off = .ok (leVal (slice buf off n)) := by
  simp [getValue, h]

/-! ## `leadingZeros`, `trailingZeros` -/

theorem leadingZeros_spec (w x : Nat) (hx : x < 2 ^ w) (h0 : x ≠ 0) :
    leadingZeros w x < w ∧ 2 ^ (w - leadingZeros w x - 1) ≤ x ∧ x < 2 ^ (w - leadingZeros w x) := by
  induction w with
  | zero => simp at hx; omega
  | succ w ih =>
    by_cases h : x < 2 ^ w
    · have hb : x.testBit w = false := Nat.testBit_lt_two_pow h
      have := ih h
      simp only [leadingZeros, hb, Bool.false_eq_true, if_false]
      rw [show w + 1 - (leadingZeros w x + 1) = w - leadingZeros w x by omega]
      exact ⟨by omega, this.2⟩
    · have hb : x.testBit w = true := by
        have : x / 2 ^ w = 1 := by
          rw [Nat.pow_succ] at hx
          have hp := Nat.two_pow_pos w
          rw [Nat.div_eq_iff hp]; omega
        simp [Nat.testBit_eq_decide_div_mod_eq, this]
      simp only [leadingZeros, hb, if_true]
      simp; omega

theorem trailingZerosFrom_two_pow (w k i : Nat) (hk : k < w) (hi : i ≤ k) :
    trailingZerosFrom w (2 ^ k) i = k - i := by
  induction h : k - i generalizing i with
  | zero =>
    have : i = k := by omega
    subst this
    unfold trailingZerosFrom
    simp
  | succ d ih =>
    unfold trailingZerosFrom
    rw [if_pos (by omega), Nat.testBit_two_pow]
    simp [show k ≠ i by omega, ih (i + 1) (by omega) (by omega)]

end Verif
