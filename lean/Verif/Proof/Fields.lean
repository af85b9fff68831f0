import Verif.Proof.Unroll
import Verif.Proof.Bits

/-! # Writing and reading fixed size fields, seen as bit ranges -/

namespace Verif

open Spec

theorem Prim.store_lt (p : Prim) (v : p.Val) : p.store v < 2 ^ (8 * p.size) := by
  cases p
  case bool => cases v <;> decide
  case char =>
    have h : Nat.isValidChar (Char.toNat v) := Char.valid v
    change Char.toNat v < 2 ^ 32
    unfold Nat.isValidChar at h
    omega
  all_goals exact BitVec.isLt _

theorem Prim.load_store (p : Prim) (v : p.Val) : p.load (p.store v) = .ok v := by
  cases p
  case bool => cases v <;> rfl
  case char =>
    have h : ∀ c : Char, Prim.load .char c.toNat = .ok c := by
      intro c
      have hv : Nat.isValidChar c.toNat := Char.valid c
      unfold Prim.load
      exact (dif_pos hv).trans rfl
    exact h v
  all_goals
    refine congrArg Except.ok (BitVec.eq_of_toNat_eq ?_)
    exact (BitVec.toNat_ofNat _ _).trans (Nat.mod_eq_of_lt (BitVec.isLt _))

theorem readRaw_ok {n : Nat} {data : Bytes} {off : Nat} (h : off + n ≤ data.length) :
    readRaw n data off = .ok (getBits data (8 * off) (8 * n)) := by
  unfold readRaw
  rw [if_neg (by omega), if_neg (by omega), leVal_slice]

theorem writeRaw_ok {n : Nat} {data : Bytes} {off v : Nat} (h : off + n ≤ data.length) :
    writeRaw n data off v = .ok (setBits data (8 * off) (8 * n) v) := by
  unfold writeRaw
  rw [if_neg (by omega), if_neg (by omega), splice_leBytes_eq_setBits h]

/-- The number stored in a fixed size field. -/
def fieldVal (env : Path → Val) (f : FixedField) : Nat :=
  match f.kind, env f.path with
  | .prim _, .prim v => v.kind.store v.val
  | .length, .str bs => bs.length
  | .bitfield .., .case i _ => i
  | _, _ => 0

/-- What is needed to write a field. -/
def FieldGood (chk : Bool) (env : Path → Val) (f : FixedField) : Prop :=
  match f.kind with
  | .prim p => ∃ v : PrimVal, env f.path = .prim v ∧ v.kind = p
  | .length => ∃ bs, env f.path = .str bs ∧ bs.length < 2 ^ 32
  | .bitfield p o n => ∃ i w, env f.path = .case i w ∧ i < 2 ^ n ∧ p.isContainer = true ∧ p.size ≤ 8 ∧
      o + n ≤ 8 * p.size ∧ n < 64 ∧ (chk = true → n < 8 * p.size ∧ o < 8 * p.size)
  | .container .. => False

/-- A tag that fills its machine word. -/
def FixedField.full (f : FixedField) : Bool :=
  match f.kind with
  | .bitfield p _ n => decide (8 * p.size ≤ n)
  | _ => false

/-- The buffer after writing the field: nothing is written if it is a tag that fills its word. -/
def put (env : Path → Val) (f : FixedField) (buf : Bytes) : Bytes :=
  if f.full then buf else setBits buf f.bitStart f.bitCount (fieldVal env f)

/-- A full tag has bits. -/
theorem full_pos {chk : Bool} {env : Path → Val} {f : FixedField} (h : FieldGood chk env f)
    (hf : f.full = true) : 0 < f.bitCount := by
  obtain ⟨q, k, o⟩ := f
  cases k with
  | prim p => cases hf
  | length => cases hf
  | container i p => cases hf
  | bitfield p a n =>
    obtain ⟨i, w, h1, h2, h3, _⟩ := h
    simp only [FixedField.full, decide_eq_true_eq] at hf
    have hpos : 0 < 8 * p.size := by cases p <;> first | (cases h3; done) | decide
    simp only [FixedField.bitCount]
    omega

/-- A full field is the tag of an enum. -/
theorem full_case {chk : Bool} {env : Path → Val} {f : FixedField} (h : FieldGood chk env f)
    (hf : f.full = true) : ∃ i w, env f.path = .case i w ∧ fieldVal env f = i := by
  obtain ⟨q, k, o⟩ := f
  cases k with
  | prim p => cases hf
  | length => cases hf
  | container i p => cases hf
  | bitfield p a n =>
    obtain ⟨i, w, h1, _⟩ := h
    exact ⟨i, w, h1, by simp only at h1; simp [fieldVal, h1]⟩

theorem put_length (env : Path → Val) (f : FixedField) (buf : Bytes) : (put env f buf).length = buf.length := by
  unfold put
  split <;> simp

theorem FieldGood.range {chk : Bool} {env : Path → Val} {f : FixedField} (h : FieldGood chk env f) :
    8 * f.offset ≤ f.bitStart ∧ f.bitStart + f.bitCount ≤ 8 * (f.offset + f.size) := by
  obtain ⟨q, k, o⟩ := f
  cases k with
  | prim p => simp [FixedField.bitStart, FixedField.bitCount]; omega
  | length => simp [FixedField.bitStart, FixedField.bitCount]; omega
  | container i p => exact h.elim
  | bitfield p a n =>
    obtain ⟨i, w, h1, h2, h3, h4, h5, _⟩ := h
    simp [FixedField.bitStart, FixedField.bitCount, FixedField.size]; omega

theorem FieldGood.val_lt {chk : Bool} {env : Path → Val} {f : FixedField} (h : FieldGood chk env f) :
    fieldVal env f < 2 ^ f.bitCount := by
  obtain ⟨q, k, o⟩ := f
  cases k with
  | prim p =>
    obtain ⟨v, h1, rfl⟩ := h
    simp only at h1
    simp only [fieldVal, h1, FixedField.bitCount, FixedField.size]
    exact Prim.store_lt _ _
  | length =>
    obtain ⟨bs, h1, h2⟩ := h
    simp only at h1
    simp only [fieldVal, h1, FixedField.bitCount, FixedField.size]
    exact h2
  | container i p => exact h.elim
  | bitfield p a n =>
    obtain ⟨i, w, h1, h2, _⟩ := h
    simp only at h1
    simp only [fieldVal, h1, FixedField.bitCount]
    exact h2

theorem container_width {p : Prim} (h : p.size ≤ 8) : 8 * p.size ≤ 64 := by omega

theorem mask_ok {chk : Bool} {w o n : Nat} (hn : n < w) (ho : o < w) (hw : o + n ≤ w) :
    tagMask chk w o n = .ok ((2 ^ n - 1) * 2 ^ o) := by
  have h1 : 2 ^ n < 2 ^ w := Nat.pow_lt_pow_right (by omega) hn
  have hp := Nat.two_pow_pos n
  unfold tagMask shlW
  rw [if_pos hn, Nat.one_mul, Nat.mod_eq_of_lt h1]
  simp only [Res.bind_ok]
  rw [subP_ok (by omega)]
  simp only [Res.bind_ok]
  rw [if_pos ho]
  congr 1
  apply Nat.mod_eq_of_lt
  have : (2 ^ n - 1) * 2 ^ o < 2 ^ n * 2 ^ o := Nat.mul_lt_mul_of_pos_right (by omega) (Nat.two_pow_pos o)
  rw [← Nat.pow_add] at this
  exact Nat.lt_of_lt_of_le this (Nat.pow_le_pow_right (by omega) (by omega))

theorem tag_write_bits {buf : Bytes} {s w o n i : Nat} (hn : n < w) (hw : o + n ≤ w)
    (hs : s + w ≤ 8 * buf.length) (hi : i < 2 ^ n) :
    setBits buf s w ((getBits buf s w &&& (2 ^ w - 1 - (2 ^ n - 1) * 2 ^ o)) |||
      (((i % 2 ^ w * 2 ^ o) % 2 ^ w) &&& ((2 ^ n - 1) * 2 ^ o))) = setBits buf (s + o) n i := by
  have h1 : 2 ^ n < 2 ^ w := Nat.pow_lt_pow_right (by omega) hn
  have hm : (2 ^ n - 1) * 2 ^ o < 2 ^ w := by
    have : (2 ^ n - 1) * 2 ^ o < 2 ^ n * 2 ^ o :=
      Nat.mul_lt_mul_of_pos_right (by have := Nat.two_pow_pos n; omega) (Nat.two_pow_pos o)
    rw [← Nat.pow_add] at this
    exact Nat.lt_of_lt_of_le this (Nat.pow_le_pow_right (by omega) (by omega))
  apply bytes_ext (by simp)
  intro j
  rw [bit_setBits _ hs, bit_setBits _ (by omega)]
  by_cases hj : s ≤ j ∧ j < s + w
  · rw [if_pos hj]
    rw [Nat.testBit_or, Nat.testBit_and, Nat.testBit_and, show 2 ^ w - 1 - (2 ^ n - 1) * 2 ^ o =
      2 ^ w - ((2 ^ n - 1) * 2 ^ o + 1) by omega, Nat.testBit_two_pow_sub_succ hm,
      Nat.testBit_mul_two_pow, Nat.testBit_two_pow_sub_one, getBits_testBit, Nat.testBit_mod_two_pow,
      Nat.testBit_mul_two_pow, Nat.mod_eq_of_lt (Nat.lt_trans hi h1), show s + (j - s) = j by omega,
      show j - s - o = j - (s + o) by omega]
    by_cases hr : s + o ≤ j ∧ j < s + o + n
    · rw [if_pos hr]
      simp [show j - s < w by omega, show o ≤ j - s by omega, show j - (s + o) < n by omega]
    · rw [if_neg hr]
      by_cases ho : o ≤ j - s
      · simp [show j - s < w by omega, show ¬ j - (s + o) < n by omega]
      · simp [show j - s < w by omega, ho]
  · rw [if_neg hj, if_neg (by omega)]

theorem writeFixed_ok {chk : Bool} {env : Path → Val} {f : FixedField} {buf : Bytes} {src : DataSource}
    (h : FieldGood chk env f) (hb : f.offset + f.size ≤ buf.length)
    (hs : ∀ q l, (q, l) ∈ leaves (env f.path) f.path → Answers src q l) :
    writeFixed chk src f buf = .ok (put env f buf) := by
  obtain ⟨q, k, o⟩ := f
  cases k with
  | prim p =>
    obtain ⟨v, h1, rfl⟩ := h
    simp only at h1 hs
    have ha : Answers src q (.prim v) := hs q _ (by simp [h1, leaves])
    simp only [writeFixed]
    rw [show src.prim v.kind q = .ok v.val from ha]
    simp only [Res.bind_ok]
    rw [writeRaw_ok (by simpa [FixedField.size] using hb)]
    simp [put, FixedField.full, fieldVal, h1, FixedField.bitStart, FixedField.bitCount, FixedField.size]
  | length =>
    obtain ⟨bs, h1, h2⟩ := h
    simp only at h1 hs
    have ha : Answers src q (.str bs) := hs q _ (by simp [h1, leaves])
    simp only [writeFixed]
    rw [show src.length q = .ok bs.length from ha.1]
    simp only [Res.bind_ok]
    rw [show decide (bs.length ≤ 4294967295) = true by simp; omega]
    simp only [assert_true, Res.bind_ok]
    rw [writeRaw_ok (by simpa [FixedField.size] using hb)]
    simp [put, FixedField.full, fieldVal, h1, FixedField.bitStart, FixedField.bitCount, FixedField.size]
  | container i p => exact h.elim
  | bitfield p a n =>
    obtain ⟨i, w, h1, h2, h3, h4, h5, h6, h7⟩ := h
    simp only at h1 hs
    have ha : Answers src q (.tag i) := hs q _ (by simp [h1, leaves])
    simp only [FixedField.size] at hb
    simp only [writeFixed]
    rw [show src.tag q = .ok i from ha]
    simp only [Res.bind_ok]
    rw [if_pos h3]
    simp only [put, FixedField.full, decide_eq_true_eq, fieldVal, h1, FixedField.bitStart, FixedField.bitCount]
    by_cases hroom : 8 * p.size ≤ n
    · rw [if_pos hroom]
      have hc : chk = false := by cases chk; · rfl
                                  · exact absurd (h7 rfl).1 (by omega)
      have hpos : 0 < 8 * p.size := by cases p <;> first | (cases h3; done) | decide
      obtain rfl : a = 0 := by omega
      obtain rfl : n = 8 * p.size := by omega
      subst hc
      have hmask : tagMask false (8 * p.size) 0 (8 * p.size) = .ok 0 := by
        have h8 : 1 < 2 ^ (8 * p.size) := Nat.one_lt_two_pow (by omega)
        unfold tagMask shlW
        rw [if_neg (Nat.lt_irrefl _), if_neg (by decide), Nat.mod_self, Nat.pow_zero, Nat.mul_one,
          Nat.mod_eq_of_lt h8]
        simp only [Res.bind_ok]
        rw [subP_ok (Nat.le_refl _)]
        simp only [Res.bind_ok, Nat.sub_self, Nat.zero_mul, Nat.zero_mod]
        rw [if_pos hpos]
      rw [hmask]
      simp only [Res.bind_ok]
      rw [readRaw_ok hb]
      simp only [Res.bind_ok]
      rw [shlW, if_pos hpos]
      simp only [Res.bind_ok]
      rw [writeRaw_ok hb]
      congr 1
      apply bytes_ext (by simp)
      intro j
      rw [bit_setBits _ (by omega)]
      by_cases hj : 8 * o ≤ j ∧ j < 8 * o + 8 * p.size
      · rw [if_pos hj]
        simp only [Nat.and_zero, Nat.or_zero, Nat.sub_zero, Nat.testBit_and, getBits_testBit,
          Nat.testBit_two_pow_sub_one]
        rw [show 8 * o + (j - 8 * o) = j by omega]
        simp [show j - 8 * o < 8 * p.size by omega]
      · rw [if_neg hj]
    rw [if_neg hroom]
    replace h6 : n < 8 * p.size := by omega
    replace h7 : chk = true → a < 8 * p.size := fun h => (h7 h).2
    by_cases ho : a < 8 * p.size
    · rw [mask_ok h6 ho h5]
      simp only [Res.bind_ok]
      rw [readRaw_ok hb]
      simp only [Res.bind_ok]
      rw [shlW, if_pos ho]
      simp only [Res.bind_ok]
      rw [writeRaw_ok hb, tag_write_bits h6 h5 (by omega) h2]
    · have hn : n = 0 := by omega
      have hc : chk = false := by cases chk; · rfl
                                  · exact absurd (h7 rfl) ho
      have ha' : a = 8 * p.size := by omega
      subst hn hc ha'
      have hmask : tagMask false (8 * p.size) (8 * p.size) 0 = .ok 0 := by
        unfold tagMask shlW
        rw [if_pos h6]
        have h8 : 1 < 2 ^ (8 * p.size) := Nat.one_lt_two_pow (by omega)
        simp only [Nat.pow_zero, Nat.mul_one, Res.bind_ok]
        rw [Nat.mod_eq_of_lt h8, subP_ok (by omega)]
        simp
      rw [hmask]
      simp only [Res.bind_ok]
      rw [readRaw_ok hb]
      simp only [Res.bind_ok]
      obtain ⟨t, ht⟩ : ∃ t, shlW false (8 * p.size) (i % 2 ^ (8 * p.size)) (8 * p.size) = .ok t := by
        unfold shlW; simp
      rw [ht]
      simp only [Res.bind_ok]
      rw [writeRaw_ok hb]
      congr 1
      apply bytes_ext (by simp)
      intro j
      rw [bit_setBits _ (by omega), bit_setBits _ (by omega)]
      by_cases hj : 8 * o ≤ j ∧ j < 8 * o + 8 * p.size
      · rw [if_pos hj, if_neg (by omega)]
        simp only [Nat.and_zero, Nat.or_zero, Nat.sub_zero, Nat.testBit_and, getBits_testBit,
          Nat.testBit_two_pow_sub_one]
        rw [show 8 * o + (j - 8 * o) = j by omega]
        simp [show j - 8 * o < 8 * p.size by omega]
      · rw [if_neg hj, if_neg (by omega)]

/-- Reading a tag reads its bits. -/
theorem readTag_bits {chk : Bool} {env : Path → Val} {f : FixedField} {data : Bytes} {i : Nat} {w : Val}
    (h : FieldGood chk env f) (hb : f.offset + f.size ≤ data.length) (he : env f.path = .case i w) :
    readTag chk f data = .ok (getBits data f.bitStart f.bitCount) := by
  obtain ⟨q, k, o⟩ := f
  simp only at he
  cases k with
  | prim p => obtain ⟨v, h1, _⟩ := h; simp only at h1; rw [he] at h1; cases h1
  | length => obtain ⟨v, h1, _⟩ := h; simp only at h1; rw [he] at h1; cases h1
  | container i p => exact h.elim
  | bitfield p a n =>
    obtain ⟨i', w', h1, h2, h3, h4, h5, h6, h7⟩ := h
    simp only [FixedField.bitStart, FixedField.bitCount]
    simp only [FixedField.size] at hb
    have hw := container_width h4
    have h1 : 2 ^ n < 2 ^ 64 := Nat.pow_lt_pow_right (by omega) h6
    have hlt : getBits data (8 * o) (8 * p.size) < 2 ^ 64 :=
      Nat.lt_of_lt_of_le (getBits_lt _ _ _) (Nat.pow_le_pow_right (by omega) hw)
    simp only [readTag]
    rw [if_pos h3, readRaw_ok hb]
    simp only [Res.bind_ok]
    rw [Nat.mod_eq_of_lt (by simpa using hlt)]
    have hmask : shlW chk 64 1 n = .ok (2 ^ n) := by
      rw [shlW, if_pos h6, Nat.one_mul, Nat.mod_eq_of_lt h1]
    have hsub : subW chk (2 ^ n) 1 = .ok (2 ^ n - 1) := by
      have := Nat.two_pow_pos n
      rw [subW, if_pos (by omega)]
    by_cases ho : a < 64
    · rw [shrW, if_pos ho]
      simp only [Res.bind_ok]
      rw [hmask]
      simp only [Res.bind_ok]
      rw [hsub]
      simp only [Res.bind_ok, Res.pure_eq]
      congr 1
      apply Nat.eq_of_testBit_eq
      intro j
      rw [Nat.testBit_and, Nat.testBit_two_pow_sub_one, Nat.testBit_div_two_pow, getBits_testBit,
        getBits_testBit]
      by_cases hj : j < n
      · simp [hj, show j + a < 8 * p.size by omega, show 8 * o + (j + a) = 8 * o + a + j by omega]
      · simp [hj]
    · have hn : n = 0 := by omega
      subst hn
      have h0 : getBits data (8 * o + a) 0 = 0 := by
        have := getBits_lt data (8 * o + a) 0
        omega
      obtain ⟨t, ht⟩ : ∃ t, shrW chk 64 (getBits data (8 * o) (8 * p.size)) a = .ok t := by
        unfold shrW
        rw [if_neg ho]
        cases chk
        · exact ⟨_, rfl⟩
        · exact absurd (h7 rfl).2 (by omega)
      rw [ht]
      simp only [Res.bind_ok]
      rw [hmask]
      simp only [Res.bind_ok]
      rw [hsub, h0]
      simp

theorem readTag_ok {chk : Bool} {env : Path → Val} {f : FixedField} {data : Bytes} {i : Nat} {w : Val}
    (h : FieldGood chk env f) (hb : f.offset + f.size ≤ data.length) (he : env f.path = .case i w)
    (hd : getBits data f.bitStart f.bitCount = fieldVal env f) : readTag chk f data = .ok i := by
  rw [readTag_bits h hb he, hd]
  obtain ⟨q, k, o⟩ := f
  simp only at he
  cases k with
  | prim p => obtain ⟨v, h1, _⟩ := h; simp only at h1; rw [he] at h1; cases h1
  | length => obtain ⟨v, h1, _⟩ := h; simp only at h1; rw [he] at h1; cases h1
  | container i p => exact h.elim
  | bitfield p a n => simp [fieldVal, he]

/-! ## All fixed size fields -/

/-- The buffer after writing all fields. -/
def putAll (env : Path → Val) : List FixedField → Bytes → Bytes
  | [], buf => buf
  | f :: fs, buf => putAll env fs (put env f buf)

theorem putAll_length (env : Path → Val) (fs : List FixedField) (buf : Bytes) :
    (putAll env fs buf).length = buf.length := by
  induction fs generalizing buf with
  | nil => rfl
  | cons f fs ih => rw [putAll, ih, put_length]

theorem writeFixeds_ok {chk : Bool} {env : Path → Val} {fs : List FixedField} {buf : Bytes}
    {src : DataSource} (h : ∀ f ∈ fs, FieldGood chk env f) (hb : ∀ f ∈ fs, f.offset + f.size ≤ buf.length)
    (hs : ∀ f ∈ fs, ∀ q l, (q, l) ∈ leaves (env f.path) f.path → Answers src q l) :
    writeFixeds chk src fs buf = .ok (putAll env fs buf) := by
  induction fs generalizing buf with
  | nil => rfl
  | cons f fs ih =>
    rw [writeFixeds, writeFixed_ok (h f (by simp)) (hb f (by simp)) (hs f (by simp)), Res.bind_ok,
      ih (fun g hg => h g (by simp [hg])) (fun g hg => by rw [put_length]; exact hb g (by simp [hg]))
        (fun g hg => hs g (by simp [hg]))]
    rfl

/-- A field leaves the bits of the others and of full tags. -/
theorem bit_put {chk : Bool} {env : Path → Val} {f : FixedField} {buf : Bytes} (h : FieldGood chk env f)
    (hb : f.offset + f.size ≤ buf.length) {i : Nat}
    (hi : f.full = false → i < f.bitStart ∨ f.bitStart + f.bitCount ≤ i) : bit (put env f buf) i = bit buf i := by
  have hr := h.range
  unfold put
  split
  · rfl
  · rename_i hf
    rw [bit_setBits _ (by omega), if_neg]
    have := hi (by simpa using hf)
    omega

theorem putAll_outside {chk : Bool} {env : Path → Val} {fs : List FixedField} {buf : Bytes}
    (h : ∀ f ∈ fs, FieldGood chk env f) (hb : ∀ f ∈ fs, f.offset + f.size ≤ buf.length) {i : Nat}
    (hi : ∀ f ∈ fs, f.full = false → i < f.bitStart ∨ f.bitStart + f.bitCount ≤ i) :
    bit (putAll env fs buf) i = bit buf i := by
  induction fs generalizing buf with
  | nil => rfl
  | cons f fs ih =>
    rw [putAll, ih (fun g hg => h g (by simp [hg]))
      (fun g hg => by rw [put_length]; exact hb g (by simp [hg])) (fun g hg => hi g (by simp [hg])),
      bit_put (h f (by simp)) (hb f (by simp)) (hi f (by simp))]

/-- What the bits of a field are after writing all fields: its value, or for a full tag what they were. -/
theorem putAll_get {chk : Bool} {env : Path → Val} {fs : List FixedField} {buf : Bytes}
    (h : ∀ f ∈ fs, FieldGood chk env f) (hb : ∀ f ∈ fs, f.offset + f.size ≤ buf.length)
    (hd : fs.Pairwise BitDisjoint) {f : FixedField} (hf : f ∈ fs) :
    getBits (putAll env fs buf) f.bitStart f.bitCount =
      if f.full then getBits buf f.bitStart f.bitCount else fieldVal env f := by
  induction fs generalizing buf with
  | nil => simp at hf
  | cons g fs ih =>
    rw [List.pairwise_cons] at hd
    have hr := (h g (by simp)).range
    have hbg := hb g (by simp)
    have h' : ∀ x ∈ fs, FieldGood chk env x := fun x hx => h x (by simp [hx])
    have hb' : ∀ x ∈ fs, x.offset + x.size ≤ (put env g buf).length :=
      fun x hx => by rw [put_length]; exact hb x (by simp [hx])
    rw [putAll]
    rcases List.mem_cons.1 hf with rfl | hf
    · have h1 : getBits (putAll env fs (put env f buf)) f.bitStart f.bitCount =
          getBits (put env f buf) f.bitStart f.bitCount := by
        apply getBits_congr
        intro i hi
        refine putAll_outside h' hb' (fun x hx _ => ?_)
        have := hd.1 x hx
        unfold BitDisjoint at this
        omega
      rw [h1]
      unfold put
      split
      · rfl
      · exact getBits_setBits_same (by omega) (h f (by simp)).val_lt
    · rw [ih h' hb' hd.2 hf]
      split
      · apply getBits_congr
        intro i hi
        refine bit_put (h g (by simp)) hbg (fun _ => ?_)
        have := hd.1 f hf
        unfold BitDisjoint at this
        omega
      · rfl

end Verif
