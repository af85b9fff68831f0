import Verif.Model.Utf8

/-! # `fromUtf8` accepts exactly the encodings of strings -/

namespace Verif

theorem utf8Code_1 (b0 : UInt8) (bs : Bytes) (h : b0.toNat < 128) : utf8Code (b0 :: bs) = b0.toNat := by
  rcases bs with _ | ⟨b1, _ | ⟨b2, _ | ⟨b3, bs⟩⟩⟩ <;> simp [utf8Code, h]

theorem utf8Code_2 (b0 b1 : UInt8) (bs : Bytes) (h : 128 ≤ b0.toNat) (h' : b0.toNat < 224) :
    utf8Code (b0 :: b1 :: bs) = b0.toNat % 32 * 64 + b1.toNat % 64 := by
  have h1 : ¬ b0.toNat < 128 := by omega
  rcases bs with _ | ⟨b2, _ | ⟨b3, bs⟩⟩ <;> simp [utf8Code, h1, h']

theorem utf8Code_3 (b0 b1 b2 : UInt8) (bs : Bytes) (h : 224 ≤ b0.toNat) (h' : b0.toNat < 240) :
    utf8Code (b0 :: b1 :: b2 :: bs) =
      b0.toNat % 16 * 4096 + b1.toNat % 64 * 64 + b2.toNat % 64 := by
  have h1 : ¬ b0.toNat < 128 := by omega
  have h2 : ¬ b0.toNat < 224 := by omega
  rcases bs with _ | ⟨b3, bs⟩ <;> simp [utf8Code, h1, h2, h']

theorem utf8Code_4 (b0 b1 b2 b3 : UInt8) (bs : Bytes) (h : 240 ≤ b0.toNat) :
    utf8Code (b0 :: b1 :: b2 :: b3 :: bs) =
      b0.toNat % 8 * 262144 + b1.toNat % 64 * 4096 + b2.toNat % 64 * 64 + b3.toNat % 64 := by
  have h1 : ¬ b0.toNat < 128 := by omega
  have h2 : ¬ b0.toNat < 224 := by omega
  have h3 : ¬ b0.toNat < 240 := by omega
  simp [utf8Code, h1, h2, h3]

theorem ofNat_toNat_lt {n : Nat} (h : n < 256) : (UInt8.ofNat n).toNat = n := by
  simp [Nat.mod_eq_of_lt h]

theorem char_toNat_lt (c : Char) : c.toNat < 0x110000 := by
  have := c.valid
  unfold UInt32.isValidChar Nat.isValidChar at this
  have e : c.toNat = c.val.toNat := rfl
  omega

theorem utf8Code_encode (c : Char) (bs : Bytes) : utf8Code (String.utf8EncodeChar c ++ bs) = c.toNat := by
  have hc := char_toNat_lt c
  have e : c.val.toNat = c.toNat := rfl
  unfold String.utf8EncodeChar
  rw [e]
  generalize c.toNat = v at hc
  simp only
  split
  · rw [List.singleton_append, utf8Code_1 _ _ (by rw [ofNat_toNat_lt (by omega)]; omega),
      ofNat_toNat_lt (by omega)]
  · split
    · rw [List.cons_append, List.singleton_append, utf8Code_2 _ _ _ (by rw [ofNat_toNat_lt (by omega)]; omega)
        (by rw [ofNat_toNat_lt (by omega)]; omega), ofNat_toNat_lt (by omega), ofNat_toNat_lt (by omega)]
      omega
    · split
      · rw [List.cons_append, List.cons_append, List.singleton_append,
          utf8Code_3 _ _ _ _ (by rw [ofNat_toNat_lt (by omega)]; omega)
          (by rw [ofNat_toNat_lt (by omega)]; omega), ofNat_toNat_lt (by omega), ofNat_toNat_lt (by omega),
          ofNat_toNat_lt (by omega)]
        omega
      · rw [List.cons_append, List.cons_append, List.cons_append, List.singleton_append,
          utf8Code_4 _ _ _ _ _ (by rw [ofNat_toNat_lt (by omega)]; omega),
          ofNat_toNat_lt (by omega), ofNat_toNat_lt (by omega), ofNat_toNat_lt (by omega),
          ofNat_toNat_lt (by omega)]
        omega

theorem utf8_ne_nil (c : Char) : String.utf8EncodeChar c ≠ [] := by
  unfold String.utf8EncodeChar
  simp only
  split
  · simp
  · split
    · simp
    · split <;> simp

theorem utf8_cons (c : Char) (s : Str) : Str.utf8 (c :: s) = String.utf8EncodeChar c ++ s.utf8 := rfl

theorem prefix_drop {a b : Bytes} (h : a.isPrefixOf b = true) : a ++ b.drop a.length = b := by
  obtain ⟨t, rfl⟩ := List.isPrefixOf_iff_prefix.1 h
  rw [List.drop_left]

theorem fromUtf8Aux_some : ∀ (n : Nat) (bs : Bytes) (s : Str), fromUtf8Aux n bs = some s → s.utf8 = bs
  | n, [], s, h => by
    cases n <;> (simp [fromUtf8Aux] at h; subst h; rfl)
  | 0, b :: bs, s, h => by simp [fromUtf8Aux] at h
  | n + 1, b :: bs, s, h => by
    rw [fromUtf8Aux] at h
    · split at h
      · next hp =>
        rw [Option.map_eq_some_iff] at h
        obtain ⟨s', h1, rfl⟩ := h
        rw [utf8_cons, fromUtf8Aux_some n _ s' h1]
        exact prefix_drop hp
      · cases h
    · simp

theorem fromUtf8Aux_utf8 : ∀ (s : Str) (n : Nat), s.utf8.length ≤ n → fromUtf8Aux n s.utf8 = some s
  | [], n, _ => by cases n <;> rfl
  | c :: s, n, h => by
    rw [utf8_cons] at h ⊢
    have hl : 0 < (String.utf8EncodeChar c).length := List.length_pos_iff.2 (utf8_ne_nil c)
    rw [List.length_append] at h
    cases n with
    | zero => omega
    | succ n =>
      rw [fromUtf8Aux]
      · rw [utf8Code_encode, Char.ofNat_toNat, if_pos (List.isPrefixOf_iff_prefix.2 (List.prefix_append _ _)),
          List.drop_left, fromUtf8Aux_utf8 s n (by omega)]
        rfl
      · intro h0
        exact absurd (List.append_eq_nil_iff.1 h0).1 (utf8_ne_nil c)

/-- `fromUtf8` returns the string whose encoding the bytes are, if there is one. -/
theorem fromUtf8_iff (bs : Bytes) (s : Str) : fromUtf8 bs = some s ↔ s.utf8 = bs := by
  constructor
  · exact fromUtf8Aux_some _ _ _
  · rintro rfl
    exact fromUtf8Aux_utf8 s _ (Nat.le_refl _)

theorem utf8_injective {s t : Str} (h : s.utf8 = t.utf8) : s = t :=
  Option.some.inj (((fromUtf8_iff t.utf8 s).2 h).symm.trans ((fromUtf8_iff t.utf8 t).2 rfl))

theorem utf8_append (s t : Str) : Str.utf8 (s ++ t) = Str.utf8 s ++ Str.utf8 t := by
  unfold Str.utf8; rw [List.flatMap_append]

end Verif
