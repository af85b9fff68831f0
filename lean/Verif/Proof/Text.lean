import Verif.Model.Text
import Verif.Proof.Util

/-! # Lemmas about decimal text -/

namespace Verif

theorem digitChar_toNat {d : Nat} (h : d < 10) : (digitChar d).toNat = 48 + d := by
  have : ∀ d, d < 10 → (digitChar d).toNat = 48 + d := by decide
  exact this d h

theorem isDigit_digitChar {d : Nat} (h : d < 10) : isDigit (digitChar d) = true := by
  simp only [isDigit, digitChar_toNat h, Bool.and_eq_true, decide_eq_true_eq]; omega

theorem digitChar_of_isDigit {c : Char} (h : isDigit c = true) :
    c = digitChar (c.toNat - 48) ∧ c.toNat - 48 < 10 := by
  simp only [isDigit, Bool.and_eq_true, decide_eq_true_eq] at h
  refine ⟨?_, by omega⟩
  unfold digitChar
  rw [show 48 + (c.toNat - 48) = c.toNat by omega, Char.ofNat_toNat]

theorem parseDigits_map (ds : List Nat) (h : ∀ d ∈ ds, d < 10) (acc : Nat) :
    parseDigits acc (ds.map digitChar) = some (ds.foldl (fun a d => a * 10 + d) acc) := by
  induction ds generalizing acc with
  | nil => rfl
  | cons d ds ih =>
    have hd := h d (by simp)
    simp only [List.map_cons, parseDigits, isDigit_digitChar hd, if_true, digitChar_toNat hd,
      List.foldl_cons]
    rw [show 48 + d - 48 = d by omega]
    exact ih (fun x hx => h x (by simp [hx])) _

theorem parseDigits_some {s : Str} {acc n : Nat} (h : parseDigits acc s = some n) :
    ∃ ds : List Nat, (∀ d ∈ ds, d < 10) ∧ s = ds.map digitChar ∧
      n = ds.foldl (fun a d => a * 10 + d) acc := by
  induction s generalizing acc with
  | nil => exact ⟨[], by simp, rfl, by simpa [parseDigits] using h.symm⟩
  | cons c cs ih =>
    rw [parseDigits] at h
    split at h
    · rename_i hc
      obtain ⟨e, hlt⟩ := digitChar_of_isDigit hc
      obtain ⟨ds, h1, h2, h3⟩ := ih h
      refine ⟨(c.toNat - 48) :: ds, ?_, ?_, ?_⟩
      · intro d hd
        rcases List.mem_cons.1 hd with rfl | hd
        · exact hlt
        · exact h1 d hd
      · rw [List.map_cons, ← e, h2]
      · simpa using h3
    · exact absurd h (by simp)

theorem decDigitsAux_spec (fuel n : Nat) (h : n < fuel) :
    ∃ ds : List Nat, ds ≠ [] ∧ (∀ d ∈ ds, d < 10) ∧ decDigitsAux fuel n = ds.map digitChar ∧
      ds.foldl (fun a d => a * 10 + d) 0 = n := by
  induction fuel generalizing n with
  | zero => omega
  | succ fuel ih =>
    rw [decDigitsAux]
    split
    · rename_i hn
      exact ⟨[n], by simp, by simpa using hn, rfl, by simp⟩
    · obtain ⟨ds, h1, h2, h3, h4⟩ := ih (n / 10) (by omega)
      refine ⟨ds ++ [n % 10], by simp, ?_, by rw [h3]; simp, ?_⟩
      · intro d hd
        rcases List.mem_append.1 hd with hd | hd
        · exact h2 d hd
        · rw [List.mem_singleton.1 hd]; omega
      · rw [List.foldl_append, h4]; simp; omega

theorem decDigits_spec (n : Nat) :
    ∃ ds : List Nat, ds ≠ [] ∧ (∀ d ∈ ds, d < 10) ∧ decDigits n = ds.map digitChar ∧
      ds.foldl (fun a d => a * 10 + d) 0 = n := decDigitsAux_spec _ _ (by omega)

theorem digitChar_ne {d : Nat} (h : d < 10) {c : Char} (hc : isDigit c = false) : digitChar d ≠ c := by
  intro e; rw [← e, isDigit_digitChar h] at hc; exact absurd hc (by simp)

theorem decDigits_ne_nil (n : Nat) : decDigits n ≠ [] := by
  obtain ⟨ds, h1, _, h3, _⟩ := decDigits_spec n
  rw [h3]; simpa using h1

theorem decDigits_isDigit {n : Nat} {c : Char} (h : c ∈ decDigits n) : isDigit c = true := by
  obtain ⟨ds, _, h2, h3, _⟩ := decDigits_spec n
  rw [h3] at h
  obtain ⟨d, hd, rfl⟩ := List.mem_map.1 h
  exact isDigit_digitChar (h2 d hd)

theorem decDigits_cons (n : Nat) : ∃ c cs, decDigits n = c :: cs ∧ isDigit c = true := by
  cases h : decDigits n with
  | nil => exact absurd h (decDigits_ne_nil n)
  | cons c cs => exact ⟨c, cs, rfl, decDigits_isDigit (n := n) (by rw [h]; simp)⟩

end Verif
