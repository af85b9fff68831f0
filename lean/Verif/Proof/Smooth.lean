import Verif.Proof.Nested
import Verif.Spec.Smooth

/-! # Sizes that keep the alignment of what follows -/

namespace Verif

open Spec

theorem addW_mod {chk : Bool} {a b n : Nat} (h : addW chk a b = .ok n) : n % 16 = (a + b) % 16 ∧ n < W64 := by
  unfold addW at h
  split at h
  · cases h; exact ⟨rfl, by assumption⟩
  · split at h
    · cases h
    · cases h; exact ⟨by omega, by omega⟩

/-- `align` rounds up, up to multiples of 16. -/
theorem align_mod {chk : Bool} {v a n x s : Nat} (ha : SmallPow a) (h : align chk v a = .ok n)
    (hx : v % 16 = x % 16) (h1 : a ∣ s) (h2 : x ≤ s) (h3 : s < x + a) : n % 16 = s % 16 := by
  unfold align at h
  obtain ⟨_, _, h⟩ := Res.bind_eq_ok.1 h
  obtain ⟨w, hw, h⟩ := Res.bind_eq_ok.1 h
  obtain ⟨t, ht, h⟩ := Res.bind_eq_ok.1 h
  obtain ⟨m, hm, h⟩ := Res.bind_eq_ok.1 h
  cases h
  obtain ⟨hw1, hw2⟩ := addW_mod hw
  have hm' : m = a - 1 := by
    unfold subW at hm
    rw [if_pos (show 1 ≤ a from ha.pos)] at hm
    cases hm; rfl
  subst hm'
  have ht' : t % 16 = (w + 15) % 16 ∧ t < W64 := by
    unfold subW at ht
    split at ht
    · cases ht; omega
    · split at ht
      · cases ht
      · cases ht; omega
  have hk : ∀ k, k ≤ 4 → a = 2 ^ k → t &&& notW (a - 1) = t / a * a := by
    intro k hk he
    have e : notW (a - 1) = 2 ^ 64 - 2 ^ k := by
      have := ha.pos
      have := ha.le
      unfold notW; rw [he]
      have := Nat.two_pow_pos k
      omega
    rw [e, he]
    exact and_notMask _ _ _ (by omega) ht'.2
  have he : t &&& notW (a - 1) = t / a * a := by
    rcases ha with e | e | e | e | e
    · exact hk 0 (by decide) e
    · exact hk 1 (by decide) e
    · exact hk 2 (by decide) e
    · exact hk 3 (by decide) e
    · exact hk 4 (by decide) e
  rw [he]
  obtain ⟨q, rfl⟩ := h1
  rcases ha with rfl | rfl | rfl | rfl | rfl <;> omega

/-- There is exactly one rounded number. -/
theorem round_exists {x a : Nat} (ha : 0 < a) : ∃ s, a ∣ s ∧ x ≤ s ∧ s < x + a := by
  refine ⟨(x + a - 1) / a * a, Nat.dvd_mul_left .., ?_, ?_⟩
  · have := Nat.lt_div_mul_add (a := x + a - 1) ha; omega
  · have := Nat.div_mul_le_self (x + a - 1) a; omega

/-- All alignments inside are small powers of two. -/
def AllPow (l : Layout) : Prop := ∀ m, Nested l m → SmallPow m.alignment

theorem AllPow.sub {l c : Layout} {p : Path} {fi : Nat} {cs : List Layout} (h : AllPow l)
    (hv : VarField.enum p fi cs ∈ l.vars) (hc : c ∈ cs) : AllPow c := fun m hm => h m (.case hv hc hm)

mutual
theorem encodingSize_possible (chk : Bool) : ∀ (l : Layout) (data : Bytes) (n : Nat), AllPow l →
    l.encodingSize chk data = .ok n → ∃ s, Possible l s ∧ n % 16 = s % 16
  | .mk al vo idx fixed vars, data, n, hp, h => by
    rw [Layout.encodingSize] at h
    obtain ⟨o, ho, h⟩ := Res.bind_eq_ok.1 h
    obtain ⟨s, h1, h2⟩ := varsEnd_possible chk vars fixed data vo o (fun _ _ _ hv _ hc => hp.sub hv hc) ho
    have hal : SmallPow al := hp _ (.self _)
    obtain ⟨r, r1, r2, r3⟩ := round_exists (x := vo + s) hal.pos
    exact ⟨r, .mk h1 r1 r2 r3, align_mod hal h h2 r1 r2 r3⟩
theorem varsEnd_possible (chk : Bool) : ∀ (vs : List VarField) (fixed : List FixedField) (data : Bytes) (o o' : Nat),
    (∀ p fi cs, VarField.enum p fi cs ∈ vs → ∀ c ∈ cs, AllPow c) →
    varsEnd chk fixed data vs o = .ok o' → ∃ s, PossibleVars vs s ∧ o' % 16 = (o + s) % 16
  | [], _, _, _, _, _, h => by
    rw [varsEnd] at h; cases h
    exact ⟨0, .nil, rfl⟩
  | .string p fi :: vs, fixed, data, o, o', hp, h => by
    rw [varsEnd] at h
    obtain ⟨o1, h1, h⟩ := Res.bind_eq_ok.1 h
    obtain ⟨s, g1, g2⟩ := varsEnd_possible chk vs fixed data o1 o' (fun p fi cs hv => hp p fi cs (by simp [hv])) h
    rw [varEnd] at h1
    obtain ⟨f, _, h1⟩ := Res.bind_eq_ok.1 h1
    obtain ⟨n, _, h1⟩ := Res.bind_eq_ok.1 h1
    have := addW_mod h1
    exact ⟨n + s, .string n g1, by omega⟩
  | .enum p fi cs :: vs, fixed, data, o, o', hp, h => by
    rw [varsEnd] at h
    obtain ⟨o1, h1, h⟩ := Res.bind_eq_ok.1 h
    obtain ⟨s, g1, g2⟩ := varsEnd_possible chk vs fixed data o1 o' (fun p fi cs hv => hp p fi cs (by simp [hv])) h
    rw [varEnd] at h1
    obtain ⟨f, _, h1⟩ := Res.bind_eq_ok.1 h1
    obtain ⟨tag, _, h1⟩ := Res.bind_eq_ok.1 h1
    obtain ⟨_, _, h1⟩ := Res.bind_eq_ok.1 h1
    obtain ⟨n, hn, h1⟩ := Res.bind_eq_ok.1 h1
    obtain ⟨c, hc, r, k1, k2⟩ := caseSize_possible chk cs tag _ n (hp p fi cs (by simp)) hn
    have := addW_mod h1
    exact ⟨r + s, .enum hc k1 g1, by omega⟩
theorem caseSize_possible (chk : Bool) : ∀ (cs : List Layout) (i : Nat) (data : Bytes) (n : Nat),
    (∀ c ∈ cs, AllPow c) → caseSize chk cs i data = .ok n → ∃ c ∈ cs, ∃ s, Possible c s ∧ n % 16 = s % 16
  | [], _, _, _, _, h => by rw [caseSize] at h; cases h
  | c :: cs, 0, data, n, hp, h => by
    rw [caseSize] at h
    exact ⟨c, by simp, encodingSize_possible chk c data n (hp c (by simp)) h⟩
  | c :: cs, i + 1, data, n, hp, h => by
    rw [caseSize] at h
    obtain ⟨d, hd, r⟩ := caseSize_possible chk cs i data n (fun d hd => hp d (by simp [hd])) h
    exact ⟨d, by simp [hd], r⟩
end

mutual
theorem sizeWithSource_possible (chk : Bool) (src : DataSource) : ∀ (l : Layout) (n : Nat), AllPow l →
    l.sizeWithSource chk src = .ok n → ∃ s, Possible l s ∧ n % 16 = s % 16
  | .mk al vo idx fixed vars, n, hp, h => by
    rw [Layout.sizeWithSource] at h
    obtain ⟨o, ho, h⟩ := Res.bind_eq_ok.1 h
    obtain ⟨s, h1, h2⟩ := varsSize_possible chk src vars vo o (fun _ _ _ hv _ hc => hp.sub hv hc) ho
    have hal : SmallPow al := hp _ (.self _)
    obtain ⟨r, r1, r2, r3⟩ := round_exists (x := vo + s) hal.pos
    exact ⟨r, .mk h1 r1 r2 r3, align_mod hal h h2 r1 r2 r3⟩
theorem varsSize_possible (chk : Bool) (src : DataSource) : ∀ (vs : List VarField) (o o' : Nat),
    (∀ p fi cs, VarField.enum p fi cs ∈ vs → ∀ c ∈ cs, AllPow c) →
    varsSize chk src vs o = .ok o' → ∃ s, PossibleVars vs s ∧ o' % 16 = (o + s) % 16
  | [], _, _, _, h => by
    rw [varsSize] at h; cases h
    exact ⟨0, .nil, rfl⟩
  | .string p fi :: vs, o, o', hp, h => by
    rw [varsSize] at h
    obtain ⟨o1, h1, h⟩ := Res.bind_eq_ok.1 h
    obtain ⟨s, g1, g2⟩ := varsSize_possible chk src vs o1 o' (fun p fi cs hv => hp p fi cs (by simp [hv])) h
    rw [varSize] at h1
    obtain ⟨n, _, h1⟩ := Res.bind_eq_ok.1 h1
    have := addW_mod h1
    exact ⟨n + s, .string n g1, by omega⟩
  | .enum p fi cs :: vs, o, o', hp, h => by
    rw [varsSize] at h
    obtain ⟨o1, h1, h⟩ := Res.bind_eq_ok.1 h
    obtain ⟨s, g1, g2⟩ := varsSize_possible chk src vs o1 o' (fun p fi cs hv => hp p fi cs (by simp [hv])) h
    rw [varSize] at h1
    obtain ⟨tag, _, h1⟩ := Res.bind_eq_ok.1 h1
    obtain ⟨n, hn, h1⟩ := Res.bind_eq_ok.1 h1
    obtain ⟨c, hc, r, k1, k2⟩ := caseSizeWithSource_possible chk src cs tag n (hp p fi cs (by simp)) hn
    have := addW_mod h1
    exact ⟨r + s, .enum hc k1 g1, by omega⟩
theorem caseSizeWithSource_possible (chk : Bool) (src : DataSource) : ∀ (cs : List Layout) (i n : Nat),
    (∀ c ∈ cs, AllPow c) → caseSizeWithSource chk src cs i = .ok n →
    ∃ c ∈ cs, ∃ s, Possible c s ∧ n % 16 = s % 16
  | [], _, _, _, h => by rw [caseSizeWithSource] at h; cases h
  | c :: cs, 0, n, hp, h => by
    rw [caseSizeWithSource] at h
    exact ⟨c, by simp, sizeWithSource_possible chk src c n (hp c (by simp)) h⟩
  | c :: cs, i + 1, n, hp, h => by
    rw [caseSizeWithSource] at h
    obtain ⟨d, hd, r⟩ := caseSizeWithSource_possible chk src cs i n (fun d hd => hp d (by simp [hd])) h
    exact ⟨d, by simp [hd], r⟩
end

theorem SmallPow.dvd_mod {a m n : Nat} (ha : SmallPow a) (h : m % 16 = n % 16) : a ∣ m ↔ a ∣ n := by
  rcases ha with rfl | rfl | rfl | rfl | rfl <;> omega

theorem Smooth.keeps {l : Layout} (h : Smooth l) (hp : AllPow l) : Keeps l := by
  intro m hm
  have h1 := h m hm
  rw [List.pairwise_iff_getElem] at h1 ⊢
  intro i j hi hj hij p fi cs q gi ds hv hw c hc d hd
  have hcm : AllPow c := fun k hk => hp k (nested_trans hm (.case (by rw [← hv]; exact List.getElem_mem _) hc hk))
  have hdp : SmallPow d.alignment :=
    hp d (nested_trans hm (.case (by rw [← hw]; exact List.getElem_mem _) hd (.self _)))
  have h2 := fun n hn => h1 i j hi hj hij p fi cs q gi ds hv hw c hc n hn d hd
  constructor
  · intro chk data n hn
    obtain ⟨s, g1, g2⟩ := encodingSize_possible chk c data n hcm hn
    exact (hdp.dvd_mod g2).2 (h2 s g1)
  · intro chk src n hn
    obtain ⟨s, g1, g2⟩ := sizeWithSource_possible chk src c n hcm hn
    exact (hdp.dvd_mod g2).2 (h2 s g1)

/-- A sufficient condition that does not mention sizes. -/
theorem Descending.smooth {l : Layout} (h : Descending l) (hp : AllPow l) : Smooth l := by
  intro m hm
  have h1 := h m hm
  rw [List.pairwise_iff_getElem] at h1 ⊢
  intro i j hi hj hij p fi cs q gi ds hv hw c hc n hn d hd
  have hcm := hp c (nested_trans hm (.case (by rw [← hv]; exact List.getElem_mem _) hc (.self _)))
  have hdm := hp d (nested_trans hm (.case (by rw [← hw]; exact List.getElem_mem _) hd (.self _)))
  have h2 := SmallPow.dvd hdm hcm (h1 i j hi hj hij p fi cs q gi ds hv hw c hc d hd)
  cases hn with
  | mk _ h3 _ _ => exact Nat.dvd_trans h2 h3

end Verif
