import Verif.Model.Marshaller
import Verif.Proof.DataSource

/-! # Sorting, searching -/

namespace Verif

theorem sortInsert_perm {α : Type} (le : α → α → Bool) (x : α) (l : List α) :
    (sortInsert le x l).Perm (x :: l) := by
  induction l with
  | nil => exact .refl _
  | cons y ys ih =>
    rw [sortInsert]
    split
    · exact .refl _
    · exact (List.Perm.cons y ih).trans (.swap x y ys)

theorem sortBy_perm {α : Type} (le : α → α → Bool) (l : List α) : (sortBy le l).Perm l := by
  induction l with
  | nil => exact .refl _
  | cons x xs ih => exact (sortInsert_perm le x _).trans (.cons x ih)

theorem sortInsert_pairwise {α : Type} {le : α → α → Bool}
    (htot : ∀ a b, le a b = true ∨ le b a = true)
    (htr : ∀ a b c, le a b = true → le b c = true → le a c = true) (x : α) (l : List α)
    (h : l.Pairwise (fun a b => le a b = true)) :
    (sortInsert le x l).Pairwise (fun a b => le a b = true) := by
  induction l with
  | nil => simp [sortInsert]
  | cons y ys ih =>
    rw [sortInsert]
    rw [List.pairwise_cons] at h
    split
    · rename_i hxy
      rw [List.pairwise_cons]
      refine ⟨fun z hz => ?_, List.pairwise_cons.2 h⟩
      rcases List.mem_cons.1 hz with rfl | hz
      · exact hxy
      · exact htr _ _ _ hxy (h.1 z hz)
    · rename_i hxy
      rw [List.pairwise_cons]
      refine ⟨fun z hz => ?_, ih h.2⟩
      rcases List.mem_cons.1 ((sortInsert_perm le x ys).mem_iff.1 hz) with rfl | hz
      · exact (htot _ _).resolve_left hxy
      · exact h.1 z hz

theorem sortBy_pairwise {α : Type} {le : α → α → Bool}
    (htot : ∀ a b, le a b = true ∨ le b a = true)
    (htr : ∀ a b c, le a b = true → le b c = true → le a c = true) (l : List α) :
    (sortBy le l).Pairwise (fun a b => le a b = true) := by
  induction l with
  | nil => exact .nil
  | cons x xs ih => exact sortInsert_pairwise htot htr x _ ih

theorem sortBy_ge_pairwise {α : Type} (f : α → Nat) (l : List α) :
    (sortBy (fun a b => decide (f b ≤ f a)) l).Pairwise (fun a b => f b ≤ f a) := by
  have := sortBy_pairwise (le := fun a b => decide (f b ≤ f a))
    (by intro a b; simp only [decide_eq_true_eq]; omega)
    (by intro a b c; simp only [decide_eq_true_eq]; omega) l
  exact this.imp (by simp)

theorem sortBy_path_pairwise (l : List Index) (hn : (l.map (·.path)).Nodup) :
    (sortBy (fun a b => Path.cmp a.path b.path != .lt) l).Pairwise (fun a b => b.path < a.path) := by
  have h1 := sortBy_pairwise (le := fun a b : Index => Path.cmp a.path b.path != .lt)
    (by
      intro a b
      simp only [bne_iff_ne, ne_eq, Path.cmp_lt_iff]
      by_cases h : a.path < b.path
      · exact Or.inr (List.lt_asymm h)
      · exact Or.inl h)
    (by
      intro a b c
      simp only [bne_iff_ne, ne_eq, Path.cmp_lt_iff]
      intro h1 h2 h3
      exact (List.le_trans h2 h1) h3) l
  have hp := (sortBy_perm (fun a b : Index => Path.cmp a.path b.path != .lt) l)
  have h2 : ((sortBy (fun a b : Index => Path.cmp a.path b.path != .lt) l).map (·.path)).Nodup :=
    (hp.map _).nodup_iff.2 hn
  rw [List.Nodup, List.pairwise_map] at h2
  refine (h1.and h2).imp ?_
  intro a b h
  have h3 : ¬ a.path < b.path := by
    have := h.1
    simpa only [bne_iff_ne, ne_eq, Path.cmp_lt_iff] using this
  exact (List.le_iff_lt_or_eq.1 (show b.path ≤ a.path from h3)).resolve_right (fun e => h.2 e.symm)

theorem getElem?_of_pairwise_lt {xs : List Index} (h : xs.Pairwise (fun a b => b.path < a.path))
    {i j : Nat} {x y : Index} (hx : xs[i]? = some x) (hy : xs[j]? = some y) (hp : x.path = y.path) :
    i = j := by
  rw [List.pairwise_iff_getElem] at h
  obtain ⟨hi, rfl⟩ := List.getElem?_eq_some_iff.1 hx
  obtain ⟨hj, rfl⟩ := List.getElem?_eq_some_iff.1 hy
  rcases Nat.lt_trichotomy i j with hlt | rfl | hlt
  · have := h i j hi hj hlt; rw [hp] at this; exact absurd this (List.lt_irrefl _)
  · rfl
  · have := h j i hj hi hlt; rw [hp] at this; exact absurd this (List.lt_irrefl _)

theorem searchIndex_at {xs : List Index} (h : xs.Pairwise (fun a b => b.path < a.path)) {p : Path}
    {k : Nat} {x : Index} (hx : xs[k]? = some x) (hp : x.path = p) (i : Nat) :
    searchIndex p xs i = .at (i + k) := by
  induction xs generalizing k i with
  | nil => simp at hx
  | cons y ys ih =>
    rw [List.pairwise_cons] at h
    rw [searchIndex]
    cases k with
    | zero =>
      have : y = x := by simpa using hx
      rw [this, hp, (Path.cmp_eq_iff p p).2 rfl]
      rfl
    | succ k =>
      have hx' : ys[k]? = some x := by simpa using hx
      have := h.1 x (List.mem_of_getElem? hx')
      rw [hp] at this
      rw [(Path.cmp_gt_iff _ _).2 this]
      simp only
      rw [ih h.2 hx', show i + 1 + k = i + (k + 1) by omega]

theorem searchIndex_insertAt {xs : List Index} (h : xs.Pairwise (fun a b => b.path < a.path)) {p : Path}
    (hne : ∀ x ∈ xs, x.path ≠ p) (i : Nat) :
    ∃ k, searchIndex p xs i = .insertAt (i + k) ∧ (∀ x, xs[k]? = some x → x.path < p) ∧
      (∀ x ∈ xs.take k, p < x.path) ∧ k ≤ xs.length := by
  induction xs generalizing i with
  | nil => exact ⟨0, rfl, by simp, by simp, by simp⟩
  | cons y ys ih =>
    rw [List.pairwise_cons] at h
    rw [searchIndex]
    cases hc : Path.cmp y.path p with
    | lt => exact ⟨0, rfl, by simpa using (Path.cmp_lt_iff _ _).1 hc, by simp, by simp⟩
    | eq => exact absurd ((Path.cmp_eq_iff _ _).1 hc) (hne y (by simp))
    | gt =>
      obtain ⟨k, h1, h2, h3, h4⟩ := ih h.2 (fun x hx => hne x (by simp [hx])) (i + 1)
      refine ⟨k + 1, by simp only; rw [h1, show i + 1 + k = i + (k + 1) by omega], by simpa using h2, ?_,
        by simp; omega⟩
      intro x hx
      rw [List.take_succ_cons] at hx
      rcases List.mem_cons.1 hx with rfl | hx
      · exact (Path.cmp_gt_iff _ _).1 hc
      · exact h3 x hx

end Verif
