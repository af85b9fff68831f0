import Verif.Proof.Types

/-! # Properties C11–C14: types, paths and qualified names (`src/core/types/mod.rs`) -/

namespace Verif.Props

open Verif Verif.Spec

/-- C11. The comparison of paths is the lexicographic order on lists of numbers: `Less` is the strict
order, `Equal` is equality, `Greater` is the reverse. -/
theorem C11_lexicographic (p q : Path) :
    (Path.cmp p q = .lt ↔ p < q) ∧ (Path.cmp p q = .eq ↔ p = q) ∧ (Path.cmp p q = .gt ↔ q < p) :=
  ⟨Path.cmp_lt_iff p q, Path.cmp_eq_iff p q, Path.cmp_gt_iff p q⟩

/-- C11. The comparison of paths is a total order that agrees with equality, and a proper prefix
comes before its extensions. -/
theorem C11_total_order :
    (∀ p q : Path, Path.cmp p q = .eq ↔ p = q) ∧
    (∀ p q : Path, Path.cmp q p = (Path.cmp p q).swap) ∧
    (∀ p q r : Path, Path.cmp p q ≠ .gt → Path.cmp q r ≠ .gt → Path.cmp p r ≠ .gt) ∧
    (∀ p q r : Path, Path.cmp p q = .lt → Path.cmp q r = .lt → Path.cmp p r = .lt) ∧
    (∀ (p s : Path), s ≠ [] → Path.cmp p (p ++ s) = .lt) := by
  refine ⟨Path.cmp_eq_iff, Path.cmp_swap, ?_, ?_, ?_⟩
  · intro p q r
    simp only [ne_eq, Path.cmp_gt_iff]
    intro h1 h2 h3
    exact (List.le_trans h1 h2) h3
  · intro p q r
    simp only [Path.cmp_lt_iff]
    exact List.lt_trans
  · intro p s hs
    induction p with
    | nil => cases s with
      | nil => exact absurd rfl hs
      | cons a s => exact Path.cmp_nil_cons a s
    | cons a p ih => rw [List.cons_append, Path.cmp_cons_cons]; simpa using ih

example : Path.cmp [0, 2] [0, 10, 1] = .lt ∧ Path.cmp [0, 10] [0, 10, 1] = .lt := by decide

/-- C12 (first half). `is_prefix_of` holds exactly when the other path continues this one. -/
theorem C12_prefix_partial (p q : Path) : Path.isPrefixOf p q = true ↔ ∃ s, q = p ++ s :=
  Path.isPrefixOf_iff p q

example : Path.isPrefixOf [1, 2] [1, 2, 3] = true ∧ Path.isPrefixOf [1, 2] [1] = false := by decide

/-- C12 (second half) fails: `is_proper_prefix_of` never holds, although proper prefixes exist. -/
theorem C12_proper_prefix_refuted :
    (∀ p q : Path, Path.isProperPrefixOf p q = false) ∧
    ¬ ∀ p q : Path, Path.isProperPrefixOf p q = true ↔ ((∃ s, q = p ++ s) ∧ p ≠ q) := by
  have h : ∀ p q : Path, Path.isProperPrefixOf p q = false := by simp [Path.isProperPrefixOf]
  refine ⟨h, fun H => ?_⟩
  have := (H [1] [1, 2]).2 ⟨⟨[2], rfl⟩, by decide⟩
  rw [h] at this
  exact absurd this (by simp)

/-- C13. A name resolves to a path exactly when following its dot separated pieces through the labels
of the type reaches that path, and `extract` on the path then returns the component reached. -/
theorem C13_resolve (t : Ty) (name : Str) (p : Path)
    (hs : ∀ q cs, Child t q (.tuple cs) → cs.length < 2 ^ 64) :
    resolveQualifiedName t name = some p ↔
      ∃ ls u, Pieces name ls ∧ Walk t ls p u ∧ t.extract p = .ok u := by
  unfold resolveQualifiedName
  rw [resolvePieces_iff t _ p hs]
  constructor
  · rintro ⟨u, h⟩
    exact ⟨_, u, (pieces_iff name _).2 rfl, h, (extract_iff t p u).2 h.child⟩
  · rintro ⟨ls, u, h1, h2, _⟩
    rw [(pieces_iff name ls).1 h1]
    exact ⟨u, h2⟩

/-- C13. `extract` returns exactly the component at the given positions, and panics when there is
none. -/
theorem C13_extract (t : Ty) (p : Path) :
    (∀ u, t.extract p = .ok u ↔ Child t p u) ∧
    ((¬ ∃ u, Child t p u) → t.extract p = .error .panic) := by
  refine ⟨fun u => extract_iff t p u, fun h => ?_⟩
  cases he : t.extract p with
  | ok u => exact absurd ⟨u, (extract_iff t p u).1 he⟩ h
  | error f =>
    cases f with
    | panic => rfl
    | ub => exact absurd he (extract_no_ub t p)

/-- A type with nesting, used to show that the hypotheses below can be met. -/
def sampleTy : Ty :=
  .struct [(['a'], .tuple [.prim .u8, .string]), (['b'], .enum [(['x'], .unit), (['y'], .prim .f64)])]

example : resolveQualifiedName sampleTy "a.1".toList = some [0, 1] ∧
    resolveQualifiedName sampleTy "b.y".toList = some [1, 1] ∧
    resolveQualifiedName sampleTy "b.z".toList = none ∧
    resolveQualifiedName sampleTy "a.+01".toList = some [0, 1] := by decide

/-- C14. Every component below the root has a qualified name that resolves to it. -/
theorem C14_every_component_named (t : Ty) (hg : GoodLabels t) (p : Path) (u : Ty)
    (hp : p ≠ []) (hc : Child t p u) :
    ∃ name, resolveQualifiedName t name = some p := by
  obtain ⟨ls, h1, h2, h3⟩ := hc.walk hg
  refine ⟨List.intercalate ['.'] ls, (C13_resolve t _ p hg.small).2 ⟨ls, u, ⟨?_, h1, rfl⟩, h3,
    (extract_iff t p u).2 hc⟩⟩
  intro e
  rw [e] at h2
  exact hp (List.length_eq_zero_iff.1 h2.symm)

/-- C14. A name never denotes two different components, and never the root. -/
theorem C14_names_unambiguous (t : Ty) (name : Str) (p q : Path) :
    (resolveQualifiedName t name = some p → resolveQualifiedName t name = some q → p = q) ∧
    resolveQualifiedName t name ≠ some [] := by
  refine ⟨fun h1 h2 => Option.some.inj (h1.symm.trans h2), ?_⟩
  unfold resolveQualifiedName
  cases h : splitDots [] name with
  | nil => exact absurd h (splitDots_ne_nil _ _)
  | cons l ls =>
    cases t <;> simp only [resolvePieces]
    case tuple cs => split <;> (try split) <;> simp
    case enum cs => split <;> (try split) <;> simp
    case struct cs => split <;> (try split) <;> simp
    all_goals simp

example : GoodLabels sampleTy := by
  intro p u h
  cases h with
  | here => exact ⟨by decide, by decide⟩
  | field h1 h2 =>
    rename_i i c p
    rcases i with _ | _ | i
    · simp at h1; obtain ⟨-, rfl⟩ := h1
      cases h2 with
      | here => simp
      | component h3 h4 =>
        rename_i j c p
        rcases j with _ | _ | j <;> simp at h3 <;> subst h3 <;> cases h4 <;> trivial
    · simp at h1; obtain ⟨-, rfl⟩ := h1
      cases h2 with
      | here => exact ⟨by decide, by decide⟩
      | case h3 h4 =>
        rename_i j c p
        rcases j with _ | _ | j <;> simp at h3 <;> obtain ⟨-, rfl⟩ := h3 <;> cases h4 <;> trivial
    · simp at h1

end Verif.Props
