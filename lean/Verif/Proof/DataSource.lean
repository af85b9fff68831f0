import Verif.Model.DataSource
import Verif.Proof.Types

/-! # Lemmas about maps and the intermediate data source -/

namespace Verif

variable {α β : Type} {cmp : α → α → Ordering}

theorem mapGet_insert (heq : ∀ a b, cmp a b = .eq ↔ a = b) (k k' : α) (v : β) (m : List (α × β)) :
    mapGet cmp k' (mapInsert cmp k v m) =
      match cmp k' k with
      | .eq => some v
      | _ => mapGet cmp k' m := by
  induction m with
  | nil => simp only [mapInsert, mapGet]; cases cmp k' k <;> rfl
  | cons e es ih =>
    rw [mapInsert]
    cases h : cmp k e.1 with
    | lt => simp only [mapGet]; cases cmp k' k <;> rfl
    | eq =>
      have he := (heq _ _).1 h
      simp only [mapGet, ← he]
      cases h' : cmp k' k <;> simp
    | gt =>
      simp only [mapGet, ih]
      cases h' : cmp k' e.1 with
      | eq =>
        have h1 := (heq _ _).1 h'
        have : cmp k' k ≠ .eq := by
          intro h2
          have h3 := (heq _ _).1 h2
          rw [← h3, h1, (heq _ _).2 rfl] at h
          exact absurd h (by simp)
        cases h2 : cmp k' k <;> simp_all
      | lt => rfl
      | gt => rfl

theorem mapGet_path_insert (k k' : Path) (v : β) (m : List (Path × β)) :
    mapGet Path.cmp k' (mapInsert Path.cmp k v m) = if k' = k then some v else mapGet Path.cmp k' m := by
  rw [mapGet_insert Path.cmp_eq_iff]
  by_cases h : k' = k
  · rw [(Path.cmp_eq_iff k' k).2 h]; simp [h]
  · have : Path.cmp k' k ≠ .eq := fun e => h ((Path.cmp_eq_iff _ _).1 e)
    cases h2 : Path.cmp k' k <;> simp_all

end Verif
