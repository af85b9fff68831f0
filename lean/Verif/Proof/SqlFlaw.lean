import Verif.Spec.SqlFlaw
import Verif.Proof.SqlPanic
import Verif.Proof.SqlRules
import Verif.Proof.SqlWidth
/-! # Errors of type checking have a reason -/

namespace Verif.Sql

open Chk

theorem Chk.bind_err {α β : Type} {r : Chk α} {f : α → Chk β} {x : SqlError} :
    (r >>= f) = .error (.err x) ↔ r = .error (.err x) ∨ ∃ a, r = .ok a ∧ f a = .error (.err x) := by
  cases r with
  | error y => simp [bind, Except.bind]
  | ok a => simp [bind, Except.bind]

/-! ## Types that do not agree -/

mutual

theorem isCompatible_err : ∀ {a b : ScalarType} {x : SqlError}, a.isCompatible b = .error (.err x) → Mismatch a b x
  | .scalar t1 n1, .scalar t2 n2, x, h => by
    rw [ScalarType.isCompatible] at h
    split at h
    · cases h
    · rename_i ht
      cases h
      exact .types ht
  | .tuple ts, .tuple us, x, h => by
    rw [ScalarType.isCompatible] at h
    split at h
    · rename_i hl
      cases h
      exact .lengths hl
    · rename_i hl
      obtain ⟨i, t, u, h1, h2, h3⟩ := isCompatibleFold_err h
      exact .part (by omega) h1 h2 h3
  | .scalar _ _, .tuple _, x, h => by
    rw [ScalarType.isCompatible] at h
    · cases h
      exact .tupleRight
    · simp
    · simp
  | .tuple _, .scalar _ _, x, h => by
    rw [ScalarType.isCompatible] at h
    · cases h
      exact .tupleLeft
    · simp
    · simp

theorem isCompatibleFold_err : ∀ {ts us : List ScalarType} {b : Bool} {x : SqlError},
    ScalarType.isCompatibleFold (.ok b) ts us = .error (.err x) →
    ∃ (i : Nat) (t u : ScalarType), ts[i]? = some t ∧ us[i]? = some u ∧ Mismatch t u x
  | [], us, b, x, h => by simp [ScalarType.isCompatibleFold] at h
  | _ :: _, [], b, x, h => by simp [ScalarType.isCompatibleFold] at h
  | t :: ts, u :: us, b, x, h => by
    rw [ScalarType.isCompatibleFold] at h
    cases hi : t.isCompatible u with
    | error e =>
      rw [hi] at h
      simp only at h
      rw [isCompatibleFold_error] at h
      cases h
      exact ⟨0, t, u, rfl, rfl, isCompatible_err hi⟩
    | ok m =>
      rw [hi] at h
      simp only at h
      obtain ⟨i, t', u', h1, h2, h3⟩ := isCompatibleFold_err h
      exact ⟨i + 1, t', u', h1, h2, h3⟩

end

mutual

theorem unify_err : ∀ {a b : ScalarType} {x : SqlError}, a.unify b = .error (.err x) → Mismatch a b x
  | .scalar t1 n1, .scalar t2 n2, x, h => by
    rw [ScalarType.unify] at h
    split at h
    · cases h
    · rename_i ht
      cases h
      exact .types ht
  | .tuple ts, .tuple us, x, h => by
    rw [ScalarType.unify] at h
    split at h
    · rename_i hl
      cases h
      exact .lengths hl
    · rename_i hl
      rw [bind_err] at h
      rcases h with h | ⟨_, _, h⟩
      · obtain ⟨i, t, u, h1, h2, h3⟩ := unifyList_err h
        exact .part (by omega) h1 h2 h3
      · cases h
  | .scalar _ _, .tuple _, x, h => by
    rw [ScalarType.unify] at h
    · cases h
      exact .tupleRight
    · simp
    · simp
  | .tuple _, .scalar _ _, x, h => by
    rw [ScalarType.unify] at h
    · cases h
      exact .tupleLeft
    · simp
    · simp

theorem unifyList_err : ∀ {ts us : List ScalarType} {x : SqlError},
    ScalarType.unifyList ts us = .error (.err x) →
    ∃ (i : Nat) (t u : ScalarType), ts[i]? = some t ∧ us[i]? = some u ∧ Mismatch t u x
  | [], us, x, h => by simp [ScalarType.unifyList] at h
  | _ :: _, [], x, h => by simp [ScalarType.unifyList] at h
  | t :: ts, u :: us, x, h => by
    rw [ScalarType.unifyList, bind_err] at h
    rcases h with h | ⟨_, _, h⟩
    · exact ⟨0, t, u, rfl, rfl, unify_err h⟩
    · rw [bind_err] at h
      rcases h with h | ⟨_, _, h⟩
      · obtain ⟨i, t', u', h1, h2, h3⟩ := unifyList_err h
        exact ⟨i + 1, t', u', h1, h2, h3⟩
      · cases h

end

mutual

theorem unify_alike : ∀ {a b c : ScalarType}, a.unify b = .ok c → Alike c a
  | .scalar t1 n1, .scalar t2 n2, c, h => by
    rw [ScalarType.unify] at h
    split at h
    · cases h; exact .scalar
    · cases h
  | .tuple ts, .tuple us, c, h => by
    rw [ScalarType.unify] at h
    split at h
    · cases h
    · rename_i hl
      rw [bind_ok_iff] at h
      obtain ⟨vs, hv, h⟩ := h
      cases h
      exact unifyList_alike (by omega) hv
  | .scalar _ _, .tuple _, c, h => by
    rw [ScalarType.unify] at h
    · cases h
    · simp
    · simp
  | .tuple _, .scalar _ _, c, h => by
    rw [ScalarType.unify] at h
    · cases h
    · simp
    · simp

theorem unifyList_alike : ∀ {ts us vs : List ScalarType}, ts.length = us.length →
    ScalarType.unifyList ts us = .ok vs → Alike (.tuple vs) (.tuple ts)
  | [], [], vs, _, h => by
    simp only [ScalarType.unifyList, Except.ok.injEq] at h
    subst h
    exact .unit
  | t :: ts, u :: us, vs, hl, h => by
    rw [ScalarType.unifyList, bind_ok_iff] at h
    obtain ⟨v, hv, h⟩ := h
    rw [bind_ok_iff] at h
    obtain ⟨ws, hw, h⟩ := h
    cases h
    exact .tuple (unify_alike hv) (unifyList_alike (by simpa using hl) hw)

end

mutual

theorem alike_refl : ∀ a : ScalarType, Alike a a
  | .scalar _ _ => .scalar
  | .tuple ts => alike_reflList ts

theorem alike_reflList : ∀ ts : List ScalarType, Alike (.tuple ts) (.tuple ts)
  | [] => .unit
  | t :: ts => .tuple (alike_refl t) (alike_reflList ts)

end

theorem Alike.symm' {a b : ScalarType} (h : Alike a b) : Alike b a := by
  induction h with
  | scalar => exact .scalar
  | unit => exact .unit
  | tuple _ _ h1 h2 => exact .tuple h1 h2

theorem Alike.trans' {a b c : ScalarType} (h : Alike a b) (h' : Alike b c) : Alike a c := by
  induction h generalizing c with
  | scalar => cases h'; exact .scalar
  | unit => cases h'; exact .unit
  | tuple _ _ h1 h2 => cases h' with | tuple g1 g2 => exact .tuple (h1 g1) (h2 g2)

theorem Alike.parts {ts us : List ScalarType} (h : Alike (.tuple ts) (.tuple us)) :
    ts.length = us.length ∧ ∀ (i : Nat) t, ts[i]? = some t → ∃ u, us[i]? = some u ∧ Alike t u := by
  induction ts generalizing us with
  | nil => cases h; exact ⟨rfl, fun i t h => by simp at h⟩
  | cons a ts ih =>
    cases h with
    | tuple h1 h2 =>
      obtain ⟨hl, hp⟩ := ih h2
      refine ⟨by simp [hl], fun i t ht => ?_⟩
      cases i with
      | zero => cases ht; exact ⟨_, rfl, h1⟩
      | succ i => exact hp i t ht

theorem Mismatch.left {a b : ScalarType} {x : SqlError} (h : Mismatch a b x) :
    ∀ {c}, Alike a c → Mismatch c b x := by
  induction h with
  | types h => intro c hc; cases hc; exact .types h
  | tupleLeft => intro c hc; cases hc <;> exact .tupleLeft
  | tupleRight => intro c hc; cases hc; exact .tupleRight
  | lengths h =>
    intro c hc
    cases c with
    | scalar _ _ => cases hc
    | tuple vs => exact .lengths (by rw [← hc.parts.1]; exact h)
  | part hl ht hu _ ih =>
    intro c hc
    cases c with
    | scalar _ _ => cases hc
    | tuple vs =>
      obtain ⟨v, hv, hva⟩ := hc.parts.2 _ _ ht
      exact .part (by rw [← hc.parts.1]; exact hl) hv hu (ih hva)

theorem Mismatch.swap {a b : ScalarType} {x : SqlError} (h : Mismatch a b x) : Mismatch b a x := by
  induction h with
  | types h => exact .types (fun e => h e.symm)
  | tupleLeft => exact .tupleRight
  | tupleRight => exact .tupleLeft
  | lengths h => exact .lengths (fun e => h e.symm)
  | part hl ht hu _ ih => exact .part hl.symm hu ht ih

theorem Mismatch.right {a b c : ScalarType} {x : SqlError} (h : Mismatch a b x) (hc : Alike b c) : Mismatch a c x :=
  (h.swap.left hc).swap

/-- Types that agree are not in disagreement. -/
theorem Mismatch.not_alike {a b : ScalarType} {x : SqlError} (h : Mismatch a b x) : ¬ Alike a b := by
  induction h with
  | types h => intro hc; cases hc; exact h rfl
  | tupleLeft => intro hc; cases hc
  | tupleRight => intro hc; cases hc
  | lengths h => intro hc; exact h hc.parts.1
  | part hl ht hu _ ih =>
    intro hc
    obtain ⟨v, hv, hva⟩ := hc.parts.2 _ _ ht
    rw [hu] at hv
    cases hv
    exact ih hva

variable {up : Char → List Char}

/-! ## Names -/

theorem resolve_err {ctx : SetContext Name} {q : List Name} {x : SqlError}
    (h : ctx.resolveTableName (nameOps up) q = .error (.err x)) : Unknown up ctx q x := by
  unfold SetContext.resolveTableName at h
  split at h
  · split at h
    · cases h
    · rename_i h1
      split at h
      · cases h
      · rename_i h2
        split at h
        · cases h
        · rename_i h3
          cases h
          exact .notFound ((get_none_iff up).1 h1) (entry_of_get up h2) ((get_none_iff up).1 h3)
  · split at h
    · rename_i h1
      cases h
      exact .hidden (entry_of_get up h1)
    · rename_i h1
      split at h
      · rename_i h2
        cases h
        exact .noSchema ((get_none_iff up).1 h1) ((get_none_iff up).1 h2)
      · rename_i h2
        split at h
        · cases h
        · rename_i h3
          cases h
          exact .notFoundIn ((get_none_iff up).1 h1) (entry_of_get up h2) ((get_none_iff up).1 h3)
  · rename_i h1 h2
    cases h
    refine .parts ⟨fun hl => ?_, fun hl => ?_⟩
    · obtain ⟨a, rfl⟩ := List.length_eq_one_iff.1 hl
      exact h1 _ rfl
    · match q, hl with
      | [a, b], _ => exact h2 _ _ rfl

theorem column_err {sc : ScalarContext Name} {q : List Name} {x : SqlError}
    (h : sc.inferType (nameOps up) q = .error (.err x)) : NoColumn up sc q x := by
  unfold ScalarContext.inferType at h
  split at h
  · split at h
    · rename_i h1
      cases h
      exact .undefined ((get_none_iff up).1 h1)
    · cases h
    · rename_i h1
      cases h
      exact .ambiguous (entry_of_get up h1)
    · rename_i h1
      cases h
      exact .table (entry_of_get up h1)
  · split at h
    · rename_i h1
      split at h
      · cases h
      · rename_i h2
        cases h
        exact .notIn (entry_of_get up h1) ((get_none_iff up).1 h2)
    · rename_i r a _ hn
      cases h
      cases hg : sc.symbols.get (nameOps up) r with
      | none => exact .noTable ((get_none_iff up).1 hg)
      | some s => exact .notTable (entry_of_get up hg) (fun m hm => hn m (by rw [hg, hm]))
  · rename_i h1 h2
    cases h
    refine .parts ⟨fun hl => ?_, fun hl => ?_⟩
    · obtain ⟨a, rfl⟩ := List.length_eq_one_iff.1 hl
      exact h1 _ rfl
    · match q, hl with
      | [a, b], _ => exact h2 _ _ rfl

theorem addRelation_err {sc : ScalarContext Name} {n : Name} {as : List (Attribute Name)} {x : SqlError}
    (h : sc.addRelation (nameOps up) n as = .error (.err x)) :
    x = .duplicateRelation ∧ ∃ m, Entry up sc.symbols n (.relation m) := by
  unfold ScalarContext.addRelation at h
  simp only at h
  split at h
  · rename_i m hm
    cases h
    exact ⟨rfl, m, entry_of_get up (addAttributes_relation _ _ hm)⟩
  · cases h

theorem tableContext_err {ctx : SetContext Name} {q : List Name} {r : RowType Name} {x : SqlError} :
    tableContext (nameOps up) ctx q r ≠ .error (.err x) := by
  intro h
  unfold tableContext at h
  split at h
  · obtain ⟨_, m, e, he, _⟩ := addRelation_err h
    cases he
  · cases h

end Verif.Sql
