import Verif.Spec.BufferViews
import Verif.Proof.BufferStop

/-! # The slices of buffers -/

namespace Verif.Storage

open Verif Verif.Spec

theorem set_keeps {tasks : List Task} {t u : Nat} {x y z : Task} (hu : tasks[u]? = some x) (ht : tasks[t]? = some y)
    (hne : x ≠ y) : (tasks.set t z)[u]? = some x := by
  rw [List.getElem?_set_ne (by rintro rfl; rw [hu] at ht; injection ht with ht; exact hne ht)]
  exact hu

/-- Only its release and its end take a handle away from a task. -/
theorem go_holding {chk : Bool} {fetch : Nat → Res Bytes} {s s' : Sys} {e : Event} (h : go chk fetch s e = some s')
    {u i lock location : Nat} {kind : Kind} (hu : s.tasks[u]? = some (.holding i lock location kind))
    (h1 : e ≠ .act (.release u)) (h2 : ∀ c, e ≠ .stop u c) : s'.tasks[u]? = some (.holding i lock location kind) := by
  cases e with
  | act a =>
    simp only [go] at h
    split at h
    · rename_i r hr
      subst h
      cases step_trans hr with
      | access ht _ => exact set_keeps hu ht (by simp)
      | acquire ht _ => exact set_keeps hu ht (by simp)
      | load ht _ => exact set_keeps hu ht (by simp)
      | write _ _ => exact hu
      | @release t _ _ _ _ _ ht _ =>
        show (s.tasks.set t _)[u]? = _
        rw [List.getElem?_set_ne (by rintro rfl; exact h1 rfl)]
        exact hu
      | drop ht => exact set_keeps hu ht (by simp)
    · rename_i x hr
      injection h with h
      subst h
      cases a with
      | load t =>
        simp only [step] at hr
        split at hr
        · rename_i ht
          exact set_keeps hu ht (by simp)
        · cases hr
      | _ => exact hu
  | stop t c =>
    simp only [go] at h
    have hne : t ≠ u := by rintro rfl; exact h2 c rfl
    split at h
    all_goals first
      | (injection h with h; subst h; show (s.tasks.set t _)[u]? = _; rw [List.getElem?_set_ne hne]; exact hu)
      | cases h

/-- Every slice in use belongs to a task with a handle of the buffer. -/
structure Owned (v : Viewed) : Prop where
  held : ∀ w ∈ v.views, ∃ lock location kind, v.sys.tasks[w.task]? = some (.holding w.index lock location kind) ∧
    (w.mutable = true → kind.write = true)
  one : ∀ (m n : Nat) (a b : View), m ≠ n → v.views[m]? = some a → v.views[n]? = some b → a.task = b.task →
    a.mutable = false ∧ b.mutable = false

theorem mem_eraseIdx_get {α : Type} {xs : List α} {n m : Nat} {x : α} (h : (xs.eraseIdx n)[m]? = some x) :
    xs[if m < n then m else m + 1]? = some x := by
  rw [List.getElem?_eraseIdx] at h
  split at h
  · rename_i hm; rw [if_pos hm]; exact h
  · rename_i hm; rw [if_neg hm]; exact h

theorem Owned.step {chk : Bool} {fetch : Nat → Res Bytes} {v v' : Viewed} {d : Deed} (o : Owned v)
    (hc : Careful v.views d) (hs : perform chk fetch v d = some v') : Owned v' := by
  cases d with
  | event e =>
    simp only [perform, Option.map_eq_some_iff] at hs
    obtain ⟨s, hs, rfl⟩ := hs
    refine ⟨?_, o.one⟩
    intro w hw
    obtain ⟨l, loc, k, h1, h2⟩ := o.held w hw
    refine ⟨l, loc, k, go_holding hs h1 ?_ ?_, h2⟩
    · rintro rfl; exact hc w hw rfl
    · rintro c rfl; exact hc w hw rfl
  | borrow t mutable =>
    simp only [perform] at hs
    split at hs
    · rename_i i l loc k ht
      split at hs
      · cases hs
      · rename_i hm
        injection hs with hs
        subst hs
        have hm' : mutable = true → k.write = true := by
          intro h; subst h; simpa using hm
        constructor
        · intro w hw
          rcases List.mem_cons.1 hw with rfl | hw
          · exact ⟨l, loc, k, ht, hm'⟩
          · exact o.held w hw
        · have key : ∀ w ∈ v.views, t = w.task → mutable = false ∧ w.mutable = false := by
            intro w hw e
            cases mutable with
            | true => exact absurd e.symm (hc w hw)
            | false => exact ⟨rfl, hc w hw e.symm⟩
          intro m n a b hmn ha hb e
          match m, n, hmn, ha, hb with
          | 0, 0, hmn, _, _ => exact absurd rfl hmn
          | 0, n + 1, _, ha, hb =>
            simp only [List.getElem?_cons_zero, Option.some.injEq] at ha
            subst ha
            exact key b (List.mem_of_getElem? (by simpa using hb)) e
          | m + 1, 0, _, ha, hb =>
            simp only [List.getElem?_cons_zero, Option.some.injEq] at hb
            subst hb
            exact (key a (List.mem_of_getElem? (by simpa using ha)) e.symm).symm
          | m + 1, n + 1, hmn, ha, hb =>
            exact o.one m n a b (by omega) (by simpa using ha) (by simpa using hb) e
    · cases hs
  | finish n =>
    simp only [perform] at hs
    split at hs
    · injection hs with hs
      subst hs
      constructor
      · intro w hw
        exact o.held w (List.mem_of_mem_eraseIdx hw)
      · intro x y a b hxy ha hb e
        exact o.one _ _ a b (by split <;> split <;> omega) (mem_eraseIdx_get ha) (mem_eraseIdx_get hb) e
    · cases hs
  | put n content =>
    simp only [perform] at hs
    split at hs
    · split at hs
      · injection hs with hs
        subst hs
        exact ⟨o.held, o.one⟩
      · cases hs
    · cases hs

theorem Looks.owned {chk : Bool} {fetch : Nat → Res Bytes} {s : Sys} {left : List Nat} {v : Viewed}
    (h : Looks chk fetch s left v) : Owned v := by
  induction h with
  | start => exact ⟨by simp, by simp⟩
  | event _ hc _ hs ih => exact ih.step hc hs
  | deed _ _ hc hs ih => exact ih.step hc hs

/-- A change through a slice is a write of the owner of the handle. -/
theorem put_write {chk : Bool} {fetch : Nat → Res Bytes} {v v' : Viewed} {n : Nat} {content : Bytes} (o : Owned v)
    (hs : perform chk fetch v (.put n content) = some v') :
    ∃ w, v.views[n]? = some w ∧ w.mutable = true ∧ v'.views = v.views ∧
      step chk fetch v.sys (.write w.task content) = .ok (some v'.sys) := by
  simp only [perform] at hs
  split at hs
  · rename_i w hw
    split at hs
    · rename_i hm
      injection hs with hs
      subst hs
      obtain ⟨l, loc, k, h1, h2⟩ := o.held w (List.mem_of_getElem? hw)
      refine ⟨w, hw, hm, rfl, ?_⟩
      simp only [step, h1, h2 hm, if_true]
      rfl
    · cases hs
  · cases hs

/-- Without the slices, the execution is one of the pool. -/
theorem Looks.goes {chk : Bool} {fetch : Nat → Res Bytes} {s : Sys} {left : List Nat} {v : Viewed}
    (h : Looks chk fetch s left v) : Goes chk fetch s left v.sys := by
  induction h with
  | start => exact .refl
  | event _ _ hl hs ih =>
    simp only [perform, Option.map_eq_some_iff] at hs
    obtain ⟨s', hs, rfl⟩ := hs
    exact .next ih hs hl
  | @deed left v v' d h hd _ hs ih =>
    cases d with
    | event e => exact absurd rfl (hd e)
    | borrow t mutable =>
      simp only [perform] at hs
      split at hs
      · split at hs
        · cases hs
        · injection hs with hs; subst hs; exact ih
      · cases hs
    | finish n =>
      simp only [perform] at hs
      split at hs
      · injection hs with hs; subst hs; exact ih
      · cases hs
    | put n content =>
      obtain ⟨w, _, _, _, h1⟩ := put_write h.owned hs
      exact .next (l := none) ih (by simp only [go, h1]) (.fine h1)

theorem Owned.unaliased {v : Viewed} {gs : List Task} (o : Owned v) (g : Good (v.sys.more gs)) :
    Unaliased v.views := by
  intro m n a b hmn ha hb e
  obtain ⟨l, loc, k, h1, h2⟩ := o.held a (List.mem_of_getElem? ha)
  obtain ⟨l', loc', k', h3, h4⟩ := o.held b (List.mem_of_getElem? hb)
  rw [e] at h1
  have h1' := more_get (gs := gs) h1
  have h3' := more_get (gs := gs) h3
  have same : (a.mutable = true ∨ b.mutable = true) → a.task = b.task := by
    rintro (h | h)
    · exact g.alone (l := l) h1' h3' rfl rfl (by simp [Task.guard, h2 h]) rfl rfl rfl
    · exact (g.alone (l := l') h3' h1' rfl rfl (by simp [Task.guard, h4 h]) rfl rfl rfl).symm
  by_cases hab : a.mutable = true ∨ b.mutable = true
  · exact o.one m n a b hmn ha hb (same hab)
  · exact ⟨by simpa using fun h => hab (.inl h), by simpa using fun h => hab (.inr h)⟩

/-- Nothing but a change through the slice itself changes what is seen through it. -/
theorem Owned.contents {chk : Bool} {fetch : Nat → Res Bytes} {v v' : Viewed} {gs : List Task} (o : Owned v)
    (g : Good (v.sys.more gs)) {d : Deed} (hc : Careful v.views d) (hs : perform chk fetch v d = some v') {n : Nat}
    {w : View} (hw : v.views[n]? = some w) (hd : ∀ c, d ≠ .put n c) :
    v'.sys.memory[w.index]? = v.sys.memory[w.index]? := by
  have hmem := List.mem_of_getElem? hw
  obtain ⟨l, loc, k, h1, h2⟩ := o.held w hmem
  cases d with
  | event e =>
    simp only [perform, Option.map_eq_some_iff] at hs
    obtain ⟨s', hs, rfl⟩ := hs
    refine go_contents g hs h1 ?_
    rintro c rfl
    exact hc w hmem rfl
  | borrow t mutable =>
    simp only [perform] at hs
    split at hs
    · split at hs
      · cases hs
      · injection hs with hs; subst hs; rfl
    · cases hs
  | finish m =>
    simp only [perform] at hs
    split at hs
    · injection hs with hs; subst hs; rfl
    · cases hs
  | put m content =>
    simp only [perform] at hs
    split at hs
    · rename_i a ha
      split at hs
      · rename_i hm
        injection hs with hs
        subst hs
        show (v.sys.memory.set a.index content)[w.index]? = _
        rw [List.getElem?_set_ne]
        intro e
        have := o.unaliased g m n a w (by rintro rfl; exact hd content rfl) ha hw e
        rw [hm] at this
        exact absurd this.1 (by simp)
      · cases hs
    · cases hs

end Verif.Storage
