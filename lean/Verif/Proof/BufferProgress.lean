import Verif.Spec.BufferProgress
import Verif.Proof.BufferStop

/-! # Tasks get on with their work -/

namespace Verif.Storage

open Verif Verif.Spec

variable {chk : Bool} {fetch : Nat → Res Bytes} {s s' : Sys}

theorem ahead_set {tasks : List Task} {t : Nat} {x : Task} (h : tasks[t]? = some x) (y : Task) :
    ahead (tasks.set t y) + x.ahead = ahead tasks + y.ahead := by
  unfold ahead
  induction tasks generalizing t with
  | nil => simp at h
  | cons z zs ih =>
    cases t with
    | zero =>
      simp only [List.getElem?_cons_zero, Option.some.injEq] at h
      subst h
      simp only [List.set_cons_zero, List.map_cons, List.sum_cons]
      omega
    | succ t =>
      have := ih (t := t) (by simpa using h)
      simp only [List.set_cons_succ, List.map_cons, List.sum_cons]
      omega

theorem ahead_less {tasks : List Task} {t : Nat} {x y : Task} (h : tasks[t]? = some x) (hy : y.ahead < x.ahead) :
    ahead (tasks.set t y) < ahead tasks := by
  have := ahead_set h y
  omega

theorem ahead_le (tasks : List Task) : ahead tasks ≤ 3 * tasks.length := by
  unfold ahead
  induction tasks with
  | nil => exact Nat.le_refl _
  | cons x xs ih =>
    have : x.ahead ≤ 3 := by cases x <;> simp [Task.ahead]
    simp only [List.map_cons, List.sum_cons, List.length_cons]
    omega

theorem ahead_zero {tasks : List Task} (h : ahead tasks = 0) : ∀ x ∈ tasks, x = .idle := by
  unfold ahead at h
  induction tasks with
  | nil => intro x hx; cases hx
  | cons y ys ih =>
    simp only [List.map_cons, List.sum_cons, Nat.add_eq_zero_iff] at h
    intro x hx
    rcases List.mem_cons.1 hx with rfl | hx
    · cases x <;> first | rfl | (simp [Task.ahead] at h)
    · exact ih h.2 x hx

/-- Only the task itself changes. -/
theorem go_others {e : Event} (h : go chk fetch s e = some s') {u : Nat} (hu : u ≠ e.owner) :
    s'.tasks[u]? = s.tasks[u]? := by
  have hset : ∀ {t : Nat} (y : Task), u ≠ t → (s.tasks.set t y)[u]? = s.tasks[u]? :=
    fun y hn => List.getElem?_set_ne (Ne.symm hn)
  cases e with
  | stop t content =>
    simp only [go] at h
    split at h
    all_goals first
      | (injection h with h; subst h; exact hset _ hu)
      | cases h
  | act a =>
    simp only [go] at h
    split at h
    · rename_i r hr
      subst h
      cases step_trans hr <;> first | rfl | exact hset _ hu
    · injection h with h
      subst h
      cases a <;> first | rfl | exact hset _ hu

/-- A state of an execution in which there is room for as many handles left behind as there are events before the
tasks. -/
def Fit (s : Sys) : Prop := ∃ gs, Ghosts gs ∧ Good (s.more gs) ∧ s.tasks.length + gs.length + ahead s.tasks < 2 ^ 32

/-- A task that has a guard can go on. -/
theorem go_guard (h : ∃ gs, Ghosts gs ∧ Good (s.more gs)) {u l : Nat} {x : Task} {w : Bool} (hu : s.tasks[u]? = some x)
    (hx : x.guard = some (l, w)) : ∃ e s', Finishing e ∧ e.owner = u ∧ go chk fetch s e = some s' := by
  obtain ⟨gs, hg, h⟩ := h
  cases x with
  | idle => cases hx
  | waiting => cases hx
  | loading i lock location kind =>
    cases hr : provide fetch kind location ((s.memory[i]?).getD []).length with
    | ok c => exact ⟨_, _, .load u, rfl, by simp only [go, step, hu, hr, Res.bind_ok]; rfl⟩
    | error e => exact ⟨_, _, .load u, rfl, by simp only [go, step, hu, hr]; rfl⟩
  | holding i lock location kind =>
    have hok : ∀ e, step chk fetch s (.release u) ≠ .error e := fun e he => nomatch (panics_more hg h _).1 ⟨e, he⟩
    cases hr : s.pool.release i kind.write with
    | ok p => exact ⟨_, _, .release u, rfl, by simp only [go, step, hu, hr, Res.bind_ok]; rfl⟩
    | error e => exact absurd (by simp only [step, hu, hr]; rfl) (hok e)
  | leaving lock write => exact ⟨_, _, .drop u, rfl, by simp only [go, step, hu]; rfl⟩

/-- Every such event brings the end closer. -/
theorem Fit.go {e : Event} (h : Fit s) (he : Finishing e) (hs : Storage.go chk fetch s e = some s') :
    Fit s' ∧ ahead s'.tasks < ahead s.tasks ∧ ∃ l, Leaves chk fetch s e l := by
  obtain ⟨gs, hg, h, hn⟩ := h
  have hlen := go_tasks hs
  have hless : ahead s'.tasks < ahead s.tasks := by
    cases he with
    | load t =>
      simp only [Storage.go] at hs
      split at hs
      · rename_i r hr
        subst hs
        cases step_trans hr with
        | load ht => exact ahead_less ht (by simp [Task.ahead])
      · rename_i e hr
        injection hs with hs
        subst hs
        cases (panics_more hg h _).1 ⟨e, hr⟩ with
        | fetch ht => exact ahead_less ht (by simp [Task.ahead])
    | acquire t =>
      simp only [Storage.go] at hs
      split at hs
      · rename_i r hr
        subst hs
        cases step_trans hr with
        | acquire ht => exact ahead_less ht (by simp [Task.ahead])
      · rename_i e hr
        exact nomatch (panics_more hg h _).1 ⟨e, hr⟩
    | release t =>
      simp only [Storage.go] at hs
      split at hs
      · rename_i r hr
        subst hs
        cases step_trans hr with
        | release ht => exact ahead_less ht (by simp [Task.ahead])
      · rename_i e hr
        exact nomatch (panics_more hg h _).1 ⟨e, hr⟩
    | drop t =>
      simp only [Storage.go] at hs
      split at hs
      · rename_i r hr
        subst hs
        cases step_trans hr with
        | drop ht => exact ahead_less ht (by simp [Task.ahead])
      · rename_i e hr
        exact nomatch (panics_more hg h _).1 ⟨e, hr⟩
  obtain ⟨l, hl⟩ := leaves_total hg h hs
  have hl1 : l.toList.length ≤ 1 := by cases l <;> simp
  obtain ⟨ws, w1, w2, w3⟩ := go_good hg h (by omega) hs hl
  have w2 := congrArg List.length w2
  simp only [List.length_map] at w2
  refine ⟨⟨gs ++ ws, ?_, w3, ?_⟩, hless, l, hl⟩
  · intro x hx
    rcases List.mem_append.1 hx with hx | hx
    · exact hg x hx
    · exact w1 x hx
  · rw [List.length_append]
    omega

theorem Fit.goes {es : List Event} (h : Fit s) (he : ∀ e ∈ es, Finishing e)
    (hs : Storage.goes chk fetch s es = some s') : Fit s' ∧ es.length + ahead s'.tasks ≤ ahead s.tasks := by
  induction es generalizing s with
  | nil =>
    injection hs with hs
    subst hs
    exact ⟨h, by simp⟩
  | cons e es ih =>
    unfold Storage.goes at hs
    obtain ⟨s1, h1, h2⟩ := Option.bind_eq_some_iff.1 hs
    obtain ⟨f, hf, _⟩ := h.go (he e List.mem_cons_self) h1
    obtain ⟨f', hf'⟩ := ih f (fun e h => he e (List.mem_cons_of_mem _ h)) h2
    exact ⟨f', by rw [List.length_cons]; omega⟩

/-- A task that waits in vain waits for one that has a guard of the lock. -/
theorem guard_of_waiting {tasks : List Task} {lock : Nat} {kind : Kind} (h : mayAcquire tasks lock kind = false) :
    ∃ (u : Nat) (x : Task) (w : Bool), tasks[u]? = some x ∧ x.guard = some (lock, w) := by
  have key : held tasks lock = true := by
    unfold mayAcquire at h
    split at h
    · simpa using h
    · have h : heldWrite tasks lock = true := by simpa using h
      unfold heldWrite at h
      rw [List.any_eq_true] at h
      obtain ⟨x, hx, hw⟩ := h
      unfold held
      rw [List.any_eq_true]
      refine ⟨x, hx, ?_⟩
      split at hw
      · rename_i hg
        simp only [Bool.and_eq_true] at hw
        exact hw.1
      · cases hw
  unfold held at key
  rw [List.any_eq_true] at key
  obtain ⟨x, hx, hw⟩ := key
  obtain ⟨u, hu⟩ := List.getElem?_of_mem hx
  split at hw
  · rename_i l w hg
    exact ⟨u, x, w, hu, by rw [hg, beq_iff_eq.1 hw]⟩
  · cases hw

/-- Some task can go on, if there is one that is not idle. -/
theorem go_some (h : ∃ gs, Ghosts gs ∧ Good (s.more gs)) {t : Nat} {x : Task} (ht : s.tasks[t]? = some x)
    (hx : x ≠ .idle) : ∃ e s', Finishing e ∧ go chk fetch s e = some s' := by
  have guarded : ∀ {u l : Nat} {y : Task} {w : Bool}, s.tasks[u]? = some y → y.guard = some (l, w) →
      ∃ e s', Finishing e ∧ go chk fetch s e = some s' := fun hu hy =>
    (go_guard h hu hy).elim fun e ⟨s', h1, _, h2⟩ => ⟨e, s', h1, h2⟩
  cases x with
  | idle => exact absurd rfl hx
  | loading => exact guarded ht rfl
  | holding => exact guarded ht rfl
  | leaving => exact guarded ht rfl
  | waiting i lock location kind =>
    cases hm : mayAcquire s.tasks lock kind with
    | true => exact ⟨_, _, .acquire t, by simp only [go, step, ht, hm]; rfl⟩
    | false =>
      obtain ⟨u, y, w, hu, hy⟩ := guard_of_waiting hm
      exact guarded hu hy

/-- The others can bring it about that a waiting task gets its guard. -/
theorem Fit.waiting (h : Fit s) {t i lock location : Nat} {kind : Kind}
    (ht : s.tasks[t]? = some (.waiting i lock location kind)) : ∃ es s', (∀ e ∈ es, Finishing e ∧ e.owner ≠ t) ∧
      Storage.goes chk fetch s es = some s' ∧ s'.tasks[t]? = some (.waiting i lock location kind) ∧
      ∃ s'', step chk fetch s' (.acquire t) = .ok (some s'') := by
  generalize hk : ahead s.tasks = k
  induction k using Nat.strongRecOn generalizing s with
  | _ k ih =>
    cases hm : mayAcquire s.tasks lock kind with
    | true => exact ⟨[], s, (fun e he => nomatch he), rfl, ht, _, by simp only [step, ht, hm]; rfl⟩
    | false =>
      obtain ⟨u, x, w, hu, hx⟩ := guard_of_waiting hm
      have hne : u ≠ t := by
        rintro rfl
        rw [ht] at hu
        injection hu with hu
        subst hu
        cases hx
      obtain ⟨e, s1, h1, h2, h3⟩ := go_guard (chk := chk) (fetch := fetch)
        (h.elim fun gs hg => ⟨gs, hg.1, hg.2.1⟩) hu hx
      obtain ⟨f, hless, _⟩ := h.go h1 h3
      have ht1 := (go_others h3 (u := t) (by rw [h2]; exact hne.symm)).trans ht
      obtain ⟨es, s', k1, k2, k3, k4⟩ := ih _ (by omega) f ht1 rfl
      refine ⟨e :: es, s', ?_, ?_, k3, k4⟩
      · intro e' he'
        rcases List.mem_cons.1 he' with rfl | he'
        · exact ⟨h1, by rw [h2]; exact hne⟩
        · exact k1 e' he'
      · unfold Storage.goes
        rw [h3]
        exact k2

/-- All tasks can come to the end. -/
theorem Fit.idle (h : Fit s) : ∃ es s', (∀ e ∈ es, Finishing e) ∧ Storage.goes chk fetch s es = some s' ∧
    ∀ x ∈ s'.tasks, x = .idle := by
  generalize hk : ahead s.tasks = k
  induction k using Nat.strongRecOn generalizing s with
  | _ k ih =>
    by_cases hi : ∀ x ∈ s.tasks, x = .idle
    · exact ⟨[], s, (fun e he => nomatch he), rfl, hi⟩
    · have ⟨x, hx⟩ := Classical.not_forall.1 hi
      have ⟨hx, hn⟩ := Classical.not_imp.1 hx
      obtain ⟨t, ht⟩ := List.getElem?_of_mem hx
      obtain ⟨e, s1, h1, h2⟩ := go_some (chk := chk) (fetch := fetch) (h.elim fun gs hg => ⟨gs, hg.1, hg.2.1⟩) ht hn
      obtain ⟨f, hless, _⟩ := h.go h1 h2
      obtain ⟨es, s', k1, k2, k3⟩ := ih _ (by omega) f rfl
      refine ⟨e :: es, s', ?_, ?_, k3⟩
      · intro e' he'
        rcases List.mem_cons.1 he' with rfl | he'
        · exact h1
        · exact k1 e' he'
      · unfold Storage.goes
        rw [h2]
        exact k2

/-- What a task does not do itself leaves it where it is. -/
theorem goes_others {es : List Event} {u : Nat} (h : goes chk fetch s es = some s') (hu : ∀ e ∈ es, e.owner ≠ u) :
    s'.tasks[u]? = s.tasks[u]? := by
  induction es generalizing s with
  | nil => injection h with h; rw [h]
  | cons e es ih =>
    unfold goes at h
    obtain ⟨s1, h1, h2⟩ := Option.bind_eq_some_iff.1 h
    rw [ih h2 fun e he => hu e (List.mem_cons_of_mem _ he)]
    exact go_others h1 (hu e List.mem_cons_self).symm

/-- A guard that excludes another one. -/
theorem mayAcquire_false {tasks : List Task} {u lock : Nat} {x : Task} {w : Bool} {kind : Kind}
    (hu : tasks[u]? = some x) (hx : x.guard = some (lock, w)) (hw : w = true ∨ kind.write = true) :
    mayAcquire tasks lock kind = false := by
  have hm := List.mem_of_getElem? hu
  have h1 : held tasks lock = true := by
    unfold held
    rw [List.any_eq_true]
    exact ⟨x, hm, by rw [hx]; simp⟩
  unfold mayAcquire
  split
  · rw [h1]; rfl
  · rename_i hk
    rcases hw with rfl | hw
    · have h2 : heldWrite tasks lock = true := by
        unfold heldWrite
        rw [List.any_eq_true]
        exact ⟨x, hm, by rw [hx]; simp⟩
      rw [h2]; rfl
    · exact absurd hw hk

end Verif.Storage
