import Verif.Proof.BufferProgress
import Verif.Props.BufferStop

/-! # Waiting for a buffer ends: C119

The states are those of executions in which tasks may have been dropped or have panicked.  What is used of the others is
that each goes on with what it is doing: it gets its guard when it may, provides the content, and returns its handle. -/

namespace Verif.Props

open Verif Verif.Storage Verif.Spec

private theorem fit {chk : Bool} {fetch : Nat → Res Bytes} {size n tasks : Nat} {p : Pool}
    {memory : List Bytes} {left : List Nat} {s : Sys} (hp : Pool.new chk size n true = .ok (some p))
    (ht : 4 * tasks + left.length < 2 ^ 32) (hr : Goes chk fetch (Sys.start p memory tasks) left s) :
    Fit s ∧ s.tasks.length = tasks := by
  have hg := (good_start (tasks := tasks) (memory := memory) hp (by omega)).1
  have hl : (Sys.start p memory tasks).tasks.length = tasks := by simp [Sys.start]
  obtain ⟨h1, gs, h2, h3, h4⟩ := hr.good hg (by rw [hl]; omega)
  have h3 := congrArg List.length h3
  simp only [List.length_reverse, List.length_map] at h3
  have := ahead_le s.tasks
  rw [hl] at h1
  exact ⟨⟨gs, h2, h4, by omega⟩, h1⟩

/-- There is no deadlock: as long as a task is not idle, some task can go on with what it is doing. -/
theorem C119_no_deadlock {chk : Bool} {fetch : Nat → Res Bytes} {size n tasks : Nat} {p : Pool}
    {memory : List Bytes} {left : List Nat} {s : Sys} (hp : Pool.new chk size n true = .ok (some p))
    (ht : tasks + left.length < 2 ^ 32) (hr : Goes chk fetch (Sys.start p memory tasks) left s) {t : Nat} {x : Task}
    (hx : s.tasks[t]? = some x) (hi : x ≠ .idle) : ∃ e s', Finishing e ∧ go chk fetch s e = some s' := by
  have hg := (good_start (tasks := tasks) (memory := memory) hp (by omega)).1
  obtain ⟨_, gs, h1, _, h2⟩ := hr.good hg (by simpa [Sys.start] using ht)
  exact go_some ⟨gs, h1, h2⟩ hx hi

/-- A task that waits can be let in by the others: they return their handles, and it gets its guard without having done
anything. -/
theorem C119_waiting_ends {chk : Bool} {fetch : Nat → Res Bytes} {size n tasks : Nat} {p : Pool}
    {memory : List Bytes} {left : List Nat} {s : Sys} (hp : Pool.new chk size n true = .ok (some p))
    (ht : 4 * tasks + left.length < 2 ^ 32) (hr : Goes chk fetch (Sys.start p memory tasks) left s)
    {t i lock location : Nat} {kind : Kind} (hw : s.tasks[t]? = some (.waiting i lock location kind)) :
    ∃ es s', (∀ e ∈ es, Finishing e ∧ e.owner ≠ t) ∧ goes chk fetch s es = some s' ∧
      s'.tasks[t]? = some (.waiting i lock location kind) ∧ ∃ s'', step chk fetch s' (.acquire t) = .ok (some s'') :=
  (fit hp ht hr).1.waiting hw

/-- In whatever order the tasks go on, they come to the end: there are at most three events for each of them. -/
theorem C119_at_most_three_each {chk : Bool} {fetch : Nat → Res Bytes} {size n tasks : Nat} {p : Pool}
    {memory : List Bytes} {left : List Nat} {s s' : Sys} (hp : Pool.new chk size n true = .ok (some p))
    (ht : 4 * tasks + left.length < 2 ^ 32) (hr : Goes chk fetch (Sys.start p memory tasks) left s) {es : List Event}
    (he : ∀ e ∈ es, Finishing e) (hs : goes chk fetch s es = some s') : es.length ≤ 3 * tasks := by
  obtain ⟨f, hl⟩ := fit hp ht hr
  have := (f.goes he hs).2
  have := ahead_le s.tasks
  rw [hl] at this
  omega

/-- If nobody can go on any more, all tasks are idle. -/
theorem C119_ends_idle {chk : Bool} {fetch : Nat → Res Bytes} {size n tasks : Nat} {p : Pool}
    {memory : List Bytes} {left : List Nat} {s s' : Sys} (hp : Pool.new chk size n true = .ok (some p))
    (ht : 4 * tasks + left.length < 2 ^ 32) (hr : Goes chk fetch (Sys.start p memory tasks) left s) {es : List Event}
    (he : ∀ e ∈ es, Finishing e) (hs : goes chk fetch s es = some s')
    (hn : ∀ e, Finishing e → go chk fetch s' e = none) : ∀ x ∈ s'.tasks, x = .idle := by
  intro x hx
  obtain ⟨gs, h1, h2, _⟩ := ((fit hp ht hr).1.goes he hs).1
  obtain ⟨t, ht⟩ := List.getElem?_of_mem hx
  apply Classical.byContradiction
  intro hi
  obtain ⟨e, s'', h3, h4⟩ := go_some (chk := chk) (fetch := fetch) ⟨gs, h1, h2⟩ ht hi
  rw [hn e h3] at h4
  cases h4

/-- All tasks can come to the end. -/
theorem C119_all_can_end {chk : Bool} {fetch : Nat → Res Bytes} {size n tasks : Nat} {p : Pool}
    {memory : List Bytes} {left : List Nat} {s : Sys} (hp : Pool.new chk size n true = .ok (some p))
    (ht : 4 * tasks + left.length < 2 ^ 32) (hr : Goes chk fetch (Sys.start p memory tasks) left s) :
    ∃ es s', (∀ e ∈ es, Finishing e) ∧ goes chk fetch s es = some s' ∧ ∀ x ∈ s'.tasks, x = .idle :=
  (fit hp ht hr).1.idle

/-- As long as the owner of a handle does nothing, nobody gets a handle of the buffer that excludes it, whatever the
others do.  So who holds a read-write handle of a location and asks for the location once more, before returning it,
waits for ever. -/
theorem C119_waits_for_the_owner {chk : Bool} {fetch : Nat → Res Bytes} {size n tasks : Nat} {p : Pool}
    {memory : List Bytes} {left : List Nat} {s s' : Sys} (hp : Pool.new chk size n true = .ok (some p))
    (ht : tasks + left.length < 2 ^ 32) (hr : Goes chk fetch (Sys.start p memory tasks) left s)
    {t u i l l' loc loc' : Nat} {k k' : Kind} (hu : s.tasks[u]? = some (.holding i l loc k))
    (hw : s.tasks[t]? = some (.waiting i l' loc' k')) (hk : k ≠ .readOnly ∨ k' ≠ .readOnly) {es : List Event}
    (he : ∀ e ∈ es, e.owner ≠ u ∧ e.owner ≠ t) (hs : goes chk fetch s es = some s') :
    s'.tasks[t]? = some (.waiting i l' loc' k') ∧ step chk fetch s' (.acquire t) = .ok none := by
  have hg := (good_start (tasks := tasks) (memory := memory) hp (by omega)).1
  obtain ⟨_, gs, _, _, g⟩ := hr.good hg (by simpa [Sys.start] using ht)
  obtain ⟨a, ha, e1⟩ := g.inv.record (List.mem_of_getElem? (more_get (gs := gs) hu)) (i := i) rfl
  obtain ⟨b, hb, e2⟩ := g.inv.record (List.mem_of_getElem? (more_get (gs := gs) hw)) (i := i) rfl
  rw [ha] at hb
  injection hb with hb
  injection hb with hb
  subst hb
  have e : l = l' := e1.trans e2.symm
  subst e
  have hu' := (goes_others hs fun e h => (he e h).1).trans hu
  have hw' := (goes_others hs fun e h => (he e h).2).trans hw
  have kw : ∀ {k : Kind}, k ≠ .readOnly → k.write = true := by
    intro k hk
    cases k <;> first | rfl | exact absurd rfl hk
  have hm := mayAcquire_false (kind := k') hu' rfl (hk.imp kw kw)
  exact ⟨hw', by simp only [step, hw', hm]; rfl⟩

/-- One task loads buffer 1 and two wait for it, one of them to write; a fourth has been dropped, with buffer 0. -/
theorem crowd (fetch : Nat → Res Bytes) : ∃ s, Goes false fetch fourTasks [0] s ∧
    s.tasks = [.loading 1 0 7 .readOnly, .waiting 1 0 7 .readWrite, .waiting 1 0 7 .readOnly, .idle] :=
  ⟨_, goes_event (l := some 0) (e := .stop 3 [])
    (goes_run (as := [.access 0 7 .readOnly, .access 1 7 .readWrite, .access 2 7 .readOnly, .access 3 8 .readOnly]) .refl
      rfl)
    (.stop (x := .loading 0 1 8 .readOnly) rfl rfl) rfl, rfl⟩

/-- The hypotheses are met, whether `fetch` works or not. -/
example (fetch : Nat → Res Bytes) : ∃ s, Goes false fetch fourTasks [0] s ∧ 4 * 4 + [0].length < 2 ^ 32 ∧
    s.tasks[1]? = some (.waiting 1 0 7 .readWrite) :=
  (crowd fetch).elim fun s h => ⟨s, h.1, by decide, by rw [h.2]; rfl⟩

/-- Nine events bring all to the end if `fetch` works. -/
example : ∃ s s', Goes false (fun _ => .ok [1, 1]) fourTasks [0] s ∧
    goes false (fun _ => .ok [1, 1]) s ([.load 0, .release 0, .drop 0, .acquire 1, .release 1, .drop 1, .acquire 2,
      .release 2, .drop 2].map .act) = some s' ∧ s'.tasks = [.idle, .idle, .idle, .idle] :=
  ⟨_, _, goes_event (l := some 0) (e := .stop 3 [])
    (goes_run (as := [.access 0 7 .readOnly, .access 1 7 .readWrite, .access 2 7 .readOnly, .access 3 8 .readOnly]) .refl
      rfl)
    (.stop (x := .loading 0 1 8 .readOnly) rfl rfl) rfl, rfl, rfl⟩

/-- And seven if it panics. -/
example : ∃ s s', Goes false (fun _ => .error .panic) fourTasks [0] s ∧
    goes false (fun _ => .error .panic) s ([.load 0, .acquire 1, .release 1, .drop 1, .acquire 2,
      .release 2, .drop 2].map .act) = some s' ∧ s'.tasks = [.idle, .idle, .idle, .idle] :=
  ⟨_, _, goes_event (l := some 0) (e := .stop 3 [])
    (goes_run (as := [.access 0 7 .readOnly, .access 1 7 .readWrite, .access 2 7 .readOnly, .access 3 8 .readOnly]) .refl
      rfl)
    (.stop (x := .loading 0 1 8 .readOnly) rfl rfl) rfl, rfl, rfl⟩

/-- Somebody holds a read-write handle of location 7 as task 0 and asks for a second one as task 1; in the meantime
others use the pool. -/
example (fetch : Nat → Res Bytes) : ∃ s s', Goes false fetch fourTasks [] s ∧
    s.tasks[0]? = some (.holding 1 0 7 .initialize) ∧ s.tasks[1]? = some (.waiting 1 0 7 .readOnly) ∧
    goes false fetch s [.act (.access 2 8 .initialize), .act (.load 2), .act (.release 2)] = some s' ∧
    step false fetch s' (.acquire 1) = .ok none :=
  ⟨_, _, goes_run (as := [.access 0 7 .initialize, .load 0, .access 1 7 .readOnly]) .refl rfl, rfl, rfl, rfl, rfl⟩

end Verif.Props
