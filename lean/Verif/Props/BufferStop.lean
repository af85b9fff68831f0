import Verif.Proof.BufferStop
import Verif.Props.BufferPool

/-! # Tasks that end early: C115

A task can be dropped while it waits for a buffer, loads it or holds a handle, and a panic ends a task and not the
program.  `Goes` are the executions in which this happens. -/

namespace Verif.Props

open Verif Verif.Storage Verif.Spec

/-! ## The handles of the others -/

/-- In every state of every execution in which tasks end early, the recorded number of handles is the number of tasks
that use the buffer and the number of handles left behind.

Full statement: the recorded number of handles is the number of tasks that use the buffer;
`C115_handles_refuted` shows that it is false. -/
theorem C115_handles_partial {chk : Bool} {fetch : Nat → Res Bytes} {size n tasks : Nat} {p : Pool}
    {memory : List Bytes} {left : List Nat} {s : Sys} (hp : Pool.new chk size n true = .ok (some p))
    (ht : tasks + left.length < 2 ^ 32) (hr : Goes chk fetch (Sys.start p memory tasks) left s) (i : Nat) :
    (∀ a, acc s.pool.buffers i = some (some a) → 0 < a.handles ∧ a.handles = users s.tasks i + left.count i) ∧
    (acc s.pool.buffers i = some none → users s.tasks i = 0 ∧ i ∉ left) := by
  have hg := (good_start (tasks := tasks) (memory := memory) hp (by omega)).1
  obtain ⟨h1, h2⟩ := hr.described hg (by simpa [Sys.start] using ht) i
  exact ⟨h1, fun h => h2 fun a ha => by rw [h] at ha; cases ha⟩

/-- A buffer of which a handle has been left behind is in use for ever. -/
theorem C115_never_free {chk : Bool} {fetch : Nat → Res Bytes} {size n tasks : Nat} {p : Pool}
    {memory : List Bytes} {left : List Nat} {s : Sys} (hp : Pool.new chk size n true = .ok (some p))
    (ht : tasks + left.length < 2 ^ 32) (hr : Goes chk fetch (Sys.start p memory tasks) left s) {i : Nat}
    (hi : i ∈ left) : ∃ a, acc s.pool.buffers i = some (some a) := by
  have hg := (good_start (tasks := tasks) (memory := memory) hp (by omega)).1
  apply Classical.byContradiction
  intro hc
  exact ((hr.described hg (by simpa [Sys.start] using ht) i).2 fun a ha => hc ⟨a, ha⟩).2 hi

/-- Such an execution from a list of events. -/
theorem goes_event {chk : Bool} {fetch : Nat → Res Bytes} {s s1 s' : Sys} {left : List Nat} {e : Event} {l : Option Nat}
    (h : Goes chk fetch s left s1) (hl : Leaves chk fetch s1 e l) (hs : go chk fetch s1 e = some s') :
    Goes chk fetch s (l.toList ++ left) s' := .next h hs hl

theorem goes_run {chk : Bool} {fetch : Nat → Res Bytes} {s s1 s' : Sys} {left : List Nat} {as : List Act}
    (h : Goes chk fetch s left s1) (hs : run chk fetch s1 as = .ok (some s')) : Goes chk fetch s left s' := by
  induction as generalizing s1 with
  | nil => injection hs with hs; injection hs with hs; subst hs; exact h
  | cons a as ih =>
    unfold run at hs
    split at hs
    · rename_i hr
      refine ih (Goes.next (l := none) h ?_ (.fine hr)) hs
      simp only [go, hr]
    · cases hs
    · cases hs

/-- The first task is dropped while it loads buffer 1. -/
theorem dropped (fetch : Nat → Res Bytes) (content : Bytes) : ∃ s, Goes false fetch fourTasks [1] s ∧
    s.tasks = [.idle, .idle, .idle, .idle] ∧ s.memory = [[1, 2], content] ∧
    acc s.pool.buffers 1 = some (some ⟨0, 1⟩) ∧ s.pool.find 7 = some 1 :=
  ⟨_, goes_event (l := some 1) (e := .stop 0 content)
    (goes_run (as := [.access 0 7 .readOnly]) .refl rfl) (.stop (x := .loading 1 0 7 .readOnly) rfl rfl) rfl,
    rfl, rfl, rfl, rfl⟩

example (fetch : Nat → Res Bytes) : ∃ left s, Goes false fetch fourTasks left s ∧ 1 ∈ left ∧ 4 + left.length < 2 ^ 32 :=
  (dropped fetch []).elim fun _ h => ⟨[1], _, h.1, by decide, by decide⟩

/-- The number of handles of a buffer that nobody uses is 1. -/
theorem C115_handles_refuted (fetch : Nat → Res Bytes) : ∃ left s, Goes false fetch fourTasks left s ∧
    users s.tasks 1 = 0 ∧ acc s.pool.buffers 1 = some (some ⟨0, 1⟩) := by
  obtain ⟨s, h1, h2, _, h3, _⟩ := dropped fetch []
  exact ⟨_, s, h1, by rw [h2]; rfl, h3⟩

/-! ## What the others can rely on -/

/-- A read-write handle excludes all other handles of the buffer, whatever tasks have ended before. -/
theorem C115_writers_are_exclusive {chk : Bool} {fetch : Nat → Res Bytes} {size n tasks : Nat} {p : Pool}
    {memory : List Bytes} {left : List Nat} {s : Sys} (hp : Pool.new chk size n true = .ok (some p))
    (ht : tasks + left.length < 2 ^ 32) (hr : Goes chk fetch (Sys.start p memory tasks) left s)
    {t u i l l' loc loc' : Nat} {k k' : Kind} (h1 : s.tasks[t]? = some (.holding i l loc k)) (hk : k ≠ .readOnly)
    (h2 : s.tasks[u]? = some (.holding i l' loc' k') ∨ s.tasks[u]? = some (.loading i l' loc' k')) : t = u := by
  have hg := (good_start (tasks := tasks) (memory := memory) hp (by omega)).1
  obtain ⟨_, gs, _, _, g⟩ := hr.good hg (by simpa [Sys.start] using ht)
  have hkw : k.write = true := by cases k <;> first | rfl | exact absurd rfl hk
  have h1 : (s.more gs).tasks[t]? = some (.holding i l loc k) := more_get h1
  obtain ⟨a, ha, e1⟩ := g.inv.record (List.mem_of_getElem? h1) (i := i) rfl
  have e1 : l = a.lock := e1
  apply Classical.byContradiction
  intro hne
  rcases h2 with h2 | h2
  all_goals
    replace h2 := more_get (gs := gs) h2
    obtain ⟨b, hb, e2⟩ := g.inv.record (List.mem_of_getElem? h2) (i := i) rfl
    have e2 : l' = b.lock := e2
    rw [ha] at hb
    injection hb with hb
    injection hb with hb
    subst hb
    have := g.inv.guards t u _ _ l k.write _ hne h1 h2 rfl (by rw [e1, ← e2]; rfl)
    rw [hkw] at this
    exact absurd this.1 (by simp)

/-- A step panics exactly in the situations of C76, whatever tasks have ended before. -/
theorem C115_panics_exactly {chk : Bool} {fetch : Nat → Res Bytes} {size n tasks : Nat} {p : Pool}
    {memory : List Bytes} {left : List Nat} {s : Sys} (hp : Pool.new chk size n true = .ok (some p))
    (ht : tasks + left.length < 2 ^ 32) (hr : Goes chk fetch (Sys.start p memory tasks) left s) (a : Act) :
    (∃ e, step chk fetch s a = .error e) ↔ Panics fetch s a := by
  have hg := (good_start (tasks := tasks) (memory := memory) hp (by omega)).1
  obtain ⟨_, gs, h1, _, h2⟩ := hr.good hg (by simpa [Sys.start] using ht)
  exact panics_more h1 h2 a

/-- The executions are all there is: every possible event leaves the handle of one buffer behind or none. -/
theorem C115_every_event {chk : Bool} {fetch : Nat → Res Bytes} {size n tasks : Nat} {p : Pool}
    {memory : List Bytes} {left : List Nat} {s s' : Sys} (hp : Pool.new chk size n true = .ok (some p))
    (ht : tasks + left.length < 2 ^ 32) (hr : Goes chk fetch (Sys.start p memory tasks) left s) {e : Event}
    (hs : go chk fetch s e = some s') :
    ∃ l : Option Nat, Goes chk fetch (Sys.start p memory tasks) (l.toList ++ left) s' := by
  have hg := (good_start (tasks := tasks) (memory := memory) hp (by omega)).1
  obtain ⟨_, gs, h1, _, h2⟩ := hr.good hg (by simpa [Sys.start] using ht)
  obtain ⟨l, hl⟩ := leaves_total h1 h2 hs
  exact ⟨l, .next hr hs hl⟩

/-- A location keeps its buffer, whatever tasks end between two accesses. -/
theorem C115_location_keeps_its_buffer {chk : Bool} {fetch : Nat → Res Bytes} {s s1 s2 s3 : Sys} {t u location : Nat}
    {k k' : Kind} {left : List Nat} (h1 : step chk fetch s (.access t location k) = .ok (some s1))
    (hr : Goes chk fetch s1 left s2) (h3 : step chk fetch s2 (.access u location k') = .ok (some s3)) :
    ∃ x y i, s1.tasks[t]? = some x ∧ s3.tasks[u]? = some y ∧ x.buffer = some i ∧ y.buffer = some i := by
  obtain ⟨x, i, hx, hxi, hf, _⟩ := access_find h1
  obtain ⟨y, j, hy, hyj, _, hj⟩ := access_find h3
  have := hj i (hr.find hf)
  subst this
  exact ⟨x, y, i, hx, hy, hxi, hyj⟩

/-- While a task holds a handle, nothing but its own writes changes what is in the buffer: not the loads and writes of
others, and no panic or drop. -/
theorem C115_contents_stay {chk : Bool} {fetch : Nat → Res Bytes} {size n tasks : Nat} {p : Pool}
    {memory : List Bytes} {left : List Nat} {s s' : Sys} (hp : Pool.new chk size n true = .ok (some p))
    (ht : tasks + left.length < 2 ^ 32) (hr : Goes chk fetch (Sys.start p memory tasks) left s)
    {u i lock location : Nat} {kind : Kind} (hu : s.tasks[u]? = some (.holding i lock location kind)) {e : Event}
    (he : ∀ content, e ≠ .act (.write u content)) (hs : go chk fetch s e = some s') :
    s'.memory[i]? = s.memory[i]? := by
  have hg := (good_start (tasks := tasks) (memory := memory) hp (by omega)).1
  obtain ⟨_, gs, _, _, h⟩ := hr.good hg (by simpa [Sys.start] using ht)
  exact go_contents h hs hu he

/-- Two tasks read buffer 1; a third, which loads buffer 0, is dropped, and so is one of the readers. -/
example (fetch : Nat → Res Bytes) : ∃ s s', Goes false fetch fourTasks [0] s ∧
    s.tasks = [.idle, .holding 1 0 7 .readOnly, .idle, .holding 1 0 7 .readOnly] ∧ s.memory = [[9], [0, 0]] ∧
    go false fetch s (.stop 1 []) = some s' ∧ s'.memory = [[9], [0, 0]] :=
  ⟨_, _, goes_event (l := some 0) (e := .stop 2 [9])
    (goes_run (as := [.access 0 7 .initialize, .access 1 7 .readOnly, .access 3 7 .readOnly, .load 0, .release 0, .drop 0,
      .acquire 1, .acquire 3, .access 2 8 .readOnly]) .refl rfl)
    (.stop (x := .loading 0 1 8 .readOnly) rfl rfl) rfl, rfl, rfl, rfl, rfl⟩

/-- A task that holds a read-write handle dies, and another one asks for the same location; the lock is free. -/
example (fetch : Nat → Res Bytes) : ∃ s1 s2 s3, step false fetch fourTasks (.access 0 7 .initialize) = .ok (some s1) ∧
    Goes false fetch s1 [1] s2 ∧ step false fetch s2 (.access 1 7 .readWrite) = .ok (some s3) ∧
    ∃ s4, step false fetch s3 (.acquire 1) = .ok (some s4) ∧ s4.tasks[1]? = some (.holding 1 0 7 .readWrite) :=
  ⟨_, _, _, rfl, goes_event (l := some 1) (e := .stop 0 []) (goes_run (as := [.load 0]) .refl rfl)
    (.stop (x := .holding 1 0 7 .initialize) rfl rfl) rfl, rfl, _, rfl, rfl⟩

/-! ## What they cannot rely on -/

/-- A buffer of which a handle has been left behind, and that nobody is loading, is never loaded again: every later
access is given what is in it. -/
theorem C115_never_loaded_refuted {chk : Bool} {fetch : Nat → Res Bytes} {size n tasks : Nat} {p : Pool}
    {memory : List Bytes} {left left' : List Nat} {s s' : Sys} (hp : Pool.new chk size n true = .ok (some p))
    (ht : tasks + left.length + left'.length < 2 ^ 32) (hr : Goes chk fetch (Sys.start p memory tasks) left s)
    {i : Nat} (hi : i ∈ left) (hl : ∀ lock location kind, .loading i lock location kind ∉ s.tasks)
    (hr' : Goes chk fetch s left' s') (lock location : Nat) (kind : Kind) :
    .loading i lock location kind ∉ s'.tasks :=
  hr.loading (good_start (tasks := tasks) (memory := memory) hp (by omega)).1 hr' (by simpa [Sys.start] using ht) hi hl
    lock location kind

/-- The first task is dropped while it loads; the second gets a handle of a buffer that was never loaded, although
`fetch` would have returned something else. -/
theorem C115_stale_refuted (fetch : Nat → Res Bytes) (content : Bytes) : ∃ s s', Goes false fetch fourTasks [1] s ∧
    (∀ lock location kind, .loading 1 lock location kind ∉ s.tasks) ∧
    run false fetch s [.access 1 7 .readOnly, .acquire 1] = .ok (some s') ∧
    s'.tasks[1]? = some (.holding 1 0 7 .readOnly) ∧ s'.memory[1]? = some content :=
  ⟨_, _, goes_event (l := some 1) (e := .stop 0 content)
    (goes_run (as := [.access 0 7 .readOnly]) .refl rfl) (.stop (x := .loading 1 0 7 .readOnly) rfl rfl) rfl,
    by intro _ _ _ h; simp [fourTasks, Sys.start] at h, rfl, rfl, rfl⟩

/-- If handles of all buffers have been left behind, every access to a location that is not mapped panics, for ever. -/
theorem C115_used_up_refuted {chk : Bool} {fetch : Nat → Res Bytes} {size n tasks : Nat} {p : Pool}
    {memory : List Bytes} {left : List Nat} {s : Sys} (hp : Pool.new chk size n true = .ok (some p))
    (ht : tasks + left.length < 2 ^ 32) (hr : Goes chk fetch (Sys.start p memory tasks) left s)
    (ha : ∀ i, i < n → i ∈ left) {t location : Nat} (hi : s.tasks[t]? = some .idle)
    (hf : s.pool.find location = none) (kind : Kind) : ∃ e, step chk fetch s (.access t location kind) = .error e := by
  obtain ⟨hg, _, hlen, hn, hnil, hmap⟩ := good_start (tasks := tasks) (memory := memory) hp (by omega)
  have ht' : (Sys.start p memory tasks).tasks.length + left.length < 2 ^ 32 := by simpa [Sys.start] using ht
  have htail := hr.tail hg ht' (by
    have hm : (Sys.start p memory tasks).pool.mapped = [] := hmap
    have hl : (Sys.start p memory tasks).pool.buffers.length = n := hlen
    have f := (freshInv_start (tasks := tasks) (memory := memory) hp (by omega)).fresh (by rw [hm]; exact Nat.zero_le _)
    have := f.tail (by rw [hm, hl]; simpa using hn)
    rw [hm, hl] at this
    simp only [List.length_nil] at this
    omega)
  obtain ⟨_, gs, _, _, g⟩ := hr.good hg ht'
  have hlt : s.pool.available.tail < s.pool.buffers.length := g.shape.available.tail.resolve_left htail
  rw [hr.length] at hlt
  have hlt : s.pool.available.tail < n := by rw [← hlen]; exact hlt
  obtain ⟨a, hacc⟩ := C115_never_free hp ht hr (ha _ hlt)
  exact (C115_panics_exactly hp ht hr _).2 (.exhausted hi hf htail hacc)

/-- Both buffers are lost. -/
example (fetch : Nat → Res Bytes) : ∃ s, Goes false fetch fourTasks [0, 1] s ∧ (∀ i, i < 2 → i ∈ [0, 1]) ∧
    s.tasks[0]? = some .idle ∧ s.pool.find 9 = none :=
  ⟨_, goes_event (l := some 0) (e := .stop 1 []) (goes_event (l := some 1) (e := .stop 0 [])
    (goes_run (as := [.access 0 7 .readOnly, .access 1 8 .readOnly]) .refl rfl)
    (.stop (x := .loading 1 0 7 .readOnly) rfl rfl) rfl) (.stop (x := .loading 0 1 8 .readOnly) rfl rfl) rfl,
    by decide, rfl, rfl⟩

/-- A panic because the pool is exhausted has mapped the location already.  So the second attempt succeeds and is given
the buffer of another location, with what that location contains. -/
theorem C115_second_attempt_refuted (fetch : Nat → Res Bytes) : ∃ s s', Goes false fetch fourTasks [] s ∧
    s.tasks[0]? = some (.holding 1 0 7 .initialize) ∧ s.memory[1]? = some [0, 0] ∧
    run false fetch s [.write 0 [5, 6], .access 3 9 .readOnly, .release 0, .drop 0, .acquire 3] = .ok (some s') ∧
    s'.tasks[3]? = some (.holding 1 0 9 .readOnly) ∧ s'.memory[1]? = some [5, 6] :=
  ⟨_, _, goes_event (l := none) (e := .act (.access 2 9 .readOnly))
    (goes_run (as := [.access 0 7 .initialize, .load 0, .access 1 8 .initialize]) .refl rfl)
    (.exhausted (a := ⟨0, 1⟩) rfl rfl rfl) rfl, rfl, rfl, rfl, rfl, rfl⟩

end Verif.Props
