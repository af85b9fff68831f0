import Verif.Spec.BufferStop
import Verif.Proof.BufferFresh

/-!
# Tasks that end early

A task that ends early is the same to the pool as one that waits for ever.  So the states of an execution with such
tasks are those of an execution without, with more tasks: the ghosts.
-/

namespace Verif.Storage

open Verif Verif.Spec

/-- Tasks that wait. -/
def Ghosts (gs : List Task) : Prop := ∀ x ∈ gs, ∃ i lock location kind, x = .waiting i lock location kind

/-- The system with more tasks. -/
def Sys.more (s : Sys) (gs : List Task) : Sys := { s with tasks := s.tasks ++ gs }

theorem ghost_guard {gs : List Task} (h : Ghosts gs) {x : Task} (hx : x ∈ gs) : x.guard = none := by
  obtain ⟨_, _, _, _, rfl⟩ := h x hx
  rfl

theorem held_ghosts {gs : List Task} (h : Ghosts gs) (tasks : List Task) : held (tasks ++ gs) = held tasks := by
  funext l
  have h1 : held (tasks ++ gs) l = (held tasks l || held gs l) := List.any_append
  have h2 : held gs l = false := by
    unfold held
    rw [List.any_eq_false]
    intro x hx
    rw [ghost_guard h hx]
    simp
  rw [h1, h2, Bool.or_false]

theorem heldWrite_ghosts {gs : List Task} (h : Ghosts gs) (tasks : List Task) :
    heldWrite (tasks ++ gs) = heldWrite tasks := by
  funext l
  have h1 : heldWrite (tasks ++ gs) l = (heldWrite tasks l || heldWrite gs l) := List.any_append
  have h2 : heldWrite gs l = false := by
    unfold heldWrite
    rw [List.any_eq_false]
    intro x hx
    rw [ghost_guard h hx]
    simp
  rw [h1, h2, Bool.or_false]

theorem more_get {tasks gs : List Task} {t : Nat} {x : Task} (h : tasks[t]? = some x) : (tasks ++ gs)[t]? = some x := by
  rw [List.getElem?_append_left (List.getElem?_eq_some_iff.1 h).1]
  exact h

theorem more_set {tasks gs : List Task} {t : Nat} {x : Task} (h : tasks[t]? = some x) (y : Task) :
    (tasks ++ gs).set t y = tasks.set t y ++ gs := by
  rw [List.set_append_left _ _ (List.getElem?_eq_some_iff.1 h).1]

/-- The task that acts. -/
def Act.task : Act → Nat
  | .access t _ _ => t
  | .acquire t => t
  | .load t => t
  | .write t _ => t
  | .release t => t
  | .drop t => t

/-- The result of a step, with more tasks. -/
def moreRes (gs : List Task) : Res (Option Sys) → Res (Option Sys)
  | .ok (some s) => .ok (some (s.more gs))
  | .ok none => .ok none
  | .error e => .error e

/-- Ghosts make no difference to the steps of the other tasks. -/
theorem step_more {chk : Bool} {fetch : Nat → Res Bytes} {s : Sys} {a : Act} {gs : List Task} {x : Task} (h : Ghosts gs)
    (hx : s.tasks[a.task]? = some x) : step chk fetch (s.more gs) a = moreRes gs (step chk fetch s a) := by
  cases a with
  | access t location kind =>
    replace hx : s.tasks[t]? = some x := hx
    simp only [step, Sys.more, more_get hx, hx, held_ghosts h, more_set hx]
    cases x <;> try rfl
    simp only
    cases s.pool.access chk (held s.tasks) location with
    | error e => rfl
    | ok r => cases r <;> rfl
  | acquire t =>
    replace hx : s.tasks[t]? = some x := hx
    simp only [step, Sys.more, more_get hx, hx, mayAcquire, held_ghosts h, heldWrite_ghosts h, more_set hx]
    cases x <;> try rfl
    simp only
    repeat' split
    all_goals rfl
  | load t =>
    replace hx : s.tasks[t]? = some x := hx
    simp only [step, Sys.more, more_get hx, hx, more_set hx]
    cases x <;> try rfl
    next i lock location kind =>
      simp only
      cases provide fetch kind location ((s.memory[i]?).getD []).length <;> rfl
  | write t content =>
    replace hx : s.tasks[t]? = some x := hx
    simp only [step, Sys.more, more_get hx, hx]
    cases x <;> try rfl
    simp only
    split <;> rfl
  | release t =>
    replace hx : s.tasks[t]? = some x := hx
    simp only [step, Sys.more, more_get hx, hx, more_set hx]
    cases x <;> try rfl
    next i lock location kind =>
      simp only
      cases s.pool.release i kind.write <;> rfl
  | drop t =>
    replace hx : s.tasks[t]? = some x := hx
    simp only [step, Sys.more, more_get hx, hx, more_set hx]
    cases x <;> rfl

/-- Without a task there is no step. -/
theorem step_missing {chk : Bool} {fetch : Nat → Res Bytes} {s : Sys} {a : Act} (hx : s.tasks[a.task]? = none) :
    step chk fetch s a = .ok none := by
  cases a with
  | access t location kind =>
    replace hx : s.tasks[t]? = none := hx
    simp only [step, hx]; rfl
  | acquire t =>
    replace hx : s.tasks[t]? = none := hx
    simp only [step, hx]; rfl
  | load t =>
    replace hx : s.tasks[t]? = none := hx
    simp only [step, hx]; rfl
  | write t content =>
    replace hx : s.tasks[t]? = none := hx
    simp only [step, hx]; rfl
  | release t =>
    replace hx : s.tasks[t]? = none := hx
    simp only [step, hx]; rfl
  | drop t =>
    replace hx : s.tasks[t]? = none := hx
    simp only [step, hx]; rfl

/-! ## Changes that keep the invariant -/

/-- What the invariant, except for the guards, depends on. -/
def Task.key (x : Task) : Option Nat × Nat := (x.buffer, x.bufferLock)

theorem users_keys {as bs : List Task} (h : as.map Task.key = bs.map Task.key) (i : Nat) : users as i = users bs i := by
  have e : ∀ l : List Task, users l i = (l.map Task.key).countP fun k => k.1 == some i := by
    intro l
    rw [List.countP_map]
    rfl
  rw [e, e, h]

theorem described_keys {as bs : List Task} (h : as.map Task.key = bs.map Task.key) {i : Nat}
    {o : Option (Option Access)} (hd : Described as i o) : Described bs i o := by
  have hu := users_keys h i
  match o, hd with
  | none, hd => exact hu.symm.trans hd
  | some none, hd => exact hu.symm.trans hd
  | some (some a), ⟨h1, h2, h3⟩ =>
    refine ⟨h1, hu ▸ h2, fun t ht hb => ?_⟩
    have : t.key ∈ as.map Task.key := by rw [h]; exact List.mem_map.2 ⟨t, ht, rfl⟩
    obtain ⟨t', ht', e⟩ := List.mem_map.1 this
    have e1 : t'.buffer = t.buffer := congrArg Prod.fst e
    have e2 : t'.bufferLock = t.bufferLock := congrArg Prod.snd e
    rw [← e2]
    exact h3 t' ht' (e1.trans hb)

/-- Guards exclude each other. -/
def Exclusive (tasks : List Task) : Prop := ∀ (m n : Nat) (x y : Task) (l : Nat) (w w' : Bool), m ≠ n →
  tasks[m]? = some x → tasks[n]? = some y → x.guard = some (l, w) → y.guard = some (l, w') → w = false ∧ w' = false

/-- Other tasks with the same buffers. -/
theorem Good.retask {s : Sys} (h : Good s) {memory : List Bytes} {tasks : List Task}
    (hk : tasks.map Task.key = s.tasks.map Task.key) (hx : Exclusive tasks)
    (hl : ∀ l w, .leaving l w ∈ tasks → l < s.pool.nextLock) : Good ⟨s.pool, memory, tasks⟩ := by
  refine ⟨⟨fun i => described_keys hk.symm (h.inv.described i), h.inv.locks, h.inv.known, h.inv.used, h.inv.own, hx⟩,
    h.shape, hl, ?_⟩
  have := congrArg List.length hk
  simp only [List.length_map] at this
  show tasks.length < _
  rw [this]
  exact h.few

/-- One more idle task. -/
theorem Good.idle {s : Sys} (h : Good s) (hn : s.tasks.length + 1 < 2 ^ 32) : Good (s.more [.idle]) := by
  have hm : ∀ x ∈ s.tasks ++ [Task.idle], x ∈ s.tasks ∨ x = .idle := fun x hx => by
    simpa using hx
  refine ⟨⟨fun i => ?_, h.inv.locks, h.inv.known, h.inv.used, h.inv.own, ?_⟩, h.shape, fun l w hw => ?_, ?_⟩
  · have hd := h.inv.described i
    have hu : users (s.tasks ++ [.idle]) i = users s.tasks i := by
      unfold users
      rw [List.countP_append]
      rfl
    simp only [Sys.more]
    match acc s.pool.buffers i, hd with
    | none, hd => exact hu.trans hd
    | some none, hd => exact hu.trans hd
    | some (some a), ⟨h1, h2, h3⟩ =>
      refine ⟨h1, hu ▸ h2, fun t ht hb => ?_⟩
      rcases hm t ht with ht | rfl
      · exact h3 t ht hb
      · cases hb
  · intro m n x y l w w' hmn hmx hny hx hy
    have hget : ∀ (m : Nat) (x : Task) (g : Nat × Bool), (s.tasks ++ [Task.idle])[m]? = some x → x.guard = some g →
        s.tasks[m]? = some x := by
      intro m x g hmx hx
      rw [List.getElem?_append] at hmx
      split at hmx
      · exact hmx
      · have := List.mem_of_getElem? hmx
        simp only [List.mem_singleton] at this
        subst this
        cases hx
    exact h.inv.guards m n x y l w w' hmn (hget m x _ hmx hx) (hget n y _ hny hy) hx hy
  · rcases hm _ hw with hw | hw
    · exact h.leaving l w hw
    · cases hw
  · simpa [Sys.more] using hn

/-- A task that waits for ever in the place of one that ends. -/
theorem Good.stop {s : Sys} (h : Good s) (hn : s.tasks.length + 1 < 2 ^ 32) {t i : Nat} {x : Task}
    (ht : s.tasks[t]? = some x) (hb : x.buffer = some i) (memory : List Bytes) (location : Nat) (kind : Kind) :
    Good ⟨s.pool, memory, s.tasks.set t .idle ++ [.waiting i x.bufferLock location kind]⟩ := by
  have hm : ∀ y ∈ s.tasks.set t .idle ++ [Task.waiting i x.bufferLock location kind],
      y ∈ s.tasks ∨ y = .idle ∨ y = .waiting i x.bufferLock location kind := fun y hy => by
    rcases List.mem_append.1 hy with hy | hy
    · rcases mem_of_set hy with hy | hy
      · exact .inl hy
      · exact .inr (.inl hy)
    · exact .inr (.inr (by simpa using hy))
  refine ⟨⟨fun j => ?_, h.inv.locks, h.inv.known, h.inv.used, h.inv.own, ?_⟩, h.shape, fun l w hw => ?_, ?_⟩
  · have hd := h.inv.described j
    have hu : users (s.tasks.set t .idle ++ [.waiting i x.bufferLock location kind]) j = users s.tasks j := by
      have h1 := users_set ht .idle j
      rw [hb, if_neg (show Task.idle.buffer ≠ some j from nofun)] at h1
      have h2 : users (s.tasks.set t .idle ++ [.waiting i x.bufferLock location kind]) j =
          users (s.tasks.set t .idle) j + users [.waiting i x.bufferLock location kind] j := List.countP_append
      have h3 : users [.waiting i x.bufferLock location kind] j = if some i = some j then 1 else 0 := by
        simp [users, Task.buffer, List.countP_cons]
      omega
    simp only
    match ha : acc s.pool.buffers j, hd with
    | none, hd => exact hu.trans hd
    | some none, hd => exact hu.trans hd
    | some (some a), ⟨h1, h2, h3⟩ =>
      refine ⟨h1, hu ▸ h2, fun y hy hyb => ?_⟩
      rcases hm y hy with hy | rfl | rfl
      · exact h3 y hy hyb
      · cases hyb
      · cases hyb
        exact h3 x (List.mem_of_getElem? ht) hb
  · intro m n u v l w w' hmn hmu hnv hu hv
    have hget : ∀ (m : Nat) (u : Task) (g : Nat × Bool),
        (s.tasks.set t .idle ++ [Task.waiting i x.bufferLock location kind])[m]? = some u → u.guard = some g →
        s.tasks[m]? = some u := by
      intro m u g hmu hu
      rw [List.getElem?_append] at hmu
      split at hmu
      · rcases getElem?_set_cases ht hmu with ⟨_, rfl⟩ | ⟨_, hmu⟩
        · cases hu
        · exact hmu
      · have := List.mem_of_getElem? hmu
        simp only [List.mem_singleton] at this
        subst this
        cases hu
    exact h.inv.guards m n u v l w w' hmn (hget m u _ hmu hu) (hget n v _ hnv hv) hu hv
  · rcases hm _ hw with hw | hw | hw
    · exact h.leaving l w hw
    · cases hw
    · cases hw
  · simpa using hn

/-! ## Panics in `buffer_access` -/

theorem open_held {p : Pool} {held held' : Nat → Bool} (h : held p.allocLock.1 = held' p.allocLock.1) (i : Nat) :
    p.open held i = p.open held' i := by
  unfold Pool.open
  simp only [h]

theorem access_held {chk : Bool} {p : Pool} {held held' : Nat → Bool} (h : held p.allocLock.1 = held' p.allocLock.1)
    (location : Nat) : p.access chk held location = p.access chk held' location := by
  unfold Pool.access
  cases p.find location with
  | none =>
    simp only [Pool.accessNew]
    split
    · congr 1
      funext r
      obtain ⟨l, bs⟩ := r
      simp only
      congr 1
      funext r
      obtain ⟨l, bs⟩ := r
      simp only
      rw [open_held (held := held) (held' := held') (by
        rcases allocLock_cases p with ⟨l1, ls, h1, h2⟩ | ⟨h1, h2⟩ <;> rw [h2] at h <;> simp only at h <;>
          simp only [Pool.allocLock, h1] <;> exact h)]
    · rfl
  | some i =>
    simp only [Pool.accessMapped]
    rw [open_held h]

/-- A task without its guard, if it is about to drop it. -/
def Task.calm : Task → Task
  | .leaving _ _ => .idle
  | x => x

theorem calm_key (x : Task) : x.calm.key = x.key := by
  cases x <;> rfl

theorem calm_guard {x : Task} {g : Nat × Bool} (h : x.calm.guard = some g) : x.calm = x := by
  cases x <;> first | rfl | cases h

/-- The lock was still held: as if a task had got the buffer and now waits for ever. -/
theorem Good.handover {chk : Bool} {s : Sys} (h : Good s) (hn : s.tasks.length + 1 < 2 ^ 32) {location : Nat} {p : Pool}
    {g : Grant} (hp : s.pool.access chk (fun _ => false) location = .ok (some (p, g))) (memory : List Bytes)
    (kind : Kind) : Good ⟨p, memory, s.tasks ++ [.waiting g.index g.lock location kind]⟩ := by
  have h1 := h.idle hn
  have hx : Exclusive ((s.tasks ++ [Task.idle]).map Task.calm) := by
    intro m n x y l w w' hmn hmx hny hx hy
    rw [List.getElem?_map] at hmx hny
    cases hm : (s.tasks ++ [Task.idle])[m]? with
    | none => rw [hm] at hmx; cases hmx
    | some x' =>
      cases hk : (s.tasks ++ [Task.idle])[n]? with
      | none => rw [hk] at hny; cases hny
      | some y' =>
        rw [hm] at hmx
        rw [hk] at hny
        cases hmx
        cases hny
        have e1 := calm_guard hx
        have e2 := calm_guard hy
        rw [e1] at hx
        rw [e2] at hy
        exact h1.inv.guards m n x' y' l w w' hmn hm hk hx hy
  have hno : ∀ l w, Task.leaving l w ∉ (s.tasks ++ [Task.idle]).map Task.calm := by
    intro l w hm
    obtain ⟨y, _, e⟩ := List.mem_map.1 hm
    cases y <;> cases e
  have h2 : Good ⟨s.pool, memory, (s.tasks ++ [Task.idle]).map Task.calm⟩ :=
    h1.retask (by simp [List.map_map, Function.comp_def, calm_key, Sys.more]) hx
      (fun l w hm => absurd hm (hno l w))
  have hfree : Storage.held ((s.tasks ++ [Task.idle]).map Task.calm) s.pool.allocLock.1 = false := by
    cases e : Storage.held ((s.tasks ++ [Task.idle]).map Task.calm) s.pool.allocLock.1 with
    | false => rfl
    | true =>
      obtain ⟨l, _, w, _, hm⟩ := h2.held e
      exact absurd hm (hno l w)
  have hu : ((s.tasks ++ [Task.idle]).map Task.calm)[s.tasks.length]? = some .idle := by
    simp [Task.calm]
  have hstep : Storage.step chk (fun _ => .error .panic) ⟨s.pool, memory, (s.tasks ++ [Task.idle]).map Task.calm⟩
      (.access s.tasks.length location kind) = .ok (some ⟨p, memory, ((s.tasks ++ [Task.idle]).map Task.calm).set
        s.tasks.length (if g.init then .loading g.index g.lock location kind
          else .waiting g.index g.lock location kind)⟩) := by
    simp only [Storage.step, hu]
    rw [access_held (held' := fun _ => false) hfree, hp, Res.bind_ok]
    rfl
  have h3 := h2.step hstep
  have hnext : s.pool.nextLock ≤ p.nextLock := by
    cases access_ok hp with
    | opened ho _ _ => rcases ho.lock with ⟨_, e⟩ | ⟨_, _, _, e⟩ <;> omega
    | shared _ _ _ _ _ _ _ _ _ same => omega
  refine h3.retask ?_ ?_ ?_
  · have e : ((s.tasks ++ [Task.idle]).map Task.calm).set s.tasks.length
        (if g.init then .loading g.index g.lock location kind else .waiting g.index g.lock location kind) =
        s.tasks.map Task.calm ++
          [if g.init then .loading g.index g.lock location kind else .waiting g.index g.lock location kind] := by
      rw [List.map_append, List.set_append_right _ _ (by simp)]
      simp
    simp only
    rw [e, List.map_append, List.map_append, List.map_map, Function.comp_def]
    simp only [calm_key]
    congr 1
    cases g.init <;> rfl
  · intro m n x y l w w' hmn hmx hny hx hy
    have hget : ∀ (m : Nat) (x : Task) (gd : Nat × Bool),
        (s.tasks ++ [Task.waiting g.index g.lock location kind])[m]? = some x → x.guard = some gd →
        s.tasks[m]? = some x := by
      intro m x gd hmx hx
      rw [List.getElem?_append] at hmx
      split at hmx
      · exact hmx
      · have := List.mem_of_getElem? hmx
        simp only [List.mem_singleton] at this
        subst this
        cases hx
    exact h.inv.guards m n x y l w w' hmn (hget m x _ hmx hx) (hget n y _ hny hy) hx hy
  · intro l w hm
    rcases List.mem_append.1 hm with hm | hm
    · have := h.leaving l w hm
      simp only
      omega
    · simp at hm

/-- The last buffer of the list was in use: it has been moved, and the location is mapped to it. -/
theorem Good.exhausted {chk : Bool} {s : Sys} (h : Good s) {location : Nat} {a : Access}
    (hf : s.pool.find location = none) (ha : acc s.pool.buffers s.pool.available.tail = some (some a)) :
    ∃ l bs, s.pool.afterPanic chk location =
        { s.pool with available := l, buffers := bs, mapped := (location, s.pool.available.tail) :: s.pool.mapped } ∧
      Good { s with pool := s.pool.afterPanic chk location } := by
  have hi : s.pool.available.tail < s.pool.buffers.length := by
    obtain ⟨b, hb, _⟩ := buf_acc ha
    exact (acc_of_buf hb).2
  have e : s.pool.available.tail ≠ nil := by
    have := h.shape.small
    omega
  obtain ⟨l1, b1, r1, r2, r3, r4, r5⟩ := listRemove_total (l := s.pool.available) h.shape.links hi
  obtain ⟨l2, b2, s1, s2, s3, s4, s5⟩ := pushFront_total (l := l1) r3 (by rw [r2]; exact r5 h.shape.available e)
    (by rw [r2]; exact h.shape.small) r4
  have hpay : payload b2 = payload s.pool.buffers := by rw [pushFront_payload s1, listRemove_payload r1]
  have hacc : ∀ i, acc b2 i = acc s.pool.buffers i := acc_congr hpay
  have hlen : b2.length = s.pool.buffers.length := by rw [s2, r2]
  have hpanic : s.pool.access chk (fun _ => false) location = .error .panic := by
    unfold Pool.access
    rw [hf]
    rcases accessNew_total h.shape (fun _ => false) location with ⟨h1, _⟩ | ⟨_, _, h3⟩ | ⟨_, h2, _⟩
    · exact absurd h1 e
    · exact h3
    · rw [ha] at h2; cases h2
  have hpool : s.pool.afterPanic chk location = { s.pool with
      available := l2, buffers := b2, mapped := (location, s.pool.available.tail) :: s.pool.mapped } := by
    unfold Pool.afterPanic
    rw [hpanic]
    simp only [hf, r1, s1]
  refine ⟨l2, b2, hpool, ?_⟩
  rw [hpool]
  refine ⟨⟨fun i => ?_, h.inv.locks, h.inv.known, fun i a hi => ?_, fun i j a b hi hj => ?_, h.inv.guards⟩,
    ⟨?_, s3, ?_, ?_, ?_⟩, h.leaving, h.few⟩
  · simp only
    rw [hacc]
    exact h.inv.described i
  · simp only at hi ⊢
    rw [hacc] at hi
    exact h.inv.used i a hi
  · simp only at hi hj
    rw [hacc] at hi hj
    exact h.inv.own i j a b hi hj
  · simp only
    rw [hlen]
    exact h.shape.small
  · simp only
    rw [s2]
    exact s4
  · simp only
    rw [hlen]
    exact h.shape.dirty
  · simp only
    rw [hlen]
    intro x hx
    rcases List.mem_cons.1 hx with hx | hx
    · rw [hx]; exact hi
    · exact h.shape.mapped x hx

/-! ## Executions -/

/-- Only a task that is there and idle panics in `buffer_access`. -/
theorem access_error {chk : Bool} {fetch : Nat → Res Bytes} {s : Sys} {t location : Nat} {kind : Kind} {e : Fault}
    (h : step chk fetch s (.access t location kind) = .error e) :
    s.tasks[t]? = some .idle ∧ s.pool.access chk (held s.tasks) location = .error e := by
  simp only [step] at h
  split at h
  · rename_i ht
    refine ⟨ht, ?_⟩
    cases hr : s.pool.access chk (held s.tasks) location with
    | error e' =>
      rw [hr] at h
      injection h with h
      rw [h]
    | ok r =>
      rw [hr, Res.bind_ok] at h
      cases r <;> cases h
  · cases h

/-- The buffer that would have been given, had the lock been free. -/
theorem handover_grant {chk : Bool} {s : Sys} (h : Good s) {location i : Nat}
    (hi : s.pool.find location = some i ∨ (s.pool.find location = none ∧ s.pool.available.tail = i))
    (ha : acc s.pool.buffers i = some none) :
    ∃ p g, s.pool.access chk (fun _ => false) location = .ok (some (p, g)) ∧ g.index = i := by
  have hlt : i < s.pool.buffers.length := by
    obtain ⟨b, hb, _⟩ := buf_acc ha
    exact (acc_of_buf hb).2
  rcases hi with hf | ⟨hf, hl⟩
  · rcases accessMapped_total (chk := chk) h.shape (fun _ => false) hlt (fun a hi' => by rw [ha] at hi'; cases hi') with
      ⟨_, hc, _⟩ | ⟨_, p, g, hp, _⟩
    · cases hc
    · have hp' : s.pool.access chk (fun _ => false) location = .ok (some (p, g)) := by
        unfold Pool.access
        rw [hf]
        exact hp
      refine ⟨p, g, hp', ?_⟩
      cases access_ok hp' with
      | opened _ _ hm =>
        rcases hm with ⟨hc, _⟩ | ⟨hc, _⟩
        · rw [hf] at hc; cases hc
        · rw [hf] at hc; injection hc with hc; exact hc.symm
      | shared _ _ hc => rw [hf] at hc; injection hc with hc; exact hc.symm
  · subst hl
    have e : s.pool.available.tail ≠ nil := by
      have := h.shape.small
      omega
    rcases accessNew_total h.shape (fun _ => false) location with ⟨hc, _⟩ | ⟨_, hc, _⟩ | ⟨_, _, _, p, g, hp, _⟩
    · exact absurd hc e
    · rcases hc with ⟨a, hc⟩ | ⟨_, hc⟩
      · rw [ha] at hc; cases hc
      · cases hc
    · have hp' : s.pool.access chk (fun _ => false) location = .ok (some (p, g)) := by
        unfold Pool.access
        rw [hf]
        exact hp
      refine ⟨p, g, hp', ?_⟩
      obtain ⟨_, _, _, _, _, _, _, _, _, _, hg⟩ := accessNew_steps hp
      rw [hg]

/-- Nothing changes the number of tasks. -/
theorem go_tasks {chk : Bool} {fetch : Nat → Res Bytes} {s s' : Sys} {e : Event} (h : go chk fetch s e = some s') :
    s'.tasks.length = s.tasks.length := by
  cases e with
  | act a =>
    simp only [go] at h
    split at h
    · rename_i r hr
      subst h
      exact (step_trans hr).tasks_length
    · injection h with h
      subst h
      cases a <;> simp [Sys.afterPanic]
  | stop t content =>
    simp only [go] at h
    split at h
    all_goals first
      | (injection h with h; subst h; simp)
      | cases h

/-- The state is good together with one ghost for each handle left behind. -/
theorem go_good {chk : Bool} {fetch : Nat → Res Bytes} {s s' : Sys} {e : Event} {l : Option Nat} {gs : List Task}
    (hg : Ghosts gs) (h : Good (s.more gs)) (hn : s.tasks.length + gs.length + l.toList.length < 2 ^ 32)
    (hs : go chk fetch s e = some s') (hl : Leaves chk fetch s e l) :
    ∃ ws, Ghosts ws ∧ ws.map Task.buffer = l.toList.map some ∧ Good (s'.more (gs ++ ws)) := by
  have none' : Ghosts [] := fun x hx => nomatch hx
  have one : ∀ i lock location kind, Ghosts [.waiting i lock location kind] := fun i lock location kind x hx => by
    simp only [List.mem_singleton] at hx
    exact ⟨i, lock, location, kind, hx⟩
  have stopped : ∀ {t i : Nat} {x : Task} (memory : List Bytes), (s.more gs).tasks.length + 1 < 2 ^ 32 →
      s.tasks[t]? = some x → x.buffer = some i →
      ∃ ws, Ghosts ws ∧ ws.map Task.buffer = [some i] ∧
        Good (Sys.more ⟨s.pool, memory, s.tasks.set t .idle⟩ (gs ++ ws)) := by
    intro t i x memory hlen ht hb
    refine ⟨[.waiting i x.bufferLock 0 .readOnly], one _ _ _ _, rfl, ?_⟩
    have := h.stop hlen (more_get ht) hb memory 0 .readOnly
    simp only [Sys.more] at this
    rw [more_set ht, List.append_assoc] at this
    exact this
  cases hl with
  | fine hok =>
    rename_i a s1
    refine ⟨[], none', rfl, ?_⟩
    simp only [go, hok] at hs
    injection hs with hs
    subst hs
    cases hx : s.tasks[a.task]? with
    | none => rw [step_missing hx] at hok; cases hok
    | some x =>
      have := step_more (chk := chk) (fetch := fetch) hg hx
      rw [hok] at this
      rw [List.append_nil]
      exact h.step this
  | stop ht hb =>
    rename_i t i x content
    simp only [go, ht] at hs
    have hlen : (s.more gs).tasks.length + 1 < 2 ^ 32 := by simpa [Sys.more] using hn
    cases x with
    | idle => cases hb
    | leaving => cases hb
    | waiting => injection hs with hs; subst hs; exact stopped _ hlen ht hb
    | loading => injection hs with hs; subst hs; exact stopped _ hlen ht hb
    | holding => injection hs with hs; subst hs; exact stopped _ hlen ht hb
  | fetch he ht hb =>
    simp only [go, he] at hs
    injection hs with hs
    subst hs
    exact stopped _ (by simpa [Sys.more] using hn) ht hb
  | handover he hi ha =>
    rename_i t location i kind e
    simp only [go, he] at hs
    injection hs with hs
    subst hs
    obtain ⟨p, g, hp, hgi⟩ := handover_grant (chk := chk) h hi ha
    refine ⟨[.waiting g.index g.lock location kind], one _ _ _ _, ?_, ?_⟩
    · simp [Task.buffer, hgi]
    · have := h.handover (by simpa [Sys.more] using hn) hp s.memory kind
      have e1 : s.pool.afterPanic chk location = p := by
        have hp' : s.pool.access chk (fun _ => false) location = .ok (some (p, g)) := hp
        unfold Pool.afterPanic
        rw [hp']
      simp only [Sys.afterPanic, Sys.more, e1]
      rw [← List.append_assoc]
      exact this
  | exhausted he hf ha =>
    rename_i t location kind a e
    simp only [go, he] at hs
    injection hs with hs
    subst hs
    refine ⟨[], none', rfl, ?_⟩
    obtain ⟨_, _, _, h2⟩ := h.exhausted (chk := chk) hf ha
    rw [List.append_nil]
    exact h2

/-- The states of executions in which tasks end early. -/
theorem Goes.good {chk : Bool} {fetch : Nat → Res Bytes} {s s' : Sys} {left : List Nat} (h : Goes chk fetch s left s')
    (hg : Good s) (hn : s.tasks.length + left.length < 2 ^ 32) :
    s'.tasks.length = s.tasks.length ∧
      ∃ gs, Ghosts gs ∧ (gs.map Task.buffer).reverse = left.map some ∧ Good (s'.more gs) := by
  induction h with
  | refl =>
    refine ⟨rfl, [], (fun x hx => nomatch hx), rfl, ?_⟩
    simpa [Sys.more] using hg
  | next h hs hl ih =>
    rename_i left l s1 s2 e
    have hln : (l.toList ++ left).length = l.toList.length + left.length := List.length_append
    obtain ⟨h1, gs, h2, h3, h4⟩ := ih (by omega)
    have hgl : gs.length = left.length := by
      have := congrArg List.length h3
      simpa using this
    have h5 := go_tasks hs
    refine ⟨h5.trans h1, ?_⟩
    obtain ⟨ws, w1, w2, w3⟩ := go_good h2 h4 (l := l) (by omega) hs hl
    refine ⟨gs ++ ws, ?_, ?_, w3⟩
    · intro x hx
      rcases List.mem_append.1 hx with hx | hx
      · exact h2 x hx
      · exact w1 x hx
    · rw [List.map_append, List.reverse_append, h3, w2, List.map_append]
      cases l <;> rfl

theorem Goes.trans {chk : Bool} {fetch : Nat → Res Bytes} {s s1 s2 : Sys} {left left' : List Nat}
    (h : Goes chk fetch s left s1) (h' : Goes chk fetch s1 left' s2) : Goes chk fetch s (left' ++ left) s2 := by
  induction h' with
  | refl => exact h
  | next _ hs hl ih =>
    rw [List.append_assoc]
    exact .next ih hs hl

/-- The ghosts of a buffer. -/
theorem users_ghosts {gs : List Task} {left : List Nat} (h : (gs.map Task.buffer).reverse = left.map some) (i : Nat) :
    users gs i = left.count i := by
  have e : users gs i = (gs.map Task.buffer).countP (· == some i) := by
    rw [List.countP_map]
    rfl
  rw [e, ← List.countP_reverse, h, List.countP_map]
  unfold List.count
  congr 1

theorem users_append (as bs : List Task) (i : Nat) : users (as ++ bs) i = users as i + users bs i :=
  List.countP_append

/-- The recorded number of handles. -/
theorem Goes.described {chk : Bool} {fetch : Nat → Res Bytes} {s s' : Sys} {left : List Nat}
    (h : Goes chk fetch s left s') (hg : Good s) (hn : s.tasks.length + left.length < 2 ^ 32) (i : Nat) :
    (∀ a, acc s'.pool.buffers i = some (some a) → 0 < a.handles ∧ a.handles = users s'.tasks i + left.count i) ∧
    ((∀ a, acc s'.pool.buffers i ≠ some (some a)) → users s'.tasks i = 0 ∧ i ∉ left) := by
  obtain ⟨_, gs, h1, h2, h3⟩ := h.good hg hn
  have hd := h3.inv.described i
  have hu : users (s'.more gs).tasks i = users s'.tasks i + left.count i := by
    rw [← users_ghosts h2]
    exact users_append _ _ _
  have hd : Described (s'.more gs).tasks i (acc s'.pool.buffers i) := hd
  constructor
  · intro a ha
    rw [ha] at hd
    exact ⟨hd.1, by rw [← hu]; exact hd.2.1⟩
  · intro ha
    have hz : users (s'.more gs).tasks i = 0 := by
      match hacc : acc s'.pool.buffers i with
      | none => rw [hacc] at hd; exact hd
      | some none => rw [hacc] at hd; exact hd
      | some (some a) => exact absurd hacc (ha a)
    refine ⟨by omega, fun hm => ?_⟩
    have := List.count_pos_iff.2 hm
    omega

/-- The panics of the others. -/
theorem Panics.more {fetch : Nat → Res Bytes} {s : Sys} {a : Act} {gs : List Task} (hg : Ghosts gs) {x : Task}
    (hx : s.tasks[a.task]? = some x) : Panics fetch (s.more gs) a ↔ Panics fetch s a := by
  have back : ∀ {y : Task}, (s.more gs).tasks[a.task]? = some y → s.tasks[a.task]? = some y := by
    intro y hy
    have := more_get (gs := gs) hx
    have hy : (s.tasks ++ gs)[a.task]? = some y := hy
    rw [this] at hy
    rw [hx]
    exact hy
  constructor
  · intro h
    cases h with
    | exhausted ht hf hn ha => exact .exhausted (back ht) hf hn ha
    | handover ht hi ha hl hm =>
      rcases List.mem_append.1 hm with hm | hm
      · exact .handover (back ht) hi ha hl hm
      · obtain ⟨_, _, _, _, e⟩ := hg _ hm
        cases e
    | fetch ht hk h => exact .fetch (back ht) hk h
  · intro h
    cases h with
    | exhausted ht hf hn ha => exact .exhausted (more_get ht) hf hn ha
    | handover ht hi ha hl hm => exact .handover (more_get ht) hi ha hl (List.mem_append_left _ hm)
    | fetch ht hk h => exact .fetch (more_get ht) hk h

theorem panics_more {chk : Bool} {fetch : Nat → Res Bytes} {s : Sys} {gs : List Task} (hg : Ghosts gs)
    (h : Good (s.more gs)) (a : Act) : (∃ e, step chk fetch s a = .error e) ↔ Panics fetch s a := by
  cases hx : s.tasks[a.task]? with
  | none =>
    constructor
    · rintro ⟨e, he⟩
      rw [step_missing hx] at he
      cases he
    · intro hp
      cases hp with
      | exhausted ht => have hx := hx.symm.trans ht; cases hx
      | handover ht => have hx := hx.symm.trans ht; cases hx
      | fetch ht => have hx := hx.symm.trans ht; cases hx
  | some x =>
    rw [← Panics.more hg hx, ← h.panics (chk := chk) a, step_more hg hx]
    cases step chk fetch s a with
    | error e => exact ⟨fun _ => ⟨e, rfl⟩, fun _ => ⟨e, rfl⟩⟩
    | ok r =>
      refine ⟨(fun ⟨_, he⟩ => nomatch he), fun ⟨_, he⟩ => ?_⟩
      cases r <;> cases he

/-- Every event leaves a handle of one buffer behind, or none. -/
theorem leaves_total {chk : Bool} {fetch : Nat → Res Bytes} {s s' : Sys} {gs : List Task} (hg : Ghosts gs)
    (h : Good (s.more gs)) {e : Event} (hs : go chk fetch s e = some s') : ∃ l, Leaves chk fetch s e l := by
  cases e with
  | stop t content =>
    simp only [go] at hs
    split at hs
    · rename_i ht; exact ⟨_, .stop ht rfl⟩
    · rename_i ht; exact ⟨_, .stop ht rfl⟩
    · rename_i ht; exact ⟨_, .stop ht rfl⟩
    · cases hs
  | act a =>
    cases hr : step chk fetch s a with
    | ok r =>
      simp only [go, hr] at hs
      subst hs
      exact ⟨none, .fine hr⟩
    | error e =>
      cases (panics_more hg h a).1 ⟨e, hr⟩ with
      | exhausted _ hf _ ha => exact ⟨_, .exhausted hr hf ha⟩
      | handover _ hi ha =>
        refine ⟨_, .handover hr ?_ ha⟩
        rcases hi with hi | ⟨h1, h2, _⟩
        · exact .inl hi
        · exact .inr ⟨h1, h2⟩
      | fetch ht => exact ⟨_, .fetch hr ht rfl⟩

/-! ## What does not change -/

theorem access_same {chk : Bool} {p p' : Pool} {held : Nat → Bool} {location : Nat} {g : Grant}
    (h : p.access chk held location = .ok (some (p', g))) :
    (∀ l i, p.find l = some i → p'.find l = some i) ∧ (p.available.tail ≠ nil → p'.available.tail ≠ nil) ∧
    p'.buffers.length = p.buffers.length := by
  refine ⟨?_, ?_, ?_⟩
  · intro l i hl
    have same : p'.mapped = p.mapped → p'.find l = some i := fun e => by
      unfold Pool.find at hl ⊢
      rw [e]
      exact hl
    cases access_ok h with
    | opened _ _ hm =>
      rcases hm with ⟨hf, hm⟩ | ⟨_, hm⟩
      · unfold Pool.find at hf hl ⊢
        rw [hm, List.lookup_cons]
        split
        · rename_i e
          rw [beq_iff_eq] at e
          subst e
          rw [hf] at hl
          cases hl
        · exact hl
      · exact same hm
    | shared _ _ _ _ _ _ _ _ _ hm => exact same hm.1
  · intro ht
    unfold Pool.access at h
    split at h
    · obtain ⟨l1, b1, l2, b2, lock, hn, h1, h2, ha, h3, _⟩ := accessNew_steps h
      have := open_same h3
      simp only at this
      have e : p'.available = l2 := by simp_all
      rw [e]
      exact pushFront_tail h2 hn
    · rw [accessMapped_available h]; exact ht
  · cases access_ok h with
    | opened ho => exact ho.length
    | shared _ _ _ _ _ _ _ _ hl => exact hl

theorem afterPanic_same (chk : Bool) (p : Pool) (location : Nat) :
    (∀ l i, p.find l = some i → (p.afterPanic chk location).find l = some i) ∧
    (p.available.tail ≠ nil → (p.afterPanic chk location).available.tail ≠ nil) ∧
    (p.afterPanic chk location).buffers.length = p.buffers.length := by
  unfold Pool.afterPanic
  split
  · rename_i h
    exact access_same h
  · split
    · exact ⟨fun _ _ h => h, id, rfl⟩
    · rename_i hf
      split
      · exact ⟨fun _ _ h => h, id, rfl⟩
      · rename_i l1 b1 h1
        split
        · exact ⟨fun _ _ h => h, id, rfl⟩
        · rename_i l2 b2 h2
          refine ⟨fun l i hl => ?_, fun ht => pushFront_tail h2 ht, ?_⟩
          · unfold Pool.find at hf hl ⊢
            simp only [List.lookup_cons]
            split
            · rename_i e
              rw [beq_iff_eq] at e
              subst e
              rw [hf] at hl
              cases hl
            · exact hl
          · have e1 := congrArg List.length (pushFront_payload h2)
            have e2 := congrArg List.length (listRemove_payload h1)
            simp only [payload, List.length_map] at e1 e2
            show b2.length = _
            rw [e1, e2]

theorem sysAfterPanic_same (chk : Bool) (s : Sys) (a : Act) :
    (∀ l i, s.pool.find l = some i → (s.afterPanic chk a).pool.find l = some i) ∧
    (s.pool.available.tail ≠ nil → (s.afterPanic chk a).pool.available.tail ≠ nil) ∧
    (s.afterPanic chk a).pool.buffers.length = s.pool.buffers.length := by
  cases a with
  | access t location kind => exact afterPanic_same chk s.pool location
  | _ => exact ⟨fun _ _ h => h, id, rfl⟩

theorem go_find {chk : Bool} {fetch : Nat → Res Bytes} {s s' : Sys} {e : Event} (h : go chk fetch s e = some s')
    {l i : Nat} (hf : s.pool.find l = some i) : s'.pool.find l = some i := by
  cases e with
  | act a =>
    simp only [go] at h
    split at h
    · rename_i hr
      subst h
      exact step_find hr hf
    · injection h with h
      subst h
      exact (sysAfterPanic_same chk s a).1 l i hf
  | stop t content =>
    simp only [go] at h
    split at h
    all_goals first
      | (injection h with h; subst h; exact hf)
      | cases h

theorem Goes.find {chk : Bool} {fetch : Nat → Res Bytes} {s s' : Sys} {left : List Nat} (h : Goes chk fetch s left s')
    {l i : Nat} (hf : s.pool.find l = some i) : s'.pool.find l = some i := by
  induction h with
  | refl => exact hf
  | next _ hs _ ih => exact go_find hs ih

theorem go_length {chk : Bool} {fetch : Nat → Res Bytes} {s s' : Sys} {e : Event} (h : go chk fetch s e = some s') :
    s'.pool.buffers.length = s.pool.buffers.length := by
  cases e with
  | act a =>
    simp only [go] at h
    split at h
    · rename_i hr
      subst h
      exact (Reach.next .refl hr).length
    · injection h with h
      subst h
      exact (sysAfterPanic_same chk s a).2.2
  | stop t content =>
    simp only [go] at h
    split at h
    all_goals first
      | (injection h with h; subst h; rfl)
      | cases h

theorem Goes.length {chk : Bool} {fetch : Nat → Res Bytes} {s s' : Sys} {left : List Nat}
    (h : Goes chk fetch s left s') : s'.pool.buffers.length = s.pool.buffers.length := by
  induction h with
  | refl => rfl
  | next _ hs _ ih => exact (go_length hs).trans ih

theorem go_tail {chk : Bool} {fetch : Nat → Res Bytes} {s s' : Sys} {e : Event} {gs : List Task} (hg : Ghosts gs)
    (hgood : Good (s.more gs)) (h : go chk fetch s e = some s') (ht : s.pool.available.tail ≠ nil) :
    s'.pool.available.tail ≠ nil := by
  cases e with
  | act a =>
    simp only [go] at h
    split at h
    · rename_i hr
      subst h
      cases hx : s.tasks[a.task]? with
      | none => rw [step_missing hx] at hr; cases hr
      | some x =>
        have := step_more (chk := chk) (fetch := fetch) hg hx
        rw [hr] at this
        exact step_tail (s' := s'.more gs) hgood this ht
    · injection h with h
      subst h
      exact (sysAfterPanic_same chk s a).2.1 ht
  | stop t content =>
    simp only [go] at h
    split at h
    all_goals first
      | (injection h with h; subst h; exact ht)
      | cases h

theorem Goes.tail {chk : Bool} {fetch : Nat → Res Bytes} {s s' : Sys} {left : List Nat} (h : Goes chk fetch s left s')
    (hg : Good s) (hn : s.tasks.length + left.length < 2 ^ 32) (ht : s.pool.available.tail ≠ nil) :
    s'.pool.available.tail ≠ nil := by
  induction h with
  | refl => exact ht
  | next h hs _ ih =>
    rw [List.length_append] at hn
    obtain ⟨_, gs, h1, _, h3⟩ := h.good hg (by omega)
    exact go_tail h1 h3 hs (ih (by omega))

/-- Only a buffer without an access record is loaded. -/
theorem go_loading {chk : Bool} {fetch : Nat → Res Bytes} {s s' : Sys} {e : Event} (h : go chk fetch s e = some s')
    {i : Nat} (ha : ∃ a, acc s.pool.buffers i = some (some a))
    (hl : ∀ lock location kind, .loading i lock location kind ∉ s.tasks) (lock location : Nat) (kind : Kind) :
    .loading i lock location kind ∉ s'.tasks := by
  have set : ∀ {tasks : List Task} {t : Nat} {y : Task}, tasks = s.tasks.set t y →
      y ≠ .loading i lock location kind → .loading i lock location kind ∉ tasks := by
    intro tasks t y ht hy hm
    rw [ht] at hm
    rcases mem_of_set hm with hm | hm
    · exact hl _ _ _ hm
    · exact hy hm.symm
  cases e with
  | act a =>
    simp only [go] at h
    split at h
    · rename_i hr
      subst h
      cases step_trans hr with
      | access _ hac =>
        rename_i t location' kind' p' g ht
        refine set rfl ?_
        cases hac with
        | opened ho hgi _ =>
          rw [if_pos hgi]
          intro e
          injection e with e
          have := ho.before
          rw [e] at this
          obtain ⟨a, ha⟩ := ha
          rw [ha] at this
          cases this
        | shared _ _ _ _ hgi =>
          rw [hgi]
          simp
      | release => exact set rfl nofun
      | acquire => exact set rfl nofun
      | load => exact set rfl nofun
      | write => exact hl _ _ _
      | drop => exact set rfl nofun
    · injection h with h
      subst h
      cases a with
      | load t => exact set rfl nofun
      | _ => exact hl _ _ _
  | stop t content =>
    simp only [go] at h
    split at h
    all_goals first
      | (injection h with h; subst h; exact set rfl nofun)
      | cases h

theorem Goes.loading {chk : Bool} {fetch : Nat → Res Bytes} {s s1 s2 : Sys} {left left' : List Nat} (hg : Good s)
    (h : Goes chk fetch s left s1) (h' : Goes chk fetch s1 left' s2)
    (hn : s.tasks.length + left.length + left'.length < 2 ^ 32) {i : Nat} (hi : i ∈ left)
    (hl : ∀ lock location kind, .loading i lock location kind ∉ s1.tasks) (lock location : Nat) (kind : Kind) :
    .loading i lock location kind ∉ s2.tasks := by
  induction h' generalizing lock location kind with
  | refl => exact hl _ _ _
  | next h2 hs _ ih =>
    rename_i left2 l s3 s4 e
    rw [List.length_append] at hn
    have hd := ((h.trans h2).described hg (by rw [List.length_append]; omega) i).2
    refine go_loading hs ?_ (fun _ _ _ => ih (by omega) _ _ _) _ _ _
    apply Classical.byContradiction
    intro hc
    exact (hd fun a ha => hc ⟨a, ha⟩).2 (List.mem_append_right _ hi)

/-- A task with a write guard of a buffer, and another one with a guard of it. -/
theorem Good.alone {s : Sys} (h : Good s) {t u i l l' : Nat} {x y : Task} {w : Bool} (ht : s.tasks[t]? = some x)
    (hu : s.tasks[u]? = some y) (hx : x.buffer = some i) (hy : y.buffer = some i) (gx : x.guard = some (l, true))
    (gy : y.guard = some (l', w)) (ex : x.bufferLock = l) (ey : y.bufferLock = l') : t = u := by
  apply Classical.byContradiction
  intro hne
  obtain ⟨a, ha, e1⟩ := h.inv.record (List.mem_of_getElem? ht) hx
  obtain ⟨b, hb, e2⟩ := h.inv.record (List.mem_of_getElem? hu) hy
  rw [ha] at hb
  injection hb with hb
  injection hb with hb
  subst hb
  have e : l = l' := by rw [← ex, ← ey, e1, e2]
  subst e
  have := h.inv.guards t u x y l true w hne ht hu gx gy
  exact absurd this.1 (by simp)

/-- Nothing but a write of its own changes what the owner of a handle sees. -/
theorem go_contents {chk : Bool} {fetch : Nat → Res Bytes} {s s' : Sys} {e : Event} {gs : List Task}
    (hgood : Good (s.more gs)) (h : go chk fetch s e = some s') {u i lock location : Nat} {kind : Kind}
    (hu : s.tasks[u]? = some (.holding i lock location kind)) (he : ∀ content, e ≠ .act (.write u content)) :
    s'.memory[i]? = s.memory[i]? := by
  have other : ∀ {t j : Nat} {l loc : Nat} {k : Kind} (content : Bytes),
      s.tasks[t]? = some (.loading j l loc k) ∨ (s.tasks[t]? = some (.holding j l loc k) ∧ k.write = true ∧ t ≠ u) →
      (s.memory.set j content)[i]? = s.memory[i]? := by
    intro t j l loc k content ht
    rw [List.getElem?_set_ne]
    intro hij
    subst hij
    rcases ht with ht | ⟨ht, hk, hne⟩
    · have := hgood.alone (more_get ht) (more_get hu) rfl rfl rfl rfl rfl rfl
      subst this
      rw [hu] at ht
      cases ht
    · exact hne (hgood.alone (l := l) (more_get ht) (more_get hu) rfl rfl (by simp [Task.guard, hk]) rfl rfl rfl)
  cases e with
  | act a =>
    simp only [go] at h
    split at h
    · rename_i hr
      subst h
      cases a with
      | load t =>
        simp only [step] at hr
        split at hr
        · rename_i ht
          obtain ⟨c, _, hr⟩ := Res.bind_eq_ok.1 hr
          injection hr with hr
          injection hr with hr
          subst hr
          exact other c (.inl ht)
        · cases hr
      | write t content =>
        simp only [step] at hr
        split at hr
        · rename_i ht
          split at hr
          · rename_i hk
            injection hr with hr
            injection hr with hr
            subst hr
            refine other content (.inr ⟨ht, hk, fun e => he content ?_⟩)
            rw [e]
          · cases hr
        · cases hr
      | access t loc k =>
        simp only [step] at hr
        split at hr
        · obtain ⟨r, _, hr⟩ := Res.bind_eq_ok.1 hr
          cases r with
          | none => cases hr
          | some r =>
            injection hr with hr
            injection hr with hr
            subst hr
            rfl
        · cases hr
      | acquire t =>
        simp only [step] at hr
        split at hr
        · split at hr
          · injection hr with hr
            injection hr with hr
            subst hr
            rfl
          · cases hr
        · cases hr
      | release t =>
        simp only [step] at hr
        split at hr
        · obtain ⟨r, _, hr⟩ := Res.bind_eq_ok.1 hr
          injection hr with hr
          injection hr with hr
          subst hr
          rfl
        · cases hr
      | drop t =>
        simp only [step] at hr
        split at hr
        · injection hr with hr
          injection hr with hr
          subst hr
          rfl
        · cases hr
    · injection h with h
      subst h
      cases a <;> rfl
  | stop t content =>
    simp only [go] at h
    split at h
    · injection h with h; subst h; rfl
    · rename_i ht
      injection h with h
      subst h
      exact other content (.inl ht)
    · injection h with h; subst h; rfl
    · cases h

end Verif.Storage
