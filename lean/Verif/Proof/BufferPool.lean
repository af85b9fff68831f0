import Verif.Proof.BufferList
import Verif.Spec.BufferPool

/-! # Invariants of the buffer pool under every interleaving -/

namespace Verif.Storage

open Verif Verif.Spec

/-! ## List operations do not touch the rest of a buffer -/

theorem setPrev_payload {bs bs' : List Buffer} {i v : Nat} (h : setPrev bs i v = .ok bs') : payload bs' = payload bs := by
  unfold setPrev at h
  rw [Res.bind_eq_ok] at h
  obtain ⟨b, hb, h⟩ := h
  injection h with h
  subst h
  rw [buf_ok, List.getElem?_eq_some_iff] at hb
  obtain ⟨hi, hb⟩ := hb
  exact payload_set hi (by rw [← hb])

theorem setNext_payload {bs bs' : List Buffer} {i v : Nat} (h : setNext bs i v = .ok bs') : payload bs' = payload bs := by
  unfold setNext at h
  rw [Res.bind_eq_ok] at h
  obtain ⟨b, hb, h⟩ := h
  injection h with h
  subst h
  rw [buf_ok, List.getElem?_eq_some_iff] at hb
  obtain ⟨hi, hb⟩ := hb
  exact payload_set hi (by rw [← hb])

theorem pushFront_payload {l l' : Head} {bs bs' : List Buffer} {i : Nat} (h : pushFront l bs i = .ok (l', bs')) :
    payload bs' = payload bs := by
  unfold pushFront at h
  rw [Res.bind_eq_ok] at h
  obtain ⟨_, _, h⟩ := h
  rw [Res.bind_eq_ok] at h
  obtain ⟨_, _, h⟩ := h
  rw [Res.bind_eq_ok] at h
  obtain ⟨_, _, h⟩ := h
  split at h
  · rw [Res.bind_eq_ok] at h
    obtain ⟨_, _, h⟩ := h
    rw [Res.bind_eq_ok] at h
    obtain ⟨b1, h1, h⟩ := h
    rw [Res.bind_eq_ok] at h
    obtain ⟨b2, h2, h⟩ := h
    injection h with h
    injection h with _ h
    rw [← h, setPrev_payload h2, setNext_payload h1]
  · rw [Res.bind_eq_ok] at h
    obtain ⟨_, _, h⟩ := h
    injection h with h
    injection h with _ h
    rw [← h]

theorem unlinkNext_payload {l l' : Head} {bs bs' : List Buffer} {p n : Nat} (h : unlinkNext l bs p n = .ok (l', bs')) :
    payload bs' = payload bs := by
  unfold unlinkNext at h
  split at h
  · rw [Res.bind_eq_ok] at h
    obtain ⟨b1, h1, h⟩ := h
    injection h with h
    injection h with _ h
    rw [← h, setPrev_payload h1]
  · injection h with h
    injection h with _ h
    rw [← h]

theorem unlinkPrev_payload {l l' : Head} {bs bs' : List Buffer} {p n : Nat} (h : unlinkPrev l bs p n = .ok (l', bs')) :
    payload bs' = payload bs := by
  unfold unlinkPrev at h
  split at h
  · rw [Res.bind_eq_ok] at h
    obtain ⟨b1, h1, h⟩ := h
    injection h with h
    injection h with _ h
    rw [← h, setNext_payload h1]
  · injection h with h
    injection h with _ h
    rw [← h]

theorem listRemove_payload {l l' : Head} {bs bs' : List Buffer} {i : Nat} (h : listRemove l bs i = .ok (l', bs')) :
    payload bs' = payload bs := by
  unfold listRemove at h
  rw [Res.bind_eq_ok] at h
  obtain ⟨_, _, h⟩ := h
  rw [Res.bind_eq_ok] at h
  obtain ⟨⟨l1, b1⟩, h1, h⟩ := h
  simp only at h
  rw [Res.bind_eq_ok] at h
  obtain ⟨⟨l2, b2⟩, h2, h⟩ := h
  simp only at h
  rw [Res.bind_eq_ok] at h
  obtain ⟨b3, h3, h⟩ := h
  rw [Res.bind_eq_ok] at h
  obtain ⟨b4, h4, h⟩ := h
  injection h with h
  injection h with _ h
  rw [← h, setPrev_payload h4, setNext_payload h3, unlinkPrev_payload h2, unlinkNext_payload h1]

/-! ## The access record of a buffer -/

theorem acc_eq_payload (bs : List Buffer) (i : Nat) : acc bs i = ((payload bs)[i]?).map (·.1) := by
  unfold acc payload
  rw [List.getElem?_map, Option.map_map]
  rfl

theorem acc_congr {bs bs' : List Buffer} (h : payload bs' = payload bs) (i : Nat) : acc bs' i = acc bs i := by
  rw [acc_eq_payload, acc_eq_payload, h]

theorem acc_set {bs : List Buffer} {i : Nat} {b : Buffer} (hi : i < bs.length) (j : Nat) :
    acc (bs.set i b) j = if j = i then some b.access else acc bs j := by
  unfold acc
  rw [List.getElem?_set]
  by_cases e : i = j
  · subst e; simp [hi]
  · have e' : ¬ j = i := fun h => e h.symm
    simp [e, e']

theorem acc_of_buf {bs : List Buffer} {i : Nat} {b : Buffer} (h : buf bs i = .ok b) :
    acc bs i = some b.access ∧ i < bs.length := by
  rw [buf_ok] at h
  refine ⟨by unfold acc; rw [h]; rfl, (List.getElem?_eq_some_iff.1 h).1⟩

/-! ## What the pool operations do -/

/-- `alloc_lock`. -/
theorem allocLock_cases (p : Pool) :
    (∃ l ls, p.locks = l :: ls ∧ p.allocLock = (l, { p with locks := ls })) ∨
    (p.locks = [] ∧ p.allocLock = (p.nextLock, { p with nextLock := p.nextLock + 1 })) := by
  unfold Pool.allocLock
  cases h : p.locks with
  | nil => exact .inr ⟨rfl, rfl⟩
  | cons l ls => exact .inl ⟨l, ls, rfl, rfl⟩

/-- A buffer without handles is given a lock and its first handle. -/
structure Opened (p : Pool) (held : Nat → Bool) (i : Nat) (p' : Pool) (lock : Nat) : Prop where
  before : acc p.buffers i = some none
  after : ∀ j, acc p'.buffers j = if j = i then some (some ⟨lock, 1⟩) else acc p.buffers j
  length : p'.buffers.length = p.buffers.length
  free : held lock = false
  lock : (p.locks = lock :: p'.locks ∧ p'.nextLock = p.nextLock) ∨
    (p.locks = [] ∧ p'.locks = [] ∧ lock = p.nextLock ∧ p'.nextLock = p.nextLock + 1)

theorem open_ok {p p' : Pool} {held : Nat → Bool} {i lock : Nat} (h : p.open held i = .ok (p', lock))
    (hb : acc p.buffers i = some none) : Opened p held i p' lock ∧ p'.mapped = p.mapped := by
  unfold Pool.open at h
  rcases allocLock_cases p with ⟨l, ls, h1, h2⟩ | ⟨h1, h2⟩
  all_goals
    rw [h2] at h
    simp only at h
    rw [Res.bind_eq_ok] at h
    obtain ⟨b, hb', h⟩ := h
    rw [Res.bind_eq_ok] at h
    obtain ⟨_, ha, h⟩ := h
    rw [assert_ok] at ha
    simp only [Bool.not_eq_true'] at ha
    injection h with h
    injection h with e1 e2
    subst e1 e2
    obtain ⟨hacc, hi⟩ := acc_of_buf hb'
  · exact ⟨⟨hb, fun j => acc_set hi j, by simp, ha, .inl ⟨h1, rfl⟩⟩, rfl⟩
  · exact ⟨⟨hb, fun j => acc_set hi j, by simp, ha, .inr ⟨h1, h1, rfl, rfl⟩⟩, rfl⟩

/-- The two outcomes of a successful `buffer_access`. -/
inductive Accessed (chk : Bool) (p : Pool) (held : Nat → Bool) (location : Nat) (p' : Pool) (g : Grant) : Prop where
  | opened (h : Opened p held g.index p' g.lock) (hg : g.init = true)
      (hm : (p.find location = none ∧ p'.mapped = (location, g.index) :: p.mapped) ∨
        (p.find location = some g.index ∧ p'.mapped = p.mapped))
  | shared (a : Access) (n : Nat) (hf : p.find location = some g.index) (ha : acc p.buffers g.index = some (some a))
      (hg : g.init = false) (hl : g.lock = a.lock) (hn : addN chk 32 a.handles 1 = .ok n)
      (after : ∀ j, acc p'.buffers j = if j = g.index then some (some ⟨a.lock, n⟩) else acc p.buffers j)
      (length : p'.buffers.length = p.buffers.length)
      (same : p'.mapped = p.mapped ∧ p'.locks = p.locks ∧ p'.nextLock = p.nextLock)

theorem access_ok {chk : Bool} {p p' : Pool} {held : Nat → Bool} {location : Nat} {g : Grant}
    (h : p.access chk held location = .ok (some (p', g))) : Accessed chk p held location p' g := by
  unfold Pool.access at h
  cases hf : p.find location with
  | none =>
    rw [hf] at h
    simp only at h
    unfold Pool.accessNew at h
    split at h
    · rw [Res.bind_eq_ok] at h
      obtain ⟨⟨l1, b1⟩, h1, h⟩ := h
      simp only at h
      rw [Res.bind_eq_ok] at h
      obtain ⟨⟨l2, b2⟩, h2, h⟩ := h
      simp only at h
      rw [Res.bind_eq_ok] at h
      obtain ⟨b, hb, h⟩ := h
      rw [Res.bind_eq_ok] at h
      obtain ⟨_, ha, h⟩ := h
      rw [Res.bind_eq_ok] at h
      obtain ⟨⟨p3, lock⟩, h3, h⟩ := h
      simp only [Res.pure_eq] at h
      injection h with h
      injection h with h
      injection h with e1 e2
      subst e1 e2
      have hpay : payload b2 = payload p.buffers := by rw [pushFront_payload h2, listRemove_payload h1]
      have hlen : b2.length = p.buffers.length := by
        have := congrArg List.length hpay
        simpa [payload] using this
      obtain ⟨hacc, _⟩ := acc_of_buf hb
      have hnone : b.access = none := by
        rw [assert_ok] at ha
        cases e : b.access with
        | none => rfl
        | some a => rw [e] at ha; cases ha
      rw [hnone] at hacc
      obtain ⟨ho, hm⟩ := open_ok h3 hacc
      refine .opened ⟨?_, ?_, ?_, ho.free, ho.lock⟩ rfl (.inl ⟨hf, hm⟩)
      · rw [← acc_congr hpay]; exact ho.before
      · intro j; rw [ho.after, ← acc_congr hpay]
      · rw [ho.length]; exact hlen
    · cases h
  | some i =>
    rw [hf] at h
    simp only at h
    unfold Pool.accessMapped at h
    rw [Res.bind_eq_ok] at h
    obtain ⟨b, hb, h⟩ := h
    obtain ⟨hacc, hi⟩ := acc_of_buf hb
    cases e : b.access with
    | none =>
      rw [e] at h hacc
      simp only at h
      rw [Res.bind_eq_ok] at h
      obtain ⟨⟨p3, lock⟩, h3, h⟩ := h
      simp only [Res.pure_eq] at h
      injection h with h
      injection h with h
      injection h with e1 e2
      subst e1 e2
      obtain ⟨ho, hm⟩ := open_ok h3 hacc
      exact .opened ho rfl (.inr ⟨hf, hm⟩)
    | some a =>
      rw [e] at h hacc
      simp only at h
      rw [Res.bind_eq_ok] at h
      obtain ⟨n, hn, h⟩ := h
      simp only [Res.pure_eq] at h
      injection h with h
      injection h with h
      injection h with e1 e2
      subst e1 e2
      exact .shared a n hf hacc rfl rfl hn (fun j => acc_set hi j) (by simp) ⟨rfl, rfl, rfl⟩

/-- The two outcomes of a successful release. -/
inductive Released (p : Pool) (i : Nat) (p' : Pool) : Prop where
  | kept (a : Access) (ha : acc p.buffers i = some (some a)) (hn : 1 < a.handles)
      (after : ∀ j, acc p'.buffers j = if j = i then some (some ⟨a.lock, a.handles - 1⟩) else acc p.buffers j)
      (length : p'.buffers.length = p.buffers.length)
      (same : p'.mapped = p.mapped ∧ p'.locks = p.locks ∧ p'.nextLock = p.nextLock)
  | retired (a : Access) (ha : acc p.buffers i = some (some a)) (hn : a.handles = 1)
      (after : ∀ j, acc p'.buffers j = if j = i then some none else acc p.buffers j)
      (length : p'.buffers.length = p.buffers.length)
      (same : p'.mapped = p.mapped ∧ p'.locks = a.lock :: p.locks ∧ p'.nextLock = p.nextLock)

theorem retire_ok {p p' : Pool} {i lock : Nat} {dirty : Bool} (h : p.retire i lock dirty = .ok p') :
    payload p'.buffers = payload p.buffers ∧ p'.mapped = p.mapped ∧ p'.locks = lock :: p.locks ∧
      p'.nextLock = p.nextLock := by
  unfold Pool.retire at h
  rw [Res.bind_eq_ok] at h
  obtain ⟨⟨l1, b1⟩, h1, h⟩ := h
  simp only at h
  split at h
  · rw [Res.bind_eq_ok] at h
    obtain ⟨⟨l2, b2⟩, h2, h⟩ := h
    injection h with h
    subst h
    exact ⟨by simp only; rw [pushFront_payload h2, listRemove_payload h1], rfl, rfl, rfl⟩
  · rw [Res.bind_eq_ok] at h
    obtain ⟨⟨l2, b2⟩, h2, h⟩ := h
    injection h with h
    subst h
    exact ⟨by simp only; rw [pushFront_payload h2, listRemove_payload h1], rfl, rfl, rfl⟩

theorem release_ok {p p' : Pool} {i : Nat} {w : Bool} (h : p.release i w = .ok p') : Released p i p' := by
  unfold Pool.release at h
  rw [Res.bind_eq_ok] at h
  obtain ⟨b, hb, h⟩ := h
  obtain ⟨hacc, hi⟩ := acc_of_buf hb
  unfold Pool.drop at h
  cases e : b.access with
  | none => rw [e] at h; cases h
  | some a =>
    rw [e] at h hacc
    simp only at h
    rw [Res.bind_eq_ok] at h
    obtain ⟨_, hpos, h⟩ := h
    rw [assert_ok, decide_eq_true_iff] at hpos
    split at h
    · rename_i hn
      injection h with h
      subst h
      exact .kept a hacc hn (fun j => acc_set hi j) (by simp) ⟨rfl, rfl, rfl⟩
    · rename_i hn
      obtain ⟨h1, h2, h3, h4⟩ := retire_ok h
      refine .retired a hacc (by omega) ?_ ?_ ⟨h2, h3, h4⟩
      · intro j
        rw [acc_congr h1]
        exact acc_set hi j
      · have := congrArg List.length h1
        simpa [payload] using this

/-! ## Steps -/

/-- The possible steps, with what they require. -/
inductive Trans (chk : Bool) (fetch : Nat → Res Bytes) (s : Sys) : Act → Sys → Prop where
  | access {t location : Nat} {kind : Kind} {p : Pool} {g : Grant} (ht : s.tasks[t]? = some .idle)
      (h : Accessed chk s.pool (held s.tasks) location p g) :
      Trans chk fetch s (.access t location kind)
        { s with
          pool := p
          tasks := s.tasks.set t (if g.init then .loading g.index g.lock location kind else .waiting g.index g.lock location kind) }
  | acquire {t i lock location : Nat} {kind : Kind} (ht : s.tasks[t]? = some (.waiting i lock location kind))
      (h : mayAcquire s.tasks lock kind = true) :
      Trans chk fetch s (.acquire t) { s with tasks := s.tasks.set t (.holding i lock location kind) }
  | load {t i lock location : Nat} {kind : Kind} {content : Bytes}
      (ht : s.tasks[t]? = some (.loading i lock location kind))
      (h : provide fetch kind location ((s.memory[i]?).getD []).length = .ok content) :
      Trans chk fetch s (.load t)
        { s with memory := s.memory.set i content, tasks := s.tasks.set t (.holding i lock location kind) }
  | write {t i lock location : Nat} {kind : Kind} {content : Bytes}
      (ht : s.tasks[t]? = some (.holding i lock location kind)) (h : kind.write = true) :
      Trans chk fetch s (.write t content) { s with memory := s.memory.set i content }
  | release {t i lock location : Nat} {kind : Kind} {p : Pool}
      (ht : s.tasks[t]? = some (.holding i lock location kind)) (h : Released s.pool i p) :
      Trans chk fetch s (.release t) { s with pool := p, tasks := s.tasks.set t (.leaving lock kind.write) }
  | drop {t lock : Nat} {w : Bool} (ht : s.tasks[t]? = some (.leaving lock w)) :
      Trans chk fetch s (.drop t) { s with tasks := s.tasks.set t .idle }

theorem step_trans {chk : Bool} {fetch : Nat → Res Bytes} {s s' : Sys} {a : Act}
    (h : step chk fetch s a = .ok (some s')) : Trans chk fetch s a s' := by
  cases a with
  | access t location kind =>
    simp only [step] at h
    split at h
    · rename_i ht
      rw [Res.bind_eq_ok] at h
      obtain ⟨r, hr, h⟩ := h
      cases r with
      | none => cases h
      | some r =>
        obtain ⟨p, g⟩ := r
        injection h with h
        injection h with h
        subst h
        exact .access ht (access_ok hr)
    · cases h
  | acquire t =>
    simp only [step] at h
    split at h
    · rename_i ht
      split at h
      · rename_i hm
        injection h with h
        injection h with h
        subst h
        exact .acquire ht hm
      · cases h
    · cases h
  | load t =>
    simp only [step] at h
    split at h
    · rename_i ht
      rw [Res.bind_eq_ok] at h
      obtain ⟨c, hc, h⟩ := h
      injection h with h
      injection h with h
      subst h
      exact .load ht hc
    · cases h
  | write t content =>
    simp only [step] at h
    split at h
    · rename_i ht
      split at h
      · rename_i hm
        injection h with h
        injection h with h
        subst h
        exact .write ht hm
      · cases h
    · cases h
  | release t =>
    simp only [step] at h
    split at h
    · rename_i ht
      rw [Res.bind_eq_ok] at h
      obtain ⟨p, hp, h⟩ := h
      injection h with h
      injection h with h
      subst h
      exact .release ht (release_ok hp)
    · cases h
  | drop t =>
    simp only [step] at h
    split at h
    · rename_i ht
      injection h with h
      injection h with h
      subst h
      exact .drop ht
    · cases h

/-! ## The invariant -/

/-- The access record of a buffer describes the tasks that use it. -/
def Described (tasks : List Task) (i : Nat) : Option (Option Access) → Prop
  | none => users tasks i = 0
  | some none => users tasks i = 0
  | some (some a) => 0 < a.handles ∧ a.handles = users tasks i ∧
      ∀ t ∈ tasks, t.buffer = some i → t.bufferLock = a.lock

structure Inv (s : Sys) : Prop where
  described : ∀ i, Described s.tasks i (acc s.pool.buffers i)
  locks : s.pool.locks.Nodup
  known : ∀ l ∈ s.pool.locks, l < s.pool.nextLock
  used : ∀ i a, acc s.pool.buffers i = some (some a) → a.lock < s.pool.nextLock ∧ a.lock ∉ s.pool.locks
  own : ∀ i j a b, acc s.pool.buffers i = some (some a) → acc s.pool.buffers j = some (some b) → a.lock = b.lock → i = j
  guards : ∀ (m n : Nat) (x y : Task) (l : Nat) (w w' : Bool), m ≠ n → s.tasks[m]? = some x → s.tasks[n]? = some y → x.guard = some (l, w) →
    y.guard = some (l, w') → w = false ∧ w' = false

theorem countP_set {α : Type} (p : α → Bool) {l : List α} {t : Nat} {x : α} (h : l[t]? = some x) (y : α) :
    (l.set t y).countP p + (if p x then 1 else 0) = l.countP p + (if p y then 1 else 0) := by
  induction l generalizing t with
  | nil => cases h
  | cons z l ih =>
    cases t with
    | zero =>
      injection h with h
      subst h
      simp only [List.set_cons_zero, List.countP_cons]
      omega
    | succ t =>
      have := ih (t := t) h
      simp only [List.set_cons_succ, List.countP_cons]
      omega

theorem users_set {tasks : List Task} {t : Nat} {x : Task} (h : tasks[t]? = some x) (y : Task) (i : Nat) :
    users (tasks.set t y) i + (if x.buffer = some i then 1 else 0) =
      users tasks i + (if y.buffer = some i then 1 else 0) := by
  have := countP_set (fun t : Task => t.buffer == some i) h y
  simp only [beq_iff_eq] at this
  exact this

theorem users_le (tasks : List Task) (i : Nat) : users tasks i ≤ tasks.length := List.countP_le_length

theorem users_zero {tasks : List Task} {i : Nat} (h : users tasks i = 0) {t : Task} (ht : t ∈ tasks) :
    t.buffer ≠ some i := by
  have := List.countP_eq_zero.1 h t ht
  simpa using this

theorem users_pos {tasks : List Task} {i : Nat} {t : Task} (ht : t ∈ tasks) (h : t.buffer = some i) :
    0 < users tasks i := List.countP_pos_iff.2 ⟨t, ht, by simpa using h⟩

/-- The buffer of a task has an access record with the lock of the task. -/
theorem Inv.record {s : Sys} (h : Inv s) {t : Task} (ht : t ∈ s.tasks) {i : Nat} (hb : t.buffer = some i) :
    ∃ a, acc s.pool.buffers i = some (some a) ∧ t.bufferLock = a.lock := by
  have h1 := h.described i
  cases e : acc s.pool.buffers i with
  | none => rw [e] at h1; exact absurd hb (users_zero h1 ht)
  | some o =>
    cases o with
    | none => rw [e] at h1; exact absurd hb (users_zero h1 ht)
    | some a =>
      rw [e] at h1
      exact ⟨a, rfl, h1.2.2 t ht hb⟩

theorem mem_of_set {α : Type} {l : List α} {t : Nat} {x y : α} (h : x ∈ l.set t y) : x ∈ l ∨ x = y :=
  List.mem_or_eq_of_mem_set h

theorem getElem?_set_cases {α : Type} {l : List α} {t m : Nat} {x y z : α} (ht : l[t]? = some x)
    (h : (l.set t y)[m]? = some z) : (m = t ∧ z = y) ∨ (m ≠ t ∧ l[m]? = some z) := by
  rw [List.getElem?_set] at h
  by_cases e : t = m
  · subst e
    have hl := (List.getElem?_eq_some_iff.1 ht).1
    simp [hl] at h
    exact .inl ⟨rfl, h.symm⟩
  · rw [if_neg e] at h
    exact .inr ⟨fun h => e h.symm, h⟩

/-- Guards stay exclusive when a task changes to a state whose guard is compatible with all others. -/
theorem guards_set {tasks : List Task} {t : Nat} {x y : Task} (ht : tasks[t]? = some x)
    (h : ∀ (m n : Nat) (x y : Task) (l : Nat) (w w' : Bool), m ≠ n → tasks[m]? = some x → tasks[n]? = some y → x.guard = some (l, w) →
      y.guard = some (l, w') → w = false ∧ w' = false)
    (hy : ∀ (l : Nat) (w : Bool), y.guard = some (l, w) → ∀ (n : Nat) (z : Task) (w' : Bool), n ≠ t → tasks[n]? = some z → z.guard = some (l, w') →
      w = false ∧ w' = false) :
    ∀ (m n : Nat) (u v : Task) (l : Nat) (w w' : Bool), m ≠ n → (tasks.set t y)[m]? = some u → (tasks.set t y)[n]? = some v → u.guard = some (l, w) →
      v.guard = some (l, w') → w = false ∧ w' = false := by
  intro m n u v l w w' hmn hm hn hu hv
  rcases getElem?_set_cases ht hm with ⟨e, e'⟩ | ⟨e, hm2⟩
  · subst e'
    rcases getElem?_set_cases ht hn with ⟨e2, _⟩ | ⟨e2, hn⟩
    · exact absurd (e.trans e2.symm) hmn
    · exact hy l w hu n v w' e2 hn hv
  · rcases getElem?_set_cases ht hn with ⟨e2, e'⟩ | ⟨e2, hn⟩
    · subst e'
      exact (hy l w' hv m u w e hm2 hu).symm
    · exact h m n u v l w w' hmn hm2 hn hu hv

theorem not_held {tasks : List Task} {lock : Nat} (h : held tasks lock = false) {t : Task} (ht : t ∈ tasks) (w : Bool) :
    t.guard ≠ some (lock, w) := by
  intro e
  unfold held at h
  rw [List.any_eq_false] at h
  have := h t ht
  rw [e] at this
  simp at this

theorem not_heldWrite {tasks : List Task} {lock : Nat} (h : heldWrite tasks lock = false) {t : Task} (ht : t ∈ tasks) :
    t.guard ≠ some (lock, true) := by
  intro e
  unfold heldWrite at h
  rw [List.any_eq_false] at h
  have := h t ht
  rw [e] at this
  simp at this

/-- A task changes its state without giving up or getting a buffer. -/
theorem described_same {tasks : List Task} {t : Nat} {x y : Task} (ht : tasks[t]? = some x)
    (hb : y.buffer = x.buffer) (hl : y.bufferLock = x.bufferLock) {i : Nat} {o : Option (Option Access)}
    (h : Described tasks i o) : Described (tasks.set t y) i o := by
  have hu : users (tasks.set t y) i = users tasks i := by
    have := users_set ht y i
    rw [hb] at this
    omega
  have hm := List.mem_of_getElem? ht
  cases o with
  | none => simpa [Described, hu] using h
  | some o =>
    cases o with
    | none => simpa [Described, hu] using h
    | some a =>
      obtain ⟨h0, h1, h2⟩ := h
      refine ⟨h0, by rw [hu]; exact h1, ?_⟩
      intro z hz hzb
      rcases mem_of_set hz with hz | hz
      · exact h2 z hz hzb
      · subst hz
        rw [hl]
        exact h2 x hm (by rw [← hb]; exact hzb)

theorem described_other {tasks : List Task} {t : Nat} {x y : Task} (ht : tasks[t]? = some x) {i : Nat}
    (hx : x.buffer ≠ some i) (hy : y.buffer ≠ some i) {o : Option (Option Access)}
    (h : Described tasks i o) : Described (tasks.set t y) i o := by
  have hu : users (tasks.set t y) i = users tasks i := by
    have := users_set ht y i
    rw [if_neg hx, if_neg hy] at this
    omega
  cases o with
  | none => simpa [Described, hu] using h
  | some o =>
    cases o with
    | none => simpa [Described, hu] using h
    | some a =>
      obtain ⟨h0, h1, h2⟩ := h
      refine ⟨h0, by rw [hu]; exact h1, ?_⟩
      intro z hz hzb
      rcases mem_of_set hz with hz | hz
      · exact h2 z hz hzb
      · subst hz
        exact absurd hzb hy

/-- Every step keeps the invariant, if there are fewer than 2^32 tasks. -/
theorem Inv.step {chk : Bool} {fetch : Nat → Res Bytes} {s s' : Sys} {a : Act} (hi : Inv s)
    (hn : s.tasks.length < 2 ^ 32) (h : Trans chk fetch s a s') : Inv s' := by
  cases h with
  | @access t location kind p g ht h =>
    cases h with
    | opened ho hg hm =>
      have hidle : (Task.idle).buffer ≠ some g.index := by simp [Task.buffer]
      simp only [hg, if_true]
      have hlk : p.nextLock ≥ s.pool.nextLock ∧ g.lock < p.nextLock ∧ g.lock ∉ p.locks ∧ p.locks.Nodup ∧
          (∀ l ∈ p.locks, l ∈ s.pool.locks) ∧ ∀ i a, acc s.pool.buffers i = some (some a) → a.lock ≠ g.lock := by
        rcases ho.lock with ⟨h1, h2⟩ | ⟨h1, h2, h3, h4⟩
        · have hnd := hi.locks
          rw [h1] at hnd
          have hk := hi.known g.lock (by rw [h1]; exact List.mem_cons_self ..)
          refine ⟨by omega, by omega, (List.nodup_cons.1 hnd).1, (List.nodup_cons.1 hnd).2, ?_, ?_⟩
          · intro l hl; rw [h1]; exact List.mem_cons_of_mem _ hl
          · intro i a ha e
            exact (hi.used i a ha).2 (by rw [h1, e]; exact List.mem_cons_self ..)
        · refine ⟨by omega, by omega, by rw [h2]; simp, by rw [h2]; simp, by rw [h2]; simp, ?_⟩
          intro i a ha e
          have := (hi.used i a ha).1
          omega
      obtain ⟨k1, k2, k3, k4, k5, k6⟩ := hlk
      constructor
      · intro i
        simp only
        rw [ho.after]
        by_cases e : i = g.index
        · subst e
          rw [if_pos rfl]
          have hu0 := hi.described g.index
          rw [ho.before] at hu0
          have hu0 : users s.tasks g.index = 0 := hu0
          have hu := users_set ht (.loading g.index g.lock location kind) g.index
          rw [if_neg hidle, if_pos (show (Task.loading g.index g.lock location kind).buffer = some g.index from rfl)] at hu
          refine ⟨Nat.one_pos, by simp only; omega, ?_⟩
          intro z hz hzb
          rcases mem_of_set hz with hz | hz
          · exact absurd hzb (users_zero hu0 hz)
          · subst hz; rfl
        · rw [if_neg e]
          exact described_other ht (by simp [Task.buffer]) (by simp [Task.buffer]; exact fun h => e h.symm)
            (hi.described i)
      · exact k4
      · intro l hl
        have := hi.known l (k5 l hl)
        simp only
        omega
      · intro i a ha
        simp only at ha ⊢
        rw [ho.after] at ha
        by_cases e : i = g.index
        · rw [if_pos e] at ha
          injection ha with ha
          injection ha with ha
          subst ha
          exact ⟨k2, k3⟩
        · rw [if_neg e] at ha
          have h1 := hi.used i a ha
          exact ⟨by omega, fun h => h1.2 (k5 _ h)⟩
      · intro i j a b ha hb hab
        simp only at ha hb
        rw [ho.after] at ha hb
        by_cases e : i = g.index
        · rw [if_pos e] at ha
          injection ha with ha
          injection ha with ha
          subst ha
          by_cases e' : j = g.index
          · rw [e, e']
          · rw [if_neg e'] at hb
            exact absurd hab.symm (k6 j b hb)
        · rw [if_neg e] at ha
          by_cases e' : j = g.index
          · rw [if_pos e'] at hb
            injection hb with hb
            injection hb with hb
            subst hb
            exact absurd hab (k6 i a ha)
          · rw [if_neg e'] at hb
            exact hi.own i j a b ha hb hab
      · refine guards_set ht hi.guards ?_
        intro l w hy n z w' _ hz hzg
        injection hy with hy
        injection hy with e1 e2
        subst e1
        exact absurd hzg (not_held ho.free (List.mem_of_getElem? hz) w')
    | shared a n hf ha hg hl hn' after length same =>
      simp only [hg, Bool.false_eq_true, if_false]
      obtain ⟨m1, m2, m3⟩ := same
      have hd := hi.described g.index
      rw [ha] at hd
      obtain ⟨d0, d1, d2⟩ := hd
      have hle := users_le s.tasks g.index
      have hval : n = a.handles + 1 := by
        unfold addN at hn'
        split at hn'
        · injection hn' with hn'; exact hn'.symm
        · split at hn'
          · cases hn'
          · rename_i hbig _
            have hu := users_set ht (.waiting g.index g.lock location kind) g.index
            rw [if_neg (by simp [Task.buffer]), if_pos (show (Task.waiting g.index g.lock location kind).buffer = some g.index from rfl)] at hu
            have := users_le (s.tasks.set t (.waiting g.index g.lock location kind)) g.index
            rw [List.length_set] at this
            omega
      constructor
      · intro i
        simp only
        rw [after]
        by_cases e : i = g.index
        · subst e
          rw [if_pos rfl]
          have hu := users_set ht (.waiting g.index g.lock location kind) g.index
          rw [if_neg (by simp [Task.buffer]), if_pos (show (Task.waiting g.index g.lock location kind).buffer = some g.index from rfl)] at hu
          refine ⟨by simp only; omega, by simp only; omega, ?_⟩
          intro z hz hzb
          rcases mem_of_set hz with hz | hz
          · exact d2 z hz hzb
          · subst hz; exact hl
        · rw [if_neg e]
          exact described_other ht (by simp [Task.buffer]) (by simp [Task.buffer]; exact fun h => e h.symm)
            (hi.described i)
      · simp only; rw [m2]; exact hi.locks
      · simp only; rw [m2, m3]; exact hi.known
      · intro i b hb
        simp only at hb ⊢
        rw [m2, m3]
        rw [after] at hb
        by_cases e : i = g.index
        · rw [if_pos e] at hb
          injection hb with hb
          injection hb with hb
          subst hb
          exact hi.used _ a ha
        · rw [if_neg e] at hb
          exact hi.used i b hb
      · intro i j b c hb hc hbc
        simp only at hb hc
        have key : ∀ i b, acc p.buffers i = some (some b) → ∃ b', acc s.pool.buffers i = some (some b') ∧ b'.lock = b.lock := by
          intro i b hb
          rw [after] at hb
          by_cases e : i = g.index
          · rw [if_pos e] at hb
            injection hb with hb
            injection hb with hb
            subst hb
            exact ⟨a, by rw [e]; exact ha, rfl⟩
          · rw [if_neg e] at hb
            exact ⟨b, hb, rfl⟩
        obtain ⟨b', hb', e1⟩ := key i b hb
        obtain ⟨c', hc', e2⟩ := key j c hc
        exact hi.own i j b' c' hb' hc' (by rw [e1, e2]; exact hbc)
      · refine guards_set ht hi.guards ?_
        intro l w hy
        cases hy
  | @acquire t i lock location kind ht h =>
    constructor
    · intro j
      exact described_same (y := .holding i lock location kind) ht rfl rfl (hi.described j)
    · exact hi.locks
    · exact hi.known
    · exact hi.used
    · exact hi.own
    · refine guards_set ht hi.guards ?_
      intro l w hy n z w' _ hz hzg
      injection hy with hy
      injection hy with e1 e2
      subst e1
      unfold mayAcquire at h
      have hzm := List.mem_of_getElem? hz
      cases hk : kind.write with
      | true =>
        rw [hk] at h
        exact absurd hzg (not_held (by simpa using h) hzm w')
      | false =>
        rw [hk] at h
        refine ⟨by rw [← e2, hk], ?_⟩
        cases w' with
        | false => rfl
        | true => exact absurd hzg (not_heldWrite (by simpa using h) hzm)
  | @load t i lock location kind content ht h =>
    constructor
    · intro j
      exact described_same (y := .holding i lock location kind) ht rfl rfl (hi.described j)
    · exact hi.locks
    · exact hi.known
    · exact hi.used
    · exact hi.own
    · refine guards_set ht hi.guards ?_
      intro l w hy n z w' hne hz hzg
      injection hy with hy
      injection hy with e1 e2
      subst e1
      have := hi.guards t n _ z lock true w' (fun e => hne e.symm) ht hz rfl hzg
      exact absurd this.1 (by simp)
  | write ht h => exact ⟨hi.described, hi.locks, hi.known, hi.used, hi.own, hi.guards⟩
  | @release t i lock location kind p ht h =>
    have hm := List.mem_of_getElem? ht
    have hguards : ∀ (m n : Nat) (u v : Task) (l : Nat) (w w' : Bool), m ≠ n → (s.tasks.set t (.leaving lock kind.write))[m]? = some u →
        (s.tasks.set t (.leaving lock kind.write))[n]? = some v → u.guard = some (l, w) →
        v.guard = some (l, w') → w = false ∧ w' = false := by
      refine guards_set ht hi.guards ?_
      intro l w hy n z w' hne hz hzg
      injection hy with hy
      injection hy with e1 e2
      subst e1 e2
      exact hi.guards t n _ z lock _ w' (fun e => hne e.symm) ht hz rfl hzg
    have hu := users_set ht (.leaving lock kind.write) i
    rw [if_pos (by rfl), if_neg (by simp [Task.buffer])] at hu
    cases h with
    | kept a ha hn1 after length same =>
      obtain ⟨m1, m2, m3⟩ := same
      have hd := hi.described i
      rw [ha] at hd
      obtain ⟨d0, d1, d2⟩ := hd
      constructor
      · intro j
        simp only
        rw [after]
        by_cases e : j = i
        · subst e
          rw [if_pos rfl]
          refine ⟨by simp only; omega, by simp only; omega, ?_⟩
          intro z hz hzb
          rcases mem_of_set hz with hz | hz
          · exact d2 z hz hzb
          · subst hz; cases hzb
        · rw [if_neg e]
          exact described_other ht (by simp [Task.buffer]; exact fun h => e h.symm) (by simp [Task.buffer])
            (hi.described j)
      · simp only; rw [m2]; exact hi.locks
      · simp only; rw [m2, m3]; exact hi.known
      · intro j b hb
        simp only at hb ⊢
        rw [m2, m3]
        rw [after] at hb
        by_cases e : j = i
        · rw [if_pos e] at hb
          injection hb with hb
          injection hb with hb
          subst hb
          exact hi.used _ a ha
        · rw [if_neg e] at hb
          exact hi.used j b hb
      · intro j k b c hb hc hbc
        simp only at hb hc
        have key : ∀ j b, acc p.buffers j = some (some b) → ∃ b', acc s.pool.buffers j = some (some b') ∧ b'.lock = b.lock := by
          intro j b hb
          rw [after] at hb
          by_cases e : j = i
          · rw [if_pos e] at hb
            injection hb with hb
            injection hb with hb
            subst hb
            exact ⟨a, by rw [e]; exact ha, rfl⟩
          · rw [if_neg e] at hb
            exact ⟨b, hb, rfl⟩
        obtain ⟨b', hb', e1⟩ := key j b hb
        obtain ⟨c', hc', e2⟩ := key k c hc
        exact hi.own j k b' c' hb' hc' (by rw [e1, e2]; exact hbc)
      · exact hguards
    | retired a ha hn1 after length same =>
      obtain ⟨m1, m2, m3⟩ := same
      have hd := hi.described i
      rw [ha] at hd
      obtain ⟨d0, d1, d2⟩ := hd
      have hused := hi.used i a ha
      have key : ∀ j b, acc p.buffers j = some (some b) → j ≠ i ∧ acc s.pool.buffers j = some (some b) := by
        intro j b hb
        rw [after] at hb
        by_cases e : j = i
        · rw [if_pos e] at hb
          injection hb with hb
          cases hb
        · rw [if_neg e] at hb
          exact ⟨e, hb⟩
      constructor
      · intro j
        simp only
        rw [after]
        by_cases e : j = i
        · subst e
          rw [if_pos rfl]
          show users _ _ = 0
          omega
        · rw [if_neg e]
          exact described_other ht (by simp [Task.buffer]; exact fun h => e h.symm) (by simp [Task.buffer])
            (hi.described j)
      · simp only; rw [m2]; exact List.nodup_cons.2 ⟨hused.2, hi.locks⟩
      · simp only; rw [m2, m3]
        intro l hl
        rcases List.mem_cons.1 hl with hl | hl
        · rw [hl]; exact hused.1
        · exact hi.known l hl
      · intro j b hb
        simp only at hb ⊢
        rw [m2, m3]
        obtain ⟨e, hb⟩ := key j b hb
        have h1 := hi.used j b hb
        refine ⟨h1.1, fun hc => ?_⟩
        rcases List.mem_cons.1 hc with hc | hc
        · exact e (hi.own j i b a hb ha hc)
        · exact h1.2 hc
      · intro j k b c hb hc hbc
        exact hi.own j k b c (key j b hb).2 (key k c hc).2 hbc
      · exact hguards
  | @drop t lock w ht =>
    constructor
    · intro j
      exact described_same (y := .idle) ht rfl rfl (hi.described j)
    · exact hi.locks
    · exact hi.known
    · exact hi.used
    · exact hi.own
    · refine guards_set ht hi.guards ?_
      intro l w hy
      cases hy

/-! ## Reachable states -/

theorem Trans.tasks_length {chk : Bool} {fetch : Nat → Res Bytes} {s s' : Sys} {a : Act}
    (h : Trans chk fetch s a s') : s'.tasks.length = s.tasks.length := by
  cases h <;> simp

theorem Reach.inv {chk : Bool} {fetch : Nat → Res Bytes} {s s' : Sys} (h : Reach chk fetch s s') (hi : Inv s)
    (hn : s.tasks.length < 2 ^ 32) : Inv s' ∧ s'.tasks.length = s.tasks.length := by
  induction h with
  | refl => exact ⟨hi, rfl⟩
  | next _ hs ih =>
    have ht := step_trans hs
    exact ⟨ih.1.step (by rw [ih.2]; exact hn) ht, by rw [ht.tasks_length, ih.2]⟩

/-- A new system satisfies the invariant. -/
theorem inv_start {p : Pool} {memory : List Bytes} {n : Nat} (ha : ∀ b ∈ p.buffers, b.access = none)
    (hl : p.locks = []) : Inv (Sys.start p memory n) := by
  have hacc : ∀ i a, acc p.buffers i ≠ some (some a) := by
    intro i a h
    unfold acc at h
    cases e : p.buffers[i]? with
    | none => rw [e] at h; cases h
    | some b =>
      rw [e] at h
      injection h with h
      have := ha b (List.mem_of_getElem? e)
      rw [show b.access = some a from h] at this
      cases this
  have hu : ∀ i, users (List.replicate n Task.idle) i = 0 := by
    intro i
    unfold users
    rw [List.countP_eq_zero]
    intro t ht
    rw [(List.mem_replicate.1 ht).2]
    simp [Task.buffer]
  constructor
  · intro i
    show Described (List.replicate n .idle) i (acc p.buffers i)
    cases e : acc p.buffers i with
    | none => exact hu i
    | some o =>
      cases o with
      | none => exact hu i
      | some a => exact absurd e (hacc i a)
  · show p.locks.Nodup
    rw [hl]; simp
  · show ∀ l ∈ p.locks, _
    rw [hl]; simp
  · intro i a h; exact absurd h (hacc i a)
  · intro i j a b h; exact absurd h (hacc i a)
  · intro m n' x y l w w' _ hm _ hx
    have : x ∈ List.replicate n Task.idle := List.mem_of_getElem? hm
    rw [(List.mem_replicate.1 this).2] at hx
    cases hx

end Verif.Storage
