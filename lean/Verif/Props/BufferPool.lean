import Verif.Proof.BufferGentle

/-! # Properties of the buffer pool: C46-C54, C76 -/

namespace Verif.Props

open Verif Verif.Storage Verif.Spec

/-! ## Examples -/

/-- A pool of two buffers as made by `BufferPool::new`. -/
def twoBuffers : Pool :=
  { buffers := [{ prev := nil, next := 1 }, { prev := 0, next := nil }], available := { head := 0, tail := 1 } }

theorem twoBuffers_new : Pool.new false 4096 2 true = .ok (some twoBuffers) := rfl

/-- Four tasks that use the pool. -/
def fourTasks : Sys := Sys.start twoBuffers [[1, 2], [3, 4]] 4

theorem reach_run {chk : Bool} {fetch : Nat → Res Bytes} {s s1 s' : Sys} {as : List Act} (h0 : Reach chk fetch s s1)
    (h : run chk fetch s1 as = .ok (some s')) : Reach chk fetch s s' := by
  induction as generalizing s1 with
  | nil => injection h with h; injection h with h; subst h; exact h0
  | cons a as ih =>
    unfold run at h
    split at h
    · rename_i hs
      exact ih (.next h0 hs) h
    · cases h
    · cases h

/-! ## C46 -/

/-- Every history of list operations that is possible on sequences succeeds on the linked lists and gives the same
sequences; nothing but the links of the buffers changes. -/
theorem C46_buffer_lists_are_sequences {heads : Nat → Head} {bs : List Buffer} {L L' : Nat → List Nat}
    {ops : List ListOp} (h : Holds heads bs L) (hr : ListRun bs.length L ops L') :
    ∃ heads' bs', runOps heads bs ops = .ok (heads', bs') ∧ Holds heads' bs' L' ∧ bs'.length = bs.length ∧
      bs'.map (fun b => (b.access, b.dirty)) = bs.map (fun b => (b.access, b.dirty)) := by
  obtain ⟨heads', bs', h1, h2, h3, h4⟩ := runOps_ok h hr
  exact ⟨heads', bs', h1, h4, h2, h3⟩

/-- A list of both buffers; buffer 0 is moved from the first list to the second. -/
example : ∃ L, Holds (poolHeads twoBuffers) twoBuffers.buffers L ∧ L 0 = [0, 1] ∧
    ListRun 2 L [.remove 0 0, .front 1 0] (update (update L 0 [1]) 1 [0]) := by
  obtain ⟨p, h1, _, _, _, _, _, h7⟩ := new_ok (size := 4096) (n := 2) (by decide) (by decide) (by decide)
  rw [twoBuffers_new] at h1
  injection h1 with h1
  injection h1 with h1
  subst h1
  refine ⟨startLists 2, h7, rfl, .cons (ListStep.remove (k := 0) (i := 0) (by decide)) (.cons (ListStep.front (k := 1) (i := 0) (by decide) ?_) .nil)⟩
  intro j hj
  unfold update startLists at hj
  split at hj
  · exact absurd hj (by decide)
  · cases hj

/-- Putting a buffer into a list is refused exactly if there is no such buffer or it is in a list with another one.  The
only buffer of a list has no links and is taken for a free one. -/
theorem C46_push_refused {heads : Nat → Head} {bs : List Buffer} {L : Nat → List Nat} (h : Holds heads bs L)
    (k i : Nat) (op : ListOp) (hop : op = .front k i ∨ op = .back k i) :
    (∃ e, runOp heads bs op = .error e) ↔ bs.length ≤ i ∨ ∃ j, i ∈ L j ∧ 2 ≤ (L j).length := by
  constructor
  · rintro ⟨e, he⟩
    apply Classical.byContradiction
    intro hn
    have hi : i < bs.length := by
      have := fun h => hn (.inl h); omega
    have hlink : linkOf bs i = some (nil, nil) := (h.no_links hi).2 fun j hj => by
      have h0 := List.length_pos_of_mem hj
      have h1 : ¬ 2 ≤ (L j).length := fun h => hn (.inr ⟨j, hj, h⟩)
      omega
    obtain ⟨b, hb⟩ : ∃ b, bs[i]? = some b := ⟨_, List.getElem?_eq_getElem hi⟩
    have hbl : b.prev = nil ∧ b.next = nil := by
      simpa [linkOf, hb] using hlink
    have hh := h.head k
    have hrange : ∀ x ∈ L k, ∀ bs' : List Buffer, bs'.length = bs.length → ∃ y, buf bs' x = .ok y := fun x hx bs' hbs' =>
      ⟨_, buf_of_lt (by rw [hbs']; exact h.range k x hx)⟩
    have hboth : ∀ {f : Res (Head × List Buffer)}, (f >>= fun x => pure (setHead heads k x.1, x.2)) = .error e →
        f = .error e := by
      intro f hf
      cases f with
      | error _ => simpa using hf
      | ok _ => simp at hf
    rcases nil_or_snoc (L k) with hL | ⟨ys, z, hL⟩
    · rw [hL] at hh
      rcases hop with rfl | rfl
      · have := hboth he
        simp [pushFront, buf_ok.2 hb, hbl.1, hbl.2, hh] at this
      · have := hboth he
        simp [pushBack, buf_ok.2 hb, hbl.1, hbl.2, hh] at this
    · obtain ⟨x, hx⟩ : ∃ x, (L k).head? = some x := by rw [hL]; cases ys <;> simp
      have hz : (L k).getLast? = some z := by rw [hL]; simp
      rw [hx, hz] at hh
      have hxm : x ∈ L k := List.mem_of_mem_head? hx
      have hzm : z ∈ L k := by rw [hL]; simp
      have hxn := h.ne_nil k x hxm
      have hzn := h.ne_nil k z hzm
      rcases hop with rfl | rfl
      · have := hboth he
        obtain ⟨y, hy⟩ := hrange x hxm (bs.set i { b with next := x }) (by simp)
        simp [pushFront, buf_ok.2 hb, hbl.1, hbl.2, hh, hxn, setNext, setPrev] at this hy
        rw [assert_true' (by simpa using hzn)] at this
        simp [hy] at this
      · have := hboth he
        obtain ⟨y, hy⟩ := hrange z hzm (bs.set i { b with prev := z }) (by simp)
        simp [pushBack, buf_ok.2 hb, hbl.1, hbl.2, hh, hzn, setNext, setPrev] at this hy
        rw [assert_true' (by simpa using hxn)] at this
        simp [hy] at this
  · intro hc
    have hlink : linkOf bs i ≠ some (nil, nil) := by
      rcases hc with hc | ⟨j, hj, h2⟩
      · simp [linkOf, List.getElem?_eq_none hc]
      · intro hl
        have := (h.no_links (h.range j i hj)).1 hl j hj
        omega
    obtain ⟨h1, h2⟩ := push_links (l := heads k) hlink
    rcases hop with rfl | rfl
    · exact ⟨_, by rw [runOp, h1]; rfl⟩
    · exact ⟨_, by rw [runOp, h2]; rfl⟩

/-- Buffer 0 is in a list of two and is refused by every list; buffer 2 does not exist. -/
example : ∃ L, Holds (poolHeads twoBuffers) twoBuffers.buffers L ∧ 0 ∈ L 0 ∧ 2 ≤ (L 0).length ∧
    twoBuffers.buffers.length ≤ 2 := by
  obtain ⟨p, h1, _, _, _, _, _, h7⟩ := new_ok (size := 4096) (n := 2) (by decide) (by decide) (by decide)
  rw [twoBuffers_new] at h1
  injection h1 with h1
  injection h1 with h1
  subst h1
  exact ⟨startLists 2, h7, by decide, by decide, by decide⟩

/-- Heads with one end only: `list_push_front` refuses both kinds, `list_push_back`, which tests the tail twice, refuses
only a head without a first element. -/
theorem C46_broken_head (bs : List Buffer) (i x : Nat) (hx : x ≠ nil) :
    (∃ e, pushFront ⟨nil, x⟩ bs i = .error e) ∧ (∃ e, pushFront ⟨x, nil⟩ bs i = .error e) ∧
    (∃ e, pushBack ⟨nil, x⟩ bs i = .error e) ∧
    (linkOf bs i = some (nil, nil) → pushBack ⟨x, nil⟩ bs i = .ok (⟨i, i⟩, bs)) := by
  by_cases hl : linkOf bs i = some (nil, nil)
  · unfold linkOf at hl
    cases hb : bs[i]? with
    | none => rw [hb] at hl; cases hl
    | some b =>
      rw [hb] at hl
      simp at hl
      refine ⟨?_, ?_, ?_, fun _ => ?_⟩
      · exact ⟨.panic, by simp [pushFront, buf_ok.2 hb, hl.1, hl.2, assert_false' (p := x == nil) (by simpa using hx)]⟩
      · simp [pushFront, buf_ok.2 hb, hl.1, hl.2, hx]
      · simp [pushBack, buf_ok.2 hb, hl.1, hl.2, hx]
      · simp [pushBack, buf_ok.2 hb, hl.1, hl.2]
  · exact ⟨⟨_, (push_links hl).1⟩, ⟨_, (push_links hl).1⟩, ⟨_, (push_links hl).2⟩, fun h => absurd h hl⟩

example : linkOf twoBuffers.buffers 0 ≠ some (nil, nil) ∧ linkOf [({} : Buffer)] 0 = some (nil, nil) := ⟨by decide, by decide⟩

/-! ## C47 -/

/-- In a build without overflow checks a new pool has all buffers in its available list, in order, and the other
lists are empty; no buffer has handles or is dirty and no location is mapped. -/
theorem C47_new_pool_partial {size n : Nat} (hs : ∃ k, size = 2 ^ k ∧ k < 64) (hn : 0 < n) (hlt : n < 2 ^ 32 - 1) :
    ∃ p, Pool.new false size n true = .ok (some p) ∧ p.buffers.length = n ∧
      (∃ L, Holds (poolHeads p) p.buffers L ∧ L 0 = List.range n ∧ ∀ k, k ≠ 0 → L k = []) ∧
      (∀ b ∈ p.buffers, b.access = none ∧ b.dirty = false) ∧ p.mapped = [] := by
  obtain ⟨k, rfl, hk⟩ := hs
  obtain ⟨p, h1, h2, h3, h4, _, _, h7⟩ := new_ok (isPow2_two_pow hk) hn hlt
  exact ⟨p, h1, h2, ⟨_, h7, rfl, fun k hk => if_neg hk⟩, h3, h4⟩

example : ∃ k, (4096 : Nat) = 2 ^ k ∧ k < 64 := ⟨12, rfl, by decide⟩

/-- In a build with overflow checks no pool can be made: the loop over the buffers computes `0 - 1`. -/
theorem C47_new_pool_refuted (size n : Nat) (hn : 0 < n) : ∃ e, Pool.new true size n true = .error e :=
  new_checked size n hn

/-! ## C48 -/

/-- Two accesses to the same location, with anything in between, are given the same buffer. -/
theorem C48_location_keeps_its_buffer {chk : Bool} {fetch : Nat → Res Bytes} {s s1 s2 s3 : Sys} {t u location : Nat}
    {k k' : Kind} (h1 : step chk fetch s (.access t location k) = .ok (some s1)) (hr : Reach chk fetch s1 s2)
    (h3 : step chk fetch s2 (.access u location k') = .ok (some s3)) :
    ∃ x y i, s1.tasks[t]? = some x ∧ s3.tasks[u]? = some y ∧ x.buffer = some i ∧ y.buffer = some i := by
  obtain ⟨x, i, hx, hxi, hf, _⟩ := access_find h1
  obtain ⟨y, j, hy, hyj, _, hj⟩ := access_find h3
  have := hj i (hr.find hf)
  subst this
  exact ⟨x, y, i, hx, hy, hxi, hyj⟩

/-- A second access after the release of the first. -/
example (fetch : Nat → Res Bytes) : ∃ s, run false fetch fourTasks
    [.access 0 7 .initialize, .load 0, .release 0, .drop 0, .access 1 7 .readOnly] = .ok (some s) ∧
    s.tasks[1]? = some (.loading 1 0 7 .readOnly) := ⟨_, rfl, rfl⟩

/-! ## C49 -/

/-- In every state of every execution, two locations have the same buffer exactly if more locations have been used than
there are buffers.

Full statement: different locations never have the same buffer; `C49_locations_share_refuted` shows that it is false. -/
theorem C49_locations_do_not_share_partial {chk : Bool} {fetch : Nat → Res Bytes} {size n tasks : Nat} {p : Pool}
    {memory : List Bytes} {s : Sys} (hp : Pool.new chk size n true = .ok (some p)) (ht : tasks < 2 ^ 32)
    (hr : Reach chk fetch (Sys.start p memory tasks) s) {ls : List Nat} (hu : Used s.pool ls) :
    (∃ l l' i, l ≠ l' ∧ s.pool.find l = some i ∧ s.pool.find l' = some i) ↔ n < ls.length := by
  obtain ⟨hg, _, hlen, _⟩ := good_start (memory := memory) hp ht
  have hf := hr.freshInv hg (freshInv_start hp ht)
  have hl : s.pool.buffers.length = n := by rw [hr.length]; exact hlen
  rw [share_iff hf (hr.good hg).shape, used_length hf.keys hu, hl]

/-- So tasks with different locations have different buffers as long as at most `n` locations have been used. -/
theorem C49_tasks_do_not_share_partial {chk : Bool} {fetch : Nat → Res Bytes} {size n tasks : Nat} {p : Pool}
    {memory : List Bytes} {s : Sys} (hp : Pool.new chk size n true = .ok (some p)) (ht : tasks < 2 ^ 32)
    (hr : Reach chk fetch (Sys.start p memory tasks) s) {ls : List Nat} (hu : Used s.pool ls) (hn : ls.length ≤ n)
    {x y : Task} {l l' i : Nat} (hx : x ∈ s.tasks) (hy : y ∈ s.tasks) (hl : x.location = some l)
    (hl' : y.location = some l') (hi : x.buffer = some i) (hi' : y.buffer = some i) : l = l' := by
  have hm := hr.tasksMapped tasksMapped_start
  obtain ⟨j, h1, h2⟩ := hm x hx l hl
  obtain ⟨j', h3, h4⟩ := hm y hy l' hl'
  rw [hi] at h1
  rw [hi'] at h3
  injection h1 with h1
  injection h3 with h3
  subst h1 h3
  apply Classical.byContradiction
  intro hne
  have := (C49_locations_do_not_share_partial hp ht hr hu).1 ⟨l, l', i, hne, h2, h4⟩
  omega

/-- The locations used can be listed in every state. -/
theorem used_listed {chk : Bool} {fetch : Nat → Res Bytes} {size n tasks : Nat} {p : Pool}
    {memory : List Bytes} {s : Sys} (hp : Pool.new chk size n true = .ok (some p)) (ht : tasks < 2 ^ 32)
    (hr : Reach chk fetch (Sys.start p memory tasks) s) : ∃ ls, Used s.pool ls :=
  ⟨_, used_exists (hr.freshInv (good_start (memory := memory) hp ht).1 (freshInv_start hp ht)).keys⟩

/-- Two locations on two buffers, with a release between the accesses. -/
example (fetch : Nat → Res Bytes) : ∃ s, Reach false fetch fourTasks s ∧ Used s.pool [8, 7] ∧
    s.pool.find 7 = some 1 ∧ s.pool.find 8 = some 0 := by
  refine ⟨_, reach_run (as := [.access 0 7 .initialize, .load 0, .release 0, .drop 0, .access 1 8 .initialize]) .refl rfl,
    ⟨by decide, fun l => ?_⟩, rfl, rfl⟩
  show _ ↔ ∃ i, List.lookup l [(8, 0), (7, 1)] = some i
  by_cases h8 : l = 8
  · subst h8; exact ⟨fun _ => ⟨0, rfl⟩, fun _ => by decide⟩
  · by_cases h7 : l = 7
    · subst h7; exact ⟨fun _ => ⟨1, rfl⟩, fun _ => by decide⟩
    · simp [List.lookup, beq_eq_false_iff_ne.2 h8, beq_eq_false_iff_ne.2 h7, h7, h8]

/-- Two buffers; location 10 is written and released, then location 12 is given the same buffer, and tasks 2 and 3
read both locations there at the same time. -/
def sharing : List Act :=
  [.access 0 10 .initialize, .access 1 11 .initialize, .load 0, .release 0, .drop 0, .access 0 12 .initialize, .load 0,
   .access 2 10 .readOnly, .access 3 12 .readOnly, .release 0, .drop 0, .acquire 2, .acquire 3]

/-- With releases, two handles for different locations can refer to the same buffer at the same time. -/
theorem C49_locations_share_refuted (fetch : Nat → Res Bytes) :
    ∃ s, Reach false fetch fourTasks s ∧ s.tasks[2]? = some (.holding 1 0 10 .readOnly) ∧
      s.tasks[3]? = some (.holding 1 0 12 .readOnly) :=
  ⟨_, reach_run (as := sharing) .refl rfl, rfl, rfl⟩

/-! ## C50 -/

/-- The three lists partition the buffers as long as the last handle of a buffer is released only when the buffer is
neither the first nor the last of its list.

Full statement: the lists always partition the buffers; `C50_lists_partition_refuted` shows that it is false. -/
theorem C50_lists_partition_partial {chk : Bool} {fetch : Nat → Res Bytes} {size n tasks : Nat} {p : Pool}
    {memory : List Bytes} {s : Sys} (hp : Pool.new chk size n true = .ok (some p)) (ht : tasks < 2 ^ 32)
    (hr : Gentle chk fetch (Sys.start p memory tasks) s) : Partitioned s.pool :=
  (hr.intact (good_start (memory := memory) hp ht).1 (intact_start hp ht)).1

/-- The first release of another kind destroys them, every time. -/
theorem C50_first_damage {chk : Bool} {fetch : Nat → Res Bytes} {size n tasks : Nat} {p : Pool}
    {memory : List Bytes} {s s' : Sys} {a : Act} (hp : Pool.new chk size n true = .ok (some p)) (ht : tasks < 2 ^ 32)
    (hr : Gentle chk fetch (Sys.start p memory tasks) s) (hs : step chk fetch s a = .ok (some s')) :
    Partitioned s'.pool ↔ GentleAct s a := by
  have hg := (good_start (memory := memory) hp ht).1
  exact ((hr.intact hg (intact_start hp ht)).step (hr.reach.good hg).inv hs).1

/-- Three buffers. -/
def threeBuffers : Pool :=
  { buffers := [{ prev := nil, next := 1 }, { prev := 0, next := 2 }, { prev := 1, next := nil }],
    available := { head := 0, tail := 2 } }

/-- Location 7 is released while buffer 1 is before its buffer 2 and buffer 0 after it. -/
example (fetch : Nat → Res Bytes) : Pool.new false 4096 3 true = .ok (some threeBuffers) ∧
    ∃ s, Gentle false fetch (Sys.start threeBuffers [[], [], []] 2) s ∧ s.tasks = [.leaving 0 true, .loading 1 1 8 .initialize] ∧
      s.pool.available = ⟨1, 0⟩ ∧ s.pool.dirty = ⟨2, 2⟩ := by
  refine ⟨rfl, _, .next (a := .release 0) (.next (a := .access 1 8 .initialize) (.next (a := .load 0)
    (.next (a := .access 0 7 .initialize) .refl ?_ rfl) ?_ rfl) ?_ rfl) ?_ rfl, rfl, rfl, rfl⟩
  · intro _ _ _ _ _ e; cases e
  · intro _ _ _ _ _ e; cases e
  · intro _ _ _ _ _ e; cases e
  · intro _ _ _ _ _ e h _
    cases e
    cases h
    exact ⟨1, 0, rfl, by decide, by decide⟩

/-- The first release of a written buffer destroys the lists, whatever the size of the pool. -/
theorem C50_lists_partition_refuted {chk : Bool} (fetch : Nat → Res Bytes) {size n tasks : Nat} {p : Pool}
    (memory : List Bytes) (hp : Pool.new chk size n true = .ok (some p)) (ht : tasks < 2 ^ 32) (h0 : 0 < tasks) :
    ∃ s, Reach chk fetch (Sys.start p memory tasks) s ∧ ¬ Partitioned s.pool := by
  obtain ⟨hg, hq, hlen, hn, hnil, hmap⟩ := good_start (memory := memory) hp ht
  have hidle : (Sys.start p memory tasks).tasks[0]? = some .idle := by
    show (List.replicate tasks Task.idle)[0]? = _
    rw [List.getElem?_replicate, if_pos h0]
  have hlen0 : (Sys.start p memory tasks).pool.buffers.length = n := hlen
  have hm0 : (Sys.start p memory tasks).pool.mapped = [] := hmap
  obtain ⟨p1, hp1, hh1⟩ := hq.access_new (chk := chk) (location := 7)
    (by unfold Pool.find; rw [hm0]; rfl) (by rw [hm0, hlen0]; exact hn)
  have hidx : (Sys.start p memory tasks).pool.buffers.length - (Sys.start p memory tasks).pool.mapped.length - 1 = n - 1 := by
    rw [hm0, hlen0]; rfl
  rw [hidx] at hp1
  have s1 : step chk fetch (Sys.start p memory tasks) (.access 0 7 .initialize) = .ok (some ⟨p1, memory,
      (List.replicate tasks .idle).set 0 (.loading (n - 1) (Sys.start p memory tasks).pool.nextLock 7 .initialize)⟩) := by
    simp only [step, hidle]
    rw [hp1, Res.bind_ok]
    rfl
  have hset : ∀ x : Task, ((List.replicate tasks Task.idle).set 0 x)[0]? = some x := by
    intro x
    rw [List.getElem?_set, if_pos rfl, if_pos (by simpa using h0)]
  have s2 : ∃ m, step chk fetch ⟨p1, memory,
      (List.replicate tasks .idle).set 0 (.loading (n - 1) (Sys.start p memory tasks).pool.nextLock 7 .initialize)⟩ (.load 0) =
      .ok (some ⟨p1, m, ((List.replicate tasks .idle).set 0
        (.loading (n - 1) (Sys.start p memory tasks).pool.nextLock 7 .initialize)).set 0
        (.holding (n - 1) (Sys.start p memory tasks).pool.nextLock 7 .initialize)⟩) := by
    refine ⟨memory.set (n - 1) (List.replicate ((memory[n - 1]?).getD []).length 0), ?_⟩
    simp only [step, hset]
    rfl
  obtain ⟨m, s2⟩ := s2
  have r2 : Reach chk fetch (Sys.start p memory tasks) _ := .next (.next .refl s1) s2
  have g2 := r2.good hg
  have hset2 : (((List.replicate tasks Task.idle).set 0
        (.loading (n - 1) (Sys.start p memory tasks).pool.nextLock 7 .initialize)).set 0
        (.holding (n - 1) (Sys.start p memory tasks).pool.nextLock 7 .initialize))[0]? =
        some (.holding (n - 1) (Sys.start p memory tasks).pool.nextLock 7 .initialize) := by
    rw [List.getElem?_set, if_pos rfl, if_pos (by simpa using h0)]
  have hp1acc := access_ok hp1
  cases hp1acc with
  | shared a k hf => unfold Pool.find at hf; rw [hm0] at hf; cases hf
  | opened ho _ hmapped =>
    have hacc : acc p1.buffers (n - 1) = some (some ⟨(Sys.start p memory tasks).pool.nextLock, 1⟩) := by
      rw [ho.after, if_pos rfl]
    obtain ⟨p3, hr3, _, ha3, hd3⟩ := release_total g2.shape hacc Nat.one_pos true
    have s3 : ∃ t3, step chk fetch ⟨p1, m, ((List.replicate tasks .idle).set 0
        (.loading (n - 1) (Sys.start p memory tasks).pool.nextLock 7 .initialize)).set 0
        (.holding (n - 1) (Sys.start p memory tasks).pool.nextLock 7 .initialize)⟩ (.release 0) =
        .ok (some ⟨p3, m, t3⟩) := by
      refine ⟨(((List.replicate tasks .idle).set 0
        (.loading (n - 1) (Sys.start p memory tasks).pool.nextLock 7 .initialize)).set 0
        (.holding (n - 1) (Sys.start p memory tasks).pool.nextLock 7 .initialize)).set 0
        (.leaving (Sys.start p memory tasks).pool.nextLock true), ?_⟩
      simp only [step, hset2]
      rw [show Kind.write .initialize = true from rfl, hr3, Res.bind_ok]
      rfl
    obtain ⟨t3, s3⟩ := s3
    refine ⟨_, .next r2 s3, ?_⟩
    rintro ⟨L, hL, _⟩
    rw [if_neg (Nat.lt_irrefl 1), Bool.or_true, if_pos rfl] at ha3 hd3
    have hhead : p1.available.head = n - 1 := by
      have := hh1.head 0
      have e : p1.mapped = [(7, n - 1)] := by
        rcases hmapped with ⟨_, e⟩ | ⟨hf, _⟩
        · rw [e, hm0]
        · unfold Pool.find at hf; rw [hm0] at hf; cases hf
      have e2 : quietLists p1 0 = (n - 1) :: List.range (p1.buffers.length - 1) := by
        unfold quietLists
        rw [if_pos rfl, e]
        rfl
      rw [e2] at this
      show (poolHeads p1 0).head = _
      rw [this]
      rfl
    have h0' := hL.head 0
    have h2' := hL.head 2
    have k0 : (L 0).head?.getD nil = n - 1 := by
      have : (poolHeads p3 0).head = n - 1 := by show p3.available.head = _; rw [ha3, hhead]
      rw [h0'] at this; exact this
    have k2 : (L 2).head?.getD nil = n - 1 := by
      have : (poolHeads p3 2).head = n - 1 := hd3
      rw [h2'] at this; exact this
    have hmem : ∀ k, (L k).head?.getD nil = n - 1 → n - 1 ∈ L k := by
      intro k hk
      cases e : (L k).head? with
      | none => rw [e] at hk; simp at hk; omega
      | some x =>
        rw [e] at hk
        have hk : x = n - 1 := hk
        rw [← hk]
        exact List.mem_of_mem_head? e
    exact hL.apart 0 2 (by decide) _ (hmem 0 k0) (hmem 2 k2)

example : ∃ p, Pool.new false 4096 2 true = .ok (some p) := ⟨_, twoBuffers_new⟩

/-! ## C51 -/

/-- In every state of every execution in which fewer locations than buffers have been used, access to another location
succeeds at once, unless the lock it would take is still held by a task that is about to drop it.

Full statement: access waits for a buffer when there is none and succeeds otherwise; `C51_exhausted_pool_refuted` shows
that it is false. -/
theorem C51_pool_with_room_partial {chk : Bool} {fetch : Nat → Res Bytes} {size n tasks : Nat} {p : Pool}
    {memory : List Bytes} {s : Sys} (hp : Pool.new chk size n true = .ok (some p)) (ht : tasks < 2 ^ 32)
    (hr : Reach chk fetch (Sys.start p memory tasks) s) {ls : List Nat} (hu : Used s.pool ls) (hn : ls.length < n)
    {t location : Nat} {kind : Kind} (hi : s.tasks[t]? = some .idle) (hf : s.pool.find location = none) :
    (∃ s', step chk fetch s (.access t location kind) = .ok (some s')) ↔
      ¬ ∃ l ls w, s.pool.locks = l :: ls ∧ .leaving l w ∈ s.tasks := by
  obtain ⟨hg, _, hlen, _⟩ := good_start (memory := memory) hp ht
  have hfi := hr.freshInv hg (freshInv_start hp ht)
  have g := hr.good hg
  have hl : s.pool.buffers.length = n := by rw [hr.length]; exact hlen
  rw [used_length hfi.keys hu] at hn
  have f := hfi.fresh (by omega)
  have htail := f.tail (by omega)
  have hacc := f.unused s.pool.available.tail (by omega)
  have hnil : s.pool.available.tail ≠ nil := by have := f.small; omega
  have hacs : s.pool.access chk (held s.tasks) location = s.pool.accessNew (held s.tasks) location := by
    unfold Pool.access; rw [hf]
  rcases accessNew_total g.shape (held s.tasks) location with ⟨h1, _⟩ | ⟨_, h2, h3⟩ | ⟨_, _, h3, p', gr, h4, _⟩
  · exact absurd h1 hnil
  · rcases h2 with ⟨a, h2⟩ | ⟨_, h2⟩
    · rw [hacc] at h2; cases h2
    · refine ⟨?_, fun h => absurd ?_ h⟩
      · rintro ⟨s', hs'⟩
        simp only [step, hi] at hs'
        rw [hacs, h3] at hs'
        cases hs'
      · obtain ⟨l, ls, w, q⟩ := g.held h2
        exact ⟨l, ls, w, q⟩
  · refine ⟨fun _ => ?_, fun _ => ?_⟩
    · rintro ⟨l, ls, w, q1, q2⟩
      rw [held_leaving q1 q2] at h3
      cases h3
    · exact ⟨_, by simp only [step, hi]; rw [hacs, h4, Res.bind_ok]; rfl⟩

/-- One location of two buffers has been used and released, and its lock has been dropped. -/
example (fetch : Nat → Res Bytes) : ∃ s, Reach false fetch fourTasks s ∧ s.pool.mapped = [(7, 1)] ∧
    s.tasks[0]? = some .idle ∧ s.pool.find 8 = none ∧ s.pool.locks = [0] ∧ s.tasks = List.replicate 4 .idle :=
  ⟨_, reach_run (as := [.access 0 7 .initialize, .load 0, .release 0, .drop 0]) .refl rfl, rfl, rfl, rfl, rfl, rfl⟩

/-- When all buffers are in use, access to a new location panics instead of waiting, whatever the size of the pool. -/
theorem C51_exhausted_pool_refuted {chk : Bool} (fetch : Nat → Res Bytes) {size n tasks : Nat} {p : Pool}
    (memory : List Bytes) (hp : Pool.new chk size n true = .ok (some p)) (ht : tasks < 2 ^ 32) (h0 : n < tasks) :
    ∃ s, Reach chk fetch (Sys.start p memory tasks) s ∧ (∀ i, i < n → ∃ a, acc s.pool.buffers i = some (some a)) ∧
      s.tasks[n]? = some .idle ∧ s.pool.find n = none ∧ ∀ kind, step chk fetch s (.access n n kind) = .error .panic := by
  obtain ⟨hg, hq, hlen, hn, hnil, hmap⟩ := good_start (memory := memory) hp ht
  have hlen0 : (Sys.start p memory tasks).pool.buffers.length = n := hlen
  have htl : (Sys.start p memory tasks).tasks.length = tasks := List.length_replicate
  obtain ⟨s, h1, h2, h3, h4⟩ := fill fetch (chk := chk) hg hq hmap (fun j hj => by
    show (List.replicate tasks Task.idle)[j]? = _
    rw [List.getElem?_replicate, if_pos (by omega)]) n (by omega) (by omega)
  obtain ⟨g, q⟩ := h1.inv hg hq
  have hl : s.pool.buffers.length = n := by rw [h1.reach.length]; exact hlen
  have hi := h3 n (Nat.le_refl _) (by omega)
  have hf := h4 n (Nat.le_refl _)
  refine ⟨s, h1.reach, ?_, hi, hf, ?_⟩
  · intro i hin
    have hc := q.cover i (by omega)
    unfold quietLists at hc
    rw [if_pos rfl, hl, h2, Nat.sub_self, List.mem_append] at hc
    rcases hc with hc | hc
    · exact q.inUse i hc
    · cases hc
  · intro kind
    simp only [step, hi]
    rw [q.access_full (chk := chk) hf (by omega) (by omega)]
    rfl

/-- No task ever waits for a buffer: in every state of every execution, an access is granted or panics. -/
theorem C51_never_waits_refuted {chk : Bool} {fetch : Nat → Res Bytes} {size n tasks : Nat} {p : Pool}
    {memory : List Bytes} {s : Sys} (hp : Pool.new chk size n true = .ok (some p)) (ht : tasks < 2 ^ 32)
    (hr : Reach chk fetch (Sys.start p memory tasks) s) {t : Nat} (hi : s.tasks[t]? = some .idle)
    (location : Nat) (kind : Kind) : step chk fetch s (.access t location kind) ≠ .ok none := by
  obtain ⟨hg, _, hlen, hn, hnil, _⟩ := good_start (memory := memory) hp ht
  have f := (freshInv_start (memory := memory) hp ht).fresh
  have htail := hr.tail hg (by
    have hm : (Sys.start p memory tasks).pool.mapped = [] := by assumption
    have hl : (Sys.start p memory tasks).pool.buffers.length = n := hlen
    have f := f (by rw [hm]; exact Nat.zero_le _)
    have := f.tail (by rw [hm, hl]; simpa using hn)
    rw [hm, hl] at this
    simp only [List.length_nil] at this
    omega)
  have g := hr.good hg
  intro h
  simp only [step, hi] at h
  obtain ⟨r, hr, h⟩ := Res.bind_eq_ok.1 h
  cases r with
  | some r => cases h
  | none =>
    unfold Pool.access at hr
    split at hr
    · rcases accessNew_total g.shape (held s.tasks) location with ⟨h1, _⟩ | ⟨_, _, h1⟩ | ⟨_, _, _, _, _, h1, _⟩
      · exact htail h1
      · rw [h1] at hr; cases hr
      · rw [h1] at hr; cases hr
    · unfold Pool.accessMapped at hr
      obtain ⟨b, _, hr⟩ := Res.bind_eq_ok.1 hr
      split at hr
      · obtain ⟨_, _, hr⟩ := Res.bind_eq_ok.1 hr
        cases hr
      · obtain ⟨_, _, hr⟩ := Res.bind_eq_ok.1 hr
        cases hr

/-- Both buffers are in use, and a third task asks for another location. -/
example (fetch : Nat → Res Bytes) : ∃ s, Reach false fetch fourTasks s ∧ s.tasks[2]? = some .idle ∧
    s.pool.mapped = [(8, 0), (7, 1)] ∧ ∀ kind, step false fetch s (.access 2 9 kind) = .error .panic :=
  ⟨_, reach_run (as := [.access 0 7 .initialize, .load 0, .access 1 8 .initialize, .load 1]) .refl rfl, rfl, rfl,
    fun _ => rfl⟩

/-! ## C52 -/

/-- As long as some task keeps using a buffer that has been loaded, the buffer contains what was written to it last. -/
theorem C52_written_data_partial {chk : Bool} {fetch : Nat → Res Bytes} {size n tasks : Nat} {p : Pool}
    {memory : List Bytes} {s s' : Sys} (hp : Pool.new chk size n true = .ok (some p)) (ht : tasks < 2 ^ 32)
    (hm : memory.length = n) (hr : Reach chk fetch (Sys.start p memory tasks) s) {t i lock location : Nat} {kind : Kind}
    (hh : s.tasks[t]? = some (.holding i lock location kind)) {last : Option Bytes} (hk : Kept chk fetch i s last s') :
    s'.memory[i]? = some (last.getD ((s.memory[i]?).getD [])) := by
  obtain ⟨hg, _, hlen, _⟩ := good_start (memory := memory) hp ht
  have g := hr.good hg
  have hml : ∀ {s}, Reach chk fetch (Sys.start p memory tasks) s → s.memory.length = n := by
    intro s hr
    induction hr with
    | refl => exact hm
    | next _ hs ih => rw [← ih]; cases step_trans hs <;> simp
  have hmem := List.mem_of_getElem? hh
  obtain ⟨a, h1, h2⟩ := g.inv.record hmem (i := i) rfl
  have h2 : lock = a.lock := h2
  have hin : i < n := by
    have h3 : i < s.pool.buffers.length := by
      obtain ⟨b, hb, _⟩ := buf_acc h1
      exact (acc_of_buf hb).2
    rw [hr.length] at h3
    have h4 : i < p.buffers.length := h3
    omega
  refine (hk.memory g ?_ (users_pos hmem (by rfl)) (by rw [hml hr]; exact hin)).1
  intro u hu lock' location' kind' e
  subst e
  obtain ⟨b, h3, h4⟩ := g.inv.record hu (i := i) rfl
  rw [h1] at h3
  injection h3 with h3
  injection h3 with h3
  subst h3
  have h4 : lock' = a.lock := h4
  obtain ⟨m, hm'⟩ := List.getElem?_of_mem hu
  by_cases e : t = m
  · subst e
    rw [hh] at hm'
    cases hm'
  · have := g.inv.guards t m _ _ lock kind.write true e hh hm' rfl (by rw [h2, ← h4]; rfl)
    exact absurd this.2 (by simp)

/-- Task 0 writes and releases while task 1 waits; task 1 then sees what task 0 wrote. -/
example (fetch : Nat → Res Bytes) : ∃ s1 s2, run false fetch fourTasks [.access 0 7 .initialize, .load 0] = .ok (some s1) ∧
    s1.tasks[0]? = some (.holding 1 0 7 .initialize) ∧ Kept false fetch 1 s1 (some [8, 9]) s2 ∧
    s2.tasks[1]? = some (.holding 1 0 7 .readOnly) ∧ s2.memory[1]? = some [8, 9] :=
  ⟨_, _, rfl, rfl,
    .other (a := .acquire 1) (.other (a := .drop 0) (.other (a := .release 0)
      (.other (a := .access 1 7 .readOnly)
        (.write (t := 0) (content := [8, 9]) .refl rfl rfl (by decide))
        (fun _ _ _ e => by cases e) rfl (by decide)) (fun _ _ _ e => by cases e) rfl (by decide))
      (fun _ _ _ e => by cases e) rfl (by decide)) (fun _ _ _ e => by cases e) rfl (by decide),
    rfl, rfl⟩

/-- If the last handle is released in between, the next access reads the block from the volume again and what was
written is lost. -/
theorem C52_written_data_refuted :
    ∃ s, Reach false (fun _ => .ok [5, 5]) fourTasks s ∧ run false (fun _ => .ok [5, 5]) fourTasks
        [.access 0 7 .readWrite, .load 0, .write 0 [8, 9], .release 0, .drop 0, .access 1 7 .readOnly, .load 1] =
        .ok (some s) ∧
      s.tasks[1]? = some (.holding 1 0 7 .readOnly) ∧ s.memory[1]? = some [5, 5] :=
  ⟨_, reach_run (as := [.access 0 7 .readWrite, .load 0, .write 0 [8, 9], .release 0, .drop 0, .access 1 7 .readOnly, .load 1])
    .refl rfl, rfl, rfl, rfl⟩

/-! ## C53 -/

/-- In every state of every execution, the recorded number of handles of a buffer is the number of tasks that use it,
and a buffer without a record is used by nobody. -/
theorem C53_handle_counts {chk : Bool} {fetch : Nat → Res Bytes} {size n tasks : Nat} {p : Pool}
    {memory : List Bytes} {s : Sys} (hp : Pool.new chk size n true = .ok (some p)) (ht : tasks < 2 ^ 32)
    (hr : Reach chk fetch (Sys.start p memory tasks) s) (i : Nat) :
    (∀ a, acc s.pool.buffers i = some (some a) → 0 < a.handles ∧ a.handles = users s.tasks i) ∧
    (acc s.pool.buffers i = some none → users s.tasks i = 0) := by
  have g := hr.good (good_start (memory := memory) hp ht).1
  have hd := g.inv.described i
  constructor
  · intro a ha
    rw [ha] at hd
    exact ⟨hd.1, hd.2.1⟩
  · intro ha
    rw [ha] at hd
    exact hd

/-- A release never fails.  It returns the lock to the free locks exactly if it was the last handle. -/
theorem C53_release {chk : Bool} {fetch : Nat → Res Bytes} {size n tasks : Nat} {p : Pool}
    {memory : List Bytes} {s : Sys} (hp : Pool.new chk size n true = .ok (some p)) (ht : tasks < 2 ^ 32)
    (hr : Reach chk fetch (Sys.start p memory tasks) s) {t i lock location : Nat} {kind : Kind}
    (hh : s.tasks[t]? = some (.holding i lock location kind)) :
    ∃ s', step chk fetch s (.release t) = .ok (some s') ∧
      s'.pool.locks = (if users s.tasks i = 1 then lock :: s.pool.locks else s.pool.locks) ∧
      acc s'.pool.buffers i = some (if users s.tasks i = 1 then none else some ⟨lock, users s.tasks i - 1⟩) := by
  have g := hr.good (good_start (memory := memory) hp ht).1
  obtain ⟨a, h1, h2⟩ := g.inv.record (List.mem_of_getElem? hh) (i := i) rfl
  have h2 : lock = a.lock := h2
  have hd := g.inv.described i
  rw [h1] at hd
  obtain ⟨p', h3, _⟩ := g.release hh
  refine ⟨⟨p', s.memory, s.tasks.set t (.leaving lock kind.write)⟩, by simp only [step, hh]; rw [h3, Res.bind_ok]; rfl, ?_⟩
  cases release_ok h3 with
  | kept b hb hn after length same =>
    rw [h1] at hb
    injection hb with hb
    injection hb with hb
    subst hb
    rw [← hd.2.1, if_neg (by omega), if_neg (by omega)]
    refine ⟨same.2.1, ?_⟩
    show acc p'.buffers i = _
    rw [after, if_pos rfl, h2]
  | retired b hb hn after length same =>
    rw [h1] at hb
    injection hb with hb
    injection hb with hb
    subst hb
    rw [← hd.2.1, if_pos hn, if_pos hn]
    refine ⟨by rw [h2]; exact same.2.1, ?_⟩
    show acc p'.buffers i = _
    rw [after, if_pos rfl]

/-- No other step returns a lock, and the lock of a buffer in use is never among the free ones. -/
theorem C53_free_locks {chk : Bool} {fetch : Nat → Res Bytes} {size n tasks : Nat} {p : Pool}
    {memory : List Bytes} {s : Sys} (hp : Pool.new chk size n true = .ok (some p)) (ht : tasks < 2 ^ 32)
    (hr : Reach chk fetch (Sys.start p memory tasks) s) :
    s.pool.locks.Nodup ∧ (∀ i a, acc s.pool.buffers i = some (some a) → a.lock ∉ s.pool.locks) ∧
    ∀ a s', (∀ t, a ≠ .release t) → step chk fetch s a = .ok (some s') → ∀ l ∈ s'.pool.locks, l ∈ s.pool.locks := by
  have g := hr.good (good_start (memory := memory) hp ht).1
  refine ⟨g.inv.locks, fun i a ha => (g.inv.used i a ha).2, ?_⟩
  intro a s' ha hs l hl
  cases step_trans hs with
  | access _ hac =>
    cases hac with
    | opened ho _ _ =>
      rcases ho.lock with ⟨h1, _⟩ | ⟨_, h1, _⟩
      · rw [h1]; exact List.mem_cons_of_mem _ hl
      · have hl : l ∈ _ := hl
        simp only at hl
        rw [h1] at hl; cases hl
    | shared _ _ _ _ _ _ _ _ _ same =>
      simp only at hl
      rw [same.2.1] at hl; exact hl
  | release => exact absurd rfl (ha _)
  | acquire => exact hl
  | load => exact hl
  | write => exact hl
  | drop => exact hl

/-- Two tasks on the same buffer, one of which releases. -/
example (fetch : Nat → Res Bytes) : ∃ s s', run false fetch fourTasks
    [.access 0 7 .initialize, .load 0, .access 1 7 .readOnly] = .ok (some s) ∧
    s.tasks[0]? = some (.holding 1 0 7 .initialize) ∧ users s.tasks 1 = 2 ∧
    acc s.pool.buffers 1 = some (some ⟨0, 2⟩) ∧ step false fetch s (.release 0) = .ok (some s') ∧
    acc s'.pool.buffers 1 = some (some ⟨0, 1⟩) := ⟨_, _, rfl, rfl, rfl, rfl, rfl, rfl⟩

/-- C52 is false in every state: if the only task that uses a buffer releases it and then accesses the same location
again, the buffer contains what `fetch` returns, whatever had been written. -/
theorem C52_always_lost_refuted {chk : Bool} {fetch : Nat → Res Bytes} {size n tasks : Nat} {p : Pool}
    {memory : List Bytes} {s : Sys} (hp : Pool.new chk size n true = .ok (some p)) (ht : tasks < 2 ^ 32)
    (hm : memory.length = n) (hr : Reach chk fetch (Sys.start p memory tasks) s) {t i lock location : Nat} {kind : Kind}
    (hh : s.tasks[t]? = some (.holding i lock location kind)) (hone : users s.tasks i = 1)
    (hlock : ∀ w, .leaving lock w ∉ s.tasks) {c : Bytes} (hc : fetch location = .ok c) :
    ∃ s', run chk fetch s [.release t, .drop t, .access t location .readOnly, .load t] = .ok (some s') ∧
      s'.tasks[t]? = some (.holding i lock location .readOnly) ∧ s'.memory[i]? = some c := by
  have hlt := (List.getElem?_eq_some_iff.1 hh).1
  obtain ⟨s1, h1, h2, h3⟩ := C53_release hp ht hr hh
  rw [if_pos hone] at h2 h3
  have ht1 : s1.tasks = s.tasks.set t (.leaving lock kind.write) ∧ s1.memory = s.memory := by
    have h1' := h1
    simp only [step, hh] at h1'
    obtain ⟨p', _, h1'⟩ := Res.bind_eq_ok.1 h1'
    injection h1' with h1'
    injection h1' with h1'
    subst h1'
    exact ⟨rfl, rfl⟩
  have r1 := Reach.next hr h1
  have h4 : step chk fetch s1 (.drop t) = .ok (some { s1 with tasks := s1.tasks.set t .idle }) := by
    simp only [step, ht1.1, List.getElem?_set_self hlt]
    rfl
  have r2 := Reach.next r1 h4
  have hg := (good_start (memory := memory) hp ht).1
  have g := r2.good hg
  have hfind : s1.pool.find location = some i := by
    obtain ⟨j, q1, q2⟩ := hr.tasksMapped tasksMapped_start _ (List.mem_of_getElem? hh) location rfl
    injection q1 with q1
    subst q1
    exact step_find h1 q2
  have hidle : ({ s1 with tasks := s1.tasks.set t .idle } : Sys).tasks[t]? = some .idle := by
    simp [ht1.1, hlt]
  have hal : s1.pool.allocLock.1 = lock := by unfold Pool.allocLock; rw [h2]
  have hfree : held (s1.tasks.set t .idle) lock = false := by
    cases e : held (s1.tasks.set t .idle) lock with
    | false => rfl
    | true =>
      rw [← hal] at e
      obtain ⟨l, ls, w, q1, q2⟩ := g.held (s := { s1 with tasks := s1.tasks.set t .idle }) e
      have q1 : s1.pool.locks = l :: ls := q1
      rw [h2] at q1
      injection q1 with q1
      subst q1
      have q2 : .leaving lock w ∈ (s1.tasks.set t .idle) := q2
      rw [ht1.1, List.set_set] at q2
      rcases mem_of_set q2 with q2 | q2
      · exact absurd q2 (hlock w)
      · cases q2
  obtain ⟨b, hb, hba⟩ := buf_acc h3
  have hin : i < s1.pool.buffers.length := (acc_of_buf hb).2
  have hopen : ∃ p3, s1.pool.access chk (held (s1.tasks.set t .idle)) location = .ok (some (p3, ⟨i, lock, true⟩)) := by
    rcases accessMapped_total (chk := chk) g.shape (held (s1.tasks.set t .idle)) hin (fun a ha => by
      have ha : acc s1.pool.buffers i = _ := ha
      rw [h3] at ha; cases ha) with ⟨_, q, _⟩ | ⟨_, p3, gr, q, _⟩
    · have q : held (s1.tasks.set t .idle) s1.pool.allocLock.1 = true := q
      rw [hal, hfree] at q; cases q
    · have q : s1.pool.accessMapped chk (held (s1.tasks.set t .idle)) i = .ok (some (p3, gr)) := q
      have ha : s1.pool.access chk (held (s1.tasks.set t .idle)) location = .ok (some (p3, gr)) := by
        unfold Pool.access; rw [hfind]; exact q
      cases access_ok ha with
      | shared a k hf ha' => 
        rw [hfind] at hf
        injection hf with hf
        rw [← hf, h3] at ha'; cases ha'
      | opened ho hi' hm' =>
        have e1 : gr.index = i := by
          rcases hm' with ⟨hm', _⟩ | ⟨hm', _⟩
          · rw [hfind] at hm'; cases hm'
          · rw [hfind] at hm'; injection hm' with hm'; exact hm'.symm
        have e2 : gr.lock = lock := by
          rcases ho.lock with ⟨q, _⟩ | ⟨q, _⟩
          · rw [h2] at q; injection q with q; exact q.symm
          · rw [h2] at q; cases q
        refine ⟨p3, ?_⟩
        rw [ha]
        cases gr
        simp only at e1 e2 hi'
        subst e1 e2 hi'
        rfl
  obtain ⟨p3, h5⟩ := hopen
  have h6 : step chk fetch { s1 with tasks := s1.tasks.set t .idle } (.access t location .readOnly) =
      .ok (some ⟨p3, s1.memory, (s1.tasks.set t .idle).set t (.loading i lock location .readOnly)⟩) := by
    simp only [step, hidle]
    rw [h5, Res.bind_ok]
    rfl
  have hml : s.memory.length = n := by
    clear h1 hh hone hlock h3 h2 r1 r2 h4 ht1 hlt g
    induction hr with
    | refl => exact hm
    | next _ hs ih => rw [← ih]; cases step_trans hs <;> simp
  have hin' : i < s.memory.length := by
    rw [r1.length] at hin
    obtain ⟨_, _, hlen, _⟩ := good_start (memory := memory) hp ht
    have : i < p.buffers.length := hin
    omega
  refine ⟨⟨p3, s1.memory.set i c, ((s1.tasks.set t .idle).set t (.loading i lock location .readOnly)).set t
    (.holding i lock location .readOnly)⟩, ?_, ?_, ?_⟩
  · simp only [run, h1, h4, h6]
    simp only [step, ht1.1, List.set_set, List.getElem?_set_self hlt, provide, hc, Res.bind_ok]
    rfl
  · simp [ht1.1, hlt]
  · simp [ht1.2, hin']

/-- A state that meets the hypotheses: the only handle of buffer 1 is about to be released. -/
example (fetch : Nat → Res Bytes) : ∃ s, Reach false fetch fourTasks s ∧
    s.tasks[0]? = some (.holding 1 0 7 .initialize) ∧ users s.tasks 1 = 1 ∧ ∀ w, .leaving 0 w ∉ s.tasks :=
  ⟨_, reach_run (as := [.access 0 7 .initialize, .load 0, .write 0 [8, 9]]) .refl rfl, rfl, rfl, by
    intro w h
    have : (Task.leaving 0 w) ∈ [Task.holding 1 0 7 .initialize, .idle, .idle, .idle] := h
    simp at this⟩

/-! ## C54 -/

/-- In every state of every interleaving, a read-write handle excludes all other handles of the buffer. -/
theorem C54_writers_are_exclusive_partial {chk : Bool} {fetch : Nat → Res Bytes} {size n tasks : Nat} {p : Pool}
    {memory : List Bytes} {s : Sys} (hp : Pool.new chk size n true = .ok (some p)) (ht : tasks < 2 ^ 32)
    (hr : Reach chk fetch (Sys.start p memory tasks) s) {t u i l l' loc loc' : Nat} {k k' : Kind}
    (h1 : s.tasks[t]? = some (.holding i l loc k)) (hk : k ≠ .readOnly)
    (h2 : s.tasks[u]? = some (.holding i l' loc' k') ∨ s.tasks[u]? = some (.loading i l' loc' k')) : t = u := by
  have g := hr.good (good_start (memory := memory) hp ht).1
  apply Classical.byContradiction
  intro hne
  obtain ⟨a, ha, e1⟩ := g.inv.record (List.mem_of_getElem? h1) (i := i) rfl
  have e1 : l = a.lock := e1
  have hkw : k.write = true := by cases k <;> first | rfl | exact absurd rfl hk
  rcases h2 with h2 | h2
  all_goals
    obtain ⟨b, hb, e2⟩ := g.inv.record (List.mem_of_getElem? h2) (i := i) rfl
    have e2 : l' = b.lock := e2
    rw [ha] at hb
    injection hb with hb
    injection hb with hb
    subst hb
    have := g.inv.guards t u _ _ l k.write _ hne h1 h2 rfl (by rw [e1, ← e2]; rfl)
    rw [hkw] at this
    exact absurd this.1 (by simp)

/-- The lock that a task takes for initialisation is not held, unless a task is between the return of its lock and
the drop of its guard. -/
theorem C54_lock_handover_partial {chk : Bool} {fetch : Nat → Res Bytes} {size n tasks : Nat} {p : Pool}
    {memory : List Bytes} {s : Sys} (hp : Pool.new chk size n true = .ok (some p)) (ht : tasks < 2 ^ 32)
    (hr : Reach chk fetch (Sys.start p memory tasks) s)
    (hl : ∀ l ls, s.pool.locks = l :: ls → ∀ w, .leaving l w ∉ s.tasks) : held s.tasks s.pool.allocLock.1 = false := by
  have g := hr.good (good_start (memory := memory) hp ht).1
  cases e : held s.tasks s.pool.allocLock.1 with
  | false => rfl
  | true =>
    obtain ⟨l, ls, w, h1, h2⟩ := g.held e
    exact absurd h2 (hl l ls h1 w)

/-- A read-write handle in a reachable state; another task waits for the same buffer. -/
example (fetch : Nat → Res Bytes) : ∃ s, Reach false fetch fourTasks s ∧
    s.tasks[0]? = some (.holding 1 0 7 .initialize) ∧ s.tasks[1]? = some (.waiting 1 0 7 .readWrite) ∧
    step false fetch s (.acquire 1) = .ok none :=
  ⟨_, reach_run (as := [.access 0 7 .initialize, .load 0, .access 1 7 .readWrite]) .refl rfl, rfl, rfl, rfl⟩

/-- The lock is returned before the guard is dropped, so another task can take it while it is held, and panics. -/
theorem C54_lock_handover_refuted (fetch : Nat → Res Bytes) :
    ∃ s, Reach false fetch fourTasks s ∧ s.tasks[0]? = some (.leaving 0 true) ∧ s.tasks[1]? = some .idle ∧
      ∀ kind, step false fetch s (.access 1 7 kind) = .error .panic :=
  ⟨_, reach_run (as := [.access 0 7 .initialize, .load 0, .release 0]) .refl rfl, rfl, rfl, fun _ => rfl⟩

/-! ## C76 -/

/-- In every state of every execution a step panics exactly in the situations listed by `Panics`. -/
theorem C76_pool_panics_exactly {chk : Bool} {fetch : Nat → Res Bytes} {size n tasks : Nat} {p : Pool}
    {memory : List Bytes} {s : Sys} (hp : Pool.new chk size n true = .ok (some p)) (ht : tasks < 2 ^ 32)
    (hr : Reach chk fetch (Sys.start p memory tasks) s) (a : Act) :
    (∃ e, step chk fetch s a = .error e) ↔ Panics fetch s a :=
  (hr.good (good_start (memory := memory) hp ht).1).panics a

/-- A state in which every buffer is in use. -/
example (fetch : Nat → Res Bytes) : ∃ s, Reach false fetch fourTasks s ∧ Panics fetch s (.access 2 9 .readOnly) ∧
    ¬ Panics fetch s (.access 2 7 .readOnly) := by
  refine ⟨_, reach_run (as := [.access 0 7 .initialize, .load 0, .access 1 8 .initialize]) .refl rfl,
    .exhausted (a := ⟨0, 1⟩) rfl rfl (by decide) rfl, ?_⟩
  intro h
  cases h with
  | exhausted _ hf => cases hf
  | handover _ hi ha hl _ => cases hl

end Verif.Props
