import Verif.Proof.BufferPool

/-! # New pools and executions without releases -/

namespace Verif.Storage

open Verif Verif.Spec

/-! ## `BufferPool::new` -/

theorem chainLink_ok {i : Nat} (h : i + 1 < 2 ^ 32) :
    chainLink false i = .ok { prev := if i = 0 then nil else i - 1, next := i + 1 } := by
  unfold chainLink
  cases i with
  | zero => rfl
  | succ i =>
    rw [subW_ok (by omega), Res.bind_ok, addW_ok (by omega), Res.bind_ok, if_neg (Nat.succ_ne_zero i),
      Nat.mod_eq_of_lt (by omega), Nat.mod_eq_of_lt (by omega)]
    rfl

theorem chain_ok {i n : Nat} (h : i + n < 2 ^ 32) :
    ∃ bs, chain false i n = .ok bs ∧ bs.length = n ∧
      ∀ j, j < n → bs[j]? = some { prev := if i + j = 0 then nil else i + j - 1, next := i + j + 1 } := by
  induction n generalizing i with
  | zero => exact ⟨[], rfl, rfl, by simp⟩
  | succ n ih =>
    obtain ⟨bs, h1, h2, h3⟩ := ih (i := i + 1) (by omega)
    refine ⟨{ prev := if i = 0 then nil else i - 1, next := i + 1 } :: bs, ?_, by simp [h2], ?_⟩
    · unfold chain
      rw [chainLink_ok (by omega), Res.bind_ok, h1, Res.bind_ok]
      rfl
    · intro j hj
      cases j with
      | zero => rfl
      | succ j =>
        rw [List.getElem?_cons_succ, h3 j (by omega), show i + 1 + j = i + (j + 1) from by omega]

theorem linked_range {link : Nat → Option (Nat × Nat)} {n : Nat}
    (h : ∀ i, i < n → link i = some (if i = 0 then nil else i - 1, if i + 1 = n then nil else i + 1)) (s m : Nat)
    (hs : s + m = n) : Linked link (if s = 0 then nil else s - 1) (List.range' s m) nil := by
  induction m generalizing s with
  | zero => trivial
  | succ m ih =>
    rw [List.range'_succ]
    refine ⟨?_, ?_⟩
    · rw [h s (by omega)]
      cases m with
      | zero => rw [if_pos (by omega : s + 1 = n)]; rfl
      | succ m => rw [if_neg (by omega : ¬ s + 1 = n)]; rfl
    · have := ih (s + 1) (by omega)
      rwa [if_neg (by omega)] at this

/-- The lists of a new pool of `n` buffers. -/
def startLists (n : Nat) : Nat → List Nat := fun k => if k = 0 then List.range n else []

theorem new_ok {size n : Nat} (hs : isPow2 size = true) (hn : 0 < n) (hlt : n < nil) :
    ∃ p, Pool.new false size n true = .ok (some p) ∧ p.buffers.length = n ∧
      (∀ b ∈ p.buffers, b.access = none ∧ b.dirty = false) ∧ p.mapped = [] ∧ p.locks = [] ∧ p.nextLock = 0 ∧
      Holds (poolHeads p) p.buffers (startLists n) := by
  have hnil : nil = 2 ^ 32 - 1 := rfl
  obtain ⟨bs, h1, h2, h3⟩ := chain_ok (i := 0) (n := n) (by omega)
  have hl0 : ∀ i, i < n → linkOf bs i = some (if i = 0 then nil else i - 1, i + 1) := by
    intro i hi
    unfold linkOf
    rw [h3 i hi]
    simp
  obtain ⟨b1, c1, c2, c3, c4⟩ := setPrev_ok nil (hl0 0 hn)
  have hl1 : ∀ i, i < n → linkOf b1 i = some (if i = 0 then nil else i - 1, i + 1) := by
    intro i hi
    rw [c4]
    by_cases e : i = 0
    · rw [if_pos e, if_pos e, e]
    · rw [if_neg e, hl0 i hi]
  obtain ⟨b2, d1, d2, d3, d4⟩ := setNext_ok nil (hl1 (n - 1) (by omega))
  have hl2 : ∀ i, i < n → linkOf b2 i = some (if i = 0 then nil else i - 1, if i + 1 = n then nil else i + 1) := by
    intro i hi
    rw [d4]
    by_cases e : i = n - 1
    · rw [if_pos e, if_pos (by omega : i + 1 = n), e]
    · rw [if_neg e, hl1 i hi, if_neg (by omega : ¬ i + 1 = n)]
  have hpay : payload b2 = payload bs := by rw [d3, c3]
  have hpos : size ≠ 0 := by
    intro e
    rw [e] at hs
    exact absurd hs (by decide)
  refine ⟨{ buffers := b2, available := { head := 0, tail := n - 1 } }, ?_, by show b2.length = n; omega, ?_, rfl, rfl,
    rfl, ?_⟩
  · unfold Pool.new
    rw [(assert_ok (u := ())).2 (by simpa using hpos), Res.bind_ok, (assert_ok (u := ())).2 (by simp; omega), Res.bind_ok, (assert_ok (u := ())).2 hs,
      Res.bind_ok, (assert_ok (u := ())).2 (by simpa using hlt), Res.bind_ok]
    obtain ⟨v, hv⟩ : ∃ v, mulW false size n = .ok v := by
      unfold mulW
      split
      · exact ⟨_, rfl⟩
      · exact ⟨_, rfl⟩
    rw [hv, Res.bind_ok, if_pos rfl, h1, Res.bind_ok, c1, Res.bind_ok, d1, Res.bind_ok]
    rfl
  · intro b hb
    obtain ⟨j, hj⟩ := List.getElem?_of_mem hb
    have hjl : j < b2.length := (List.getElem?_eq_some_iff.1 hj).1
    have e1 : (payload b2)[j]? = some (b.access, b.dirty) := by unfold payload; rw [List.getElem?_map, hj]; rfl
    rw [hpay] at e1
    unfold payload at e1
    rw [List.getElem?_map, h3 j (by omega)] at e1
    injection e1 with e1
    injection e1 with e1 e2
    exact ⟨e1.symm, e2.symm⟩
  · have hlen : b2.length = n := by omega
    have hrange := linked_range hl2 0 n (by omega)
    rw [if_pos rfl, ← List.range_eq_range'] at hrange
    constructor
    · show b2.length ≤ nil
      omega
    · intro k i hi
      show i < b2.length
      unfold startLists at hi
      split at hi
      · rw [List.mem_range] at hi; omega
      · cases hi
    · intro k
      unfold startLists
      split
      · exact List.nodup_range
      · exact List.nodup_nil
    · intro k k' hk i hi hi'
      unfold startLists at hi hi'
      split at hi
      · split at hi'
        · omega
        · cases hi'
      · cases hi
    · intro k
      match k with
      | 0 =>
        obtain ⟨m, rfl⟩ : ∃ m, n = m + 1 := ⟨n - 1, by omega⟩
        simp [poolHeads, startLists, List.range_succ, List.head?_range]
        cases m <;> simp
      | 1 => rfl
      | 2 => rfl
      | _ + 3 => rfl
    · intro k
      unfold startLists
      split
      · exact hrange
      · trivial
    · intro i hi hf
      exact absurd (List.mem_range.2 (by rw [← hlen]; exact hi)) (hf 0)

/-- With overflow checks the loop panics at its first iteration. -/
theorem new_checked (size n : Nat) (hn : 0 < n) : ∃ e, Pool.new true size n true = .error e := by
  have hc : chain true 0 n = .error .panic := by
    obtain ⟨m, rfl⟩ : ∃ m, n = m + 1 := ⟨n - 1, by omega⟩
    rfl
  cases h : Pool.new true size n true with
  | error e => exact ⟨e, rfl⟩
  | ok v =>
    unfold Pool.new at h
    rw [Res.bind_eq_ok] at h
    obtain ⟨_, _, h⟩ := h
    rw [Res.bind_eq_ok] at h
    obtain ⟨_, _, h⟩ := h
    rw [Res.bind_eq_ok] at h
    obtain ⟨_, _, h⟩ := h
    rw [Res.bind_eq_ok] at h
    obtain ⟨_, _, h⟩ := h
    rw [Res.bind_eq_ok] at h
    obtain ⟨_, _, h⟩ := h
    rw [if_pos rfl, hc] at h
    cases h

/-! ## Access to a new location when the lists are intact -/

theorem Holds.congr {heads heads' : Nat → Head} {bs bs' : List Buffer} {L L' : Nat → List Nat} (h : Holds heads bs L)
    (hh : ∀ k, heads' k = heads k) (hl : bs'.length = bs.length) (hb : ∀ i, linkOf bs' i = linkOf bs i)
    (hL : ∀ k, L' k = L k) : Holds heads' bs' L' := by
  obtain rfl : heads' = heads := funext hh
  obtain rfl : L' = L := funext hL
  have hb : linkOf bs' = linkOf bs := funext hb
  unfold Holds
  rw [hl, hb]
  exact h

theorem linkOf_set {bs : List Buffer} {i : Nat} {b b' : Buffer} (h : bs[i]? = some b)
    (h1 : b'.prev = b.prev) (h2 : b'.next = b.next) (j : Nat) : linkOf (bs.set i b') j = linkOf bs j := by
  unfold linkOf
  rw [List.getElem?_set]
  by_cases e : i = j
  · subst e
    rw [if_pos rfl, if_pos (List.getElem?_eq_some_iff.1 h).1, h]
    simp [h1, h2]
  · rw [if_neg e]

/-- The tail of the available list is moved to its front. -/
theorem rotate_ok {p : Pool} {L : Nat → List Nat} {xs : List Nat} {i : Nat}
    (h : Holds (poolHeads p) p.buffers L) (hL : L 0 = xs ++ [i]) :
    ∃ l1 b1 l2 b2, listRemove p.available p.buffers i = .ok (l1, b1) ∧ pushFront l1 b1 i = .ok (l2, b2) ∧
      b2.length = p.buffers.length ∧ payload b2 = payload p.buffers ∧
      Holds (setHead (poolHeads p) 0 l2) b2 (update L 0 (i :: xs)) := by
  have hi : i ∈ L 0 := by rw [hL]; simp
  have hnd := h.nodup 0
  rw [hL, List.nodup_append] at hnd
  have hix : i ∉ xs := fun hc => hnd.2.2 i hc i (by simp) rfl
  have her : (L 0).erase i = xs := by
    rw [hL, List.erase_append_right _ hix]
    simp
  obtain ⟨heads1, b1, r1, r2, r3, r4⟩ := runOp_ok h (ListStep.remove hi)
  rw [her] at r4
  rw [runOp, Res.bind_eq_ok] at r1
  obtain ⟨⟨l1, b1'⟩, r5, r6⟩ := r1
  injection r6 with r6
  injection r6 with r6 r7
  subst r7 r6
  have hfree : ∀ j, i ∉ update L 0 xs j := by
    intro j hj
    unfold update at hj
    split at hj
    · exact hix hj
    · rename_i e
      exact h.apart 0 j (fun e' => e e'.symm) i hi hj
  obtain ⟨heads2, b2, s1, s2, s3, s4⟩ := runOp_ok r4 (ListStep.front (k := 0) (by rw [r2]; exact h.range 0 i hi) hfree)
  rw [runOp, Res.bind_eq_ok] at s1
  obtain ⟨⟨l2, b2'⟩, s5, s6⟩ := s1
  injection s6 with s6
  injection s6 with s6 s7
  subst s7 s6
  refine ⟨l1, _, l2, _, r5, s5, by rw [s2, r2], by rw [s3, r3], ?_⟩
  refine Holds.congr s4 ?_ rfl (fun _ => rfl) ?_
  · intro k
    unfold setHead
    split <;> rfl
  · intro k
    unfold update
    split <;> simp

theorem available_tail {p : Pool} {L : Nat → List Nat} {xs : List Nat} {i : Nat}
    (h : Holds (poolHeads p) p.buffers L) (hL : L 0 = xs ++ [i]) : p.available.tail = i ∧ i ≠ nil := by
  have h1 := h.head 0
  rw [hL] at h1
  refine ⟨?_, h.ne_nil 0 i (by rw [hL]; simp)⟩
  show (poolHeads p 0).tail = i
  rw [h1]
  simp

theorem buf_acc {bs : List Buffer} {i : Nat} {o : Option Access} (h : acc bs i = some o) :
    ∃ b, buf bs i = .ok b ∧ b.access = o := by
  unfold acc at h
  cases e : bs[i]? with
  | none => rw [e] at h; cases h
  | some b =>
    rw [e] at h
    injection h with h
    exact ⟨b, buf_ok.2 e, h⟩

/-- A location that is not mapped is given the last available buffer, if that has no handles. -/
theorem accessNew_ok {p : Pool} {held : Nat → Bool} {location : Nat} {L : Nat → List Nat} {xs : List Nat} {i : Nat}
    (h : Holds (poolHeads p) p.buffers L) (hL : L 0 = xs ++ [i]) (ha : acc p.buffers i = some none)
    (hl : held p.allocLock.1 = false) :
    ∃ p', p.accessNew held location = .ok (some (p', ⟨i, p.allocLock.1, true⟩)) ∧
      Holds (poolHeads p') p'.buffers (update L 0 (i :: xs)) := by
  obtain ⟨l1, b1, l2, b2, r1, r2, r3, r4, r5⟩ := rotate_ok h hL
  obtain ⟨t1, t2⟩ := available_tail h hL
  obtain ⟨b, hb, hba⟩ := buf_acc (bs := b2) (i := i) (o := none) (by rw [acc_congr r4]; exact ha)
  have hal : ({ p with available := l2, buffers := b2, mapped := (location, i) :: p.mapped } : Pool).allocLock =
      (p.allocLock.1, { p.allocLock.2 with available := l2, buffers := b2, mapped := (location, i) :: p.mapped }) := by
    unfold Pool.allocLock
    cases p.locks <;> rfl
  refine ⟨{ p.allocLock.2 with
    available := l2
    mapped := (location, i) :: p.mapped
    buffers := b2.set i { b with access := some ⟨p.allocLock.1, 1⟩ } }, ?_, ?_⟩
  · unfold Pool.accessNew
    rw [t1, if_pos t2]
    simp only
    rw [r1, Res.bind_ok]
    simp only
    rw [r2, Res.bind_ok]
    simp only
    rw [hb, Res.bind_ok, hba]
    simp only [Option.isNone_none, assert_true, Res.bind_ok]
    unfold Pool.open
    rw [hal]
    simp only
    rw [hb, Res.bind_ok, hl]
    rfl
  · refine Holds.congr r5 ?_ ?_ ?_ (fun _ => rfl)
    · intro k
      rcases allocLock_cases p with ⟨l, ls, h1, h2⟩ | ⟨h1, h2⟩
      all_goals
        rw [h2]
        match k with
        | 0 => rfl
        | 1 => rfl
        | 2 => rfl
        | _ + 3 => rfl
    · simp
    · intro j
      exact linkOf_set (b' := { b with access := some ⟨p.allocLock.1, 1⟩ }) (buf_ok.1 hb) rfl rfl j

/-- If it has handles, the access panics. -/
theorem accessNew_panic {p : Pool} {held : Nat → Bool} {location : Nat} {L : Nat → List Nat} {xs : List Nat} {i : Nat}
    {a : Access} (h : Holds (poolHeads p) p.buffers L) (hL : L 0 = xs ++ [i]) (ha : acc p.buffers i = some (some a)) :
    p.accessNew held location = .error .panic := by
  obtain ⟨l1, b1, l2, b2, r1, r2, r3, r4, r5⟩ := rotate_ok h hL
  obtain ⟨t1, t2⟩ := available_tail h hL
  obtain ⟨b, hb, hba⟩ := buf_acc (bs := b2) (i := i) (o := some a) (by rw [acc_congr r4]; exact ha)
  unfold Pool.accessNew
  rw [t1, if_pos t2]
  simp only
  rw [r1, Res.bind_ok]
  simp only
  rw [r2, Res.bind_ok]
  simp only
  rw [hb, Res.bind_ok, hba]
  rfl

/-! ## Executions without releases -/

/-- The lists when nothing has been released: the buffers in use, latest first, then the unused ones. -/
def quietLists (p : Pool) : Nat → List Nat :=
  fun k => if k = 0 then p.mapped.map (·.2) ++ List.range (p.buffers.length - p.mapped.length) else []

structure QuietInv (s : Sys) : Prop where
  holds : Holds (poolHeads s.pool) s.pool.buffers (quietLists s.pool)
  room : s.pool.mapped.length ≤ s.pool.buffers.length
  locks : s.pool.locks = []
  inUse : ∀ i ∈ s.pool.mapped.map (·.2), ∃ a, acc s.pool.buffers i = some (some a)
  unused : ∀ i, i < s.pool.buffers.length - s.pool.mapped.length → acc s.pool.buffers i = some none
  guards : ∀ t ∈ s.tasks, ∀ l w, t.guard = some (l, w) → l < s.pool.nextLock
  cover : ∀ i, i < s.pool.buffers.length → i ∈ quietLists s.pool 0

theorem QuietInv.not_held {s : Sys} (h : QuietInv s) : held s.tasks s.pool.allocLock.1 = false := by
  have : s.pool.allocLock.1 = s.pool.nextLock := by
    unfold Pool.allocLock
    rw [h.locks]
  rw [this]
  unfold held
  rw [List.any_eq_false]
  intro t ht
  cases e : t.guard with
  | none => simp
  | some g =>
    obtain ⟨l, w⟩ := g
    have := h.guards t ht l w e
    simp
    omega

/-- Room for another location: its access succeeds. -/
theorem QuietInv.access_new {chk : Bool} {s : Sys} (h : QuietInv s) {location : Nat} (hf : s.pool.find location = none)
    (hr : s.pool.mapped.length < s.pool.buffers.length) :
    ∃ p', s.pool.access chk (held s.tasks) location =
        .ok (some (p', ⟨s.pool.buffers.length - s.pool.mapped.length - 1, s.pool.nextLock, true⟩)) ∧
      Holds (poolHeads p') p'.buffers (quietLists p') := by
  obtain ⟨m, hm⟩ : ∃ m, s.pool.buffers.length - s.pool.mapped.length = m + 1 :=
    ⟨s.pool.buffers.length - s.pool.mapped.length - 1, by omega⟩
  have hL : quietLists s.pool 0 = (s.pool.mapped.map (·.2) ++ List.range m) ++ [m] := by
    unfold quietLists
    rw [if_pos rfl, hm, List.range_succ, List.append_assoc]
  obtain ⟨p', h1, h2⟩ := accessNew_ok (location := location) h.holds hL (h.unused m (by omega)) h.not_held
  have h3 : s.pool.access chk (held s.tasks) location = .ok (some (p', ⟨m, s.pool.allocLock.1, true⟩)) := by
    unfold Pool.access
    rw [hf]
    exact h1
  have h4 : s.pool.allocLock.1 = s.pool.nextLock := by
    unfold Pool.allocLock
    rw [h.locks]
  refine ⟨p', by rw [h3, h4, hm]; rfl, ?_⟩
  cases access_ok h3 with
  | shared a n hf' => rw [hf] at hf'; cases hf'
  | opened ho hg hmap =>
    rcases hmap with ⟨_, hmap⟩ | ⟨hf', _⟩
    · refine h2.congr (fun _ => rfl) rfl (fun _ => rfl) ?_
      intro k
      unfold quietLists update
      by_cases e : k = 0
      · rw [if_pos e, if_pos e, hmap, ho.length]
        simp only [List.map_cons, List.length_cons, List.cons_append]
        rw [show s.pool.buffers.length - (s.pool.mapped.length + 1) = m from by omega]
      · simp only [if_neg e]
    · rw [hf] at hf'; cases hf'

/-- No room: it panics. -/
theorem QuietInv.access_full {chk : Bool} {s : Sys} (h : QuietInv s) {location : Nat} (hf : s.pool.find location = none)
    (hr : s.pool.mapped.length = s.pool.buffers.length) (hpos : 0 < s.pool.buffers.length) :
    s.pool.access chk (held s.tasks) location = .error .panic := by
  have hL : quietLists s.pool 0 = s.pool.mapped.map (·.2) := by
    unfold quietLists
    rw [if_pos rfl, hr, Nat.sub_self]
    simp
  rcases nil_or_snoc (s.pool.mapped.map (·.2)) with e | ⟨ys, z, e⟩
  · have := congrArg List.length e
    simp at this
    rw [this] at hr
    simp at hr
    omega
  · obtain ⟨a, ha⟩ := h.inUse z (by rw [e]; simp)
    have := accessNew_panic (held := held s.tasks) (location := location) h.holds (hL.trans e) ha
    unfold Pool.access
    rw [hf]
    exact this

theorem find_mem {p : Pool} {location i : Nat} (h : p.find location = some i) : (location, i) ∈ p.mapped := by
  unfold Pool.find at h
  generalize p.mapped = m at h
  induction m with
  | nil => cases h
  | cons x m ih =>
    obtain ⟨k, v⟩ := x
    rw [List.lookup_cons] at h
    by_cases e : location == k
    · rw [e] at h
      injection h with h
      subst h
      rw [beq_iff_eq] at e
      subst e
      exact List.mem_cons_self ..
    · simp only [Bool.not_eq_true] at e
      rw [e] at h
      exact List.mem_cons_of_mem _ (ih h)

theorem QuietInv.step {chk : Bool} {fetch : Nat → Res Bytes} {s s' : Sys} {a : Act} (hq : QuietInv s) (hi : Inv s)
    (ha : ∀ t, a ≠ .release t) (hs : step chk fetch s a = .ok (some s')) : QuietInv s' := by
  have hguard : ∀ (t : Nat) (y : Task) (n : Nat), s.pool.nextLock ≤ n →
      (∀ l w, y.guard = some (l, w) → l < n) →
      ∀ z ∈ s.tasks.set t y, ∀ l w, z.guard = some (l, w) → l < n := by
    intro t y n hn hy z hz l w hg
    rcases mem_of_set hz with hz | hz
    · have := hq.guards z hz l w hg
      omega
    · subst hz
      exact hy l w hg
  have hmem : ∀ {t : Nat} {x : Task}, s.tasks[t]? = some x → ∀ l w, x.guard = some (l, w) → l < s.pool.nextLock :=
    fun ht => hq.guards _ (List.mem_of_getElem? ht)
  cases hs0 : a with
  | access t location kind =>
    subst hs0
    have hs2 := hs
    simp only [Storage.step] at hs
    split at hs
    · rename_i ht
      rw [Res.bind_eq_ok] at hs
      obtain ⟨r, hr, hs⟩ := hs
      cases r with
      | none => cases hs
      | some r =>
        obtain ⟨p, g⟩ := r
        injection hs with hs
        injection hs with hs
        subst hs
        cases access_ok hr with
        | opened ho hg hm =>
          simp only [hg, if_true]
          rcases hm with ⟨hf, hm⟩ | ⟨hf, hm⟩
          · by_cases hroom : s.pool.mapped.length < s.pool.buffers.length
            · obtain ⟨p', hp, hh⟩ := hq.access_new (chk := chk) hf hroom
              rw [hr] at hp
              injection hp with hp
              injection hp with hp
              injection hp with e1 e2
              subst e1
              have hidx : g.index = s.pool.buffers.length - s.pool.mapped.length - 1 := by rw [e2]
              have hlk : p.locks = [] ∧ p.nextLock = s.pool.nextLock + 1 ∧ g.lock = s.pool.nextLock := by
                rcases ho.lock with ⟨h1, h2⟩ | ⟨h1, h2, h3, h4⟩
                · rw [hq.locks] at h1; cases h1
                · exact ⟨h2, h4, h3⟩
              constructor
              · exact hh
              · simp only
                rw [hm, ho.length]
                simp only [List.length_cons]
                omega
              · exact hlk.1
              · intro i hi
                simp only at hi ⊢
                rw [hm, List.map_cons, List.mem_cons] at hi
                rw [ho.after]
                by_cases e : i = g.index
                · exact ⟨_, by rw [if_pos e]⟩
                · rw [if_neg e]
                  rcases hi with hi | hi
                  · exact absurd hi e
                  · exact hq.inUse i hi
              · intro i hi
                simp only at hi ⊢
                rw [hm, ho.length, List.length_cons] at hi
                rw [ho.after, if_neg (by omega)]
                exact hq.unused i (by omega)
              · refine hguard t _ _ (by rw [hlk.2.1]; omega) ?_
                intro l w hl
                injection hl with hl
                injection hl with e1 e2
                simp only
                omega
              · intro i hi'
                simp only at hi' ⊢
                rw [ho.length] at hi'
                have hc := hq.cover i hi'
                unfold quietLists at hc ⊢
                rw [if_pos rfl] at hc ⊢
                rw [hm, ho.length, List.map_cons, List.length_cons]
                rw [List.mem_append, List.mem_range] at hc
                rw [List.mem_append, List.mem_cons, List.mem_range]
                rcases hc with hc | hc
                · exact .inl (.inr hc)
                · by_cases e : i = g.index
                  · exact .inl (.inl e)
                  · exact .inr (by omega)
            · have := hq.access_full (chk := chk) hf (by have := hq.room; omega) (by
                have hb := ho.before
                unfold acc at hb
                cases e : s.pool.buffers[g.index]? with
                | none => rw [e] at hb; cases hb
                | some b => have := (List.getElem?_eq_some_iff.1 e).1; omega)
              rw [this] at hr
              cases hr
          · obtain ⟨a, h1⟩ := hq.inUse g.index (List.mem_map.2 ⟨_, find_mem hf, rfl⟩)
            rw [ho.before] at h1
            cases h1
        | shared a n hf ha' hg hl hn after length same =>
          simp only [hg, Bool.false_eq_true, if_false]
          obtain ⟨m1, m2, m3⟩ := same
          -- the new buffers differ from the old ones in one access record
          have hp : ∃ b, s.pool.buffers[g.index]? = some b ∧ 
              p = { s.pool with buffers := s.pool.buffers.set g.index { b with access := some ⟨a.lock, n⟩ } } := by
            unfold Pool.access at hr
            rw [hf] at hr
            simp only at hr
            unfold Pool.accessMapped at hr
            rw [Res.bind_eq_ok] at hr
            obtain ⟨b, hb, hr⟩ := hr
            have hacc := (acc_of_buf hb).1
            rw [ha'] at hacc
            injection hacc with hacc
            rw [← hacc] at hr
            simp only at hr
            rw [hn, Res.bind_ok] at hr
            injection hr with hr
            injection hr with hr
            injection hr with hr _
            exact ⟨b, buf_ok.1 hb, hr.symm⟩
          obtain ⟨b, hb, hp⟩ := hp
          constructor
          · refine hq.holds.congr ?_ length ?_ ?_
            · intro k
              simp only
              rw [hp]
              rfl
            · intro i
              simp only
              rw [hp]
              exact linkOf_set (b' := { b with access := some ⟨a.lock, n⟩ }) hb rfl rfl i
            · intro k
              simp only [quietLists]
              rw [m1, length]
          · simp only; rw [m1, length]; exact hq.room
          · simp only; rw [m2]; exact hq.locks
          · intro i hi
            simp only at hi ⊢
            rw [m1] at hi
            rw [after]
            by_cases e : i = g.index
            · exact ⟨_, by rw [if_pos e]⟩
            · rw [if_neg e]; exact hq.inUse i hi
          · intro i hi
            simp only at hi ⊢
            rw [m1, length] at hi
            have h1 := hq.unused i hi
            rw [after]
            by_cases e : i = g.index
            · subst e
              rw [ha'] at h1; cases h1
            · rw [if_neg e]; exact h1
          · refine hguard t _ _ (by rw [m3]; omega) ?_
            intro l w hl; cases hl
          · intro i hi'
            simp only at hi' ⊢
            rw [length] at hi'
            have hc := hq.cover i hi'
            unfold quietLists at hc ⊢
            rw [m1, length]
            exact hc
    · cases hs
  | release t => exact absurd hs0 (ha t)
  | acquire t =>
    subst hs0
    cases step_trans hs with
    | @acquire t i lock location kind ht h =>
      refine ⟨hq.holds, hq.room, hq.locks, hq.inUse, hq.unused, hguard t _ _ (Nat.le_refl _) ?_, hq.cover⟩
      intro l w hl
      injection hl with hl
      injection hl with e1 e2
      subst e1
      obtain ⟨a, h1, h2⟩ := hi.record (List.mem_of_getElem? ht) (i := i) rfl
      have h3 : lock = a.lock := h2
      rw [h3]
      exact (hi.used i a h1).1
  | load t =>
    subst hs0
    cases step_trans hs with
    | @load t i lock location kind content ht h =>
      refine ⟨hq.holds, hq.room, hq.locks, hq.inUse, hq.unused, hguard t _ _ (Nat.le_refl _) ?_, hq.cover⟩
      intro l w hl
      injection hl with hl
      injection hl with e1 e2
      subst e1
      exact hmem ht lock true rfl
  | write t content =>
    subst hs0
    cases step_trans hs with
    | write ht h => exact ⟨hq.holds, hq.room, hq.locks, hq.inUse, hq.unused, hq.guards, hq.cover⟩
  | drop t =>
    subst hs0
    cases step_trans hs with
    | @drop t lock w ht =>
      refine ⟨hq.holds, hq.room, hq.locks, hq.inUse, hq.unused, hguard t _ _ (Nat.le_refl _) ?_, hq.cover⟩
      intro l w hl; cases hl

end Verif.Storage
