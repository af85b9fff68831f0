import Verif.Proof.BufferNew

/-! # When the buffer pool panics, and what its histories do to mapping and memory -/

namespace Verif.Storage

open Verif Verif.Spec

/-! ## Links stay in range -/

/-- No element, or an element of the array. -/
def InRange (n x : Nat) : Prop := x = nil ∨ x < n

/-- All links are in range. -/
def LinksIn (bs : List Buffer) : Prop :=
  ∀ i, i < bs.length → ∃ a b, linkOf bs i = some (a, b) ∧ InRange bs.length a ∧ InRange bs.length b

theorem LinksIn.setPrev {bs : List Buffer} (h : LinksIn bs) {i v : Nat} (hi : i < bs.length) (hv : InRange bs.length v) :
    ∃ bs' n, setPrev bs i v = .ok bs' ∧ bs'.length = bs.length ∧ LinksIn bs' ∧ linkOf bs' i = some (v, n) ∧
      (∀ a b, linkOf bs i = some (a, b) → n = b) ∧ ∀ j, j ≠ i → linkOf bs' j = linkOf bs j := by
  obtain ⟨a, b, h1, h2, h3⟩ := h i hi
  obtain ⟨bs', r1, r2, r3, r4⟩ := setPrev_ok v h1
  refine ⟨bs', b, r1, r2, ?_, by rw [r4, if_pos rfl], ?_, ?_⟩
  · intro j hj
    rw [r2] at hj ⊢
    rw [r4]
    by_cases e : j = i
    · exact ⟨v, b, by rw [if_pos e], hv, h3⟩
    · rw [if_neg e]; exact h j hj
  · intro a' b' e
    rw [h1] at e
    injection e with e
    injection e with _ e
  · intro j e
    rw [r4, if_neg e]

theorem LinksIn.setNext {bs : List Buffer} (h : LinksIn bs) {i v : Nat} (hi : i < bs.length) (hv : InRange bs.length v) :
    ∃ bs' n, setNext bs i v = .ok bs' ∧ bs'.length = bs.length ∧ LinksIn bs' ∧ linkOf bs' i = some (n, v) ∧
      ∀ j, j ≠ i → linkOf bs' j = linkOf bs j := by
  obtain ⟨a, b, h1, h2, h3⟩ := h i hi
  obtain ⟨bs', r1, r2, r3, r4⟩ := setNext_ok v h1
  refine ⟨bs', a, r1, r2, ?_, by rw [r4, if_pos rfl], ?_⟩
  · intro j hj
    rw [r2] at hj ⊢
    rw [r4]
    by_cases e : j = i
    · exact ⟨a, v, by rw [if_pos e], h2, hv⟩
    · rw [if_neg e]; exact h j hj
  · intro j e
    rw [r4, if_neg e]

/-- A list head in range, both ends present or both absent. -/
structure HeadIn (n : Nat) (l : Head) : Prop where
  head : InRange n l.head
  tail : InRange n l.tail
  both : l.head = nil ↔ l.tail = nil

theorem listRemove_total {l : Head} {bs : List Buffer} {i : Nat} (h : LinksIn bs) (hi : i < bs.length) :
    ∃ l' bs', listRemove l bs i = .ok (l', bs') ∧ bs'.length = bs.length ∧ LinksIn bs' ∧
      linkOf bs' i = some (nil, nil) ∧ (HeadIn bs.length l → l.tail ≠ nil → HeadIn bs.length l') := by
  obtain ⟨p, n, h1, h2, h3⟩ := h i hi
  obtain ⟨b, hb, hp, hn⟩ := buf_link h1
  obtain ⟨b1, r1, r2, r3⟩ : ∃ b1, unlinkNext l bs p n = .ok (⟨l.head, if n = nil then p else l.tail⟩, b1) ∧
      b1.length = bs.length ∧ LinksIn b1 := by
    unfold unlinkNext
    by_cases e : n = nil
    · exact ⟨bs, by simp [e], rfl, h⟩
    · have hn' : n < bs.length := h3.resolve_left e
      obtain ⟨b1, _, c1, c2, c3, _⟩ := h.setPrev hn' h2
      exact ⟨b1, by rw [if_pos e, c1, Res.bind_ok, if_neg e]; rfl, c2, c3⟩
  obtain ⟨b2, s1, s2, s3⟩ : ∃ b2, unlinkPrev ⟨l.head, if n = nil then p else l.tail⟩ b1 p n =
      .ok (⟨if p = nil then n else l.head, if n = nil then p else l.tail⟩, b2) ∧
      b2.length = bs.length ∧ LinksIn b2 := by
    unfold unlinkPrev
    by_cases e : p = nil
    · exact ⟨b1, by simp [e], r2, r3⟩
    · have hp' : p < b1.length := by rw [r2]; exact h2.resolve_left e
      obtain ⟨b2, _, c1, c2, c3, _⟩ := r3.setNext hp' (v := n) (by rw [r2]; exact h3)
      exact ⟨b2, by rw [if_pos e, c1, Res.bind_ok, if_neg e]; rfl, by rw [c2, r2], c3⟩
  obtain ⟨b3, m, t1, t2, t3, t4, _⟩ := s3.setNext (i := i) (v := nil) (by rw [s2]; exact hi) (.inl rfl)
  obtain ⟨b4, m', u1, u2, u3, u4, u5, _⟩ := t3.setPrev (i := i) (v := nil) (by rw [t2, s2]; exact hi) (.inl rfl)
  have hm' := u5 _ _ t4
  subst hm'
  refine ⟨⟨if p = nil then n else l.head, if n = nil then p else l.tail⟩, b4, ?_, by rw [u2, t2, s2], u3, u4, ?_⟩
  · unfold listRemove
    rw [hb, Res.bind_ok, hp, hn, r1, Res.bind_ok]
    simp only
    rw [s1, Res.bind_ok]
    simp only
    rw [t1, Res.bind_ok, u1, Res.bind_ok]
    rfl
  · intro hl ht
    have hh : l.head ≠ nil := fun e => ht (hl.both.1 e)
    constructor
    · simp only; split
      · exact h3
      · exact hl.head
    · simp only; split
      · exact h2
      · exact hl.tail
    · simp only
      by_cases e1 : p = nil
      · by_cases e2 : n = nil
        · simp [e1, e2]
        · simp [e1, e2, ht]
      · by_cases e2 : n = nil
        · simp [e1, e2, hh]
        · simp [e1, e2, hh, ht]

theorem pushFront_total {l : Head} {bs : List Buffer} {i : Nat} (h : LinksIn bs) (hl : HeadIn bs.length l)
    (hn : bs.length ≤ nil) (hi : linkOf bs i = some (nil, nil)) :
    ∃ l' bs', pushFront l bs i = .ok (l', bs') ∧ bs'.length = bs.length ∧ LinksIn bs' ∧ HeadIn bs.length l' ∧
      l'.head = i := by
  obtain ⟨b, hb, hp, hnx⟩ := buf_link hi
  have hil := linkOf_lt hi
  unfold pushFront
  rw [hb, Res.bind_ok, hp, hnx]
  simp only [beq_self_eq_true, assert_true, Res.bind_ok]
  by_cases e : l.head = nil
  · have e2 := hl.both.1 e
    refine ⟨⟨i, i⟩, bs, ?_, rfl, h, ⟨.inr hil, .inr hil, Iff.rfl⟩, rfl⟩
    rw [if_neg (by simpa using e), e2]
    rfl
  · have e2 : l.tail ≠ nil := fun h => e (hl.both.2 h)
    have hh : l.head < bs.length := hl.head.resolve_left e
    obtain ⟨b1, _, c1, c2, c3, _⟩ := h.setNext hil hl.head
    obtain ⟨b2, _, d1, d2, d3, _⟩ := c3.setPrev (i := l.head) (v := i) (by rw [c2]; exact hh) (by rw [c2]; exact .inr hil)
    refine ⟨⟨i, l.tail⟩, b2, ?_, by rw [d2, c2], d3, ⟨.inr hil, hl.tail, ?_⟩, rfl⟩
    · rw [if_pos e, (assert_ok (u := ())).2 (by simpa using e2), Res.bind_ok, c1, Res.bind_ok, d1, Res.bind_ok]
      rfl
    · have : i ≠ nil := by omega
      simp [this, e2]

/-! ## The shape of the pool -/

structure Shape (p : Pool) : Prop where
  small : p.buffers.length ≤ nil
  links : LinksIn p.buffers
  available : HeadIn p.buffers.length p.available
  dirty : HeadIn p.buffers.length p.dirty
  mapped : ∀ e ∈ p.mapped, e.2 < p.buffers.length

theorem linksIn_congr {bs bs' : List Buffer} (hl : bs'.length = bs.length) (hb : ∀ i, linkOf bs' i = linkOf bs i)
    (h : LinksIn bs) : LinksIn bs' := by
  intro i hi
  rw [hl] at hi ⊢
  rw [hb]
  exact h i hi

theorem shape_of_holds {p : Pool} {L : Nat → List Nat} (h : Holds (poolHeads p) p.buffers L)
    (hall : ∀ i, i < p.buffers.length → ∃ k, i ∈ L k) (hm : p.mapped = []) : Shape p := by
  have hin : ∀ (k : Nat) (xs : List Nat), (∀ x ∈ xs, x ∈ L k) → InRange p.buffers.length (xs.head?.getD nil) ∧
      InRange p.buffers.length (xs.getLast?.getD nil) := by
    intro k xs hxs
    constructor
    · cases e : xs.head? with
      | none => exact .inl rfl
      | some x => exact .inr (h.range k x (hxs x (List.mem_of_mem_head? e)))
    · cases e : xs.getLast? with
      | none => exact .inl rfl
      | some x => exact .inr (h.range k x (hxs x (List.mem_of_getLast? e)))
  have hhead : ∀ k, HeadIn p.buffers.length (poolHeads p k) := by
    intro k
    rw [h.head k]
    obtain ⟨h1, h2⟩ := hin k (L k) (fun _ h => h)
    refine ⟨h1, h2, ?_⟩
    simp only
    cases e : L k with
    | nil => simp
    | cons x xs =>
      have hx : x ≠ nil := h.ne_nil k x (by rw [e]; simp)
      have hy : (x :: xs).getLast?.getD nil ≠ nil := by
        rw [List.getLast?_cons]
        exact h.ne_nil k _ (by
          rw [e]
          cases hxs : xs.getLast? with
          | none => simp
          | some y => exact List.mem_cons_of_mem _ (List.mem_of_getLast? hxs))
      simp [hx, hy]
  have hseg : ∀ (k : Nat) (xs ys : List Nat), L k = ys ++ xs → ∀ b, InRange p.buffers.length b →
      Linked (linkOf p.buffers) b xs nil → ∀ i ∈ xs, ∃ u v, linkOf p.buffers i = some (u, v) ∧
        InRange p.buffers.length u ∧ InRange p.buffers.length v := by
    intro k xs
    induction xs with
    | nil => intro ys _ b _ _ i hi; cases hi
    | cons x xs ih =>
      intro ys hL b hb hl i hi
      have hmemL : ∀ z ∈ xs, z ∈ L k := by
        intro z hz; rw [hL]; exact List.mem_append_right _ (List.mem_cons_of_mem _ hz)
      rcases List.mem_cons.1 hi with e | hi
      · subst e
        exact ⟨b, xs.head?.getD nil, hl.1, hb, (hin k xs hmemL).1⟩
      · exact ih (ys ++ [x]) (by rw [hL]; simp) x (.inr (h.range k x (by rw [hL]; simp))) hl.2 i hi
  refine ⟨h.small, ?_, hhead 0, hhead 2, by rw [hm]; simp⟩
  intro i hi
  obtain ⟨k, hk⟩ := hall i hi
  exact hseg k (L k) [] rfl nil (.inl rfl) (h.linked k) i hk

theorem open_shape {p p' : Pool} {held : Nat → Bool} {i lock : Nat} (hp : Shape p) (h : p.open held i = .ok (p', lock)) :
    Shape p' := by
  unfold Pool.open at h
  rcases allocLock_cases p with ⟨l, ls, h1, h2⟩ | ⟨h1, h2⟩
  all_goals
    rw [h2] at h
    simp only at h
    rw [Res.bind_eq_ok] at h
    obtain ⟨b, hb', h⟩ := h
    rw [Res.bind_eq_ok] at h
    obtain ⟨_, ha, h⟩ := h
    injection h with h
    injection h with e1 e2
    subst e1
    have hlen : ∀ b', (p.buffers.set i b').length = p.buffers.length := by simp
    refine ⟨by simp only; rw [hlen]; exact hp.small, ?_, by simp only; rw [hlen]; exact hp.available,
      by simp only; rw [hlen]; exact hp.dirty, by simp only; rw [hlen]; exact hp.mapped⟩
    refine linksIn_congr (hlen _) ?_ hp.links
    intro j
    exact linkOf_set (buf_ok.1 hb') (by rfl) (by rfl) j

/-- A new location: either it waits, or the last available buffer is in use and it panics, or the lock is held and
it panics, or it succeeds. -/
theorem accessNew_total {p : Pool} (hp : Shape p) (held : Nat → Bool) (location : Nat) :
    (p.available.tail = nil ∧ p.accessNew held location = .ok none) ∨
    (p.available.tail ≠ nil ∧ ((∃ a, acc p.buffers p.available.tail = some (some a)) ∨
        (acc p.buffers p.available.tail = some none ∧ held p.allocLock.1 = true)) ∧
      p.accessNew held location = .error .panic) ∨
    (p.available.tail ≠ nil ∧ acc p.buffers p.available.tail = some none ∧ held p.allocLock.1 = false ∧
      ∃ p' g, p.accessNew held location = .ok (some (p', g)) ∧ Shape p') := by
  by_cases e : p.available.tail = nil
  · refine .inl ⟨e, ?_⟩
    unfold Pool.accessNew
    rw [if_neg (by simpa using e)]
    rfl
  · have hi : p.available.tail < p.buffers.length := hp.available.tail.resolve_left e
    obtain ⟨l1, b1, r1, r2, r3, r4, r5⟩ := listRemove_total (l := p.available) hp.links hi
    obtain ⟨l2, b2, s1, s2, s3, s4, s5⟩ := pushFront_total (l := l1) r3 (by rw [r2]; exact r5 hp.available e)
      (by rw [r2]; exact hp.small) r4
    have hpay : payload b2 = payload p.buffers := by rw [pushFront_payload s1, listRemove_payload r1]
    have hi2 : p.available.tail < b2.length := by rw [s2, r2]; exact hi
    have hb := buf_of_lt hi2
    have hacc := (acc_of_buf hb).1
    rw [acc_congr hpay] at hacc
    have hsh : Shape { p with available := l2, buffers := b2, mapped := (location, p.available.tail) :: p.mapped } := by
      have hlen : b2.length = p.buffers.length := by rw [s2, r2]
      refine ⟨by simp only; rw [hlen]; exact hp.small, s3, by simp only; rw [s2]; exact s4,
        by simp only; rw [hlen]; exact hp.dirty, ?_⟩
      simp only
      rw [hlen]
      intro x hx
      rcases List.mem_cons.1 hx with hx | hx
      · rw [hx]; exact hi
      · exact hp.mapped x hx
    have hal : ({ p with available := l2, buffers := b2, mapped := (location, p.available.tail) :: p.mapped } : Pool).allocLock =
        (p.allocLock.1, { p.allocLock.2 with available := l2, buffers := b2, mapped := (location, p.available.tail) :: p.mapped }) := by
      unfold Pool.allocLock
      cases p.locks <;> rfl
    have key : p.accessNew held location =
        (assert b2[p.available.tail].access.isNone >>= fun _ =>
          (({ p with available := l2, buffers := b2, mapped := (location, p.available.tail) :: p.mapped } : Pool).open
            held p.available.tail >>= fun r => pure (some (r.1, ⟨p.available.tail, r.2, true⟩)))) := by
      unfold Pool.accessNew
      rw [if_pos e]
      simp only
      rw [r1, Res.bind_ok]
      simp only
      rw [s1, Res.bind_ok]
      simp only
      rw [hb, Res.bind_ok]
    have hopen : ({ p with available := l2, buffers := b2, mapped := (location, p.available.tail) :: p.mapped } : Pool).open
        held p.available.tail = (assert (!held p.allocLock.1) >>= fun _ =>
          pure ({ p.allocLock.2 with
            available := l2
            mapped := (location, p.available.tail) :: p.mapped
            buffers := b2.set p.available.tail { b2[p.available.tail] with access := some ⟨p.allocLock.1, 1⟩ } }, p.allocLock.1)) := by
      unfold Pool.open
      rw [hal]
      simp only
      rw [hb, Res.bind_ok]
    cases ha : b2[p.available.tail].access with
    | some a =>
      refine .inr (.inl ⟨e, .inl ⟨a, by rw [hacc, ha]⟩, ?_⟩)
      rw [key, ha]
      rfl
    | none =>
      rw [ha] at hacc key
      cases hh : held p.allocLock.1 with
      | true =>
        refine .inr (.inl ⟨e, .inr ⟨hacc, rfl⟩, ?_⟩)
        rw [key, hopen, hh]
        rfl
      | false =>
        refine .inr (.inr ⟨e, hacc, rfl, ?_⟩)
        rw [hh] at hopen
        rw [hopen] at key
        simp only [Option.isNone_none, Bool.not_false, assert_true, Res.bind_ok] at key hopen
        exact ⟨_, _, key, open_shape hsh hopen⟩

/-- A mapped location. -/
theorem accessMapped_total {chk : Bool} {p : Pool} (hp : Shape p) (held : Nat → Bool) {i : Nat} (hi : i < p.buffers.length)
    (hn : ∀ a, acc p.buffers i = some (some a) → a.handles + 1 < 2 ^ 32) :
    (acc p.buffers i = some none ∧ held p.allocLock.1 = true ∧ p.accessMapped chk held i = .error .panic) ∨
    (¬ (acc p.buffers i = some none ∧ held p.allocLock.1 = true) ∧
      ∃ p' g, p.accessMapped chk held i = .ok (some (p', g)) ∧ Shape p') := by
  have hb := buf_of_lt hi
  have hacc := (acc_of_buf hb).1
  cases ha : p.buffers[i].access with
  | some a =>
    rw [ha] at hacc
    refine .inr ⟨by rw [hacc]; simp, ?_⟩
    refine ⟨{ p with buffers := p.buffers.set i { p.buffers[i] with access := some { a with handles := a.handles + 1 } } },
      ⟨i, a.lock, false⟩, ?_, ?_⟩
    · unfold Pool.accessMapped
      rw [hb, Res.bind_ok, ha]
      simp only
      rw [addN_ok (hn a hacc), Res.bind_ok]
      rfl
    · have hlen : ∀ b', (p.buffers.set i b').length = p.buffers.length := by simp
      refine ⟨by simp only; rw [hlen]; exact hp.small, ?_, by simp only; rw [hlen]; exact hp.available,
        by simp only; rw [hlen]; exact hp.dirty, by simp only; rw [hlen]; exact hp.mapped⟩
      refine linksIn_congr (hlen _) ?_ hp.links
      intro j
      exact linkOf_set (buf_ok.1 hb) (by rfl) (by rfl) j
  | none =>
    rw [ha] at hacc
    have hbuf : buf p.allocLock.2.buffers i = .ok p.buffers[i] := by
      rcases allocLock_cases p with ⟨l, ls, h1, h2⟩ | ⟨h1, h2⟩ <;> rw [h2] <;> exact hb
    have hopen : p.open held i = (assert (!held p.allocLock.1) >>= fun _ =>
          pure ({ p.allocLock.2 with
            buffers := p.allocLock.2.buffers.set i { p.buffers[i] with access := some ⟨p.allocLock.1, 1⟩ } }, p.allocLock.1)) := by
      unfold Pool.open
      simp only
      rw [hbuf, Res.bind_ok]
    have key : p.accessMapped chk held i = (p.open held i >>= fun r => pure (some (r.1, ⟨i, r.2, true⟩))) := by
      unfold Pool.accessMapped
      rw [hb, Res.bind_ok, ha]
    cases hh : held p.allocLock.1 with
    | true =>
      refine .inl ⟨hacc, rfl, ?_⟩
      rw [key, hopen, hh]
      rfl
    | false =>
      refine .inr ⟨by simp, ?_⟩
      rw [hh] at hopen
      rw [hopen] at key
      simp only [Bool.not_false, assert_true, Res.bind_ok] at key hopen
      exact ⟨_, _, key, open_shape hp hopen⟩

/-- A buffer with a handle can be released. -/
theorem release_total {p : Pool} (hp : Shape p) {i : Nat} {a : Access} (ha : acc p.buffers i = some (some a))
    (hpos : 0 < a.handles) (w : Bool) :
    ∃ p', p.release i w = .ok p' ∧ Shape p' ∧ p'.available.head = (if 1 < a.handles then p.available.head else
      if ((p.buffers[i]?).map (·.dirty)).getD false || w then p.available.head else i) ∧
      p'.dirty.head = (if 1 < a.handles then p.dirty.head else
      if ((p.buffers[i]?).map (·.dirty)).getD false || w then i else p.dirty.head) := by
  obtain ⟨b, hb, hba⟩ := buf_acc ha
  have hi := (acc_of_buf hb).2
  have hdirty : ((p.buffers[i]?).map (·.dirty)).getD false = b.dirty := by rw [buf_ok.1 hb]; rfl
  have hlen : ∀ b', (p.buffers.set i b').length = p.buffers.length := by simp
  unfold Pool.release
  rw [hb, Res.bind_ok]
  unfold Pool.drop
  simp only
  rw [hba]
  simp only
  rw [(assert_ok (u := ())).2 (by simpa using hpos), Res.bind_ok, hdirty]
  by_cases h1 : 1 < a.handles
  · rw [if_pos h1]
    refine ⟨_, rfl, ?_, by rw [if_pos h1], by rw [if_pos h1]⟩
    refine ⟨by simp only; rw [hlen]; exact hp.small, ?_, by simp only; rw [hlen]; exact hp.available,
      by simp only; rw [hlen]; exact hp.dirty, by simp only; rw [hlen]; exact hp.mapped⟩
    refine linksIn_congr (hlen _) ?_ hp.links
    intro j
    exact linkOf_set (buf_ok.1 hb) (by rfl) (by rfl) j
  · rw [if_neg h1, if_neg h1, if_neg h1]
    have hl0 : LinksIn (p.buffers.set i { prev := b.prev, next := b.next, access := none, dirty := b.dirty || w }) := by
      refine linksIn_congr (hlen _) ?_ hp.links
      intro j
      exact linkOf_set (buf_ok.1 hb) (by rfl) (by rfl) j
    obtain ⟨l1, b1, r1, r2, r3, r4, r5⟩ := listRemove_total (l := p.inUse) hl0 (i := i) (by rw [hlen]; exact hi)
    rw [hlen] at r2 r5
    unfold Pool.retire
    simp only
    rw [r1, Res.bind_ok]
    simp only
    by_cases hd : (b.dirty || w) = true
    · rw [if_pos hd, if_pos hd]
      obtain ⟨l2, b2, s1, s2, s3, s4, s5⟩ := pushFront_total (l := p.dirty) r3 (by rw [r2]; exact hp.dirty)
        (by rw [r2]; exact hp.small) r4
      rw [r2] at s2 s4
      rw [s1, Res.bind_ok]
      refine ⟨_, rfl, ?_, rfl, by rw [if_pos hd]; exact s5⟩
      exact ⟨by simp only; rw [s2]; exact hp.small, s3, by simp only; rw [s2]; exact hp.available,
        by simp only; rw [s2]; exact s4, by simp only; rw [s2]; exact hp.mapped⟩
    · rw [if_neg hd, if_neg hd]
      obtain ⟨l2, b2, s1, s2, s3, s4, s5⟩ := pushFront_total (l := p.available) r3 (by rw [r2]; exact hp.available)
        (by rw [r2]; exact hp.small) r4
      rw [r2] at s2 s4
      rw [s1, Res.bind_ok]
      refine ⟨_, rfl, ?_, s5, by rw [if_neg hd]⟩
      exact ⟨by simp only; rw [s2]; exact hp.small, s3, by simp only; rw [s2]; exact s4,
        by simp only; rw [s2]; exact hp.dirty, by simp only; rw [s2]; exact hp.mapped⟩

/-! ## Steps -/

/-- What holds in all states of all executions. -/
structure Good (s : Sys) : Prop where
  inv : Inv s
  shape : Shape s.pool
  leaving : ∀ l w, .leaving l w ∈ s.tasks → l < s.pool.nextLock
  few : s.tasks.length < 2 ^ 32

theorem Good.handles {s : Sys} (h : Good s) {t : Nat} (ht : s.tasks[t]? = some .idle) {i : Nat} {a : Access}
    (ha : acc s.pool.buffers i = some (some a)) : a.handles + 1 < 2 ^ 32 := by
  have hd := h.inv.described i
  rw [ha] at hd
  obtain ⟨_, h1, _⟩ := hd
  have hu := users_set ht (.waiting i 0 0 .readOnly) i
  rw [if_neg (by simp [Task.buffer]), if_pos (show (Task.waiting i 0 0 .readOnly).buffer = some i from rfl)] at hu
  have := users_le (s.tasks.set t (.waiting i 0 0 .readOnly)) i
  rw [List.length_set] at this
  have := h.few
  omega

/-- A lock that would be taken is held only by tasks that are about to drop it. -/
theorem Good.held {s : Sys} (h : Good s) (hh : held s.tasks s.pool.allocLock.1 = true) :
    ∃ l ls w, s.pool.locks = l :: ls ∧ .leaving l w ∈ s.tasks := by
  unfold Storage.held at hh
  rw [List.any_eq_true] at hh
  obtain ⟨t, ht, hg⟩ := hh
  have hguard : ∃ w, t.guard = some (s.pool.allocLock.1, w) := by
    cases e : t.guard with
    | none => rw [e] at hg; cases hg
    | some g =>
      obtain ⟨l, w⟩ := g
      rw [e] at hg
      simp only [beq_iff_eq] at hg
      exact ⟨w, by rw [hg]⟩
  obtain ⟨w, hguard⟩ := hguard
  have hnot : ∀ i, t.buffer = some i → t.bufferLock ≠ s.pool.allocLock.1 := by
    intro i hi e
    obtain ⟨a, h1, h2⟩ := h.inv.record ht hi
    have h3 := h.inv.used i a h1
    rw [← h2, e] at h3
    rcases allocLock_cases s.pool with ⟨l, ls, h4, h5⟩ | ⟨h4, h5⟩
    · rw [h5, h4] at h3
      exact h3.2 (List.mem_cons_self ..)
    · rw [h5] at h3
      exact Nat.lt_irrefl _ h3.1
  cases t with
  | idle => cases hguard
  | waiting i l loc k => cases hguard
  | loading i l loc k =>
    injection hguard with hguard
    injection hguard with e1 e2
    exact absurd e1 (hnot i rfl)
  | holding i l loc k =>
    injection hguard with hguard
    injection hguard with e1 e2
    exact absurd e1 (hnot i rfl)
  | leaving l w' =>
    injection hguard with hguard
    injection hguard with e1 e2
    rcases allocLock_cases s.pool with ⟨l', ls, h4, h5⟩ | ⟨h4, h5⟩
    · rw [h5] at e1
      have e1 : l = l' := e1
      exact ⟨l', ls, w', h4, by rw [← e1]; exact ht⟩
    · rw [h5] at e1
      have := h.leaving l w' ht
      omega

theorem held_leaving {s : Sys} {l : Nat} {ls : List Nat} {w : Bool} (hl : s.pool.locks = l :: ls)
    (hg : .leaving l w ∈ s.tasks) : held s.tasks s.pool.allocLock.1 = true := by
  rcases allocLock_cases s.pool with ⟨l', ls', h4, h5⟩ | ⟨h4, h5⟩
  · rw [hl] at h4
    injection h4 with e1 e2
    rw [h5]
    unfold held
    rw [List.any_eq_true]
    exact ⟨_, hg, by simp [Task.guard, e1]⟩
  · rw [hl] at h4; cases h4

/-- A step panics in exactly the listed situations; otherwise all that holds in all states still holds. -/
theorem Good.access {chk : Bool} {s : Sys} (h : Good s) {t : Nat} (ht : s.tasks[t]? = some .idle)
    (fetch : Nat → Res Bytes) (location : Nat) (kind : Kind) :
    (Panics fetch s (.access t location kind) ∧ s.pool.access chk (Storage.held s.tasks) location = .error .panic) ∨
    (¬ Panics fetch s (.access t location kind) ∧ (s.pool.access chk (Storage.held s.tasks) location = .ok none ∨
      ∃ p' g, s.pool.access chk (Storage.held s.tasks) location = .ok (some (p', g)) ∧ Shape p')) := by
  unfold Pool.access
  cases hf : s.pool.find location with
  | none =>
    simp only
    rcases accessNew_total h.shape (Storage.held s.tasks) location with ⟨h1, h2⟩ | ⟨h1, h2, h3⟩ | ⟨h1, h2, h3, p', g, h4, h5⟩
    · refine .inr ⟨?_, .inl h2⟩
      intro hp
      cases hp with
      | exhausted _ _ hn _ => exact hn h1
      | handover _ hi _ _ _ =>
        rcases hi with hi | ⟨_, hi, hn⟩
        · rw [hf] at hi; cases hi
        · exact hn (hi.symm.trans h1)
    · refine .inl ⟨?_, h3⟩
      rcases h2 with ⟨a, ha⟩ | ⟨ha, hh⟩
      · exact .exhausted ht hf h1 ha
      · obtain ⟨l, ls, w, hl, hg⟩ := h.held hh
        exact .handover ht (.inr ⟨hf, rfl, h1⟩) ha hl hg
    · refine .inr ⟨?_, .inr ⟨p', g, h4, h5⟩⟩
      intro hp
      cases hp with
      | exhausted _ _ _ ha => rw [h2] at ha; cases ha
      | handover _ _ _ hl hg => rw [held_leaving hl hg] at h3; cases h3
  | some i =>
    simp only
    have hi : i < s.pool.buffers.length := h.shape.mapped _ (find_mem hf)
    rcases accessMapped_total (chk := chk) h.shape (Storage.held s.tasks) hi (fun a ha => h.handles ht ha) with
      ⟨h1, h2, h3⟩ | ⟨h1, p', g, h2, h3⟩
    · obtain ⟨l, ls, w, hl, hg⟩ := h.held h2
      exact .inl ⟨.handover ht (.inl hf) h1 hl hg, h3⟩
    · refine .inr ⟨?_, .inr ⟨p', g, h2, h3⟩⟩
      intro hp
      cases hp with
      | exhausted _ hf' _ _ => rw [hf] at hf'; cases hf'
      | handover _ hi' ha hl hg =>
        rcases hi' with hi' | ⟨hi', _⟩
        · rw [hf] at hi'
          injection hi' with hi'
          subst hi'
          exact h1 ⟨ha, held_leaving hl hg⟩
        · rw [hf] at hi'; cases hi'

theorem Good.release {s : Sys} (h : Good s) {t i lock location : Nat} {kind : Kind}
    (ht : s.tasks[t]? = some (.holding i lock location kind)) :
    ∃ p', s.pool.release i kind.write = .ok p' ∧ Shape p' := by
  obtain ⟨a, h1, _⟩ := h.inv.record (List.mem_of_getElem? ht) (i := i) rfl
  have hd := h.inv.described i
  rw [h1] at hd
  obtain ⟨p', h2, h3, _⟩ := release_total h.shape h1 hd.1 kind.write
  exact ⟨p', h2, h3⟩

/-- Exactly the listed situations panic. -/
theorem Good.panics {chk : Bool} {fetch : Nat → Res Bytes} {s : Sys} (h : Good s) (a : Act) :
    (∃ e, step chk fetch s a = .error e) ↔ Panics fetch s a := by
  cases a with
  | access t location kind =>
    by_cases ht : s.tasks[t]? = some .idle
    · rcases h.access (chk := chk) ht fetch location kind with ⟨h1, h2⟩ | ⟨h1, h2⟩
      · refine ⟨fun _ => h1, fun _ => ⟨.panic, ?_⟩⟩
        simp only [step, ht]
        rw [h2]
        rfl
      · refine ⟨?_, fun hc => absurd hc h1⟩
        rintro ⟨e, he⟩
        simp only [step, ht] at he
        rcases h2 with h2 | ⟨p', g, h2, _⟩
        · rw [h2] at he; cases he
        · rw [h2] at he; cases he
    · constructor
      · rintro ⟨e, he⟩
        simp only [step] at he
        cases he
      · intro hp
        cases hp with
        | exhausted ht' => exact absurd ht' ht
        | handover ht' => exact absurd ht' ht
  | acquire t =>
    refine ⟨?_, fun hp => by cases hp⟩
    rintro ⟨e, he⟩
    simp only [step] at he
    split at he
    · split at he <;> cases he
    · cases he
  | load t =>
    constructor
    · rintro ⟨e, he⟩
      simp only [step] at he
      split at he
      · rename_i i lock location kind ht
        cases hk : kind with
        | «initialize» => rw [hk] at he; cases he
        | readOnly =>
          rw [hk] at he
          cases hf : fetch location with
          | ok c => simp only [provide, hf] at he; cases he
          | error e => exact .fetch ht (by rw [hk]; simp) hf
        | readWrite =>
          rw [hk] at he
          cases hf : fetch location with
          | ok c => simp only [provide, hf] at he; cases he
          | error e => exact .fetch ht (by rw [hk]; simp) hf
      · cases he
    · intro hp
      cases hp with
      | @fetch _ i lock location kind e ht hk hf =>
        refine ⟨e, ?_⟩
        simp only [step, ht]
        cases kind with
        | «initialize» => exact absurd rfl hk
        | readOnly => simp only [provide, hf]; rfl
        | readWrite => simp only [provide, hf]; rfl
  | write t content =>
    refine ⟨?_, fun hp => by cases hp⟩
    rintro ⟨e, he⟩
    simp only [step] at he
    split at he
    · split at he <;> cases he
    · cases he
  | release t =>
    refine ⟨?_, fun hp => by cases hp⟩
    rintro ⟨e, he⟩
    simp only [step] at he
    split at he
    · rename_i ht
      obtain ⟨p', h1, _⟩ := h.release ht
      rw [h1] at he
      cases he
    · cases he
  | drop t =>
    refine ⟨?_, fun hp => by cases hp⟩
    rintro ⟨e, he⟩
    simp only [step] at he
    split at he <;> cases he

theorem Good.step {chk : Bool} {fetch : Nat → Res Bytes} {s s' : Sys} {a : Act} (h : Good s)
    (hs : step chk fetch s a = .ok (some s')) : Good s' := by
  have htr := step_trans hs
  have hlen := htr.tasks_length
  have hlv : ∀ (t : Nat) (y : Task) (n : Nat), s.pool.nextLock ≤ n → (∀ l w, y = .leaving l w → l < n) →
      ∀ l w, .leaving l w ∈ s.tasks.set t y → l < n := by
    intro t y n hn hy l w hm
    rcases mem_of_set hm with hm | hm
    · have := h.leaving l w hm
      omega
    · exact hy l w hm.symm
  refine ⟨h.inv.step h.few htr, ?_, ?_, by rw [hlen]; exact h.few⟩
  · cases a with
    | access t location kind =>
      simp only [Storage.step] at hs
      split at hs
      · rename_i ht
        rw [Res.bind_eq_ok] at hs
        obtain ⟨r, hr, hs⟩ := hs
        cases r with
        | none => cases hs
        | some r =>
          obtain ⟨p, g⟩ := r
          injection hs with hs
          injection hs with hs
          subst hs
          rcases h.access (chk := chk) ht fetch location kind with ⟨_, h2⟩ | ⟨_, h2 | ⟨p', g', h2, h3⟩⟩
          · rw [h2] at hr; cases hr
          · rw [h2] at hr; cases hr
          · rw [h2] at hr
            injection hr with hr
            injection hr with hr
            injection hr with hr _
            subst hr
            exact h3
      · cases hs
    | release t =>
      simp only [Storage.step] at hs
      split at hs
      · rename_i ht
        rw [Res.bind_eq_ok] at hs
        obtain ⟨p, hr, hs⟩ := hs
        injection hs with hs
        injection hs with hs
        subst hs
        obtain ⟨p', h1, h2⟩ := h.release ht
        rw [h1] at hr
        injection hr with hr
        subst hr
        exact h2
      · cases hs
    | acquire t => cases htr; exact h.shape
    | load t => cases htr; exact h.shape
    | write t c => cases htr; exact h.shape
    | drop t => cases htr; exact h.shape
  · cases htr with
    | @access t location kind p g ht ha =>
      have hn : s.pool.nextLock ≤ p.nextLock := by
        cases ha with
        | opened ho _ _ =>
          rcases ho.lock with ⟨_, h2⟩ | ⟨_, _, _, h2⟩ <;> omega
        | shared a n hf ha hg hl hn after length same => rw [same.2.2]; exact Nat.le_refl _
      refine hlv t _ _ hn ?_
      intro l w e
      split at e <;> cases e
    | acquire ht _ => exact hlv _ _ _ (Nat.le_refl _) (fun l w e => by cases e)
    | load ht _ => exact hlv _ _ _ (Nat.le_refl _) (fun l w e => by cases e)
    | write ht _ => exact h.leaving
    | @release t i lock location kind p ht hr =>
      have hn : p.nextLock = s.pool.nextLock := by
        cases hr with
        | kept _ _ _ _ _ same => exact same.2.2
        | retired _ _ _ _ _ same => exact same.2.2
      refine hlv t _ _ (by rw [hn]; exact Nat.le_refl _) ?_
      intro l w e
      injection e with e1 e2
      subst e1
      obtain ⟨a, h1, h2⟩ := h.inv.record (List.mem_of_getElem? ht) (i := i) rfl
      have h3 := h.inv.used i a h1
      have h4 : lock = a.lock := h2
      simp only
      omega
    | drop ht => exact hlv _ _ _ (Nat.le_refl _) (fun l w e => by cases e)

theorem Reach.good {chk : Bool} {fetch : Nat → Res Bytes} {s s' : Sys} (h : Reach chk fetch s s') (hg : Good s) :
    Good s' := by
  induction h with
  | refl => exact hg
  | next _ hs ih => exact ih.step hs

/-! ## The start -/

theorem good_start {size n tasks : Nat} {chk : Bool} {p : Pool} {memory : List Bytes}
    (hp : Pool.new chk size n true = .ok (some p)) (ht : tasks < 2 ^ 32) :
    Good (Sys.start p memory tasks) ∧ QuietInv (Sys.start p memory tasks) ∧ p.buffers.length = n ∧ 0 < n ∧ n < nil ∧
      p.mapped = [] := by
  have hpre : isPow2 size = true ∧ 0 < n ∧ n < nil := by
    unfold Pool.new at hp
    rw [Res.bind_eq_ok] at hp
    obtain ⟨_, h1, hp⟩ := hp
    rw [Res.bind_eq_ok] at hp
    obtain ⟨_, h2, hp⟩ := hp
    rw [Res.bind_eq_ok] at hp
    obtain ⟨_, h3, hp⟩ := hp
    rw [Res.bind_eq_ok] at hp
    obtain ⟨_, h4, hp⟩ := hp
    rw [assert_ok] at h2 h3 h4
    simp only [bne_iff_ne, ne_eq, decide_eq_true_eq] at h2 h4
    exact ⟨h3, by omega, h4⟩
  obtain ⟨hs, hn, hlt⟩ := hpre
  cases chk with
  | true =>
    obtain ⟨e, he⟩ := new_checked size n hn
    rw [he] at hp; cases hp
  | false =>
    obtain ⟨p', h1, h2, h3, h4, h5, h6, h7⟩ := new_ok hs hn hlt
    rw [h1] at hp
    injection hp with hp
    injection hp with hp
    subst hp
    have hinv := inv_start (memory := memory) (n := tasks) (fun b hb => (h3 b hb).1) h5
    have hidle : ∀ t ∈ (Sys.start p' memory tasks).tasks, t = .idle := fun t ht => (List.mem_replicate.1 ht).2
    refine ⟨⟨hinv, ?_, ?_, by simp [Sys.start, ht]⟩, ?_, h2, hn, hlt, h4⟩
    · refine shape_of_holds h7 ?_ h4
      intro i hi
      refine ⟨0, ?_⟩
      rw [startLists, if_pos rfl, List.mem_range, ← h2]
      exact hi
    · intro l w hm
      cases hidle _ hm
    · constructor
      · refine h7.congr (fun _ => rfl) rfl (fun _ => rfl) ?_
        intro k
        show quietLists p' k = startLists n k
        unfold quietLists startLists
        rw [h4, h2]
        rfl
      · show p'.mapped.length ≤ _
        rw [h4]; exact Nat.zero_le _
      · exact h5
      · intro i hi
        have hi : i ∈ p'.mapped.map (·.2) := hi
        rw [h4] at hi; cases hi
      · intro i hi
        have hi : i < p'.buffers.length - p'.mapped.length := hi
        have hi : i < p'.buffers.length := by omega
        show acc p'.buffers i = some none
        rw [(acc_of_buf (buf_of_lt hi)).1, (h3 _ (List.getElem_mem hi)).1]
      · intro t ht l w hg
        rw [hidle t ht] at hg; cases hg
      · intro i hi
        have hi : i < p'.buffers.length := hi
        show i ∈ quietLists p' 0
        rw [quietLists, if_pos rfl, h4]
        simpa using hi

theorem Quiet.inv {chk : Bool} {fetch : Nat → Res Bytes} {s s' : Sys} (h : Quiet chk fetch s s') (hg : Good s)
    (hq : QuietInv s) : Good s' ∧ QuietInv s' := by
  induction h with
  | refl => exact ⟨hg, hq⟩
  | next _ ha hs ih => exact ⟨ih.1.step hs, ih.2.step ih.1.inv ha hs⟩

theorem Quiet.reach {chk : Bool} {fetch : Nat → Res Bytes} {s s' : Sys} (h : Quiet chk fetch s s') :
    Reach chk fetch s s' := by
  induction h with
  | refl => exact .refl
  | next _ _ hs ih => exact .next ih hs

theorem Reach.length {chk : Bool} {fetch : Nat → Res Bytes} {s s' : Sys} (h : Reach chk fetch s s') :
    s'.pool.buffers.length = s.pool.buffers.length := by
  induction h with
  | refl => rfl
  | next _ hs ih =>
    rw [← ih]
    cases step_trans hs with
    | access _ ha =>
      cases ha with
      | opened ho _ _ => exact ho.length
      | shared _ _ _ _ _ _ _ _ length _ => exact length
    | release _ hr =>
      cases hr with
      | kept _ _ _ _ length _ => exact length
      | retired _ _ _ _ length _ => exact length
    | acquire => rfl
    | load => rfl
    | write => rfl
    | drop => rfl

/-! ## Filling the pool -/

/-- As many new locations as there are buffers can be accessed. -/
theorem fill {chk : Bool} (fetch : Nat → Res Bytes) {s : Sys} (hg : Good s) (hq : QuietInv s) (hm : s.pool.mapped = [])
    (hi : ∀ j, j < s.tasks.length → s.tasks[j]? = some .idle) (k : Nat) (hk : k ≤ s.pool.buffers.length)
    (ht : k ≤ s.tasks.length) :
    ∃ s', Quiet chk fetch s s' ∧ s'.pool.mapped.length = k ∧
      (∀ j, k ≤ j → j < s.tasks.length → s'.tasks[j]? = some .idle) ∧ ∀ location, k ≤ location → s'.pool.find location = none := by
  induction k with
  | zero =>
    refine ⟨s, .refl, by rw [hm]; rfl, fun j _ hj => hi j hj, ?_⟩
    intro location _
    unfold Pool.find
    rw [hm]; rfl
  | succ k ih =>
    obtain ⟨s1, h1, h2, h3, h4⟩ := ih (by omega) (by omega)
    obtain ⟨g1, q1⟩ := h1.inv hg hq
    have hlen := h1.reach.length
    have hidle := h3 k (Nat.le_refl _) (by omega)
    obtain ⟨p', hp, _⟩ := q1.access_new (chk := chk) (h4 k (Nat.le_refl _)) (by omega)
    have hs : Storage.step chk fetch s1 (.access k k .initialize) = .ok (some { s1 with
        pool := p'
        tasks := s1.tasks.set k (.loading (s1.pool.buffers.length - s1.pool.mapped.length - 1) s1.pool.nextLock k .initialize) }) := by
      simp only [Storage.step, hidle]
      rw [hp, Res.bind_ok]
      rfl
    refine ⟨_, h1.next (fun t e => by cases e) hs, ?_, ?_, ?_⟩
    · cases access_ok hp with
      | opened ho _ hmap =>
        rcases hmap with ⟨_, hmap⟩ | ⟨hf, _⟩
        · simp only; rw [hmap, List.length_cons, h2]
        · rw [h4 k (Nat.le_refl _)] at hf; cases hf
      | shared _ _ hf => rw [h4 k (Nat.le_refl _)] at hf; cases hf
    · intro j hj hjt
      simp only [List.getElem?_set, if_neg (by omega : ¬ k = j)]
      exact h3 j (by omega) hjt
    · intro location hl
      simp only
      cases access_ok hp with
      | opened ho _ hmap =>
        rcases hmap with ⟨_, hmap⟩ | ⟨hf, _⟩
        · have := h4 location (by omega)
          unfold Pool.find at this ⊢
          rw [hmap, List.lookup_cons, show (location == k) = false from by simp; omega]
          exact this
        · rw [h4 k (Nat.le_refl _)] at hf; cases hf
      | shared _ _ hf => rw [h4 k (Nat.le_refl _)] at hf; cases hf

/-! ## The mapping only grows -/

theorem step_find {chk : Bool} {fetch : Nat → Res Bytes} {s s' : Sys} {a : Act}
    (hs : step chk fetch s a = .ok (some s')) {location i : Nat} (h : s.pool.find location = some i) :
    s'.pool.find location = some i := by
  have same : ∀ {p : Pool}, p.mapped = s.pool.mapped → p.find location = some i := by
    intro p hp
    unfold Pool.find at h ⊢
    rw [hp]; exact h
  cases step_trans hs with
  | @access t loc kind p g _ ha =>
    cases ha with
    | opened ho _ hm =>
      rcases hm with ⟨hf, hm⟩ | ⟨_, hm⟩
      · have hne : location ≠ loc := by
          intro e; subst e; rw [h] at hf; cases hf
        show p.find location = some i
        unfold Pool.find at h ⊢
        rw [hm, List.lookup_cons, show (location == loc) = false from by simpa using hne]
        exact h
      · exact same hm
    | shared _ _ _ _ _ _ _ _ _ m => exact same m.1
  | release _ hr =>
    cases hr with
    | kept _ _ _ _ _ m => exact same m.1
    | retired _ _ _ _ _ m => exact same m.1
  | acquire => exact h
  | load => exact h
  | write => exact h
  | drop => exact h

theorem Reach.find {chk : Bool} {fetch : Nat → Res Bytes} {s s' : Sys} (hr : Reach chk fetch s s')
    {location i : Nat} (h : s.pool.find location = some i) : s'.pool.find location = some i := by
  induction hr with
  | refl => exact h
  | next _ hs ih => exact step_find hs ih

/-- After an access the location is mapped to the buffer of the task. -/
theorem access_find {chk : Bool} {fetch : Nat → Res Bytes} {s s' : Sys} {t location : Nat} {kind : Kind}
    (hs : step chk fetch s (.access t location kind) = .ok (some s')) :
    ∃ x i, s'.tasks[t]? = some x ∧ x.buffer = some i ∧ s'.pool.find location = some i ∧
      ∀ j, s.pool.find location = some j → j = i := by
  cases step_trans hs with
  | @access t loc kind p g ht ha =>
    have hlt := (List.getElem?_eq_some_iff.1 ht).1
    refine ⟨_, g.index, by simp only [List.getElem?_set, if_pos hlt]; rfl, ?_, ?_, ?_⟩
    · split <;> rfl
    · show p.find location = some g.index
      cases ha with
      | opened ho _ hm =>
        rcases hm with ⟨hf, hm⟩ | ⟨hf, hm⟩
        · unfold Pool.find
          rw [hm, List.lookup_cons]
          simp
        · unfold Pool.find at hf ⊢
          rw [hm]; exact hf
      | shared _ _ hf _ _ _ _ _ _ m =>
        unfold Pool.find at hf ⊢
        rw [m.1]; exact hf
    · intro j hj
      cases ha with
      | opened ho _ hm =>
        rcases hm with ⟨hf, hm⟩ | ⟨hf, hm⟩
        · rw [hj] at hf; cases hf
        · rw [hj] at hf; injection hf
      | shared _ _ hf => rw [hj] at hf; injection hf

/-! ## Memory -/

/-- No task provides the content of buffer `i`. -/
def NoLoader (s : Sys) (i : Nat) : Prop := ∀ t ∈ s.tasks, ∀ lock location kind, t ≠ .loading i lock location kind

/-- A step that is not a write to buffer `i` does not change the memory of a used buffer that nobody loads. -/
theorem step_memory {chk : Bool} {fetch : Nat → Res Bytes} {s s' : Sys} {a : Act} {i : Nat} (hn : NoLoader s i)
    (ha : ∀ t content x, a = .write t content → s.tasks[t]? = some x → x.buffer ≠ some i)
    (hs : step chk fetch s a = .ok (some s')) : s'.memory[i]? = s.memory[i]? := by
  cases step_trans hs with
  | access => rfl
  | acquire => rfl
  | @load t j lock location kind content ht h =>
    have : j ≠ i := by
      intro e; subst e
      exact hn _ (List.mem_of_getElem? ht) lock location kind rfl
    simp only [List.getElem?_set, if_neg this]
  | @write t j lock location kind content ht h =>
    have : j ≠ i := by
      intro e; subst e
      exact ha t content _ rfl ht rfl
    simp only [List.getElem?_set, if_neg this]
  | release => rfl
  | drop => rfl

theorem step_noLoader {chk : Bool} {fetch : Nat → Res Bytes} {s s' : Sys} {a : Act} {i : Nat} (hg : Good s)
    (hn : NoLoader s i) (hu : 0 < users s.tasks i) (hs : step chk fetch s a = .ok (some s')) : NoLoader s' i := by
  have hset : ∀ (t : Nat) (y : Task), (∀ lock location kind, y ≠ .loading i lock location kind) →
      ∀ z ∈ s.tasks.set t y, ∀ lock location kind, z ≠ .loading i lock location kind := by
    intro t y hy z hz
    rcases mem_of_set hz with hz | hz
    · exact hn z hz
    · subst hz; exact hy
  cases step_trans hs with
  | @access t loc kind p g ht ha =>
    refine hset t _ ?_
    intro lock location kind e
    cases ha with
    | opened ho hgi hm =>
      rw [hgi, if_pos rfl] at e
      injection e with e1
      subst e1
      have := hg.inv.described g.index
      rw [ho.before] at this
      have : users s.tasks g.index = 0 := this
      omega
    | shared a n hf ha hgi =>
      rw [hgi] at e
      cases e
  | acquire => exact hset _ _ (fun _ _ _ e => by cases e)
  | load => exact hset _ _ (fun _ _ _ e => by cases e)
  | write => exact hn
  | release => exact hset _ _ (fun _ _ _ e => by cases e)
  | drop => exact hset _ _ (fun _ _ _ e => by cases e)

theorem Kept.memory {chk : Bool} {fetch : Nat → Res Bytes} {i : Nat} {s s' : Sys} {last : Option Bytes}
    (h : Kept chk fetch i s last s') (hg : Good s) (hn : NoLoader s i) (hu : 0 < users s.tasks i)
    (hi : i < s.memory.length) :
    s'.memory[i]? = some (last.getD ((s.memory[i]?).getD [])) ∧ Good s' ∧ NoLoader s' i ∧ 0 < users s'.tasks i ∧
      s'.memory.length = s.memory.length := by
  induction h with
  | refl => exact ⟨by rw [List.getElem?_eq_getElem hi]; rfl, hg, hn, hu, rfl⟩
  | @write last s1 s2 t lock location kind content h ht hs hu2 ih =>
    obtain ⟨_, h2, h3, h4, h5⟩ := ih
    refine ⟨?_, h2.step hs, step_noLoader h2 h3 h4 hs, hu2, ?_⟩
    · cases step_trans hs with
      | write ht' =>
        rw [ht] at ht'
        injection ht' with ht'
        injection ht' with e1
        subst e1
        simp only [List.getElem?_set]
        rw [if_pos trivial, if_pos (by rw [h5]; exact hi)]
        rfl
    · rw [← h5]
      cases step_trans hs with
      | write ht' => simp
  | other h ha hs hu2 ih =>
    obtain ⟨h1, h2, h3, h4, h5⟩ := ih
    refine ⟨by rw [step_memory h3 ha hs]; exact h1, h2.step hs, step_noLoader h2 h3 h4 hs, hu2, ?_⟩
    rw [← h5]
    cases step_trans hs <;> simp

end Verif.Storage
