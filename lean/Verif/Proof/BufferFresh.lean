import Verif.Proof.BufferRuns

/-! # Buffers that have never been used, in all executions

The lists of the pool are damaged by releases (C50), but the buffers that have not been used yet stay linked at the end
of the available list, so that new locations are given unused buffers as long as there are any. -/

namespace Verif.Storage

open Verif Verif.Spec

/-! ## What the list operations do to the links, without assumptions -/

theorem setPrev_link {bs bs' : List Buffer} {i v : Nat} (h : setPrev bs i v = .ok bs') : bs'.length = bs.length ∧
    ∃ p n, linkOf bs i = some (p, n) ∧ ∀ j, linkOf bs' j = if j = i then some (v, n) else linkOf bs j := by
  have hi : i < bs.length := by
    unfold setPrev at h
    obtain ⟨b, hb, _⟩ := Res.bind_eq_ok.1 h
    exact (acc_of_buf hb).2
  obtain ⟨bs'', h1, h2, _, h3⟩ := setPrev_ok v (linkOf_getElem hi)
  rw [h] at h1
  injection h1 with h1
  subst h1
  exact ⟨h2, _, _, linkOf_getElem hi, h3⟩

theorem setNext_link {bs bs' : List Buffer} {i v : Nat} (h : setNext bs i v = .ok bs') : bs'.length = bs.length ∧
    ∃ p n, linkOf bs i = some (p, n) ∧ ∀ j, linkOf bs' j = if j = i then some (p, v) else linkOf bs j := by
  have hi : i < bs.length := by
    unfold setNext at h
    obtain ⟨b, hb, _⟩ := Res.bind_eq_ok.1 h
    exact (acc_of_buf hb).2
  obtain ⟨bs'', h1, h2, _, h3⟩ := setNext_ok v (linkOf_getElem hi)
  rw [h] at h1
  injection h1 with h1
  subst h1
  exact ⟨h2, _, _, linkOf_getElem hi, h3⟩

theorem listRemove_steps {l l' : Head} {bs bs' : List Buffer} {i : Nat} (h : listRemove l bs i = .ok (l', bs')) :
    ∃ p n b1 b2 b3, linkOf bs i = some (p, n) ∧ (n = nil ∧ b1 = bs ∨ n ≠ nil ∧ setPrev bs n p = .ok b1) ∧
      (p = nil ∧ b2 = b1 ∨ p ≠ nil ∧ setNext b1 p n = .ok b2) ∧ setNext b2 i nil = .ok b3 ∧
      setPrev b3 i nil = .ok bs' ∧ l' = ⟨if p = nil then n else l.head, if n = nil then p else l.tail⟩ := by
  unfold listRemove at h
  obtain ⟨b, hb, h⟩ := Res.bind_eq_ok.1 h
  obtain ⟨⟨l1, b1⟩, h1, h⟩ := Res.bind_eq_ok.1 h
  obtain ⟨⟨l2, b2⟩, h2, h⟩ := Res.bind_eq_ok.1 h
  obtain ⟨b3, h3, h⟩ := Res.bind_eq_ok.1 h
  obtain ⟨b4, h4, h⟩ := Res.bind_eq_ok.1 h
  injection h with h
  injection h with e1 e2
  subst e1 e2
  refine ⟨b.prev, b.next, b1, b2, b3, by unfold linkOf; rw [buf_ok.1 hb]; rfl, ?_, ?_, h3, h4, ?_⟩
  · unfold unlinkNext at h1
    split at h1
    · rename_i hn
      obtain ⟨c, hc, h1⟩ := Res.bind_eq_ok.1 h1
      injection h1 with h1
      injection h1 with e1 e2
      subst e2
      exact .inr ⟨hn, hc⟩
    · rename_i hn
      injection h1 with h1
      injection h1 with e1 e2
      exact .inl ⟨Decidable.not_not.1 hn, e2.symm⟩
  · unfold unlinkPrev at h2
    split at h2
    · rename_i hn
      obtain ⟨c, hc, h2⟩ := Res.bind_eq_ok.1 h2
      injection h2 with h2
      injection h2 with e1 e2
      subst e2
      exact .inr ⟨hn, hc⟩
    · rename_i hn
      injection h2 with h2
      injection h2 with e1 e2
      exact .inl ⟨Decidable.not_not.1 hn, e2.symm⟩
  · have e1 : l1 = ⟨l.head, if b.next = nil then b.prev else l.tail⟩ := by
      unfold unlinkNext at h1
      split at h1
      · rename_i hn
        obtain ⟨c, hc, h1⟩ := Res.bind_eq_ok.1 h1
        injection h1 with h1
        injection h1 with e1 e2
        rw [if_neg hn]; exact e1.symm
      · rename_i hn
        injection h1 with h1
        injection h1 with e1 e2
        rw [if_pos (Decidable.not_not.1 hn)]; exact e1.symm
    unfold unlinkPrev at h2
    split at h2
    · rename_i hn
      obtain ⟨c, hc, h2⟩ := Res.bind_eq_ok.1 h2
      injection h2 with h2
      injection h2 with e3 e2
      rw [if_neg hn, ← e3, e1]
    · rename_i hn
      injection h2 with h2
      injection h2 with e3 e2
      rw [if_pos (Decidable.not_not.1 hn), ← e3, e1]

theorem pushFront_steps {l l' : Head} {bs bs' : List Buffer} {i : Nat} (h : pushFront l bs i = .ok (l', bs')) :
    (l.head = nil ∧ l.tail = nil ∧ l' = ⟨i, i⟩ ∧ bs' = bs) ∨
    (l.head ≠ nil ∧ l.tail ≠ nil ∧ l' = ⟨i, l.tail⟩ ∧
      ∃ b1, setNext bs i l.head = .ok b1 ∧ setPrev b1 l.head i = .ok bs') := by
  unfold pushFront at h
  obtain ⟨b, hb, h⟩ := Res.bind_eq_ok.1 h
  obtain ⟨_, _, h⟩ := Res.bind_eq_ok.1 h
  obtain ⟨_, _, h⟩ := Res.bind_eq_ok.1 h
  split at h
  · rename_i hn
    obtain ⟨_, ha, h⟩ := Res.bind_eq_ok.1 h
    obtain ⟨b1, h1, h⟩ := Res.bind_eq_ok.1 h
    obtain ⟨b2, h2, h⟩ := Res.bind_eq_ok.1 h
    injection h with h
    injection h with e1 e2
    subst e2
    have ha := assert_ok.1 ha
    exact .inr ⟨hn, by simpa using ha, e1.symm, b1, h1, h2⟩
  · rename_i hn
    obtain ⟨_, ha, h⟩ := Res.bind_eq_ok.1 h
    injection h with h
    injection h with e1 e2
    have ha := assert_ok.1 ha
    exact .inl ⟨Decidable.not_not.1 hn, by simpa using ha, e1.symm, e2.symm⟩

/-! ## The links of unused buffers -/

/-- Where the previous link of buffer `i` may point to when buffers `0` to `k - 1` are unused. -/
def PrevFresh (k i a : Nat) : Prop := ((i = 0 ∨ k ≤ i) → k ≤ a) ∧ (0 < i → i < k → a + 1 = i)

/-- Where its next link may point to. -/
def NextFresh (k i b : Nat) : Prop := (k ≤ i → k ≤ b ∨ b = 0) ∧ (i < k → b = if i + 1 = k then nil else i + 1)

/-- Buffers `0` to `k - 1` are linked in order and the others do not point to them, except for the first. -/
def LinkFresh (k : Nat) (bs : List Buffer) : Prop :=
  ∀ i a b, linkOf bs i = some (a, b) → PrevFresh k i a ∧ NextFresh k i b

theorem LinkFresh.zero (bs : List Buffer) : LinkFresh 0 bs := by
  intro i a b _
  exact ⟨⟨fun _ => Nat.zero_le _, fun _ h => by omega⟩, ⟨fun _ => .inl (Nat.zero_le _), fun h => by omega⟩⟩

theorem LinkFresh.setPrev {k : Nat} {bs bs' : List Buffer} {i v : Nat} (h : LinkFresh k bs)
    (hs : setPrev bs i v = .ok bs') (hi : i = 0 ∨ k ≤ i) (hv : k ≤ v) : LinkFresh k bs' := by
  obtain ⟨_, p, n, h1, h2⟩ := setPrev_link hs
  intro j a b hj
  rw [h2] at hj
  split at hj
  · rename_i e
    subst e
    injection hj with hj
    injection hj with e1 e2
    subst e1 e2
    exact ⟨⟨fun _ => hv, fun _ _ => by omega⟩, (h _ _ _ h1).2⟩
  · exact h _ _ _ hj

theorem LinkFresh.setNext {k : Nat} {bs bs' : List Buffer} {i v : Nat} (h : LinkFresh k bs)
    (hs : setNext bs i v = .ok bs') (hi : k ≤ i) (hv : k ≤ v ∨ v = 0) : LinkFresh k bs' := by
  obtain ⟨_, p, n, h1, h2⟩ := setNext_link hs
  intro j a b hj
  rw [h2] at hj
  split at hj
  · rename_i e
    subst e
    injection hj with hj
    injection hj with e1 e2
    subst e1 e2
    exact ⟨(h _ _ _ h1).1, ⟨fun _ => hv, fun _ => by omega⟩⟩
  · exact h _ _ _ hj

theorem LinkFresh.remove {k : Nat} {l l' : Head} {bs bs' : List Buffer} {i : Nat} (h : LinkFresh k bs) (hk : k ≤ nil)
    (hs : listRemove l bs i = .ok (l', bs')) (hi : k ≤ i) : LinkFresh k bs' := by
  obtain ⟨p, n, b1, b2, b3, h1, h2, h3, h4, h5, _⟩ := listRemove_steps hs
  obtain ⟨hp, hn⟩ := h _ _ _ h1
  have hp := hp.1 (.inr hi)
  have hn := hn.1 hi
  have f1 : LinkFresh k b1 := by
    rcases h2 with ⟨_, rfl⟩ | ⟨_, h2⟩
    · exact h
    · exact h.setPrev h2 (hn.symm) hp
  have f2 : LinkFresh k b2 := by
    rcases h3 with ⟨_, rfl⟩ | ⟨_, h3⟩
    · exact f1
    · exact f1.setNext h3 hp hn
  exact (f2.setNext h4 hi (.inl hk)).setPrev h5 (.inr hi) hk

theorem LinkFresh.push {k : Nat} {l l' : Head} {bs bs' : List Buffer} {i : Nat} (h : LinkFresh k bs)
    (hs : pushFront l bs i = .ok (l', bs')) (hi : k ≤ i) (hl : k ≤ l.head ∨ l.head = 0) : LinkFresh k bs' := by
  rcases pushFront_steps hs with ⟨_, _, _, rfl⟩ | ⟨_, _, _, b1, h1, h2⟩
  · exact h
  · exact (h.setNext h1 hi hl).setPrev h2 hl.symm hi

/-- The last unused buffer is taken away from the end of the list. -/
theorem LinkFresh.take {k : Nat} {l l' : Head} {bs bs' : List Buffer} (h : LinkFresh (k + 2) bs) (hk : k + 2 ≤ nil)
    (hs : listRemove l bs (k + 1) = .ok (l', bs')) : LinkFresh (k + 1) bs' ∧ l' = ⟨l.head, k⟩ := by
  obtain ⟨p, n, b1, b2, b3, h1, h2, h3, h4, h5, h6⟩ := listRemove_steps hs
  obtain ⟨hp, hn⟩ := h _ _ _ h1
  have hp' : p = k := by have := hp.2 (by omega) (by omega); omega
  have hn' : n = nil := by have := hn.2 (by omega); rw [if_pos rfl] at this; exact this
  clear hp hn
  subst hp' hn'
  have hpn : p ≠ nil := by omega
  rw [if_neg hpn, if_pos rfl] at h6
  refine ⟨?_, h6⟩
  have h2 : b1 = bs := by
    rcases h2 with ⟨_, h2⟩ | ⟨h2, _⟩
    · exact h2
    · exact absurd rfl h2
  subst h2
  have h3 : Storage.setNext b1 p nil = .ok b2 := by
    rcases h3 with ⟨h3, _⟩ | ⟨_, h3⟩
    · exact absurd h3 hpn
    · exact h3
  obtain ⟨_, a3, c3, d3, e3⟩ := setNext_link h3
  obtain ⟨_, a4, c4, d4, e4⟩ := setNext_link h4
  obtain ⟨_, a5, c5, d5, e5⟩ := setPrev_link h5
  intro j a b hj
  rw [e5] at hj
  split at hj
  · rename_i e
    subst e
    injection hj with hj
    injection hj with q1 q2
    rw [e4, if_pos rfl] at d5
    injection d5 with d5
    injection d5 with r1 r2
    subst q1 q2 r2
    exact ⟨⟨fun _ => by omega, fun _ h => by omega⟩, ⟨fun _ => .inl (by omega), fun h => by omega⟩⟩
  · rename_i e
    rw [e4, if_neg e, e3] at hj
    split at hj
    · rename_i e'
      subst e'
      injection hj with hj
      injection hj with q1 q2
      subst q1 q2
      obtain ⟨u, v⟩ := h _ _ _ d3
      refine ⟨⟨fun h' => ?_, fun h' h'' => u.2 h' (by omega)⟩, ⟨fun h' => by omega, fun _ => by rw [if_pos rfl]⟩⟩
      have := u.1 (by omega)
      omega
    · rename_i e'
      obtain ⟨u, v⟩ := h _ _ _ hj
      refine ⟨⟨fun h' => ?_, fun h' h'' => u.2 h' (by omega)⟩, ⟨fun h' => ?_, fun h' => ?_⟩⟩
      · have := u.1 (by omega); omega
      · have := v.1 (by omega); omega
      · have := v.2 (by omega)
        rw [if_neg (by omega)] at this
        rw [if_neg (by omega)]; exact this

/-! ## The invariant -/

/-- The number of locations used is not larger than that of the buffers, and all of them have their own buffer; the
rest of the buffers are unused. -/
structure Fresh (p : Pool) (k : Nat) : Prop where
  room : p.mapped.length + k = p.buffers.length
  small : p.buffers.length ≤ nil
  links : LinkFresh k p.buffers
  tail : 0 < k → p.available.tail + 1 = k
  head : k ≤ p.available.head ∨ p.available.head = 0
  dirty : k ≤ p.dirty.head
  unused : ∀ j, j < k → acc p.buffers j = some none
  mapped : ∀ e ∈ p.mapped, k ≤ e.2
  nodup : (p.mapped.map (·.2)).Nodup

theorem linkFresh_congr {k : Nat} {bs bs' : List Buffer} (h : LinkFresh k bs) (hl : ∀ i, linkOf bs' i = linkOf bs i) :
    LinkFresh k bs' := by
  intro i a b hi
  rw [hl] at hi
  exact h _ _ _ hi

theorem open_same {p p' : Pool} {held : Nat → Bool} {i lock : Nat} (h : p.open held i = .ok (p', lock)) :
    (∀ j, linkOf p'.buffers j = linkOf p.buffers j) ∧ p'.buffers.length = p.buffers.length ∧
      p'.available = p.available ∧ p'.dirty = p.dirty ∧ p'.mapped = p.mapped ∧ p'.inUse = p.inUse ∧
      ∀ j, j ≠ i → acc p'.buffers j = acc p.buffers j := by
  unfold Pool.open at h
  rcases allocLock_cases p with ⟨l, ls, h1, h2⟩ | ⟨h1, h2⟩
  all_goals
    rw [h2] at h
    simp only at h
    obtain ⟨b, hb, h⟩ := Res.bind_eq_ok.1 h
    obtain ⟨_, _, h⟩ := Res.bind_eq_ok.1 h
    injection h with h
    injection h with e1 e2
    subst e1
    refine ⟨fun j => linkOf_set (buf_ok.1 hb) (by rfl) (by rfl) j, by simp, rfl, rfl, rfl, rfl, fun j hj => ?_⟩
    rw [acc_set (acc_of_buf hb).2, if_neg hj]

theorem Fresh.same {p p' : Pool} {k i : Nat} (h : Fresh p k) (hl : ∀ j, linkOf p'.buffers j = linkOf p.buffers j)
    (hn : p'.buffers.length = p.buffers.length) (ha : p'.available = p.available) (hd : p'.dirty = p.dirty)
    (hm : p'.mapped = p.mapped) (hu : ∀ j, j ≠ i → acc p'.buffers j = acc p.buffers j) (hi : k ≤ i) : Fresh p' k where
  room := by rw [hm, hn]; exact h.room
  small := by rw [hn]; exact h.small
  links := linkFresh_congr h.links hl
  tail := by rw [ha]; exact h.tail
  head := by rw [ha]; exact h.head
  dirty := by rw [hd]; exact h.dirty
  unused := fun j hj => by rw [hu j (by omega)]; exact h.unused j hj
  mapped := by rw [hm]; exact h.mapped
  nodup := by rw [hm]; exact h.nodup

theorem Fresh.accessMapped {chk : Bool} {p p' : Pool} {k i : Nat} {held : Nat → Bool} {g : Grant} (h : Fresh p k)
    (hi : k ≤ i) (hs : p.accessMapped chk held i = .ok (some (p', g))) : Fresh p' k := by
  unfold Pool.accessMapped at hs
  obtain ⟨b, hb, hs⟩ := Res.bind_eq_ok.1 hs
  split at hs
  · obtain ⟨⟨p1, lock⟩, h1, hs⟩ := Res.bind_eq_ok.1 hs
    injection hs with hs
    injection hs with hs
    injection hs with e1 e2
    subst e1
    obtain ⟨r1, r2, r3, r4, r5, _, r6⟩ := open_same h1
    exact h.same r1 r2 r3 r4 r5 r6 hi
  · obtain ⟨n, _, hs⟩ := Res.bind_eq_ok.1 hs
    injection hs with hs
    injection hs with hs
    injection hs with e1 e2
    subst e1
    refine h.same (i := i) (fun j => linkOf_set (buf_ok.1 hb) (by rfl) (by rfl) j) (by simp) rfl rfl rfl ?_ hi
    intro j hj
    simp only
    rw [acc_set (acc_of_buf hb).2, if_neg hj]

theorem accessNew_steps {p p' : Pool} {held : Nat → Bool} {location : Nat} {g : Grant}
    (hs : p.accessNew held location = .ok (some (p', g))) :
    ∃ l1 b1 l2 b2 lock, p.available.tail ≠ nil ∧ listRemove p.available p.buffers p.available.tail = .ok (l1, b1) ∧
      pushFront l1 b1 p.available.tail = .ok (l2, b2) ∧ acc b2 p.available.tail = some none ∧
      ({ p with available := l2, buffers := b2, mapped := (location, p.available.tail) :: p.mapped } : Pool).open held
        p.available.tail = .ok (p', lock) ∧ g = ⟨p.available.tail, lock, true⟩ := by
  unfold Pool.accessNew at hs
  split at hs
  · rename_i hn
    obtain ⟨⟨l1, b1⟩, h1, hs⟩ := Res.bind_eq_ok.1 hs
    obtain ⟨⟨l2, b2⟩, h2, hs⟩ := Res.bind_eq_ok.1 hs
    obtain ⟨b, hb, hs⟩ := Res.bind_eq_ok.1 hs
    obtain ⟨_, ha, hs⟩ := Res.bind_eq_ok.1 hs
    obtain ⟨⟨p1, lock⟩, h3, hs⟩ := Res.bind_eq_ok.1 hs
    injection hs with hs
    injection hs with hs
    injection hs with e1 e2
    subst e1
    refine ⟨l1, b1, l2, b2, lock, hn, h1, h2, ?_, h3, e2.symm⟩
    have ha := assert_ok.1 ha
    rw [(acc_of_buf hb).1]
    simpa using ha
  · cases hs

/-- As long as there are unused buffers, a new location is given the last of them. -/
theorem Fresh.accessNew {p p' : Pool} {k : Nat} {held : Nat → Bool} {location : Nat} {g : Grant}
    (h : Fresh p (k + 1)) (hs : p.accessNew held location = .ok (some (p', g))) :
    Fresh p' k ∧ g.index = k ∧ p'.mapped = (location, k) :: p.mapped := by
  obtain ⟨l1, b1, l2, b2, lock, hn, h1, h2, ha, h3, hg⟩ := accessNew_steps hs
  have ht : p.available.tail = k := by have := h.tail (by omega); omega
  rw [ht] at hn h1 h2 ha h3 hg
  obtain ⟨r1, r2, r3, r4, r5, _, r6⟩ := open_same h3
  simp only at r1 r2 r3 r4 r5 r6
  have hlen : b2.length = p.buffers.length := by
    have e := congrArg List.length ((pushFront_payload h2).trans (listRemove_payload h1))
    unfold payload at e
    simpa using e
  have hk : k < p.buffers.length := by have := h.room; omega
  have hnil := h.small
  refine ⟨?_, by rw [hg], r5⟩
  have hmap : ∀ e ∈ (location, k) :: p.mapped, k ≤ e.2 := by
    intro e he
    rcases List.mem_cons.1 he with rfl | he
    · exact Nat.le_refl _
    · have := h.mapped e he; omega
  have hnd : (((location, k) :: p.mapped).map (·.2)).Nodup := by
    rw [List.map_cons, List.nodup_cons]
    refine ⟨fun hm => ?_, h.nodup⟩
    obtain ⟨e, he, e1⟩ := List.mem_map.1 hm
    have := h.mapped e he
    simp only at e1
    omega
  have hun : ∀ j, j < k → acc p'.buffers j = some none := by
    intro j hj
    rw [r6 j (by omega), acc_congr ((pushFront_payload h2).trans (listRemove_payload h1))]
    exact h.unused j (by omega)
  have hroom : p'.mapped.length + k = p'.buffers.length := by
    rw [r5, r2, hlen]
    have := h.room
    simp only [List.length_cons]
    omega
  have hsm : p'.buffers.length ≤ nil := by rw [r2, hlen]; exact hnil
  cases k with
  | zero =>
    exact ⟨hroom, hsm, .zero _, fun h => by omega, .inl (Nat.zero_le _), Nat.zero_le _, hun, by rw [r5]; exact hmap,
      by rw [r5]; exact hnd⟩
  | succ k =>
    obtain ⟨f1, e1⟩ := h.links.take (by omega) h1
    have hhead : k + 1 ≤ l1.head ∨ l1.head = 0 := by
      rw [e1]; have := h.head; simp only; omega
    have f2 := f1.push h2 (Nat.le_refl _) hhead
    have e2 : l2 = ⟨k + 1, k⟩ := by
      rcases pushFront_steps h2 with ⟨_, q, _⟩ | ⟨_, _, q, _⟩
      · rw [e1] at q; simp only at q; omega
      · rw [q, e1]
    refine ⟨hroom, hsm, linkFresh_congr f2 r1, fun _ => by rw [r3, e2], .inl (by rw [r3, e2]; exact Nat.le_refl _), ?_, hun, by rw [r5]; exact hmap,
      by rw [r5]; exact hnd⟩
    have := h.dirty
    rw [r4]; omega

theorem Fresh.retire {p p' : Pool} {k i lock : Nat} {d : Bool} (h : Fresh p k) (hi : k ≤ i)
    (hs : p.retire i lock d = .ok p') : Fresh p' k := by
  have hpay := retire_ok hs
  have hlen : p'.buffers.length = p.buffers.length := by
    have e := congrArg List.length hpay.1
    unfold payload at e
    simpa using e
  have hk : k ≤ nil := by have := h.small; have := h.room; omega
  have rest : LinkFresh k p'.buffers ∧ (0 < k → p'.available.tail + 1 = k) ∧
      (k ≤ p'.available.head ∨ p'.available.head = 0) ∧ k ≤ p'.dirty.head := by
    unfold Pool.retire at hs
    obtain ⟨⟨u, b1⟩, h1, hs⟩ := Res.bind_eq_ok.1 hs
    have f1 := h.links.remove hk h1 hi
    simp only at hs
    split at hs
    · obtain ⟨⟨d, b2⟩, h2, hs⟩ := Res.bind_eq_ok.1 hs
      injection hs with hs
      subst hs
      refine ⟨f1.push h2 hi (.inl h.dirty), h.tail, h.head, ?_⟩
      rcases pushFront_steps h2 with ⟨_, _, q, _⟩ | ⟨_, _, q, _⟩ <;> simp only <;> rw [q] <;> exact hi
    · obtain ⟨⟨d, b2⟩, h2, hs⟩ := Res.bind_eq_ok.1 hs
      injection hs with hs
      subst hs
      refine ⟨f1.push h2 hi h.head, ?_, ?_, h.dirty⟩
      · intro hk0
        have ht := h.tail hk0
        rcases pushFront_steps h2 with ⟨_, q, _, _⟩ | ⟨_, _, q, _⟩
        · have := h.small; have := h.room; omega
        · simp only; rw [q]; exact ht
      · left
        rcases pushFront_steps h2 with ⟨_, _, q, _⟩ | ⟨_, _, q, _⟩ <;> simp only <;> rw [q] <;> exact hi
  obtain ⟨s1, s2, s3, s4⟩ := rest
  exact ⟨by rw [hpay.2.1, hlen]; exact h.room, by rw [hlen]; exact h.small, s1, s2, s3, s4,
    fun j hj => by rw [acc_congr hpay.1]; exact h.unused j hj, by rw [hpay.2.1]; exact h.mapped,
    by rw [hpay.2.1]; exact h.nodup⟩

theorem Fresh.release {p p' : Pool} {k i : Nat} {w : Bool} (h : Fresh p k) (hi : k ≤ i)
    (hs : p.release i w = .ok p') : Fresh p' k := by
  unfold Pool.release at hs
  obtain ⟨b, hb, hs⟩ := Res.bind_eq_ok.1 hs
  have hlt := (acc_of_buf hb).2
  unfold Pool.drop at hs
  have keep : ∀ b' : Buffer, b'.prev = b.prev → b'.next = b.next → Fresh { p with buffers := p.buffers.set i b' } k := by
    intro b' e1 e2
    refine h.same (i := i) (fun j => linkOf_set (buf_ok.1 hb) e1 e2 j) (by simp) rfl rfl rfl ?_ hi
    intro j hj
    simp only
    rw [acc_set hlt, if_neg hj]
  split at hs
  · cases hs
  · obtain ⟨_, _, hs⟩ := Res.bind_eq_ok.1 hs
    split at hs
    · injection hs with hs
      subst hs
      exact keep _ rfl rfl
    · refine Fresh.retire ?_ hi hs
      exact keep _ rfl rfl

/-! ## Executions -/

/-- What a step does to the pool. -/
theorem step_pool {chk : Bool} {fetch : Nat → Res Bytes} {s s' : Sys} {a : Act} (h : step chk fetch s a = .ok (some s')) :
    s'.pool = s.pool ∨
    (∃ t location kind g, a = .access t location kind ∧
      s.pool.access chk (held s.tasks) location = .ok (some (s'.pool, g))) ∨
    (∃ t i lock location kind, a = .release t ∧ s.tasks[t]? = some (.holding i lock location kind) ∧
      s.pool.release i kind.write = .ok s'.pool) := by
  cases a with
  | access t location kind =>
    simp only [step] at h
    split at h
    · obtain ⟨r, hr, h⟩ := Res.bind_eq_ok.1 h
      split at h
      · cases h
      · injection h with h
        injection h with h
        subst h
        exact .inr (.inl ⟨t, location, kind, _, rfl, hr⟩)
    · cases h
  | acquire t =>
    simp only [step] at h
    split at h
    · split at h
      · injection h with h
        injection h with h
        subst h
        exact .inl rfl
      · cases h
    · cases h
  | load t =>
    simp only [step] at h
    split at h
    · obtain ⟨r, hr, h⟩ := Res.bind_eq_ok.1 h
      injection h with h
      injection h with h
      subst h
      exact .inl rfl
    · cases h
  | write t content =>
    simp only [step] at h
    split at h
    · split at h
      · injection h with h
        injection h with h
        subst h
        exact .inl rfl
      · cases h
    · cases h
  | release t =>
    simp only [step] at h
    split at h
    · rename_i i lock location kind ht
      obtain ⟨r, hr, h⟩ := Res.bind_eq_ok.1 h
      injection h with h
      injection h with h
      subst h
      exact .inr (.inr ⟨t, i, lock, location, kind, rfl, ht, hr⟩)
    · cases h
  | drop t =>
    simp only [step] at h
    split at h
    · injection h with h
      injection h with h
      subst h
      exact .inl rfl
    · cases h

/-- Locations are mapped once. -/
def Keys (p : Pool) : Prop := (p.mapped.map (·.1)).Nodup

/-- Locations have their own buffers as long as there are not more of them than buffers. -/
structure FreshInv (s : Sys) : Prop where
  keys : Keys s.pool
  fresh : s.pool.mapped.length ≤ s.pool.buffers.length →
    Fresh s.pool (s.pool.buffers.length - s.pool.mapped.length)

theorem find_none {p : Pool} {location : Nat} (h : p.find location = none) : location ∉ p.mapped.map (·.1) := by
  unfold Pool.find at h
  rw [List.lookup_eq_none_iff] at h
  intro hm
  obtain ⟨e, he, rfl⟩ := List.mem_map.1 hm
  have := h e he
  simp at this

theorem FreshInv.step {chk : Bool} {fetch : Nat → Res Bytes} {s s' : Sys} {a : Act} (h : FreshInv s) (hi : Inv s)
    (hs : step chk fetch s a = .ok (some s')) : FreshInv s' := by
  rcases step_pool hs with e | ⟨t, location, kind, g, rfl, hp⟩ | ⟨t, i, lock, location, kind, rfl, ht, hp⟩
  · exact ⟨by rw [e]; exact h.keys, by rw [e]; exact h.fresh⟩
  · have hok := access_ok hp
    have hlen : s'.pool.buffers.length = s.pool.buffers.length := by
      cases hok with
      | opened ho => exact ho.length
      | shared _ _ _ _ _ _ _ _ hl => exact hl
    unfold Pool.access at hp
    split at hp
    · rename_i hf
      obtain ⟨l1, b1, l2, b2, lock, hn, h1, h2, ha, h3, hg⟩ := accessNew_steps hp
      obtain ⟨_, _, _, _, r5, _, _⟩ := open_same h3
      refine ⟨?_, ?_⟩
      · unfold Keys
        rw [r5]
        exact List.nodup_cons.2 ⟨find_none hf, h.keys⟩
      · rw [r5, hlen]
        intro hle
        simp only [List.length_cons] at hle ⊢
        have f := h.fresh (by omega)
        obtain ⟨k, hk⟩ : ∃ k, s.pool.buffers.length - s.pool.mapped.length = k + 1 :=
          ⟨s.pool.buffers.length - s.pool.mapped.length - 1, by omega⟩
        rw [hk] at f
        rw [show s.pool.buffers.length - (s.pool.mapped.length + 1) = k by omega]
        exact (f.accessNew hp).1
    · rename_i i hf
      have hm : s'.pool.mapped = s.pool.mapped := by
        cases hok with
        | opened ho _ hm =>
          rcases hm with ⟨hm, _⟩ | ⟨_, hm⟩
          · rw [hf] at hm; cases hm
          · exact hm
        | shared _ _ _ _ _ _ _ _ _ same => exact same.1
      refine ⟨by unfold Keys; rw [hm]; exact h.keys, ?_⟩
      rw [hm, hlen]
      intro hle
      have f := h.fresh hle
      exact f.accessMapped (f.mapped _ (find_mem hf)) hp
  · have hok := release_ok hp
    have hm : s'.pool.mapped = s.pool.mapped ∧ s'.pool.buffers.length = s.pool.buffers.length := by
      cases hok with
      | kept _ _ _ _ hl same => exact ⟨same.1, hl⟩
      | retired _ _ _ _ hl same => exact ⟨same.1, hl⟩
    refine ⟨by unfold Keys; rw [hm.1]; exact h.keys, ?_⟩
    rw [hm.1, hm.2]
    intro hle
    have f := h.fresh hle
    refine f.release ?_ hp
    obtain ⟨a, h1, _⟩ := hi.record (List.mem_of_getElem? ht) (i := i) rfl
    rcases Nat.lt_or_ge i (s.pool.buffers.length - s.pool.mapped.length) with hlt | hge
    · have := f.unused i hlt
      rw [h1] at this
      cases this
    · exact hge

/-! ## The start -/

theorem linked_range_link {link : Nat → Option (Nat × Nat)} {s m : Nat} {b a : Nat}
    (h : Linked link b (List.range' s m) a) {i : Nat} (hi : s ≤ i) (hm : i < s + m) :
    link i = some (if i = s then b else i - 1, if i + 1 = s + m then a else i + 1) := by
  induction m generalizing s b with
  | zero => omega
  | succ m ih =>
    rw [List.range'_succ] at h
    obtain ⟨h1, h2⟩ := h
    by_cases e : i = s
    · subst e
      rw [h1, if_pos rfl]
      cases m with
      | zero => simp
      | succ m => rw [List.range'_succ, if_neg (by omega)]; simp
    · rw [ih h2 (by omega) (by omega), if_neg e]
      by_cases e2 : i = s + 1
      · subst e2
        rw [if_pos rfl]
        simp only [Nat.add_sub_cancel]
        by_cases e3 : s + 1 + 1 = s + 1 + m
        · rw [if_pos e3, if_pos (by omega)]
        · rw [if_neg e3, if_neg (by omega)]
      · rw [if_neg e2]
        by_cases e3 : i + 1 = s + 1 + m
        · rw [if_pos e3, if_pos (by omega)]
        · rw [if_neg e3, if_neg (by omega)]

theorem fresh_start {p : Pool} {n : Nat} (hn : 0 < n) (hl : p.buffers.length = n) (hm : p.mapped = [])
    (ha : ∀ i, i < n → acc p.buffers i = some none) (h : Holds (poolHeads p) p.buffers (startLists n)) : Fresh p n := by
  have h0 := h.head 0
  have h2 := h.head 2
  have e0 : startLists n 0 = List.range' 0 n := by rw [startLists, if_pos rfl, List.range_eq_range']
  have e2 : startLists n 2 = [] := rfl
  have hl0 := h.linked 0
  rw [e0] at h0 hl0
  rw [e2] at h2
  have hav : p.available = ⟨0, n - 1⟩ := by
    have : p.available = _ := h0
    rw [this]
    obtain ⟨m, rfl⟩ : ∃ m, n = m + 1 := ⟨n - 1, by omega⟩
    rw [List.getLast?_range', List.range'_succ]
    simp
  refine ⟨by rw [hm]; simpa using hl.symm, h.small, ?_, fun _ => by rw [hav]; exact Nat.sub_add_cancel hn, .inr (by rw [hav]), ?_, ?_, ?_, ?_⟩
  · intro i a b hi
    have hlt := linkOf_lt hi
    rw [hl] at hlt
    have := linked_range_link hl0 (i := i) (Nat.zero_le _) (by omega)
    rw [hi] at this
    injection this with this
    injection this with q1 q2
    have hnil := h.small
    rw [hl] at hnil
    refine ⟨⟨fun h' => ?_, fun h' _ => ?_⟩, ⟨fun h' => by omega, fun _ => ?_⟩⟩
    · rw [q1, if_pos (by omega)]; exact hnil
    · rw [q1, if_neg (by omega)]; omega
    · rw [q2, Nat.zero_add]
  · have : p.dirty = _ := h2
    rw [this]
    have := h.small
    rw [hl] at this
    exact this
  · exact ha
  · rw [hm]; intro e he; cases he
  · rw [hm]; exact List.nodup_nil

theorem freshInv_start {size n tasks : Nat} {chk : Bool} {p : Pool} {memory : List Bytes}
    (hp : Pool.new chk size n true = .ok (some p)) (ht : tasks < 2 ^ 32) : FreshInv (Sys.start p memory tasks) := by
  obtain ⟨hg, hq, hlen, hn, hnil, hm⟩ := good_start (memory := memory) hp ht
  have hL : quietLists p = startLists n := by
    funext k
    unfold quietLists startLists
    rw [hm, hlen]
    simp
  have hacc : ∀ i, i < n → acc p.buffers i = some none := by
    intro i hi
    have hd := hg.inv.described i
    have hb := buf_of_lt (show i < p.buffers.length by omega)
    have ha := (acc_of_buf hb).1
    have hd : Described (List.replicate tasks .idle) i (acc p.buffers i) := hd
    cases e : p.buffers[i].access with
    | none => rw [ha, e]
    | some a =>
      rw [ha, e] at hd
      have hu : users (List.replicate tasks .idle) i = 0 := by
        unfold users
        rw [List.countP_eq_zero]
        intro t ht
        rw [(List.mem_replicate.1 ht).2]
        simp [Task.buffer]
      have h1 := hd.1
      have h2 := hd.2.1
      omega
  have h := hq.holds
  have h : Holds (poolHeads p) p.buffers (quietLists p) := h
  rw [hL] at h
  have f := fresh_start hn hlen hm hacc h
  refine ⟨?_, fun _ => ?_⟩
  · show (p.mapped.map (·.1)).Nodup
    rw [hm]; exact List.nodup_nil
  · show Fresh p (p.buffers.length - p.mapped.length)
    rw [hlen, hm]; exact f

theorem Reach.freshInv {chk : Bool} {fetch : Nat → Res Bytes} {s s' : Sys} (h : Reach chk fetch s s') (hg : Good s)
    (hf : FreshInv s) : FreshInv s' := by
  induction h with
  | refl => exact hf
  | next h hs ih => exact ih.step (h.good hg).inv hs

/-- Tasks use the buffers that their locations are mapped to. -/
def TasksMapped (s : Sys) : Prop :=
  ∀ t ∈ s.tasks, ∀ l, t.location = some l → ∃ i, t.buffer = some i ∧ s.pool.find l = some i

theorem TasksMapped.step {chk : Bool} {fetch : Nat → Res Bytes} {s s' : Sys} {a : Act} (h : TasksMapped s)
    (hs : step chk fetch s a = .ok (some s')) : TasksMapped s' := by
  have old : ∀ t ∈ s.tasks, ∀ l, t.location = some l → ∃ i, t.buffer = some i ∧ s'.pool.find l = some i := by
    intro t ht l hl
    obtain ⟨i, h1, h2⟩ := h t ht l hl
    exact ⟨i, h1, step_find hs h2⟩
  intro x hx l hl
  have hs' := hs
  cases step_trans hs with
  | @access t loc kind p g ht ha =>
    rcases mem_of_set hx with hx | hx
    · exact old x hx l hl
    · obtain ⟨y, i, h1, h2, h3, _⟩ := access_find hs'
      have hlt := (List.getElem?_eq_some_iff.1 ht).1
      simp only [List.getElem?_set_self hlt] at h1
      injection h1 with h1
      rw [← h1, ← hx] at h2
      refine ⟨i, h2, ?_⟩
      have : l = loc := by
        rw [hx] at hl
        split at hl <;> · injection hl with hl; exact hl.symm
      rw [this]
      exact h3
  | acquire ht =>
    rcases mem_of_set hx with hx | hx
    · exact old x hx l hl
    · subst hx
      exact old _ (List.mem_of_getElem? ht) l hl
  | load ht =>
    rcases mem_of_set hx with hx | hx
    · exact old x hx l hl
    · subst hx
      exact old _ (List.mem_of_getElem? ht) l hl
  | write => exact old x hx l hl
  | release ht =>
    rcases mem_of_set hx with hx | hx
    · exact old x hx l hl
    · subst hx
      cases hl
  | drop ht =>
    rcases mem_of_set hx with hx | hx
    · exact old x hx l hl
    · subst hx
      cases hl

theorem Reach.tasksMapped {chk : Bool} {fetch : Nat → Res Bytes} {s s' : Sys} (h : Reach chk fetch s s')
    (hm : TasksMapped s) : TasksMapped s' := by
  induction h with
  | refl => exact hm
  | next h hs ih => exact ih.step hs

theorem tasksMapped_start {p : Pool} {memory : List Bytes} {tasks : Nat} : TasksMapped (Sys.start p memory tasks) := by
  intro t ht l hl
  rw [(List.mem_replicate.1 ht).2] at hl
  cases hl

/-! ## Consequences -/

theorem find_of_mem {p : Pool} (hk : Keys p) {e : Nat × Nat} (h : e ∈ p.mapped) : p.find e.1 = some e.2 := by
  unfold Keys at hk
  unfold Pool.find
  generalize p.mapped = m at hk h
  induction m with
  | nil => cases h
  | cons x m ih =>
    rw [List.map_cons, List.nodup_cons] at hk
    rw [List.lookup_cons]
    rcases List.mem_cons.1 h with rfl | h
    · simp
    · have : (e.1 == x.1) = false := by
        rw [beq_eq_false_iff_ne]
        intro e1
        exact hk.1 (List.mem_map.2 ⟨e, h, e1⟩)
      rw [this]
      exact ih hk.2 h

/-- Different members with the same second component, if the second components are not distinct. -/
theorem not_nodup_snd {m : List (Nat × Nat)} (hk : (m.map (·.1)).Nodup) (h : ¬ (m.map (·.2)).Nodup) :
    ∃ e ∈ m, ∃ e' ∈ m, e.1 ≠ e'.1 ∧ e.2 = e'.2 := by
  induction m with
  | nil => exact absurd List.nodup_nil h
  | cons x m ih =>
    rw [List.map_cons, List.nodup_cons] at hk h
    by_cases hx : x.2 ∈ m.map (·.2)
    · obtain ⟨e, he, e1⟩ := List.mem_map.1 hx
      exact ⟨x, List.mem_cons_self .., e, List.mem_cons_of_mem _ he, fun q => hk.1 (List.mem_map.2 ⟨e, he, q.symm⟩), e1.symm⟩
    · obtain ⟨e, he, e', he', q⟩ := ih hk.2 fun hn => h ⟨hx, hn⟩
      exact ⟨e, List.mem_cons_of_mem _ he, e', List.mem_cons_of_mem _ he', q⟩

theorem nodup_snd {m : List (Nat × Nat)} (h : (m.map (·.2)).Nodup) {e e' : Nat × Nat} (he : e ∈ m) (he' : e' ∈ m)
    (h2 : e.2 = e'.2) : e = e' := by
  induction m with
  | nil => cases he
  | cons x m ih =>
    rw [List.map_cons, List.nodup_cons] at h
    rcases List.mem_cons.1 he with rfl | hem
    · rcases List.mem_cons.1 he' with rfl | he'
      · rfl
      · exact absurd (List.mem_map.2 ⟨e', he', h2.symm⟩) h.1
    · rcases List.mem_cons.1 he' with rfl | hem'
      · have : e'.2 ∈ m.map (·.2) := List.mem_map.2 ⟨e, hem, h2⟩
        exact absurd this h.1
      · exact ih h.2 hem hem'

/-- A list of different numbers below `n` has at most `n` elements. -/
theorem nodup_length_le {xs : List Nat} {n : Nat} (h : xs.Nodup) (hx : ∀ x ∈ xs, x < n) : xs.length ≤ n := by
  induction n generalizing xs with
  | zero =>
    cases xs with
    | nil => exact Nat.le_refl _
    | cons x xs => exact absurd (hx x (List.mem_cons_self ..)) (Nat.not_lt_zero _)
  | succ n ih =>
    have h1 := ih (h.erase n) (fun x hm => by
      have h2 := (h.mem_erase_iff).1 hm
      have := hx x h2.2
      omega)
    have h2 := List.length_erase (a := n) (l := xs)
    split at h2 <;> omega

/-! ## The list of available buffers -/

theorem pushFront_tail {l l' : Head} {bs bs' : List Buffer} {i : Nat} (h : pushFront l bs i = .ok (l', bs'))
    (hi : i ≠ nil) : l'.tail ≠ nil := by
  rcases pushFront_steps h with ⟨_, _, rfl, _⟩ | ⟨_, ht, rfl, _⟩
  · exact hi
  · exact ht

theorem accessMapped_available {chk : Bool} {p p' : Pool} {held : Nat → Bool} {i : Nat} {g : Grant}
    (h : p.accessMapped chk held i = .ok (some (p', g))) : p'.available = p.available := by
  unfold Pool.accessMapped at h
  obtain ⟨b, _, h⟩ := Res.bind_eq_ok.1 h
  split at h
  · obtain ⟨⟨p1, lock⟩, h3, h⟩ := Res.bind_eq_ok.1 h
    injection h with h
    injection h with h
    injection h with e1 e2
    subst e1
    have := open_same h3
    simp_all
  · obtain ⟨n, _, h⟩ := Res.bind_eq_ok.1 h
    injection h with h
    injection h with h
    injection h with e1 e2
    subst e1
    rfl

/-- The list of available buffers does not become empty. -/
theorem step_tail {chk : Bool} {fetch : Nat → Res Bytes} {s s' : Sys} {a : Act} (hg : Good s)
    (h : step chk fetch s a = .ok (some s')) (ht : s.pool.available.tail ≠ nil) : s'.pool.available.tail ≠ nil := by
  rcases step_pool h with e | ⟨t, location, kind, g, _, hr⟩ | ⟨t, i, lock, location, kind, _, _, hp⟩
  · rw [e]; exact ht
  · unfold Pool.access at hr
    split at hr
    · obtain ⟨l1, b1, l2, b2, lock, hn, h1, h2, ha, h3, _⟩ := accessNew_steps hr
      have := open_same h3
      simp only at this
      have e : s'.pool.available = l2 := by simp_all
      rw [e]
      exact pushFront_tail h2 hn
    · rw [accessMapped_available hr]; exact ht
  · unfold Pool.release at hp
    obtain ⟨b, hb, hp⟩ := Res.bind_eq_ok.1 hp
    unfold Pool.drop at hp
    split at hp
    · cases hp
    · obtain ⟨_, _, hp⟩ := Res.bind_eq_ok.1 hp
      split at hp
      · injection hp with hp
        rw [← hp]; exact ht
      · unfold Pool.retire at hp
        obtain ⟨⟨u, b1⟩, h1, hp⟩ := Res.bind_eq_ok.1 hp
        simp only at hp
        split at hp
        · obtain ⟨⟨d, b2⟩, _, hp⟩ := Res.bind_eq_ok.1 hp
          injection hp with hp
          rw [← hp]; exact ht
        · obtain ⟨⟨d, b2⟩, h2, hp⟩ := Res.bind_eq_ok.1 hp
          injection hp with hp
          rw [← hp]
          refine pushFront_tail h2 ?_
          have := (List.getElem?_eq_some_iff.1 (buf_ok.1 hb)).1
          have := hg.shape.small
          omega

theorem Reach.tail {chk : Bool} {fetch : Nat → Res Bytes} {s s' : Sys} (h : Reach chk fetch s s') (hg : Good s)
    (ht : s.pool.available.tail ≠ nil) : s'.pool.available.tail ≠ nil := by
  induction h with
  | refl => exact ht
  | next hr hs ih => exact step_tail (hr.good hg) hs ih

end Verif.Storage
