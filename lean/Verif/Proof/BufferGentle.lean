import Verif.Proof.BufferFresh

/-! # Which releases keep the lists of the pool -/

namespace Verif.Storage

open Verif Verif.Spec

theorem setPrev_unique {bs b b' : List Buffer} {i v : Nat} (h : setPrev bs i v = .ok b) (h' : setPrev bs i v = .ok b') :
    b = b' := by rw [h] at h'; injection h'

theorem setNext_unique {bs b b' : List Buffer} {i v : Nat} (h : setNext bs i v = .ok b) (h' : setNext bs i v = .ok b') :
    b = b' := by rw [h] at h'; injection h'

/-- The buffers after `list_remove` do not depend on the list it is called for. -/
theorem listRemove_any {l l' k k' : Head} {bs b b' : List Buffer} {i : Nat} (h : listRemove l bs i = .ok (l', b))
    (h' : listRemove k bs i = .ok (k', b')) : b = b' := by
  obtain ⟨p, n, b1, b2, b3, h1, h2, h3, h4, h5, _⟩ := listRemove_steps h
  obtain ⟨p', n', c1, c2, c3, g1, g2, g3, g4, g5, _⟩ := listRemove_steps h'
  rw [h1] at g1
  injection g1 with g1
  injection g1 with e1 e2
  subst e1 e2
  have e1 : b1 = c1 := by
    rcases h2 with ⟨q, h2⟩ | ⟨q, h2⟩ <;> rcases g2 with ⟨r, g2⟩ | ⟨r, g2⟩
    · rw [h2, g2]
    · exact absurd q r
    · exact absurd r q
    · exact setPrev_unique h2 g2
  subst e1
  have e2 : b2 = c2 := by
    rcases h3 with ⟨q, h3⟩ | ⟨q, h3⟩ <;> rcases g3 with ⟨r, g3⟩ | ⟨r, g3⟩
    · rw [h3, g3]
    · exact absurd q r
    · exact absurd r q
    · exact setNext_unique h3 g3
  subst e2
  have e3 := setNext_unique h4 g4
  subst e3
  exact setPrev_unique h5 g5

theorem Holds.both {heads : Nat → Head} {bs : List Buffer} {L : Nat → List Nat} (h : Holds heads bs L) (k : Nat) :
    (heads k).head = nil ↔ (heads k).tail = nil := by
  rw [h.head k]
  simp only
  have hne := h.ne_nil k
  cases e : L k with
  | nil => simp
  | cons x xs =>
    rw [e] at hne
    have h1 := hne x (List.mem_cons_self ..)
    have h2 : (x :: xs).getLast?.getD nil ≠ nil := by
      rw [List.getLast?_eq_some_getLast (by simp)]
      exact hne _ (List.getLast_mem _)
    simp [h1, h2]

theorem Holds.empty {heads : Nat → Head} {bs : List Buffer} {L : Nat → List Nat} (h : Holds heads bs L) {k : Nat}
    (hk : heads k = {}) : L k = [] := by
  have h1 := h.head k
  rw [hk] at h1
  injection h1 with h1 h2
  cases e : L k with
  | nil => rfl
  | cons x xs =>
    rw [e] at h1
    exact absurd h1.symm (h.ne_nil k x (by rw [e]; exact List.mem_cons_self ..))

/-- The links of an element, from its place in its list. -/
theorem Holds.link {heads : Nat → Head} {bs : List Buffer} {L : Nat → List Nat} (h : Holds heads bs L) {k i : Nat}
    {xs ys : List Nat} (e : L k = xs ++ i :: ys) :
    linkOf bs i = some (xs.getLast?.getD nil, ys.head?.getD nil) := by
  have := h.linked k
  rw [e, Linked.append] at this
  exact this.2.1

theorem head_mem {heads : Nat → Head} {bs : List Buffer} {L : Nat → List Nat} (h : Holds heads bs L) {k i : Nat}
    (hk : (heads k).head = i) (hi : i ≠ nil) : i ∈ L k := by
  rw [h.head k] at hk
  simp only at hk
  cases e : L k with
  | nil => rw [e] at hk; exact absurd hk.symm hi
  | cons x xs => rw [e] at hk; simp at hk; rw [hk]; exact List.mem_cons_self ..

/-- Where a buffer without handles is put. -/
def target (d : Bool) : Nat := if d then 2 else 0

theorem retire_steps {p p' : Pool} {i lock : Nat} {d : Bool} (hs : p.retire i lock d = .ok p') :
    ∃ u b1 t b2, listRemove p.inUse p.buffers i = .ok (u, b1) ∧ pushFront (poolHeads p (target d)) b1 i = .ok (t, b2) ∧
      p'.buffers = b2 ∧ p'.inUse = u ∧ ∀ k, k ≠ 1 → poolHeads p' k = setHead (poolHeads p) (target d) t k := by
  unfold Pool.retire at hs
  obtain ⟨⟨u, b1⟩, h1, hs⟩ := Res.bind_eq_ok.1 hs
  cases d
  all_goals
    simp only [if_true, Bool.false_eq_true, if_false] at hs
    obtain ⟨⟨t, b2⟩, h2, hs⟩ := Res.bind_eq_ok.1 hs
    injection hs with hs
    subst hs
    refine ⟨u, b1, t, b2, h1, h2, rfl, rfl, fun k hk => ?_⟩
    match k with
    | 0 => rfl
    | 1 => exact absurd rfl hk
    | 2 => rfl
    | _ + 3 => rfl

theorem retire_middle {p p' : Pool} {i lock : Nat} {d : Bool} (h : Partitioned p) (hi : i < p.buffers.length)
    (hm : Middle p.buffers i) (hs : p.retire i lock d = .ok p') : Partitioned p' ∧ p'.inUse = p.inUse := by
  obtain ⟨L, hL, hc⟩ := h
  obtain ⟨k, hk, hik⟩ := hc i hi
  obtain ⟨a, b, hl, ha, hb⟩ := hm
  obtain ⟨xs, ys, hx1, hxy, hx3⟩ := List.exists_erase_eq hik
  have hlink := hL.link hxy
  rw [hl] at hlink
  injection hlink with hlink
  injection hlink with e1 e2
  have hxs : xs ≠ [] := by rintro rfl; exact ha e1
  have hys : ys ≠ [] := by rintro rfl; exact hb e2
  obtain ⟨u, b1, t, b2, r1, r2, r3, r4, r5⟩ := retire_steps hs
  obtain ⟨heads', b0, q1, q2, q3, q4⟩ := runOp_ok hL (.remove hik)
  have hu : u = p.inUse := by
    obtain ⟨a', b', _, _, _, g1, _, _, _, _, g6⟩ := listRemove_steps r1
    rw [hl] at g1
    injection g1 with g1
    injection g1 with f1 f2
    rw [g6, if_neg (f1 ▸ ha), if_neg (f2 ▸ hb)]
  have hheads : heads' = poolHeads p ∧ b0 = b1 := by
    unfold runOp at q1
    obtain ⟨⟨l0, c0⟩, g1, q1⟩ := Res.bind_eq_ok.1 q1
    injection q1 with q1
    injection q1 with f1 f2
    subst f2
    refine ⟨?_, listRemove_any g1 r1⟩
    rw [← f1]
    obtain ⟨a', b', _, _, _, g1', _, _, _, _, g6⟩ := listRemove_steps g1
    rw [hl] at g1'
    injection g1' with g1'
    injection g1' with f1 f2
    rw [if_neg (f1 ▸ ha), if_neg (f2 ▸ hb)] at g6
    funext j
    unfold setHead
    split
    · rename_i e; rw [e, g6]
    · rfl
  obtain ⟨rfl, rfl⟩ := hheads
  have hfree : ∀ j, i ∉ update L k ((L k).erase i) j := by
    intro j
    unfold update
    split
    · exact fun hm => ((hL.nodup k).mem_erase_iff.1 hm).1 rfl
    · rename_i hj
      exact hL.apart k j (fun e => hj e.symm) i hik
  obtain ⟨heads2, b2', s1, s2, s3, s4⟩ := runOp_ok q4 (ListStep.front (k := target d) (by rw [q2]; exact hi) hfree)
  have hheads2 : heads2 = poolHeads p' ∧ b2' = b2 := by
    simp only [runOp] at s1
    rw [r2, Res.bind_ok] at s1
    injection s1 with s1
    injection s1 with f1 f2
    refine ⟨?_, f2.symm⟩
    rw [← f1]
    funext j
    by_cases hj : j = 1
    · subst hj
      unfold setHead
      rw [if_neg (by cases d <;> decide)]
      show p.inUse = p'.inUse
      rw [r4, hu]
    · exact (r5 j hj).symm
  obtain ⟨rfl, rfl⟩ := hheads2
  have hlen : b2'.length = p.buffers.length := by rw [s2, q2]
  refine ⟨⟨_, by rw [r3]; exact s4, ?_⟩, by rw [r4, hu]⟩
  intro x hx
  rw [r3, hlen] at hx
  by_cases e : x = i
  · subst e
    refine ⟨target d, by cases d <;> decide, ?_⟩
    unfold update
    rw [if_pos rfl]
    exact List.mem_cons_self ..
  · obtain ⟨j, hj, hxj⟩ := hc x hx
    refine ⟨j, hj, ?_⟩
    have : x ∈ update L k ((L k).erase i) j := by
      unfold update
      split
      · rename_i ej
        subst ej
        exact (List.mem_erase_of_ne e).2 hxj
      · exact hxj
    unfold update at this ⊢
    split
    · rename_i ej
      rw [← ej]
      exact List.mem_cons_of_mem _ this
    · exact this

theorem retire_end {p p' : Pool} {i lock : Nat} {d : Bool} (h : Partitioned p) (hu : p.inUse = {})
    (hi : i < p.buffers.length) (hm : ¬ Middle p.buffers i) (hs : p.retire i lock d = .ok p') : ¬ Partitioned p' := by
  obtain ⟨L, hL, hc⟩ := h
  obtain ⟨k, hk, hik⟩ := hc i hi
  rintro ⟨L', hL', hc'⟩
  obtain ⟨xs, ys, hx1, hxy, hx3⟩ := List.exists_erase_eq hik
  have hlink := hL.link hxy
  generalize ha : xs.getLast?.getD nil = a at hlink
  generalize hb : ys.head?.getD nil = b at hlink
  obtain ⟨u, b1, t, b2, r1, r2, r3, r4, r5⟩ := retire_steps hs
  have hue : u = ⟨if a = nil then b else nil, if b = nil then a else nil⟩ := by
    obtain ⟨a', b', _, _, _, g1, _, _, _, _, g6⟩ := listRemove_steps r1
    rw [hlink] at g1
    injection g1 with g1
    injection g1 with f1 f2
    subst f1 f2
    rw [g6, hu]
  have hboth := hL'.both 1
  have e1 : poolHeads p' 1 = u := r4
  rw [e1, hue] at hboth
  simp only at hboth
  have hin : i ≠ nil := hL.ne_nil k i hik
  by_cases ea : a = nil
  · by_cases eb : b = nil
    · subst ea eb
      have hne := hL.ne_nil k
      rw [hxy] at hne
      have hxs : xs = [] := by
        cases xs with
        | nil => rfl
        | cons x xs =>
          rw [List.getLast?_eq_some_getLast (by simp)] at ha
          have := List.getLast_mem (l := x :: xs) (by simp)
          exact absurd ha (hne _ (List.mem_append_left _ this))
      have hys : ys = [] := by
        cases ys with
        | nil => rfl
        | cons y ys => exact absurd hb (hne y (by simp))
      subst hxs hys
      have hhead := hL.head k
      rw [hxy] at hhead
      have hhead : poolHeads p k = ⟨i, i⟩ := by rw [hhead]; rfl
      have hk1 : k ≠ 1 := by
        rintro rfl
        have : p.inUse = _ := hhead
        rw [hu] at this
        injection this with this
        exact hin this.symm
      by_cases et : target d = k
      · rw [et, hhead] at r2
        have hself : linkOf b2 i = some (i, i) := by
          rcases pushFront_steps r2 with ⟨q, _⟩ | ⟨_, _, _, c, q1, q2⟩
          · exact absurd q hin
          · simp only at q1 q2
            obtain ⟨_, _, _, w1, w2⟩ := setNext_link q1
            obtain ⟨_, _, _, w3, w4⟩ := setPrev_link q2
            rw [w2, if_pos rfl] at w3
            injection w3 with w3
            injection w3 with _ w3
            rw [w4, if_pos rfl, w3]
        have hlen : i < p'.buffers.length := by rw [r3]; exact linkOf_lt hself
        obtain ⟨j, _, hj⟩ := hc' i hlen
        obtain ⟨xs', ys', _, hxy', _⟩ := List.exists_erase_eq hj
        have hl' := hL'.link hxy'
        rw [r3, hself] at hl'
        injection hl' with hl'
        injection hl' with _ hl'
        have hnd := hL'.nodup j
        rw [hxy'] at hnd
        cases ys' with
        | nil => exact hin hl'
        | cons y ys' =>
          have : i = y := hl'
          subst this
          have := (List.nodup_append.1 hnd).2.1
          simp at this
      · have hk0 := r5 k hk1
        unfold setHead at hk0
        rw [if_neg (fun e => et e.symm), hhead] at hk0
        have ht0 := r5 (target d) (by cases d <;> decide)
        unfold setHead at ht0
        rw [if_pos rfl] at ht0
        have hth : t.head = i := by
          rcases pushFront_steps r2 with ⟨_, _, q, _⟩ | ⟨_, _, q, _⟩ <;> rw [q]
        exact hL'.apart k (target d) (fun e => et e.symm) i (head_mem hL' (by rw [hk0]) hin)
          (head_mem hL' (by rw [ht0]; exact hth) hin)
    · rw [if_pos ea, if_neg eb] at hboth
      exact eb (hboth.2 rfl)
  · by_cases eb : b = nil
    · rw [if_neg ea, if_pos eb] at hboth
      exact ea (hboth.1 rfl)
    · exact hm ⟨a, b, hlink, ea, eb⟩

theorem partitioned_congr {p p' : Pool} (h : Partitioned p) (hl : ∀ j, linkOf p'.buffers j = linkOf p.buffers j)
    (hn : p'.buffers.length = p.buffers.length) (h0 : p'.available = p.available) (h1 : p'.inUse = p.inUse)
    (h2 : p'.dirty = p.dirty) : Partitioned p' := by
  obtain ⟨L, hL, hc⟩ := h
  refine ⟨L, hL.congr ?_ hn hl (fun _ => rfl), by rw [hn]; exact hc⟩
  intro k
  match k with
  | 0 => exact h0
  | 1 => exact h1
  | 2 => exact h2
  | _ + 3 => rfl

/-- A release keeps the lists exactly if other handles remain or the buffer is in the middle of its list. -/
theorem release_partitioned {p p' : Pool} {i : Nat} {a : Access} {w : Bool} (h : Partitioned p) (hu : p.inUse = {})
    (ha : acc p.buffers i = some (some a)) (hs : p.release i w = .ok p') :
    (Partitioned p' ↔ a.handles = 1 → Middle p.buffers i) ∧ (Partitioned p' → p'.inUse = {}) := by
  unfold Pool.release at hs
  obtain ⟨b, hb, hs⟩ := Res.bind_eq_ok.1 hs
  obtain ⟨hacc, hlt⟩ := acc_of_buf hb
  rw [ha] at hacc
  injection hacc with hacc
  have keep : ∀ b' : Buffer, b'.prev = b.prev → b'.next = b.next →
      Partitioned { p with buffers := p.buffers.set i b' } ∧
      (Middle (p.buffers.set i b') i ↔ Middle p.buffers i) := by
    intro b' e1 e2
    have hl := fun j => linkOf_set (b' := b') (buf_ok.1 hb) e1 e2 j
    refine ⟨partitioned_congr h hl (by simp) rfl rfl rfl, ?_⟩
    unfold Middle
    rw [hl]
  unfold Pool.drop at hs
  simp only at hs
  rw [← hacc] at hs
  simp only at hs
  obtain ⟨_, hpos, hs⟩ := Res.bind_eq_ok.1 hs
  have hpos := assert_ok.1 hpos
  split at hs
  · injection hs with hs
    rename_i h1
    subst hs
    refine ⟨⟨fun _ e => by omega, fun _ => ?_⟩, fun _ => hu⟩
    exact (keep { prev := b.prev, next := b.next, access := some ⟨a.lock, a.handles - 1⟩, dirty := b.dirty || w } rfl rfl).1
  · rename_i h1
    have hone : a.handles = 1 := by simp at hpos; omega
    obtain ⟨k1, k2⟩ := keep { prev := b.prev, next := b.next, access := none, dirty := b.dirty || w } rfl rfl
    by_cases hm : Middle p.buffers i
    · have := retire_middle k1 (by simp; exact hlt) (k2.2 hm) hs
      exact ⟨⟨fun _ _ => hm, fun _ => this.1⟩, fun _ => by rw [this.2]; exact hu⟩
    · have := retire_end k1 hu (by simp; exact hlt) (fun h => hm (k2.1 h)) hs
      exact ⟨⟨fun h => absurd h this, fun h => absurd (h hone) hm⟩, fun h => absurd h this⟩

/-- An access keeps the lists. -/
theorem access_partitioned {chk : Bool} {p p' : Pool} {held : Nat → Bool} {location : Nat} {g : Grant}
    (h : Partitioned p) (hs : p.access chk held location = .ok (some (p', g))) :
    Partitioned p' ∧ p'.inUse = p.inUse := by
  unfold Pool.access at hs
  split at hs
  · obtain ⟨l1, b1, l2, b2, lock, hn, h1, h2, ha, h3, hg⟩ := accessNew_steps hs
    obtain ⟨r1, r2, r3, r4, r5, r6, _⟩ := open_same h3
    obtain ⟨L, hL, hc⟩ := h
    have hne : L 0 ≠ [] := by
      intro e
      have h0 := hL.head 0
      rw [e] at h0
      have : p.available = _ := h0
      rw [this] at hn
      exact hn rfl
    obtain ⟨xs, i, hL0⟩ : ∃ xs i, L 0 = xs ++ [i] := (nil_or_snoc (L 0)).resolve_left hne
    obtain ⟨l1', b1', l2', b2', q1, q2, q3, q4, q5⟩ := rotate_ok hL hL0
    obtain ⟨t1, t2⟩ := available_tail hL hL0
    rw [t1] at h1 h2
    rw [h1] at q1
    injection q1 with q1
    injection q1 with f1 f2
    subst f1 f2
    rw [h2] at q2
    injection q2 with q2
    injection q2 with f1 f2
    subst f1 f2
    refine ⟨⟨_, q5.congr ?_ r2 r1 (fun _ => rfl), ?_⟩, r6⟩
    · intro k
      match k with
      | 0 => exact r3
      | 1 => exact r6
      | 2 => exact r4
      | _ + 3 => rfl
    · intro x hx
      rw [r2] at hx
      have hx : x < p.buffers.length := by rw [← q3]; exact hx
      obtain ⟨k, hk, hxk⟩ := hc x hx
      refine ⟨k, hk, ?_⟩
      unfold update
      split
      · rename_i e
        subst e
        rw [hL0] at hxk
        rcases List.mem_append.1 hxk with hxk | hxk
        · exact List.mem_cons_of_mem _ hxk
        · rw [List.mem_singleton.1 hxk]; exact List.mem_cons_self ..
      · exact hxk
  · unfold Pool.accessMapped at hs
    obtain ⟨b, hb, hs⟩ := Res.bind_eq_ok.1 hs
    split at hs
    · obtain ⟨⟨p1, lock⟩, h1, hs⟩ := Res.bind_eq_ok.1 hs
      injection hs with hs
      injection hs with hs
      injection hs with e1 e2
      subst e1
      obtain ⟨r1, r2, r3, r4, r5, r6, _⟩ := open_same h1
      exact ⟨partitioned_congr h r1 r2 r3 r6 r4, r6⟩
    · obtain ⟨n, _, hs⟩ := Res.bind_eq_ok.1 hs
      injection hs with hs
      injection hs with hs
      injection hs with e1 e2
      subst e1
      exact ⟨partitioned_congr h (fun j => linkOf_set (buf_ok.1 hb) (by rfl) (by rfl) j) (by simp) rfl rfl rfl, rfl⟩

/-! ## Executions -/

/-- The lists partition the buffers and none is in the in-use list. -/
def Intact (p : Pool) : Prop := Partitioned p ∧ p.inUse = {}

/-- From a state with intact lists, a step gives intact lists exactly if it is gentle; otherwise there is no partition. -/
theorem Intact.step {chk : Bool} {fetch : Nat → Res Bytes} {s s' : Sys} {a : Act} (h : Intact s.pool) (hi : Inv s)
    (hs : step chk fetch s a = .ok (some s')) :
    (Partitioned s'.pool ↔ GentleAct s a) ∧ (GentleAct s a → Intact s'.pool) := by
  have all : Intact s'.pool → (∀ t, a ≠ .release t) →
      (Partitioned s'.pool ↔ GentleAct s a) ∧ (GentleAct s a → Intact s'.pool) := by
    intro h hn
    exact ⟨⟨fun _ t i lock location kind e => absurd e (hn t), fun _ => h.1⟩, fun _ => h⟩
  rcases step_pool hs with e | ⟨t, location, kind, g, rfl, hp⟩ | ⟨t, i, lock, location, kind, rfl, ht, hp⟩
  · by_cases hn : ∀ t, a ≠ .release t
    · exact all (by rw [e]; exact h) hn
    · have hr : ∃ t, a = .release t := Classical.byContradiction fun hc => hn fun t e => hc ⟨t, e⟩
      obtain ⟨t, rfl⟩ := hr
      simp only [Storage.step] at hs
      split at hs
      · rename_i i lock location kind ht
        obtain ⟨p', hp, hs⟩ := Res.bind_eq_ok.1 hs
        injection hs with hs
        injection hs with hs
        subst hs
        obtain ⟨x, h1, _⟩ := hi.record (List.mem_of_getElem? ht) (i := i) rfl
        have hd := hi.described i
        rw [h1] at hd
        obtain ⟨r1, r2⟩ := release_partitioned h.1 h.2 h1 hp
        have hg : GentleAct s (.release t) ↔ (x.handles = 1 → Middle s.pool.buffers i) := by
          rw [hd.2.1]
          constructor
          · intro hg; exact hg t i lock location kind rfl ht
          · intro hg t' i' lock' location' kind' e ht'
            injection e with e
            subst e
            rw [ht] at ht'
            injection ht' with ht'
            injection ht' with f1
            subst f1
            exact hg
        exact ⟨r1.trans hg.symm, fun h' => ⟨r1.2 (hg.1 h'), r2 (r1.2 (hg.1 h'))⟩⟩
      · cases hs
  · obtain ⟨h1, h2⟩ := access_partitioned h.1 hp
    exact all ⟨h1, by rw [h2]; exact h.2⟩ (fun t e => by cases e)
  · obtain ⟨x, h1, _⟩ := hi.record (List.mem_of_getElem? ht) (i := i) rfl
    have hd := hi.described i
    rw [h1] at hd
    obtain ⟨r1, r2⟩ := release_partitioned h.1 h.2 h1 hp
    have hg : GentleAct s (.release t) ↔ (x.handles = 1 → Middle s.pool.buffers i) := by
      rw [hd.2.1]
      constructor
      · intro hg; exact hg t i lock location kind rfl ht
      · intro hg t' i' lock' location' kind' e ht'
        injection e with e
        subst e
        rw [ht] at ht'
        injection ht' with ht'
        injection ht' with f1
        subst f1
        exact hg
    exact ⟨r1.trans hg.symm, fun h' => ⟨r1.2 (hg.1 h'), r2 (r1.2 (hg.1 h'))⟩⟩

theorem intact_start {size n tasks : Nat} {chk : Bool} {p : Pool} {memory : List Bytes}
    (hp : Pool.new chk size n true = .ok (some p)) (ht : tasks < 2 ^ 32) : Intact (Sys.start p memory tasks).pool := by
  obtain ⟨hg, hq, hlen, hn, hnil, hm⟩ := good_start (memory := memory) hp ht
  refine ⟨⟨_, hq.holds, fun i hi => ⟨0, by decide, hq.cover i hi⟩⟩, ?_⟩
  have h1 := hq.holds.head 1
  exact h1

theorem Gentle.reach {chk : Bool} {fetch : Nat → Res Bytes} {s s' : Sys} (h : Gentle chk fetch s s') :
    Reach chk fetch s s' := by
  induction h with
  | refl => exact .refl
  | next _ _ hs ih => exact .next ih hs

theorem Gentle.intact {chk : Bool} {fetch : Nat → Res Bytes} {s s' : Sys} (h : Gentle chk fetch s s') (hg : Good s)
    (hi : Intact s.pool) : Intact s'.pool := by
  induction h with
  | refl => exact hi
  | next h ha hs ih => exact (ih.step (h.reach.good hg).inv hs).2 ha

/-! ## The locations used -/

theorem used_length {p : Pool} (hk : Keys p) {ls : List Nat} (h : Used p ls) : ls.length = p.mapped.length := by
  have : ls.Perm (p.mapped.map (·.1)) := by
    rw [List.perm_ext_iff_of_nodup h.1 hk]
    intro l
    rw [h.2]
    constructor
    · rintro ⟨i, hi⟩
      exact List.mem_map.2 ⟨_, find_mem hi, rfl⟩
    · intro hm
      obtain ⟨e, he, rfl⟩ := List.mem_map.1 hm
      exact ⟨_, find_of_mem hk he⟩
  rw [this.length_eq, List.length_map]

theorem used_exists {p : Pool} (hk : Keys p) : Used p (p.mapped.map (·.1)) := by
  refine ⟨hk, fun l => ?_⟩
  constructor
  · intro hm
    obtain ⟨e, he, rfl⟩ := List.mem_map.1 hm
    exact ⟨_, find_of_mem hk he⟩
  · rintro ⟨i, hi⟩
    exact List.mem_map.2 ⟨_, find_mem hi, rfl⟩

/-- Two locations have the same buffer exactly if more locations than buffers have been used. -/
theorem share_iff {s : Sys} (hf : FreshInv s) (hs : Shape s.pool) :
    (∃ l l' i, l ≠ l' ∧ s.pool.find l = some i ∧ s.pool.find l' = some i) ↔
      s.pool.buffers.length < s.pool.mapped.length := by
  constructor
  · rintro ⟨l, l', i, hne, h1, h2⟩
    rcases Nat.lt_or_ge s.pool.buffers.length s.pool.mapped.length with h | h
    · exact h
    · have f := hf.fresh h
      have := nodup_snd f.nodup (find_mem h1) (find_mem h2) rfl
      injection this with this
      exact absurd this hne
  · intro h
    have hn : ¬ (s.pool.mapped.map (·.2)).Nodup := by
      intro hn
      have := nodup_length_le hn (n := s.pool.buffers.length) fun x hx => by
        obtain ⟨e, he, rfl⟩ := List.mem_map.1 hx
        exact hs.mapped e he
      rw [List.length_map] at this
      omega
    obtain ⟨e, he, e', he', h1, h2⟩ := not_nodup_snd hf.keys hn
    exact ⟨e.1, e'.1, e.2, h1, find_of_mem hf.keys he, by rw [h2]; exact find_of_mem hf.keys he'⟩

end Verif.Storage
