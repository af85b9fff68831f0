import Verif.Model.BufferPool
import Verif.Spec.BufferPool
import Verif.Proof.Volume

/-! # The list operations of the buffer pool -/

namespace Verif.Storage

open Verif Verif.Spec

/-- What a buffer stores apart from its links. -/
def payload (bs : List Buffer) : List (Option Access × Bool) := bs.map fun b => (b.access, b.dirty)

theorem nil_or_snoc (xs : List Nat) : xs = [] ∨ ∃ ys z, xs = ys ++ [z] := by
  rcases List.eq_nil_or_concat xs with h | ⟨ys, z, h⟩
  · exact .inl h
  · exact .inr ⟨ys, z, by rw [h, List.concat_eq_append]⟩

/-! ## Linked segments -/

theorem Linked.congr {link link' : Nat → Option (Nat × Nat)} {b a : Nat} {xs : List Nat}
    (h : ∀ i ∈ xs, link' i = link i) (hl : Linked link b xs a) : Linked link' b xs a := by
  induction xs generalizing b with
  | nil => trivial
  | cons x xs ih =>
    exact ⟨by rw [h x (List.mem_cons_self ..)]; exact hl.1,
      ih (fun i hi => h i (List.mem_cons_of_mem _ hi)) hl.2⟩

theorem Linked.append {link : Nat → Option (Nat × Nat)} {xs ys : List Nat} {b a : Nat} :
    Linked link b (xs ++ ys) a ↔
      Linked link b xs (ys.head?.getD a) ∧ Linked link (xs.getLast?.getD b) ys a := by
  induction xs generalizing b with
  | nil => simp [Linked]
  | cons x xs ih =>
    simp only [List.cons_append, Linked, ih]
    have e1 : (xs ++ ys).head?.getD a = xs.head?.getD (ys.head?.getD a) := by
      cases xs <;> simp
    have e2 : ((x :: xs).getLast?).getD b = xs.getLast?.getD x := by
      cases xs with
      | nil => rfl
      | cons y ys => simp [List.getLast?_cons]
    rw [e1, e2]
    exact and_assoc.symm

/-! ## Buffer updates -/

theorem buf_of_lt {bs : List Buffer} {i : Nat} (h : i < bs.length) : buf bs i = .ok bs[i] := by
  unfold buf; rw [List.getElem?_eq_getElem h]

theorem buf_ok {bs : List Buffer} {i : Nat} {b : Buffer} : buf bs i = .ok b ↔ bs[i]? = some b := by
  unfold buf
  cases h : bs[i]? with
  | none => simp
  | some x => simp

theorem linkOf_lt {bs : List Buffer} {i : Nat} {l : Nat × Nat} (h : linkOf bs i = some l) : i < bs.length := by
  unfold linkOf at h
  cases e : bs[i]? with
  | none => rw [e] at h; cases h
  | some b => exact (List.getElem?_eq_some_iff.1 e).1

theorem linkOf_getElem {bs : List Buffer} {i : Nat} (h : i < bs.length) :
    linkOf bs i = some (bs[i].prev, bs[i].next) := by
  unfold linkOf; rw [List.getElem?_eq_getElem h]; rfl

theorem payload_set {bs : List Buffer} {i : Nat} {b : Buffer} (h : i < bs.length)
    (hb : (b.access, b.dirty) = (bs[i].access, bs[i].dirty)) : payload (bs.set i b) = payload bs := by
  unfold payload
  rw [List.map_set, hb]
  apply List.ext_getElem?
  intro j
  rw [List.getElem?_set]
  split
  · rename_i e
    subst e
    simp [h]
  · rfl

theorem setPrev_ok {bs : List Buffer} {i p n : Nat} (v : Nat) (h : linkOf bs i = some (p, n)) :
    ∃ bs', setPrev bs i v = .ok bs' ∧ bs'.length = bs.length ∧ payload bs' = payload bs ∧
      ∀ j, linkOf bs' j = if j = i then some (v, n) else linkOf bs j := by
  have hi := linkOf_lt h
  rw [linkOf_getElem hi] at h
  injection h with h
  injection h with h1 h2
  refine ⟨bs.set i { bs[i] with prev := v }, ?_, by simp, payload_set hi rfl, ?_⟩
  · unfold setPrev; rw [buf_of_lt hi]; rfl
  · intro j
    unfold linkOf
    rw [List.getElem?_set]
    by_cases e : i = j
    · subst e
      simp [hi, h2]
    · have e' : ¬ j = i := fun h => e h.symm
      simp [e, e']

theorem setNext_ok {bs : List Buffer} {i p n : Nat} (v : Nat) (h : linkOf bs i = some (p, n)) :
    ∃ bs', setNext bs i v = .ok bs' ∧ bs'.length = bs.length ∧ payload bs' = payload bs ∧
      ∀ j, linkOf bs' j = if j = i then some (p, v) else linkOf bs j := by
  have hi := linkOf_lt h
  rw [linkOf_getElem hi] at h
  injection h with h
  injection h with h1 h2
  refine ⟨bs.set i { bs[i] with next := v }, ?_, by simp, payload_set hi rfl, ?_⟩
  · unfold setNext; rw [buf_of_lt hi]; rfl
  · intro j
    unfold linkOf
    rw [List.getElem?_set]
    by_cases e : i = j
    · subst e
      simp [hi, h1]
    · have e' : ¬ j = i := fun h => e h.symm
      simp [e, e']

theorem buf_link {bs : List Buffer} {i p n : Nat} (h : linkOf bs i = some (p, n)) :
    ∃ b, buf bs i = .ok b ∧ b.prev = p ∧ b.next = n := by
  have hi := linkOf_lt h
  rw [linkOf_getElem hi] at h
  injection h with h
  injection h with h1 h2
  exact ⟨_, buf_of_lt hi, h1, h2⟩

/-! ## The operations on one list -/

/-- `list_push_front` of an element without links that is not in the list. -/
theorem pushFront_ok {l : Head} {bs : List Buffer} {xs : List Nat} {i : Nat}
    (hl : l = ⟨xs.head?.getD nil, xs.getLast?.getD nil⟩) (hx : Linked (linkOf bs) nil xs nil)
    (hn : xs.Nodup) (hxs : ∀ x ∈ xs, x ≠ nil) (hi : linkOf bs i = some (nil, nil)) (hm : i ∉ xs) :
    ∃ bs', pushFront l bs i = .ok (⟨i, (xs.getLast?).getD i⟩, bs') ∧ bs'.length = bs.length ∧
      payload bs' = payload bs ∧ Linked (linkOf bs') nil (i :: xs) nil ∧
      ∀ j, j ≠ i → j ∉ xs → linkOf bs' j = linkOf bs j := by
  obtain ⟨b, hb, hp, hnx⟩ := buf_link hi
  subst hl
  cases xs with
  | nil =>
    refine ⟨bs, ?_, rfl, rfl, ⟨hi, trivial⟩, fun _ _ _ => rfl⟩
    unfold pushFront
    simp [hb, hp, hnx]
  | cons x xs =>
    have hx0 : x ≠ nil := hxs x (List.mem_cons_self ..)
    have hlast : (x :: xs).getLast?.getD nil ≠ nil := by
      rw [List.getLast?_eq_some_getLast (by simp)]
      exact hxs _ (List.getLast_mem _)
    have hix : i ≠ x := fun e => hm (e ▸ List.mem_cons_self ..)
    obtain ⟨bs1, a1, a2, a3, a4⟩ := setNext_ok x hi
    have hxl : linkOf bs1 x = some (nil, xs.head?.getD nil) := by
      rw [a4, if_neg (fun e => hix e.symm)]; exact hx.1
    obtain ⟨bs2, b1, b2, b3, b4⟩ := setPrev_ok i hxl
    refine ⟨bs2, ?_, by omega, by rw [b3, a3], ⟨?_, ?_, ?_⟩, ?_⟩
    · unfold pushFront
      have ht : ((x :: xs).getLast?.getD nil != nil) = true := by simpa using hlast
      have e2 : (x :: xs).getLast?.getD nil = (x :: xs).getLast?.getD i := by
        rw [List.getLast?_eq_some_getLast (by simp)]; rfl
      simp only [hb, Res.bind_ok, hp, hnx, beq_self_eq_true, assert_true, List.head?_cons, Option.getD_some,
        ne_eq, hx0, not_false_eq_true, if_true, ht, a1, b1, Res.pure_eq]
      rw [e2]
    · rw [b4, if_neg hix, a4, if_pos rfl]; rfl
    · rw [b4, if_pos rfl]
    · refine Linked.congr ?_ hx.2
      intro j hj
      have h1 : j ≠ x := fun e => (List.nodup_cons.1 hn).1 (e ▸ hj)
      have h2 : j ≠ i := fun e => hm (e ▸ List.mem_cons_of_mem _ hj)
      rw [b4, if_neg h1, a4, if_neg h2]
    · intro j h1 h2
      have h3 : j ≠ x := fun e => h2 (e ▸ List.mem_cons_self ..)
      rw [b4, if_neg h3, a4, if_neg h1]

/-- `list_push_back` of an element without links that is not in the list. -/
theorem pushBack_ok {l : Head} {bs : List Buffer} {xs : List Nat} {i : Nat}
    (hl : l = ⟨xs.head?.getD nil, xs.getLast?.getD nil⟩) (hx : Linked (linkOf bs) nil xs nil)
    (hn : xs.Nodup) (hxs : ∀ x ∈ xs, x ≠ nil) (hi : linkOf bs i = some (nil, nil)) (hm : i ∉ xs) :
    ∃ bs', pushBack l bs i = .ok (⟨(xs.head?).getD i, i⟩, bs') ∧ bs'.length = bs.length ∧
      payload bs' = payload bs ∧ Linked (linkOf bs') nil (xs ++ [i]) nil ∧
      ∀ j, j ≠ i → j ∉ xs → linkOf bs' j = linkOf bs j := by
  obtain ⟨b, hb, hp, hnx⟩ := buf_link hi
  subst hl
  rcases nil_or_snoc xs with rfl | ⟨ys, z, rfl⟩
  · refine ⟨bs, ?_, rfl, rfl, ⟨hi, trivial⟩, fun _ _ _ => rfl⟩
    unfold pushBack
    simp [hb, hp, hnx]
  · have hz0 : z ≠ nil := hxs z (by simp)
    have hh : (ys ++ [z]).head?.getD nil ≠ nil := by
      cases ys with
      | nil => exact hz0
      | cons y ys => exact hxs y (by simp)
    have hiz : i ≠ z := fun e => hm (by simp [e])
    rw [Linked.append] at hx
    have hzl := hx.2.1
    have hnd := List.nodup_append.1 hn
    obtain ⟨bs1, a1, a2, a3, a4⟩ := setPrev_ok z hi
    have hzl1 : linkOf bs1 z = some (ys.getLast?.getD nil, nil) := by
      rw [a4, if_neg (fun e => hiz e.symm)]; exact hzl
    obtain ⟨bs2, b1, b2, b3, b4⟩ := setNext_ok i hzl1
    refine ⟨bs2, ?_, by omega, by rw [b3, a3], ?_, ?_⟩
    · unfold pushBack
      have hh' : ((ys ++ [z]).head?.getD nil != nil) = true := by simpa using hh
      have e2 : (ys ++ [z]).head?.getD nil = (ys ++ [z]).head?.getD i := by
        cases ys <;> rfl
      have e3 : (ys ++ [z]).getLast?.getD nil = z := by simp
      simp only [hb, Res.bind_ok, hp, hnx, beq_self_eq_true, assert_true, e3,
        ne_eq, hz0, not_false_eq_true, if_true, hh', a1, b1, Res.pure_eq]
      rw [e2]
    · rw [List.append_assoc, Linked.append]
      refine ⟨?_, ?_, ?_, trivial⟩
      · refine Linked.congr ?_ hx.1
        intro j hj
        have h1 : j ≠ z := fun e => hnd.2.2 j hj z (by simp) e
        have h2 : j ≠ i := fun e => hm (by simp [← e, hj])
        rw [b4, if_neg h1, a4, if_neg h2]
      · rw [b4, if_pos rfl]; rfl
      · rw [b4, if_neg hiz, a4, if_pos rfl]; rfl
    · intro j h1 h2
      have h3 : j ≠ z := fun e => h2 (by simp [e])
      rw [b4, if_neg h3, a4, if_neg h1]

theorem unlinkNext_ok {l : Head} {bs : List Buffer} {ys : List Nat} {i p : Nat}
    (hy : Linked (linkOf bs) i ys nil) (hn : ys.Nodup) (hys : ∀ x ∈ ys, x ≠ nil) :
    ∃ bs', unlinkNext l bs p (ys.head?.getD nil) = .ok (⟨l.head, if ys = [] then p else l.tail⟩, bs') ∧
      bs'.length = bs.length ∧ payload bs' = payload bs ∧ Linked (linkOf bs') p ys nil ∧
      ∀ j, j ∉ ys → linkOf bs' j = linkOf bs j := by
  cases ys with
  | nil => exact ⟨bs, by simp [unlinkNext], rfl, rfl, trivial, fun _ _ => rfl⟩
  | cons y ys =>
    have hy0 : y ≠ nil := hys y (List.mem_cons_self ..)
    obtain ⟨bs1, a1, a2, a3, a4⟩ := setPrev_ok p hy.1
    refine ⟨bs1, ?_, a2, a3, ⟨?_, ?_⟩, ?_⟩
    · unfold unlinkNext
      simp [hy0, a1]
    · rw [a4, if_pos rfl]
    · refine Linked.congr ?_ hy.2
      intro j hj
      have h1 : j ≠ y := fun e => (List.nodup_cons.1 hn).1 (e ▸ hj)
      rw [a4, if_neg h1]
    · intro j hj
      have h1 : j ≠ y := fun e => hj (e ▸ List.mem_cons_self ..)
      rw [a4, if_neg h1]

theorem unlinkPrev_ok {l : Head} {bs : List Buffer} {xs : List Nat} {i n : Nat}
    (hx : Linked (linkOf bs) nil xs i) (hn : xs.Nodup) (hxs : ∀ x ∈ xs, x ≠ nil) :
    ∃ bs', unlinkPrev l bs (xs.getLast?.getD nil) n = .ok (⟨if xs = [] then n else l.head, l.tail⟩, bs') ∧
      bs'.length = bs.length ∧ payload bs' = payload bs ∧ Linked (linkOf bs') nil xs n ∧
      ∀ j, j ∉ xs → linkOf bs' j = linkOf bs j := by
  rcases nil_or_snoc xs with rfl | ⟨ys, z, rfl⟩
  · exact ⟨bs, by simp [unlinkPrev], rfl, rfl, trivial, fun _ _ => rfl⟩
  · have hz0 : z ≠ nil := hxs z (by simp)
    rw [Linked.append] at hx
    have hnd := List.nodup_append.1 hn
    obtain ⟨bs1, a1, a2, a3, a4⟩ := setNext_ok n hx.2.1
    refine ⟨bs1, ?_, a2, a3, ?_, ?_⟩
    · unfold unlinkPrev
      simp [hz0, a1]
    · rw [Linked.append]
      refine ⟨Linked.congr ?_ hx.1, ?_, trivial⟩
      · intro j hj
        have h1 : j ≠ z := fun e => hnd.2.2 j hj z (by simp) e
        rw [a4, if_neg h1]
      · rw [a4, if_pos rfl]; rfl
    · intro j hj
      have h1 : j ≠ z := fun e => hj (by simp [e])
      rw [a4, if_neg h1]

/-- `list_remove` of an element of the list. -/
theorem listRemove_ok {l : Head} {bs : List Buffer} {xs ys : List Nat} {i : Nat}
    (hl : l = ⟨(xs ++ i :: ys).head?.getD nil, (xs ++ i :: ys).getLast?.getD nil⟩)
    (hx : Linked (linkOf bs) nil (xs ++ i :: ys) nil)
    (hn : (xs ++ i :: ys).Nodup) (hxs : ∀ x ∈ xs ++ i :: ys, x ≠ nil) :
    ∃ bs', listRemove l bs i = .ok (⟨(xs ++ ys).head?.getD nil, (xs ++ ys).getLast?.getD nil⟩, bs') ∧
      bs'.length = bs.length ∧ payload bs' = payload bs ∧ Linked (linkOf bs') nil (xs ++ ys) nil ∧
      linkOf bs' i = some (nil, nil) ∧
      ∀ j, j ∉ xs ++ i :: ys → linkOf bs' j = linkOf bs j := by
  rw [Linked.append] at hx
  obtain ⟨hx1, hi, hy⟩ := hx
  have hx1 : Linked (linkOf bs) nil xs i := hx1
  obtain ⟨n1, n2, n3⟩ := List.nodup_append.1 hn
  obtain ⟨n4, n5⟩ := List.nodup_cons.1 n2
  have hix : i ∉ xs := fun h => n3 i h i (List.mem_cons_self ..) rfl
  have hxy : ∀ j ∈ xs, j ∉ ys := fun j h1 h2 => n3 j h1 j (List.mem_cons_of_mem _ h2) rfl
  obtain ⟨b, hb, hbp, hbn⟩ := buf_link hi
  obtain ⟨bs1, a1, a2, a3, a4, a5⟩ := unlinkNext_ok (l := l) (p := xs.getLast?.getD nil) hy n5
    (fun x h => hxs x (by simp [h]))
  have hx2 : Linked (linkOf bs1) nil xs i := Linked.congr (fun j hj => a5 j (hxy j hj)) hx1
  obtain ⟨bs2, b1, b2, b3, b4, b5⟩ := unlinkPrev_ok
    (l := ⟨l.head, if ys = [] then xs.getLast?.getD nil else l.tail⟩) (n := ys.head?.getD nil) hx2 n1
    (fun x h => hxs x (by simp [h]))
  have hy2 : Linked (linkOf bs2) (xs.getLast?.getD nil) ys nil :=
    Linked.congr (fun j hj => b5 j (fun h => hxy j h hj)) a4
  have hi2 : linkOf bs2 i = some (xs.getLast?.getD nil, ys.head?.getD nil) := by
    rw [b5 i hix, a5 i n4]; exact hi
  obtain ⟨bs3, c1, c2, c3, c4⟩ := setNext_ok nil hi2
  have hi3 : linkOf bs3 i = some (xs.getLast?.getD nil, nil) := by rw [c4, if_pos rfl]
  obtain ⟨bs4, d1, d2, d3, d4⟩ := setPrev_ok nil hi3
  refine ⟨bs4, ?_, by omega, by rw [d3, c3, b3, a3], ?_, by rw [d4, if_pos rfl], ?_⟩
  · unfold listRemove
    simp only [hb, Res.bind_ok, hbp, hbn, a1, b1, c1, d1, Res.pure_eq]
    congr 2
    subst hl
    congr 1
    · cases xs <;> simp
    · rcases nil_or_snoc ys with rfl | ⟨ys, z, rfl⟩
      · simp
      · have e1 : xs ++ i :: (ys ++ [z]) = (xs ++ i :: ys) ++ [z] := by simp
        have e2 : xs ++ (ys ++ [z]) = (xs ++ ys) ++ [z] := by simp
        have e3 : ys ++ [z] ≠ [] := by simp
        rw [e1, e2, List.getLast?_concat, List.getLast?_concat, if_neg e3]
  · rw [Linked.append]
    refine ⟨Linked.congr ?_ b4, Linked.congr ?_ hy2⟩
    · intro j hj
      have h1 : j ≠ i := fun e => hix (e ▸ hj)
      rw [d4, if_neg h1, c4, if_neg h1]
    · intro j hj
      have h1 : j ≠ i := fun e => n4 (e ▸ hj)
      rw [d4, if_neg h1, c4, if_neg h1]
  · intro j hj
    have h1 : j ≠ i := fun e => hj (by simp [e])
    have h2 : j ∉ xs := fun e => hj (by simp [e])
    have h3 : j ∉ ys := fun e => hj (by simp [e])
    rw [d4, if_neg h1, c4, if_neg h1, b5 j h2, a5 j h3]

/-! ## Several lists in the same array -/

/-- Head `k` replaced. -/
def setHead (heads : Nat → Head) (k : Nat) (h : Head) : Nat → Head := fun j => if j = k then h else heads j

/-- One list operation on the code's data. -/
def runOp (heads : Nat → Head) (bs : List Buffer) : ListOp → Res ((Nat → Head) × List Buffer)
  | .front k i => do
    let (h, bs) ← pushFront (heads k) bs i
    pure (setHead heads k h, bs)
  | .back k i => do
    let (h, bs) ← pushBack (heads k) bs i
    pure (setHead heads k h, bs)
  | .remove k i => do
    let (h, bs) ← listRemove (heads k) bs i
    pure (setHead heads k h, bs)

/-- A history of list operations on the code's data. -/
def runOps (heads : Nat → Head) (bs : List Buffer) : List ListOp → Res ((Nat → Head) × List Buffer)
  | [] => pure (heads, bs)
  | op :: ops => do
    let (heads, bs) ← runOp heads bs op
    runOps heads bs ops

theorem Holds.head {heads : Nat → Head} {bs : List Buffer} {L : Nat → List Nat} (h : Holds heads bs L) (k : Nat) :
    heads k = ⟨(L k).head?.getD nil, (L k).getLast?.getD nil⟩ := by
  have := h.ends_eq k
  injection this with h1 h2
  cases e : heads k with
  | mk a b =>
    rw [e] at h1 h2
    simp only at h1 h2
    rw [h1, h2]

theorem Holds.ne_nil {heads : Nat → Head} {bs : List Buffer} {L : Nat → List Nat} (h : Holds heads bs L) (k : Nat) :
    ∀ x ∈ L k, x ≠ nil := by
  intro x hx e
  have h1 := h.range k x hx
  have h2 := h.small
  omega

/-- Replacing one list and its head, with the links of the other elements unchanged. -/
theorem Holds.update {heads : Nat → Head} {bs bs' : List Buffer} {L : Nat → List Nat} {k i : Nat} {h' : Head}
    {xs : List Nat} (h : Holds heads bs L) (hlen : bs'.length = bs.length) (hi : i < bs.length)
    (hother : ∀ j, j ≠ k → i ∉ L j)
    (hsub : ∀ x, x ∈ xs → x = i ∨ x ∈ L k) (hsup : ∀ x, x ∈ L k → x = i ∨ x ∈ xs) (hnd : xs.Nodup)
    (hh : h' = ⟨xs.head?.getD nil, xs.getLast?.getD nil⟩) (hl : Linked (linkOf bs') nil xs nil)
    (hfree : i ∉ xs → linkOf bs' i = some (nil, nil))
    (hsame : ∀ j, j ≠ i → j ∉ L k → linkOf bs' j = linkOf bs j) :
    Holds (setHead heads k h') bs' (Spec.update L k xs) := by
  constructor
  · rw [hlen]; exact h.small
  · intro j x hx
    rw [hlen]
    unfold Spec.update at hx
    split at hx
    · rcases hsub x hx with e | hx
      · rw [e]; exact hi
      · exact h.range k x hx
    · exact h.range j x hx
  · intro j
    unfold Spec.update
    split
    · exact hnd
    · exact h.nodup j
  · intro j j' hne x hx hx'
    unfold Spec.update at hx hx'
    split at hx
    · rename_i e
      rw [if_neg (fun e' => hne (e.trans e'.symm))] at hx'
      rcases hsub x hx with e' | hx
      · exact hother j' (fun e'' => hne (e.trans e''.symm)) (e' ▸ hx')
      · exact h.apart k j' (fun e' => hne (e.trans e')) x hx hx'
    · rename_i e
      split at hx'
      · rename_i e'
        rcases hsub x hx' with e'' | hx'
        · exact hother j e (e'' ▸ hx)
        · exact h.apart j k e x hx hx'
      · exact h.apart j j' hne x hx hx'
  · intro j
    unfold Spec.update setHead
    split
    · rw [hh]
    · exact h.ends_eq j
  · intro j
    unfold Spec.update
    split
    · exact hl
    · rename_i e
      refine Linked.congr ?_ (h.linked j)
      intro x hx
      refine hsame x (fun e' => hother j e (e' ▸ hx)) (fun h' => h.apart j k e x hx h')
  · intro x hx hf
    rw [hlen] at hx
    have hk : x ∉ xs := by
      have := hf k
      unfold Spec.update at this
      rwa [if_pos rfl] at this
    by_cases e : x = i
    · subst e; exact hfree hk
    · have hk' : x ∉ L k := fun h' => by
        rcases hsup x h' with h' | h'
        · exact e h'
        · exact hk h'
      rw [hsame x e hk']
      refine h.free x hx ?_
      intro j
      by_cases ej : j = k
      · rw [ej]; exact hk'
      · have := hf j
        unfold Spec.update at this
        rwa [if_neg ej] at this

/-- One operation does what it means. -/
theorem runOp_ok {heads : Nat → Head} {bs : List Buffer} {L L' : Nat → List Nat} {op : ListOp}
    (h : Holds heads bs L) (hs : ListStep bs.length L op L') :
    ∃ heads' bs', runOp heads bs op = .ok (heads', bs') ∧ bs'.length = bs.length ∧ payload bs' = payload bs ∧
      Holds heads' bs' L' := by
  cases hs with
  | @front k i hi hf =>
    obtain ⟨bs', h1, h2, h3, h4, h5⟩ := pushFront_ok (h.head k) (h.linked k) (h.nodup k) (h.ne_nil k)
      (h.free i hi hf) (hf k)
    refine ⟨_, bs', by rw [runOp, h1]; rfl, h2, h3, ?_⟩
    refine h.update h2 hi (fun j _ => hf j) ?_ ?_ (List.nodup_cons.2 ⟨hf k, h.nodup k⟩) ?_ h4 ?_ h5
    · intro x hx; exact List.mem_cons.1 hx
    · intro x hx; exact .inr (List.mem_cons_of_mem _ hx)
    · congr 1
      cases L k <;> simp [List.getLast?_cons]
    · intro hc; exact absurd (List.mem_cons_self ..) hc
  | @back k i hi hf =>
    obtain ⟨bs', h1, h2, h3, h4, h5⟩ := pushBack_ok (h.head k) (h.linked k) (h.nodup k) (h.ne_nil k)
      (h.free i hi hf) (hf k)
    refine ⟨_, bs', by rw [runOp, h1]; rfl, h2, h3, ?_⟩
    refine h.update h2 hi (fun j _ => hf j) ?_ ?_ ?_ ?_ h4 ?_ h5
    · intro x hx
      rcases List.mem_append.1 hx with hx | hx
      · exact .inr hx
      · exact .inl (by simpa using hx)
    · intro x hx; exact .inr (by simp [hx])
    · rw [List.nodup_append]
      refine ⟨h.nodup k, by simp, ?_⟩
      intro a ha b hb e
      have : b = i := by simpa using hb
      exact hf k (this ▸ e ▸ ha)
    · congr 1
      · cases L k <;> simp
      · simp
    · intro hc; exact absurd (by simp) hc
  | @remove k i hm =>
    obtain ⟨xs, ys, hx1, hxy, hx3⟩ := List.exists_erase_eq hm
    have hnd := h.nodup k
    have hl := h.linked k
    have hne := h.ne_nil k
    have hhd := h.head k
    have hrg := h.range k i hm
    rw [hxy] at hnd hl hne hhd
    obtain ⟨bs', h1, h2, h3, h4, h5, h6⟩ := listRemove_ok hhd hl hnd hne
    refine ⟨_, bs', by rw [runOp, h1]; rfl, h2, h3, ?_⟩
    rw [hx3]
    obtain ⟨n1, n2, n3⟩ := List.nodup_append.1 hnd
    obtain ⟨n4, n5⟩ := List.nodup_cons.1 n2
    refine h.update h2 hrg (fun j hj h' => h.apart k j (fun e => hj e.symm) i hm h') ?_ ?_ ?_ rfl h4
      (fun _ => h5) ?_
    · intro x hx
      refine .inr ?_
      rw [hxy]
      rcases List.mem_append.1 hx with hx | hx
      · simp [hx]
      · simp [hx]
    · intro x hx
      rw [hxy] at hx
      rcases List.mem_append.1 hx with hx | hx
      · exact .inr (by simp [hx])
      · rcases List.mem_cons.1 hx with hx | hx
        · exact .inl hx
        · exact .inr (by simp [hx])
    · exact List.nodup_append.2 ⟨n1, n5, fun a ha b hb => n3 a ha b (List.mem_cons_of_mem _ hb)⟩
    · intro j _ hj
      exact h6 j (hxy ▸ hj)

theorem runOps_ok {heads : Nat → Head} {bs : List Buffer} {L L' : Nat → List Nat} {ops : List ListOp}
    (h : Holds heads bs L) (hs : ListRun bs.length L ops L') :
    ∃ heads' bs', runOps heads bs ops = .ok (heads', bs') ∧ bs'.length = bs.length ∧ payload bs' = payload bs ∧
      Holds heads' bs' L' := by
  generalize hn : bs.length = n at hs
  induction hs generalizing heads bs with
  | nil => exact ⟨heads, bs, rfl, hn, rfl, h⟩
  | cons hstep _ ih =>
    subst hn
    obtain ⟨heads1, bs1, h1, h2, h3, h4⟩ := runOp_ok h hstep
    obtain ⟨heads2, bs2, g1, g2, g3, g4⟩ := ih h4 h2
    refine ⟨heads2, bs2, ?_, g2, by rw [g3, h3], g4⟩
    unfold runOps
    rw [h1]
    exact g1

/-! ## Which pushes are refused -/

theorem Linked.isolated {link : Nat → Option (Nat × Nat)} : ∀ {xs : List Nat} {b a i p n : Nat}, Linked link b xs a → i ∈ xs →
    link i = some (p, n) → (p = b ∨ p ∈ xs) ∧ (n = a ∨ n ∈ xs) ∧ (2 ≤ xs.length → p ∈ xs ∨ n ∈ xs)
  | x :: xs, b, a, i, p, n, h, hi, hl => by
    obtain ⟨h1, h2⟩ := h
    by_cases e : i = x
    · subst e
      rw [h1] at hl
      cases hl
      cases xs with
      | nil => simp
      | cons y ys => simp
    · have hi' : i ∈ xs := (List.mem_cons.1 hi).resolve_left e
      obtain ⟨g1, g2, _⟩ := Linked.isolated h2 hi' hl
      refine ⟨?_, ?_, ?_⟩
      · rcases g1 with rfl | g
        · exact .inr (by simp)
        · exact .inr (by simp [g])
      · rcases g2 with rfl | g
        · exact .inl rfl
        · exact .inr (by simp [g])
      · intro _
        rcases g1 with rfl | g
        · exact .inl (by simp)
        · exact .inl (by simp [g])

/-- In a state that holds lists, an element has no links exactly if it is in no list or alone in one. -/
theorem Holds.no_links {heads : Nat → Head} {bs : List Buffer} {L : Nat → List Nat} (h : Holds heads bs L) {i : Nat}
    (hi : i < bs.length) : linkOf bs i = some (nil, nil) ↔ ∀ j, i ∈ L j → (L j).length = 1 := by
  constructor
  · intro hl j hj
    rcases Nat.lt_or_ge 1 (L j).length with h2 | h2
    · rcases (Linked.isolated (h.linked j) hj hl).2.2 h2 with g | g <;> exact absurd rfl (h.ne_nil j _ g)
    · have : 0 < (L j).length := List.length_pos_of_mem hj
      omega
  · intro hall
    by_cases hf : ∀ j, i ∉ L j
    · exact h.free i hi hf
    · obtain ⟨j, hj⟩ := Classical.not_forall.1 hf
      have hj := Classical.not_not.1 hj
      have hl := hall j hj
      match e : L j, hl with
      | [x], _ =>
        rw [e] at hj
        have := h.linked j
        rw [e] at this
        simp only [List.mem_singleton] at hj
        subst hj
        exact this.1

theorem assert_false' {p : Bool} (h : p = false) : (assert p : Res Unit) = .error .panic := by rw [h]; rfl

theorem assert_true' {p : Bool} (h : p = true) : (assert p : Res Unit) = .ok () := by rw [h]; rfl

theorem push_links {l : Head} {bs : List Buffer} {i : Nat} (hl : linkOf bs i ≠ some (nil, nil)) :
    pushFront l bs i = .error .panic ∧ pushBack l bs i = .error .panic := by
  unfold pushFront pushBack
  unfold linkOf at hl
  cases hb : bs[i]? with
  | none => simp [buf, hb, bind, Except.bind]
  | some b =>
    rw [hb] at hl
    simp only [Option.map_some, ne_eq, Option.some.injEq, Prod.mk.injEq, not_and] at hl
    rw [buf_ok.2 hb]
    by_cases e : b.next = nil
    · have e2 : b.prev ≠ nil := fun e2 => hl e2 e
      have a : (assert (b.prev == nil) : Res Unit) = .error .panic := assert_false' (by simpa using e2)
      simp [e, a]
    · have a : (assert (b.next == nil) : Res Unit) = .error .panic := assert_false' (by simpa using e)
      simp [a]

end Verif.Storage
