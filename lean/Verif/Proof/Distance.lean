import Verif.Spec.Distance
import Verif.Proof.Form

/-! # In how many bits the encodings of two values of the same form differ -/

namespace Verif

open Spec

/-! ## The parts of two values -/

/-- The parts of two values of the same form, by path. -/
structure Paired (xs : List (Path × Slot)) (ls ls' : List (Path × Leaf)) (d : Nat) (env env' : Path → Val) : Prop where
  typed : ∀ x ∈ xs, Typed x.2.ty (env x.1)
  typed' : ∀ x ∈ xs, Typed x.2.ty (env' x.1)
  form : ∀ x ∈ xs, SameForm (env x.1) (env' x.1)
  leaves : ls = xs.flatMap fun x => leaves (env x.1) x.1
  leaves' : ls' = xs.flatMap fun x => Spec.leaves (env' x.1) x.1
  dist : d = (xs.map fun x => apart (env x.1) (env' x.1)).sum

theorem Paired.congr {xs : List (Path × Slot)} {ls ls' : List (Path × Leaf)} {d : Nat} {e e' f f' : Path → Val}
    (h : Paired xs ls ls' d e e') (h1 : ∀ x ∈ xs, f x.1 = e x.1) (h2 : ∀ x ∈ xs, f' x.1 = e' x.1) :
    Paired xs ls ls' d f f' where
  typed x hx := by rw [h1 x hx]; exact h.typed x hx
  typed' x hx := by rw [h2 x hx]; exact h.typed' x hx
  form x hx := by rw [h1 x hx, h2 x hx]; exact h.form x hx
  leaves := by rw [h.leaves]; exact flatMap_congr' fun x hx => by rw [h1 x hx]
  leaves' := by rw [h.leaves']; exact flatMap_congr' fun x hx => by rw [h2 x hx]
  dist := by rw [h.dist]; exact sum_map_eq fun x hx => by rw [h1 x hx, h2 x hx]

theorem Paired.append {xs ys : List (Path × Slot)} {ls ls' ms ms' : List (Path × Leaf)} {c d : Nat} {e e' : Path → Val}
    (h : Paired xs ls ls' c e e') (k : Paired ys ms ms' d e e') :
    Paired (xs ++ ys) (ls ++ ms) (ls' ++ ms') (c + d) e e' where
  typed x hx := (List.mem_append.1 hx).elim (h.typed x) (k.typed x)
  typed' x hx := (List.mem_append.1 hx).elim (h.typed' x) (k.typed' x)
  form x hx := (List.mem_append.1 hx).elim (h.form x) (k.form x)
  leaves := by rw [h.leaves, k.leaves, List.flatMap_append]
  leaves' := by rw [h.leaves', k.leaves', List.flatMap_append]
  dist := by rw [h.dist, k.dist, List.map_append, List.sum_append]

theorem paired_list : ∀ (cs : List Ty) (vs vs' : List Val), vs.length = cs.length → vs'.length = cs.length →
    (∀ (i : Nat) (c : Ty) (v v' : Val), cs[i]? = some c → vs[i]? = some v → vs'[i]? = some v' →
      ∀ p : Path, ∃ e e', Paired (slots c p) (leaves v p) (leaves v' p) (apart v v') e e') →
    ∀ (p : Path) (i : Nat), ∃ e e',
      Paired (slotsL cs p i) (leavesFrom vs p i) (leavesFrom vs' p i) (apartL vs vs') e e'
  | [], vs, vs', hl, hl', _, p, i => by
    cases vs with
    | cons v vs => simp at hl
    | nil =>
      cases vs' with
      | cons v vs => simp at hl'
      | nil =>
        exact ⟨fun _ => .unit, fun _ => .unit, by simp [slotsL], by simp [slotsL], by simp [slotsL],
          by simp [slotsL, leavesFrom], by simp [slotsL, leavesFrom], by simp [slotsL, apartL]⟩
  | c :: cs, vs, vs', hl, hl', h, p, i => by
    cases vs with
    | nil => simp at hl
    | cons v vs =>
      cases vs' with
      | nil => simp at hl'
      | cons v' vs' =>
        obtain ⟨e1, e1', h1⟩ := h 0 c v v' rfl rfl rfl (p ++ [i])
        obtain ⟨e2, e2', h2⟩ := paired_list cs vs vs' (by simpa using hl) (by simpa using hl')
          (fun k d w w' hd hw hw' => h (k + 1) d w w' (by simpa using hd) (by simpa using hw) (by simpa using hw'))
          p (i + 1)
        have s1 : ∀ x ∈ slots c (p ++ [i]), (p ++ [i]) <+: x.1 := by
          intro x hx
          obtain ⟨r, hr⟩ := slots_prefix _ _ _ hx
          rw [hr]; exact List.prefix_append _ _
        have s2 : ∀ x ∈ slotsL cs p (i + 1), ¬ (p ++ [i]) <+: x.1 := by
          intro x hx hp
          obtain ⟨k, d, _, h2⟩ := mem_slotsL hx
          obtain ⟨r, hr⟩ := slots_prefix _ _ _ h2
          rw [hr, List.append_assoc, List.prefix_append_right_inj] at hp
          simp at hp
          omega
        refine ⟨fun q => if (p ++ [i]) <+: q then e1 q else e2 q, fun q => if (p ++ [i]) <+: q then e1' q else e2' q, ?_⟩
        rw [leavesFrom, leavesFrom, slotsL, apartL]
        exact (h1.congr (fun x hx => if_pos (s1 x hx)) fun x hx => if_pos (s1 x hx)).append
          (h2.congr (fun x hx => if_neg (s2 x hx)) fun x hx => if_neg (s2 x hx))

theorem sameForm_get {v v' : Val} (h : SameForm v v') : ∀ {vs vs' : List Val}, v = .seq vs → v' = .seq vs' →
    ∀ (i : Nat) (w w' : Val), vs[i]? = some w → vs'[i]? = some w' → SameForm w w' := by
  induction h with
  | unit => exact fun h => nomatch h
  | prim => exact fun h => nomatch h
  | str => exact fun h => nomatch h
  | case => exact fun h => nomatch h
  | nil =>
    intro vs vs' h h' i w w' hw
    cases h
    simp at hw
  | cons h1 _ _ ih =>
    intro vs vs' h h' i w w' hw hw'
    cases h
    cases h'
    cases i with
    | zero => cases hw; cases hw'; exact h1
    | succ i => exact ih rfl rfl i w w' (by simpa using hw) (by simpa using hw')

theorem paired {t : Ty} {v : Val} (h : Typed t v) : ∀ v', Typed t v' → SameForm v v' → ∀ p : Path, ∃ e e',
    Paired (slots t p) (leaves v p) (leaves v' p) (apart v v') e e' := by
  induction h with
  | unit =>
    intro v' _ hf p
    cases hf
    exact ⟨fun _ => .unit, fun _ => .unit, by simp [slots], by simp [slots], by simp [slots],
      by simp [slots, leaves], by simp [slots, leaves], by simp [slots, apart]⟩
  | prim v =>
    intro v' h' hf p
    cases hf with
    | prim _ v' =>
      exact ⟨fun _ => .prim v, fun _ => .prim v', by simp [slots, Slot.ty]; exact .prim v,
        by simp [slots, Slot.ty]; exact h', by simp [slots]; exact .prim _ _, by simp [slots], by simp [slots],
        by simp [slots]⟩
  | str bs =>
    intro v' h' hf p
    cases hf with
    | @str _ bs' hl =>
      exact ⟨fun _ => .str bs, fun _ => .str bs', by simp [slots, Slot.ty]; exact .str bs,
        by simp [slots, Slot.ty]; exact .str bs', by simp [slots]; exact .str hl, by simp [slots], by simp [slots],
        by simp [slots]⟩
  | @tuple cs vs hl ht ih =>
    intro v' h' hf p
    cases h' with
    | @tuple _ vs' hl' ht' =>
      rw [slots, leaves, leaves, apart]
      exact paired_list _ _ _ hl hl' (fun i c v v' hc hv hv' =>
        ih i c v hc hv v' (ht' i c v' hc hv') (sameForm_get hf rfl rfl i v v' hv hv')) p 0
  | @struct fs vs hl ht ih =>
    intro v' h' hf p
    cases h' with
    | @struct _ vs' hl' ht' =>
      rw [slots, leaves, leaves, slotsF_eq, apart]
      refine paired_list _ _ _ (by simpa using hl) (by simpa using hl') (fun i c v v' hc hv hv' => ?_) p 0
      rw [List.getElem?_map, Option.map_eq_some_iff] at hc
      obtain ⟨f, hc, rfl⟩ := hc
      exact ih i f v hc hv v' (ht' i f v' hc hv') (sameForm_get hf rfl rfl i v v' hv hv')
  | @enum cs i c v hc ht _ =>
    intro v' h' hf p
    cases hf with
    | @case _ _ v' hf =>
      exact ⟨fun _ => .case i v, fun _ => .case i v', by simp [slots, Slot.ty]; exact .enum hc ht,
        by simp [slots, Slot.ty]; exact h', by simp [slots]; exact .case hf, by simp [slots], by simp [slots],
        by simp [slots]⟩

/-! ## Bits that differ -/

/-- Two bits that are set differently. -/
def unlike : Option Bool → Option Bool → Option Bool
  | some true, some false => some true
  | some false, some true => some true
  | _, _ => none

/-- The bits that are set differently. -/
def diffW (a b : Nat → Option Bool) : Nat → Option Bool := fun i => unlike (a i) (b i)

theorem unlike_some {x y : Option Bool} (h : (unlike x y).isSome) : x.isSome := by
  cases x with
  | none => cases h
  | some _ => rfl

theorem unlike_or {x x' y y' : Option Bool} (h1 : x'.isSome = x.isSome) (h2 : y'.isSome = y.isSome)
    (h3 : x.isSome → y.isSome → False) : unlike (x.or y) (x'.or y') = (unlike x x').or (unlike y y') := by
  cases x with
  | none =>
    cases x' with
    | none => rfl
    | some _ => cases h1
  | some _ =>
    cases x' with
    | none => cases h1
    | some _ =>
      cases y with
      | some _ => exact (h3 rfl rfl).elim
      | none =>
        cases y' with
        | some _ => cases h2
        | none => simp [unlike]

theorem diffW_some {a b : Nat → Option Bool} {i : Nat} (hi : (diffW a b i).isSome) : (a i).isSome := unlike_some hi

theorem diffW_or {a a' b b' : Nat → Option Bool} (ha : ∀ i, (a' i).isSome = (a i).isSome)
    (hb : ∀ i, (b' i).isSome = (b i).isSome) (hd : ∀ i, (a i).isSome → (b i).isSome → False) :
    diffW (orW a b) (orW a' b') = orW (diffW a a') (diffW b b') :=
  funext fun i => unlike_or (ha i) (hb i) (hd i)

theorem diffW_shift (o : Nat) (a b : Nat → Option Bool) :
    diffW (shiftW o a) (shiftW o b) = shiftW o (diffW a b) := by
  funext i
  simp only [diffW, shiftW]
  by_cases h : 8 * o ≤ i
  · rw [if_pos h, if_pos h, if_pos h]
  · rw [if_neg h, if_neg h, if_neg h]; rfl

theorem countW_diff_range {s n m : Nat} (f g : Nat → Bool) (h : s + n ≤ m) :
    countW (diffW (rangeW s n f) (rangeW s n g)) m = (List.range n).countP fun k => f k != g k := by
  rw [countW_mono (m := s + n) h (fun i hi => by
    have := diffW_some hi
    simp only [rangeW] at this
    split at this
    · omega
    · cases this)]
  have key : ∀ k, k ≤ n → countW (diffW (rangeW s n f) (rangeW s n g)) (s + k) =
      (List.range k).countP fun k => f k != g k := by
    intro k
    induction k with
    | zero =>
      intro _
      rw [Nat.add_zero, countW_congr (w' := fun _ => none) s (fun i hi => by
        simp only [diffW, rangeW]
        rw [if_neg (by omega), if_neg (by omega)]; rfl), countW_none]
      rfl
    | succ k ih =>
      intro hk
      rw [← Nat.add_assoc, countW_succ, ih (by omega), List.range_succ, List.countP_append]
      congr 1
      have e : diffW (rangeW s n f) (rangeW s n g) (s + k) = unlike (some (f k)) (some (g k)) := by
        simp only [diffW, rangeW]
        rw [if_pos (by omega), if_pos (by omega), Nat.add_sub_cancel_left]
      rw [e]
      cases hx : f k <;> cases hy : g k <;> simp [hx, hy, unlike]
  exact key n (Nat.le_refl _)

/-- The number of bits in which one field differs. -/
def fieldApart (env env' : Path → Val) (f : FixedField) : Nat :=
  bitsApart f.bitCount (fieldVal env f) (fieldVal env' f)

theorem countW_diff_fields {env env' : Path → Val} {fs : List FixedField} {n : Nat} (hd : fs.Pairwise BitDisjoint)
    (hn : ∀ f ∈ fs, f.bitStart + f.bitCount ≤ n) :
    countW (diffW (fieldsW env fs) (fieldsW env' fs)) n = (fs.map (fieldApart env env')).sum := by
  induction fs with
  | nil => exact countW_none n
  | cons f fs ih =>
    rw [List.pairwise_cons] at hd
    have hf : ∀ i, (fieldW env' f i).isSome = (fieldW env f i).isSome := by
      intro i
      simp only [fieldW, rangeW]
      split <;> rfl
    rw [fieldsW, fieldsW, diffW_or hf (fieldsW_isSome env' env fs) (fieldsW_disjoint hd.1),
      countW_or fun i h1 h2 => fieldsW_disjoint hd.1 i (diffW_some h1) (diffW_some h2),
      ih hd.2 fun g hg => hn g (by simp [hg]), List.map_cons, List.sum_cons, fieldW, fieldW,
      countW_diff_range _ _ (hn f (by simp))]
    rfl

theorem varsW_isSome {sz : Path → Nat} {ws ws' : Path → Nat → Option Bool} {vs : List VarField}
    (h : ∀ v ∈ vs, ∀ i, (ws' v.path i).isSome = (ws v.path i).isSome) (o i : Nat) :
    (varsW sz ws' vs o i).isSome = (varsW sz ws vs o i).isSome := by
  induction vs generalizing o with
  | nil => rfl
  | cons v vs ih =>
    simp only [varsW, orW, Option.isSome_or, ih fun w hw => h w (by simp [hw])]
    congr 1
    simp only [shiftW]
    split
    · exact h v (by simp) _
    · rfl

theorem diffW_vars {sz : Path → Nat} {ws ws' : Path → Nat → Option Bool} {vs : List VarField}
    (hd : ∀ v ∈ vs, ∀ i, (ws v.path i).isSome → i < 8 * sz v.path)
    (h : ∀ v ∈ vs, ∀ i, (ws' v.path i).isSome = (ws v.path i).isSome) (o : Nat) :
    diffW (varsW sz ws vs o) (varsW sz ws' vs o) = varsW sz (fun q => diffW (ws q) (ws' q)) vs o := by
  induction vs generalizing o with
  | nil => rfl
  | cons v vs ih =>
    rw [varsW, varsW, varsW, diffW_or ?_ (fun i => varsW_isSome (fun w hw => h w (by simp [hw])) _ i)
      (shift_vars_disjoint vs (hd v (by simp))), diffW_shift,
      ih (fun w hw => hd w (by simp [hw])) fun w hw => h w (by simp [hw])]
    intro i
    simp only [shiftW]
    split
    · exact h v (by simp) _
    · rfl

/-! ## All layouts -/

/-- The number of bits in which the fixed size field at a path differs. -/
def pathApart (env env' : Path → Val) (q : Path) : Nat :=
  match env q, env' q with
  | .prim v, .prim v' => bitsApart (8 * v.kind.size) (v.kind.store v.val) (v'.kind.store v'.val)
  | _, _ => 0

theorem bitsApart_self (n a : Nat) : bitsApart n a a = 0 := by simp [bitsApart]

theorem fieldApart_eq {chk : Bool} {env env' : Path → Val} {f : FixedField} (h : FieldGood chk env f)
    (h' : FieldGood chk env' f) (hf : SameForm (env f.path) (env' f.path)) :
    fieldApart env env' f = pathApart env env' f.path := by
  obtain ⟨q, k, o⟩ := f
  cases k with
  | prim p =>
    obtain ⟨v, h1, h2⟩ := h
    obtain ⟨v', h1', h2'⟩ := h'
    simp only at h1 h1'
    simp only [fieldApart, fieldVal, pathApart, FixedField.bitCount, FixedField.size, h1, h1', h2]
  | length =>
    obtain ⟨bs, h1, _⟩ := h
    obtain ⟨bs', h1', _⟩ := h'
    simp only at h1 h1' hf
    rw [h1, h1'] at hf
    cases hf with
    | str hl => simp only [fieldApart, fieldVal, pathApart, h1, h1', hl, bitsApart_self]
  | container i p => exact h.elim
  | bitfield p o n =>
    obtain ⟨i, w, h1, _⟩ := h
    obtain ⟨i', w', h1', _⟩ := h'
    simp only at h1 h1' hf
    rw [h1, h1'] at hf
    cases hf with
    | case => simp only [fieldApart, fieldVal, pathApart, h1, h1', bitsApart_self]

/-- Some data source presents a value that is encoded. -/
theorem CodedW.source {chk : Bool} {v : Val} {p : Path} {l : Layout} {size : Nat} {place : Path → Nat}
    (hc : CodedW chk v p l size place []) : ∃ src, Presents src v p := by
  obtain ⟨b, _, hb, _, h2⟩ := hc.enc (List.replicate size 0) (by simp)
  exact ⟨_, ((h2 b (by rw [hb]; simp) (fun _ _ => rfl)).1.1 lucky_nil).2⟩

theorem distance (chk : Bool) (n : Nat) : ∀ (t : Ty), nodes t ≤ n → n < 2 ^ 59 → Inhab t →
    ∀ (v v' : Val), Typed t v → Typed t v' → SameForm v v' → ∀ (p : Path) (l : Layout),
    calculateLayout chk t p = .ok l → TagsHaveRoom chk (leaves v p) l → TagsHaveRoom chk (leaves v' p) l →
    (∀ q bs, (q, Leaf.str bs) ∈ leaves v p → bs.length < 2 ^ 32) →
    (∀ q bs, (q, Leaf.str bs) ∈ leaves v' p → bs.length < 2 ^ 32) →
    leafSum (leaves v p) + 64 < W64 → leafSum (leaves v' p) + 64 < W64 →
    ∃ size place place' w w', CodedW chk v p l size place [] ∧ CodedW chk v' p l size place' [] ∧
      Overlaid chk v p l size w ∧ Overlaid chk v' p l size w' ∧ (∀ i, (w' i).isSome = (w i).isSome) ∧
      countW (diffW w w') (8 * size) = apart v v' := by
  induction n with
  | zero => intro t h; have := nodes_pos t; omega
  | succ n ih =>
    intro t hn hn2 hi v v' hv hv' hf p l hl he he' hstr hstr' hw hw'
    obtain ⟨size, place, hcoded⟩ := coded chk t (by omega) hi v hv p l hl he hstr hw
    obtain ⟨size', place', hcoded'⟩ := coded chk t (by omega) hi v' hv' p l hl he' hstr' hw'
    have hsz : size' = size := by
      obtain ⟨src, hs⟩ := hcoded.source
      obtain ⟨src', hs'⟩ := hcoded'.source
      have h1 := hcoded'.szs _ (mixed_presents hf hs hs')
      rw [size_mixed, hcoded.szs _ hs] at h1
      exact (Except.ok.inj h1).symm
    subst hsz
    obtain ⟨hu, hcases, l', hl', hfacts⟩ := unroll_and_layout chk t hi (by omega) p
    rw [hl] at hl'
    cases hl'
    obtain ⟨env, env', hp⟩ := paired hv v' hv' hf p
    have hsub : ∀ x ∈ slots t p, ∀ y ∈ leaves (env x.1) x.1, y ∈ leaves v p := by
      intro x hx y hy
      rw [hp.leaves]; exact List.mem_flatMap.2 ⟨x, hx, hy⟩
    have hsub' : ∀ x ∈ slots t p, ∀ y ∈ leaves (env' x.1) x.1, y ∈ leaves v' p := by
      intro x hx y hy
      rw [hp.leaves']; exact List.mem_flatMap.2 ⟨x, hx, hy⟩
    have gen : ∀ (e : Path → Val) (x : Path × Slot) (xs : List (Path × Slot)), x ∈ xs →
        leafSum (leaves (e x.1) x.1) ≤ (xs.map (fun x => leafSum (leaves (e x.1) x.1))).sum := by
      intro e x xs
      induction xs with
      | nil => simp
      | cons z xs ihx =>
        intro hm
        rw [List.map_cons, List.sum_cons]
        rcases List.mem_cons.1 hm with rfl | hm
        · omega
        · have := ihx hm; omega
    have hsum : ∀ x ∈ slots t p, leafSum (leaves (env x.1) x.1) ≤ leafSum (leaves v p) := by
      intro x hx
      rw [hp.leaves, leafSum_flatMap]
      exact gen env x _ hx
    have hsum' : ∀ x ∈ slots t p, leafSum (leaves (env' x.1) x.1) ≤ leafSum (leaves v' p) := by
      intro x hx
      rw [hp.leaves', leafSum_flatMap]
      exact gen env' x _ hx
    have hinh := slots_inherit (Q := Inhab) (fun cs h => by cases h with | tuple _ h => exact h)
      (fun fs h => by cases h with | struct _ h => exact h) t p hi
    have hno := slots_inherit (Q := fun u => nodes u ≤ nodes t)
      (fun cs h c hc => by have := nodes_mem_tuple hc; omega)
      (fun fs h f hf => by have := nodesF_mem hf; rw [nodes] at h; omega) t p (Nat.le_refl _)
    have hgood := fields_good hfacts (by omega) hp.typed hsub (fun h => by rw [← h]; exact he) hstr
    have hgood' := fields_good hfacts (by omega) hp.typed' hsub' (fun h => by rw [← h]; exact he') hstr'
    have hfull : ∀ f ∈ l.fixed, f.full = false := by
      intro f hf
      have hroom := he l (.self l) f hf
      unfold HasRoom at hroom
      unfold FixedField.full
      split
      · rename_i pr o k hk
        have := (hroom pr o k hk).1
        simpa using this
      · rfl
    have hex : ∀ q : Path, ∃ m : Nat × (Nat → Option Bool) × (Nat → Option Bool), ∀ x ∈ slots t p, x.1 = q →
        (∀ w, Slot.var chk x = some w → ∀ fi, VarOver chk env (w.setFixedIdx fi) m.1 m.2.1) ∧
        (∀ w, Slot.var chk x = some w → ∀ fi, VarOver chk env' (w.setFixedIdx fi) m.1 m.2.2) ∧
        16 + m.1 ≤ leafSum (leaves (env x.1) x.1) ∧ 16 + m.1 ≤ leafSum (leaves (env' x.1) x.1) ∧
        (∀ i, (m.2.2 i).isSome = (m.2.1 i).isSome) ∧
        pathApart env env' x.1 + countW (diffW m.2.1 m.2.2) (8 * m.1) = apart (env x.1) (env' x.1) ∧
        (Slot.var chk x = none → countW (diffW m.2.1 m.2.2) (8 * m.1) = 0) := by
      intro q
      by_cases hq : ∃ x ∈ slots t p, x.1 = q
      · obtain ⟨x, hx, rfl⟩ := hq
        suffices ∃ m : Nat × (Nat → Option Bool) × (Nat → Option Bool),
            (∀ w, Slot.var chk x = some w → ∀ fi, VarOver chk env (w.setFixedIdx fi) m.1 m.2.1) ∧
            (∀ w, Slot.var chk x = some w → ∀ fi, VarOver chk env' (w.setFixedIdx fi) m.1 m.2.2) ∧
            16 + m.1 ≤ leafSum (leaves (env x.1) x.1) ∧ 16 + m.1 ≤ leafSum (leaves (env' x.1) x.1) ∧
            (∀ i, (m.2.2 i).isSome = (m.2.1 i).isSome) ∧
            pathApart env env' x.1 + countW (diffW m.2.1 m.2.2) (8 * m.1) = apart (env x.1) (env' x.1) ∧
            (Slot.var chk x = none → countW (diffW m.2.1 m.2.2) (8 * m.1) = 0) by
          obtain ⟨m, hm⟩ := this
          refine ⟨m, fun y hy hyx => ?_⟩
          have : y = x := Classical.byContradiction fun hne => by
            rcases pairwise_mem_ne (slots_apart t p) hy hx hne with h | h
            · exact h.1 (hyx ▸ List.prefix_refl _)
            · exact h.1 (hyx ▸ List.prefix_refl _)
          rw [this]; exact hm
        have hty := hp.typed x hx
        have hty' := hp.typed' x hx
        have hfx := hp.form x hx
        have hsl := hsub x hx
        have hsl' := hsub' x hx
        have hsu := hsum x hx
        have hsu' := hsum' x hx
        have hix := hinh x hx
        have hnx := hno x hx
        obtain ⟨xq, xs⟩ := x
        simp only at hty hty' hfx hsl hsl' hsu hsu' hix hnx ⊢
        cases xs with
        | prim pr =>
          rw [pathApart]
          generalize hev : env xq = ev at hty hfx ⊢
          generalize hev' : env' xq = ev' at hty' hfx ⊢
          cases hty with
          | prim u =>
            cases hfx with
            | prim _ u' =>
            exact ⟨(0, fun _ => none, fun _ => none), by simp [Slot.var], by simp [Slot.var],
              by simp [leaves, leafSum, leafWeight], by simp [leaves, leafSum, leafWeight], fun _ => rfl,
              by simp [countW, apart], fun _ => rfl⟩
        | str =>
          rw [pathApart]
          generalize hev : env xq = ev at hty hfx ⊢
          generalize hev' : env' xq = ev' at hty' hfx ⊢
          cases hty with
          | str bs =>
          cases hfx with
          | @str _ bs' hbl =>
          refine ⟨(bs.length, rangeW 0 (8 * bs.length) (bit bs), rangeW 0 (8 * bs.length) (bit bs')), ?_, ?_,
            by simp [leaves, leafSum, leafWeight], by simp [leaves, leafSum, leafWeight, hbl], ?_, ?_, ?_⟩
          · intro w hw fi
            simp [Slot.var] at hw
            subst hw
            exact varOver_str hev fi
          · intro w hw fi
            simp [Slot.var] at hw
            subst hw
            simp only
            rw [hbl]
            exact varOver_str hev' fi
          · intro i
            simp only [rangeW]
            split <;> rfl
          · simp only
            rw [countW_diff_range _ _ (by simp), apart, differing, Nat.zero_add]
            congr 1
            funext i
            rw [bitAt_eq, bitAt_eq]
          · intro h; simp [Slot.var] at h
        | enum cs =>
          rw [pathApart]
          generalize hev : env xq = ev at hty hfx hsl hsu ⊢
          generalize hev' : env' xq = ev' at hty' hfx hsl' hsu' ⊢
          cases hty with
          | @enum _ i c u hc1 hc2 =>
          cases hfx with
          | @case _ _ u' hfu =>
          have hc2' : Typed c.2 u' := by
            cases hty' with
            | enum h1 h2 => rw [hc1] at h1; cases h1; exact h2
          have hcm := List.mem_of_getElem? hc1
          have hic : Inhab c.2 := by cases hix with | enum _ h => exact h c hcm
          have hnc : nodes c.2 ≤ n := by
            have := nodesF_mem hcm
            simp only [Slot.ty, nodes] at hnx
            omega
          obtain ⟨hcl, hcl2, hcl3⟩ := hcases xq cs hx
          obtain ⟨lc, hlc1, hlc2, _⟩ := hcl3 i c hc1
          obtain ⟨fi, hfi⟩ : ∃ fi, VarField.enum xq fi (layouts chk cs xq) ∈ l.vars := by
            have h0 : VarField.enum xq 0 (layouts chk cs xq) ∈ (slots t p).filterMap (Slot.var chk) :=
              List.mem_filterMap.2 ⟨_, hx, rfl⟩
            have h1 : (VarField.enum xq 0 (layouts chk cs xq)).setFixedIdx 0 ∈ l.vars.map (·.setFixedIdx 0) :=
              hfacts.vars.mem_iff.2 (List.mem_map_of_mem (f := fun v => VarField.setFixedIdx 0 v) h0)
            obtain ⟨v', hv', e⟩ := List.mem_map.1 h1
            cases v' with
            | string => simp [VarField.setFixedIdx] at e
            | enum a b d =>
              simp [VarField.setFixedIdx] at e
              obtain ⟨rfl, rfl⟩ := e
              exact ⟨b, hv'⟩
          have hec : TagsHaveRoom chk (leaves u (xq ++ [i])) lc := by
            intro m hm
            refine he m (.case hfi (hsl _ (by rw [leaves]; exact List.mem_cons_self ..)) hlc1 (hm.mono ?_))
            intro y hy
            exact hsl _ (by rw [leaves]; exact List.mem_cons_of_mem _ hy)
          have hec' : TagsHaveRoom chk (leaves u' (xq ++ [i])) lc := by
            intro m hm
            refine he' m (.case hfi (hsl' _ (by rw [leaves]; exact List.mem_cons_self ..)) hlc1 (hm.mono ?_))
            intro y hy
            exact hsl' _ (by rw [leaves]; exact List.mem_cons_of_mem _ hy)
          have hls : ∀ u, leafSum (leaves (.case i u) xq) = 64 + leafSum (leaves u (xq ++ [i])) := by
            intro u
            rw [leaves, leafSum_cons]; rfl
          rw [hls] at hsu hsu' ⊢
          rw [hls]
          obtain ⟨m, pm, pm', wm, wm', hm, hm', hov, hov', hsome, hcount⟩ := ih c.2 hnc (by omega) hic u u' hc2 hc2' hfu
            (xq ++ [i]) lc hlc2 hec hec'
            (fun q bs hq => hstr q bs (hsl _ (by rw [leaves]; exact List.mem_cons_of_mem _ hq)))
            (fun q bs hq => hstr' q bs (hsl' _ (by rw [leaves]; exact List.mem_cons_of_mem _ hq))) (by omega) (by omega)
          have hsmall := hm.small
          have hsmall' := hm'.small
          refine ⟨(m, wm, wm'), ?_, ?_, by simp only; omega, by simp only; omega, hsome, ?_, ?_⟩
          · intro w hw fi
            simp [Slot.var] at hw
            subst hw
            exact varOver_enum hev hlc1 hm hov fi
          · intro w hw fi
            simp [Slot.var] at hw
            subst hw
            exact varOver_enum hev' hlc1 hm' hov' fi
          · simp only
            rw [hcount, apart, Nat.zero_add]
          · intro h; simp [Slot.var] at h
      · exact ⟨(0, fun _ => none, fun _ => none), fun x hx hxq => absurd ⟨x, hx, hxq⟩ hq⟩
    obtain ⟨m, hm⟩ := Classical.axiomOfChoice hex
    have hm := fun x hx => hm x.1 x hx rfl
    obtain ⟨h1, _⟩ := over_of_vars (sz := fun q => (m q).1) (ws := fun q => (m q).2.1) hfacts hp.leaves hp.typed
      (fun r cs hx => (hcases r cs hx).2.1) hgood hfull (fun x hx => (hm x hx).1)
      (fun x hx => (hm x hx).2.2.1) hw hcoded
    obtain ⟨h1', _⟩ := over_of_vars (sz := fun q => (m q).1) (ws := fun q => (m q).2.2) hfacts hp.leaves' hp.typed'
      (fun r cs hx => (hcases r cs hx).2.1) hgood' hfull (fun x hx => (hm x hx).2.1)
      (fun x hx => (hm x hx).2.2.2.1) hw' hcoded'
    have hvp : (l.vars.map (·.path)).Perm (((slots t p).filterMap (Slot.var chk)).map (·.path)) := by
      have := hfacts.vars.map VarField.path
      simpa [List.map_map, Function.comp_def] using this
    have hvslot : ∀ v ∈ l.vars, ∃ x ∈ slots t p, ∃ w, Slot.var chk x = some w ∧ v.path = x.1 ∧
        v = w.setFixedIdx v.fixedIdx := by
      intro v hv
      have h1 := hfacts.vars.mem_iff.1 (List.mem_map_of_mem (f := (·.setFixedIdx 0)) hv)
      obtain ⟨w, hw, he⟩ := List.mem_map.1 h1
      obtain ⟨x, hx, hxw⟩ := List.mem_filterMap.1 hw
      have h2 := setFixedIdx_inj he.symm
      refine ⟨x, hx, w, hxw, ?_, h2⟩
      rw [h2, VarField.setFixedIdx_path, varSlot_path hxw]
    have hvdom : ∀ v ∈ l.vars, ∀ i, ((m v.path).2.1 i).isSome → i < 8 * (m v.path).1 := by
      intro v hv
      obtain ⟨x, hx, w, hxw, h3, _⟩ := hvslot v hv
      rw [h3]
      exact ((hm x hx).1 w hxw 0).dom
    have hvsome : ∀ v ∈ l.vars, ∀ i, ((m v.path).2.2 i).isSome = ((m v.path).2.1 i).isSome := by
      intro v hv
      obtain ⟨x, hx, w, hxw, h3, _⟩ := hvslot v hv
      rw [h3]
      exact (hm x hx).2.2.2.2.1
    have hfp : (l.fixed.map (·.path)).Perm ((slots t p).map (·.1)) := hfacts.paths.trans (paths_perm _)
    have hin : ∀ f ∈ l.fixed, f.bitStart + f.bitCount ≤ 8 * l.varOffset := by
      intro f hf
      have h2 := (hgood f hf).range
      have h3 := hfacts.inside f hf
      omega
    have hdisj : ∀ i, (fieldsW env l.fixed i).isSome →
        (varsW (fun q => (m q).1) (fun q => (m q).2.1) l.vars l.varOffset i).isSome → False := by
      intro i h1 h2
      obtain ⟨b, hb⟩ := Option.isSome_iff_exists.1 h1
      obtain ⟨f, hf', hb⟩ := fieldsW_some hb
      have h3 := fieldW_some (by rw [hb]; rfl : (fieldW env f i).isSome)
      have h4 := hin f hf'
      have h5 := varsW_ge l.vars h2
      omega
    have hsame : ∀ i, (orW (fieldsW env' l.fixed) (varsW (fun q => (m q).1) (fun q => (m q).2.2) l.vars l.varOffset)
        i).isSome = (orW (fieldsW env l.fixed) (varsW (fun q => (m q).1) (fun q => (m q).2.1) l.vars l.varOffset)
        i).isSome := by
      intro i
      simp only [orW, Option.isSome_or]
      rw [fieldsW_isSome env' env, varsW_isSome (ws := fun q => (m q).2.1) (ws' := fun q => (m q).2.2) hvsome]
    refine ⟨_, place, place', _, _, hcoded, hcoded', h1, h1', hsame, ?_⟩
    -- the bits of the fixed size fields and of the others
    have hN := Nat.le_max_left (8 * size') (8 * (l.varOffset + total (fun q => (m q).1) l.vars))
    have hN' := Nat.le_max_right (8 * size') (8 * (l.varOffset + total (fun q => (m q).1) l.vars))
    rw [← countW_mono hN fun i hi => h1.dom i (diffW_some hi),
      diffW_or (fieldsW_isSome env' env l.fixed) (fun i => varsW_isSome hvsome _ i) hdisj,
      countW_or fun i h1 h2 => hdisj i (diffW_some h1) (diffW_some h2),
      countW_diff_fields hfacts.disj fun f hf => by have := hin f hf; omega,
      diffW_vars hvdom hvsome]
    have hdd : ∀ v ∈ l.vars, ∀ i, (diffW (m v.path).2.1 (m v.path).2.2 i).isSome → i < 8 * (m v.path).1 :=
      fun v hv i hi => hvdom v hv i (diffW_some hi)
    rw [countW_mono hN' fun i hi => varsW_lt l.vars hdd hi, countW_vars l.vars hdd, hp.dist]
    have hfixed : (l.fixed.map (fieldApart env env')).sum = ((slots t p).map fun x => pathApart env env' x.1).sum := by
      have e1 : (l.fixed.map (fieldApart env env')).sum = (l.fixed.map fun f => pathApart env env' f.path).sum := by
        apply sum_map_eq
        intro f hf
        obtain ⟨x, hx, hxf⟩ := List.mem_map.1 (hfp.mem_iff.1 (List.mem_map_of_mem (f := (·.path)) hf))
        have hxf : x.1 = f.path := hxf
        exact fieldApart_eq (hgood f hf) (hgood' f hf) (hxf ▸ hp.form x hx)
      have e2 : (l.fixed.map fun f => pathApart env env' f.path).sum =
          ((slots t p).map fun x => pathApart env env' x.1).sum := by
        have := (hfp.map (pathApart env env')).sum_nat
        simpa [List.map_map, Function.comp_def] using this
      rw [e1, e2]
    have hvsum : (l.vars.map fun v => countW (diffW (m v.path).2.1 (m v.path).2.2) (8 * (m v.path).1)).sum =
        ((slots t p).map fun x => countW (diffW (m x.1).2.1 (m x.1).2.2) (8 * (m x.1).1)).sum := by
      rw [← sum_filterMap_eq (chk := chk) (fun q => countW (diffW (m q).2.1 (m q).2.2) (8 * (m q).1))]
      · have := (hvp.map fun q => countW (diffW (m q).2.1 (m q).2.2) (8 * (m q).1)).sum_nat
        simpa [List.map_map, Function.comp_def] using this
      · exact fun x hx hxv => (hm x hx).2.2.2.2.2.2 hxv
    rw [hfixed, hvsum]
    have gen2 : ∀ xs : List (Path × Slot), (∀ x ∈ xs, pathApart env env' x.1 +
        countW (diffW (m x.1).2.1 (m x.1).2.2) (8 * (m x.1).1) = apart (env x.1) (env' x.1)) →
        (xs.map fun x => pathApart env env' x.1).sum +
        (xs.map fun x => countW (diffW (m x.1).2.1 (m x.1).2.2) (8 * (m x.1).1)).sum =
        (xs.map fun x => apart (env x.1) (env' x.1)).sum := by
      intro xs hxs
      induction xs with
      | nil => rfl
      | cons x xs ihx =>
        have a := hxs x (by simp)
        have b := ihx fun y hy => hxs y (by simp [hy])
        simp only [List.map_cons, List.sum_cons]
        omega
    exact gen2 _ fun x hx => (hm x hx).2.2.2.2.2.1

end Verif
