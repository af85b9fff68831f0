import Verif.Proof.Codec
import Verif.Props.Util
import Verif.Spec.Layout
import Verif.Spec.Bits

/-! # Encoding and reading back: whole layouts -/

namespace Verif

open Spec

/-! ## Values seen through slots -/

theorem slots_inherit {Q : Ty → Prop} (h1 : ∀ cs, Q (.tuple cs) → ∀ c ∈ cs, Q c)
    (h2 : ∀ fs, Q (.struct fs) → ∀ f ∈ fs, Q f.2) (t : Ty) :
    ∀ q : Path, Q t → ∀ x ∈ slots t q, Q x.2.ty := by
  induction t using Ty.ind with
  | unit => simp [slots]
  | prim p => intro q hq x hx; simp [slots] at hx; rw [hx]; exact hq
  | string => intro q hq x hx; simp [slots] at hx; rw [hx]; exact hq
  | tuple cs ih =>
    intro q hq x hx
    rw [slots] at hx
    obtain ⟨k, c, a, b⟩ := mem_slotsL hx
    have hm := List.mem_of_getElem? a
    exact ih c hm _ (h1 cs hq c hm) x b
  | struct fs ih =>
    intro q hq x hx
    rw [slots, slotsF_eq] at hx
    obtain ⟨k, c, a, b⟩ := mem_slotsL hx
    obtain ⟨f, hf, rfl⟩ := List.mem_map.1 (List.mem_of_getElem? a)
    exact ih f hf _ (h2 fs hq f hf) x b
  | enum cs ih => intro q hq x hx; simp [slots] at hx; rw [hx]; exact hq

theorem flatMap_congr' {α β : Type} {l : List α} {f g : α → List β} (h : ∀ x ∈ l, f x = g x) :
    l.flatMap f = l.flatMap g := by
  induction l with
  | nil => rfl
  | cons x xs ih => rw [List.flatMap_cons, List.flatMap_cons, h x (by simp), ih (fun y hy => h y (by simp [hy]))]

theorem typed_slots {t : Ty} {v : Val} (h : Typed t v) : ∀ p : Path, ∃ env : Path → Val,
    (∀ x ∈ slots t p, Typed x.2.ty (env x.1)) ∧
    leaves v p = (slots t p).flatMap (fun x => leaves (env x.1) x.1) ∧
    valueBits v t = ((slots t p).map (fun x => valueBits (env x.1) x.2.ty)).sum := by
  have list : ∀ (cs : List Ty) (vs : List Val), vs.length = cs.length →
      (∀ (i : Nat) (c : Ty) (v : Val), cs[i]? = some c → vs[i]? = some v → ∀ p : Path, ∃ env : Path → Val,
        (∀ x ∈ slots c p, Typed x.2.ty (env x.1)) ∧
        leaves v p = (slots c p).flatMap (fun x => leaves (env x.1) x.1) ∧
        valueBits v c = ((slots c p).map (fun x => valueBits (env x.1) x.2.ty)).sum) →
      ∀ (p : Path) (i : Nat), ∃ env : Path → Val,
        (∀ x ∈ slotsL cs p i, Typed x.2.ty (env x.1)) ∧
        leavesFrom vs p i = (slotsL cs p i).flatMap (fun x => leaves (env x.1) x.1) ∧
        valueBitsL vs cs = ((slotsL cs p i).map (fun x => valueBits (env x.1) x.2.ty)).sum := by
    intro cs
    induction cs with
    | nil =>
      intro vs hl _ p i
      cases vs with
      | nil => exact ⟨fun _ => .unit, by simp [slotsL], by simp [slotsL, leavesFrom], by simp [slotsL, valueBitsL]⟩
      | cons v vs => simp at hl
    | cons c cs ih =>
      intro vs hl h p i
      cases vs with
      | nil => simp at hl
      | cons v vs =>
        obtain ⟨e1, a1, a2, a3⟩ := h 0 c v rfl rfl (p ++ [i])
        obtain ⟨e2, b1, b2, b3⟩ := ih vs (by simpa using hl)
          (fun k d w hd hw => h (k + 1) d w (by simpa using hd) (by simpa using hw)) p (i + 1)
        have s1 : ∀ x ∈ slots c (p ++ [i]), (p ++ [i]) <+: x.1 := by
          intro x hx
          obtain ⟨r, hr⟩ := slots_prefix _ _ _ hx
          rw [hr]; exact List.prefix_append _ _
        have s2 : ∀ x ∈ slotsL cs p (i + 1), ¬ (p ++ [i]) <+: x.1 := by
          intro x hx hp
          obtain ⟨k, d, _, h2⟩ := mem_slotsL hx
          obtain ⟨r, hr⟩ := slots_prefix _ _ _ h2
          rw [hr, List.append_assoc, List.prefix_append_right_inj] at hp
          simp at hp
          omega
        refine ⟨fun q => if (p ++ [i]) <+: q then e1 q else e2 q, ?_, ?_, ?_⟩
        · intro x hx
          rw [slotsL] at hx
          rcases List.mem_append.1 hx with hx | hx
          · simp only [if_pos (s1 x hx)]; exact a1 x hx
          · simp only [if_neg (s2 x hx)]; exact b1 x hx
        · rw [leavesFrom, slotsL, List.flatMap_append, a2, b2]
          congr 1
          · apply flatMap_congr'
            intro x hx
            simp only [if_pos (s1 x hx)]
          · apply flatMap_congr'
            intro x hx
            simp only [if_neg (s2 x hx)]
        · rw [valueBitsL, slotsL, List.map_append, List.sum_append, a3, b3]
          congr 2
          · apply List.map_congr_left
            intro x hx
            simp only [if_pos (s1 x hx)]
          · apply List.map_congr_left
            intro x hx
            simp only [if_neg (s2 x hx)]
  induction h with
  | unit => intro p; exact ⟨fun _ => .unit, by simp [slots], by simp [slots, leaves], by simp [slots, valueBits]⟩
  | prim v =>
    intro p
    exact ⟨fun _ => .prim v, by simp [slots, Slot.ty]; exact .prim v, by simp [slots], by simp [slots, Slot.ty]⟩
  | str bs => intro p; exact ⟨fun _ => .str bs, by simp [slots, Slot.ty]; exact .str bs, by simp [slots],
      by simp [slots, Slot.ty]⟩
  | tuple hl _ ih =>
    intro p
    rw [slots, leaves, valueBits]
    exact list _ _ hl ih p 0
  | @struct fs vs hl _ ih =>
    intro p
    rw [slots, leaves, slotsF_eq, valueBits]
    refine list _ _ (by simpa using hl) ?_ p 0
    intro i c v hc hv
    rw [List.getElem?_map, Option.map_eq_some_iff] at hc
    obtain ⟨f, hf, rfl⟩ := hc
    exact ih i f v hf hv
  | @enum cs i c v h1 h2 ih =>
    intro p
    exact ⟨fun _ => .case i v, by simp [slots, Slot.ty]; exact .enum h1 h2, by simp [slots],
      by simp [slots, Slot.ty]⟩

theorem leaves_prefix {t : Ty} {v : Val} (h : Typed t v) :
    ∀ (p : Path) (x : Path × Leaf), x ∈ leaves v p → p <+: x.1 := by
  have list : ∀ (vs : List Val), (∀ (i : Nat) (v : Val), vs[i]? = some v → ∀ (p : Path) (x : Path × Leaf),
      x ∈ leaves v p → p <+: x.1) → ∀ (p : Path) (i : Nat) (x : Path × Leaf), x ∈ leavesFrom vs p i → p <+: x.1 := by
    intro vs
    induction vs with
    | nil => intro _ p i x hx; simp [leavesFrom] at hx
    | cons v vs ih =>
      intro h p i x hx
      rw [leavesFrom] at hx
      rcases List.mem_append.1 hx with hx | hx
      · exact List.IsPrefix.trans (List.prefix_append p [i]) (h 0 v rfl _ _ hx)
      · exact ih (fun k w hw => h (k + 1) w (by simpa using hw)) p _ x hx
  induction h with
  | unit => simp [leaves]
  | prim v => intro p x hx; simp [leaves] at hx; rw [hx]; exact List.prefix_refl _
  | str bs => intro p x hx; simp [leaves] at hx; rw [hx]; exact List.prefix_refl _
  | @tuple cs vs hl _ ih =>
    intro p x hx
    rw [leaves] at hx
    refine list _ (fun i v hv => ?_) p 0 x hx
    have hi := (List.getElem?_eq_some_iff.1 hv).1
    exact ih i _ v (List.getElem?_eq_getElem (by omega)) hv
  | @struct fs vs hl _ ih =>
    intro p x hx
    rw [leaves] at hx
    refine list _ (fun i v hv => ?_) p 0 x hx
    have hi := (List.getElem?_eq_some_iff.1 hv).1
    exact ih i _ v (List.getElem?_eq_getElem (by omega)) hv
  | @enum cs i c v h1 h2 ih =>
    intro p x hx
    rw [leaves] at hx
    rcases List.mem_cons.1 hx with rfl | hx
    · exact List.prefix_refl _
    · exact List.IsPrefix.trans (List.prefix_append p [i]) (ih _ _ hx)

/-- Weight of a leaf. -/
def leafWeight : Leaf → Nat
  | .str bs => 64 + bs.length
  | _ => 64

def leafSum (xs : List (Path × Leaf)) : Nat := (xs.map (fun x => leafWeight x.2)).sum

theorem leafSum_append (a b : List (Path × Leaf)) : leafSum (a ++ b) = leafSum a + leafSum b := by
  simp [leafSum]

theorem leafSum_cons (a : Path × Leaf) (b : List (Path × Leaf)) :
    leafSum (a :: b) = leafWeight a.2 + leafSum b := by simp [leafSum]

mutual
theorem leafSum_path : ∀ (v : Val) (p q : Path), leafSum (leaves v p) = leafSum (leaves v q)
  | .unit, p, q => by simp [leaves]
  | .prim v, p, q => by simp [leaves, leafSum]
  | .str bs, p, q => by simp [leaves, leafSum]
  | .seq vs, p, q => by rw [leaves, leaves]; exact leafSum_pathFrom vs p q 0
  | .case i v, p, q => by
    rw [leaves, leaves, leafSum_cons, leafSum_cons, leafSum_path v (p ++ [i]) (q ++ [i])]
theorem leafSum_pathFrom : ∀ (vs : List Val) (p q : Path) (i : Nat),
    leafSum (leavesFrom vs p i) = leafSum (leavesFrom vs q i)
  | [], p, q, i => by simp [leavesFrom]
  | v :: vs, p, q, i => by
    rw [leavesFrom, leavesFrom, leafSum_append, leafSum_append, leafSum_path v _ (q ++ [i]),
      leafSum_pathFrom vs p q (i + 1)]
end

theorem weight_eq (v : Val) (p : Path) : weight v = 64 + leafSum (leaves v p) := by
  rw [leafSum_path v p []]
  rw [weight, leafSum]
  congr 2

/-! ## Enums whose tags are stored faithfully -/

/-- The bit width of the tag is none of the container widths, and in a checked build there is a tag
at all. -/
def TagOk (chk : Bool) (n : Nat) : Prop :=
  requiredBits (n - 1) ≠ 8 ∧ requiredBits (n - 1) ≠ 16 ∧ requiredBits (n - 1) ≠ 32 ∧
    requiredBits (n - 1) ≠ 64 ∧ (chk = true → 2 ≤ n)

theorem requiredBits_pos {n : Nat} (h : 2 ≤ n) (hn : n < 2 ^ 64) : 1 ≤ requiredBits (n - 1) := by
  unfold requiredBits
  rw [if_neg (by omega)]
  have := leadingZeros_spec 64 (n - 1) (by omega) (by omega)
  omega

/-! ## One layout -/

/-- Everything about encoding the value `v` with the layout `l` of its type at path `p`. -/
structure CodedW (chk : Bool) (v : Val) (p : Path) (l : Layout) (size : Nat) (place : Path → Nat)
    (ns : List Need) : Prop where
  needs : ∀ n ∈ ns, n.start + n.width ≤ 8 * size ∧ 0 < n.width
  len : ∀ src buf r, Presents src v p → l.encode chk src buf = .ok r → r.1.length = buf.length
  within : ∀ q bs, (q, Leaf.str bs) ∈ leaves v p → place q + bs.length ≤ size
  short : ∀ src, Presents src v p → ∀ buf : Bytes, buf.length < size →
    (l.encode chk src buf = .error .ub ↔ Cuts v p place 0 buf.length)
  small : size ≤ 32 + leafSum (leaves v p)
  al : l.alignment ∣ size
  szs : ∀ src, Presents src v p → l.sizeWithSource chk src = .ok size
  enc : ∀ buf : Bytes, size ≤ buf.length → ∃ buf' : Bytes,
    (∀ src, Presents src v p → l.encode chk src buf = .ok (buf', size)) ∧
    buf'.length = buf.length ∧
    (∀ i, 8 * size ≤ i → bit buf' i = bit buf i) ∧
    ∀ data : Bytes, size ≤ data.length → (∀ i, i < 8 * size → bit data i = bit buf' i) →
      ((Lucky ns buf → l.encodingSize chk data = .ok size ∧
          ∀ q leaf, (q, leaf) ∈ leaves v p → Answers (l.source chk data) q leaf) ∧
        (¬ Lucky ns buf → ∃ q j, (q, Leaf.tag j) ∈ leaves v p ∧ ¬ Answers (l.source chk data) q (.tag j))) ∧
      StrsAt v p place data

/-- The words of variable fields that are not written. -/
def needsVars (sz : Path → Nat) (nd : Path → List Need) : List VarField → Nat → List Need
  | [], _ => []
  | v :: vs, o => (nd v.path).map (fun n => ⟨8 * o + n.start, n.width, n.value⟩) ++
      needsVars sz nd vs (o + sz v.path)

theorem mem_needsVars {sz : Path → Nat} {nd : Path → List Need} (vs : List VarField) (o : Nat) (n : Need) :
    n ∈ needsVars sz nd vs o ↔ ∃ (j : Nat) (v : VarField), vs[j]? = some v ∧ ∃ m ∈ nd v.path,
      n = ⟨8 * (o + total sz (vs.take j)) + m.start, m.width, m.value⟩ := by
  induction vs generalizing o with
  | nil => simp [needsVars]
  | cons v vs ih =>
    rw [needsVars, List.mem_append, ih]
    constructor
    · rintro (h | ⟨j, w, hj, m, hm, rfl⟩)
      · obtain ⟨m, hm, rfl⟩ := List.mem_map.1 h
        exact ⟨0, v, rfl, m, hm, by simp [total]⟩
      · refine ⟨j + 1, w, by simpa using hj, m, hm, ?_⟩
        rw [List.take_succ_cons, total_cons, Nat.add_assoc o]
    · rintro ⟨j, w, hj, m, hm, rfl⟩
      cases j with
      | zero =>
        simp at hj
        subst hj
        exact Or.inl (List.mem_map.2 ⟨m, hm, by simp [total]⟩)
      | succ j =>
        refine Or.inr ⟨j, w, by simpa using hj, m, hm, ?_⟩
        rw [List.take_succ_cons, total_cons, Nat.add_assoc o]

theorem lucky_needsVars {sz : Path → Nat} {nd : Path → List Need} (vs : List VarField) (o : Nat) (buf : Bytes) :
    Lucky (needsVars sz nd vs o) buf ↔ ∀ (j : Nat) (v : VarField), vs[j]? = some v →
      Lucky (nd v.path) (buf.drop (o + total sz (vs.take j))) := by
  have hd : ∀ (k s n : Nat), getBits (buf.drop k) s n = getBits buf (8 * k + s) n := by
    intro k s n
    apply getBits_congr
    intro i _
    rw [bit_drop]
    congr 1
    omega
  constructor
  · intro h j v hj m hm
    rw [hd]
    exact h _ ((mem_needsVars vs o _).2 ⟨j, v, hj, m, hm, rfl⟩)
  · intro h n hn
    obtain ⟨j, v, hj, m, hm, rfl⟩ := (mem_needsVars vs o n).1 hn
    have := h j v hj m hm
    rwa [hd] at this

/-- The tags of this layout that are not written. -/
def needsFixed (env : Path → Val) (fixed : List FixedField) : List Need :=
  (fixed.filter (·.full)).map fun f => ⟨f.bitStart, f.bitCount, fieldVal env f⟩

theorem exists_first {P : Nat → Prop} : ∀ n, P n → ∃ m, P m ∧ ∀ k, k < m → ¬ P k := by
  intro n
  induction n using Nat.strongRecOn with
  | _ n ih =>
    intro h
    by_cases hk : ∃ k, k < n ∧ P k
    · obtain ⟨k, hk, hp⟩ := hk
      exact ih k hk hp
    · exact ⟨n, h, fun k hkn hp => hk ⟨k, hkn, hp⟩⟩

/-- Where the field with a path below the path of one of the variable fields is. -/
def placeVars (sz : Path → Nat) (pl : Path → Path → Nat) : List VarField → Nat → Path → Nat
  | [], _, _ => 0
  | v :: vs, o, q => if v.path <+: q then o + pl v.path q else placeVars sz pl vs (o + sz v.path) q

theorem placeVars_eq {sz : Path → Nat} {pl : Path → Path → Nat} {vs : List VarField}
    (ha : vs.Pairwise fun a b => Apart a.path b.path) {j : Nat} {v : VarField} (hj : vs[j]? = some v) {q : Path}
    (hq : v.path <+: q) (o : Nat) : placeVars sz pl vs o q = o + total sz (vs.take j) + pl v.path q := by
  induction vs generalizing j o with
  | nil => simp at hj
  | cons u vs ih =>
    cases j with
    | zero => simp at hj; subst hj; simp [placeVars, hq, total]
    | succ j =>
      have hj' : vs[j]? = some v := by simpa using hj
      rw [placeVars, if_neg, ih (List.pairwise_cons.1 ha).2 hj', List.take_succ_cons, total_cons, Nat.add_assoc o]
      intro hu
      have := (List.pairwise_cons.1 ha).1 v (List.mem_of_getElem? hj')
      rcases List.prefix_or_prefix_of_prefix hu hq with h | h
      · exact this.1 h
      · exact this.2 h

theorem setFixedIdx_inj {v w : VarField} (h : v.setFixedIdx 0 = w.setFixedIdx 0) :
    v = w.setFixedIdx v.fixedIdx := by
  cases v <;> cases w <;> simp [VarField.setFixedIdx, VarField.fixedIdx] at h ⊢ <;> exact h

theorem varSlot_path {chk : Bool} {x : Path × Slot} {w : VarField} (h : Slot.var chk x = some w) :
    w.path = x.1 := by
  obtain ⟨q, s⟩ := x
  cases s <;> simp [Slot.var] at h <;> rw [← h] <;> rfl

theorem sum_filterMap_le {chk : Bool} (sz : Path → Nat) (xs : List (Path × Slot)) :
    total sz (xs.filterMap (Slot.var chk)) ≤ (xs.map (fun x => sz x.1)).sum := by
  induction xs with
  | nil => simp [total]
  | cons x xs ih =>
    cases h : Slot.var chk x with
    | none => rw [List.filterMap_cons_none h, List.map_cons, List.sum_cons]; omega
    | some w =>
      rw [List.filterMap_cons_some h, total_cons, List.map_cons, List.sum_cons, varSlot_path h]; omega

theorem leafSum_flatMap (env : Path → Val) (xs : List (Path × Slot)) :
    leafSum (xs.flatMap (fun x => leaves (env x.1) x.1)) =
      (xs.map (fun x => leafSum (leaves (env x.1) x.1))).sum := by
  induction xs with
  | nil => rfl
  | cons x xs ih => rw [List.flatMap_cons, leafSum_append, ih]; rfl

theorem sum_map_le {α : Type} {f g : α → Nat} {xs : List α} (h : ∀ x ∈ xs, f x ≤ g x) :
    (xs.map f).sum ≤ (xs.map g).sum := by
  induction xs with
  | nil => simp
  | cons x xs ih =>
    rw [List.map_cons, List.map_cons, List.sum_cons, List.sum_cons]
    exact Nat.add_le_add (h x (by simp)) (ih (fun y hy => h y (by simp [hy])))

theorem sum_map_add {α : Type} {f : α → Nat} {c : Nat} {xs : List α} :
    (xs.map (fun x => c + f x)).sum = c * xs.length + (xs.map f).sum := by
  induction xs with
  | nil => simp
  | cons x xs ih =>
    rw [List.map_cons, List.map_cons, List.sum_cons, List.sum_cons, ih, List.length_cons, Nat.mul_succ]
    omega

/-- The encoding of a layout from the encodings of its variable fields. -/
theorem coded_of_vars {chk : Bool} {t : Ty} {p : Path} {l : Layout} {v : Val} {env : Path → Val}
    {sz : Path → Nat} {pl : Path → Path → Nat} {nd : Path → List Need} (hf : TyFacts chk t p l)
    (hleaves : leaves v p = (slots t p).flatMap (fun x => leaves (env x.1) x.1))
    (htyped : ∀ x ∈ slots t p, Typed x.2.ty (env x.1))
    (hgood : ∀ f ∈ l.fixed, FieldGood chk env f)
    (hvars : ∀ x ∈ slots t p, ∀ w, Slot.var chk x = some w → ∀ fi,
      VarGood chk env (w.setFixedIdx fi) (sz x.1) (pl x.1) (nd x.1))
    (hwidth : ∀ x ∈ slots t p, ∀ n ∈ nd x.1, 0 < n.width)
    (hsz : ∀ x ∈ slots t p, 16 + sz x.1 ≤ leafSum (leaves (env x.1) x.1))
    (hw : leafSum (leaves v p) + 64 < W64) :
    ∃ size place, CodedW chk v p l size place (needsFixed env l.fixed ++ needsVars sz nd l.vars l.varOffset) := by
  obtain ⟨al, vo, idx, fixed, vars⟩ := l
  have hal : SmallPow al := hf.al
  have hgood : ∀ f ∈ fixed, FieldGood chk env f := hgood
  have hin : ∀ f ∈ fixed, f.offset + f.size ≤ vo := hf.inside
  have hdisj : fixed.Pairwise BitDisjoint := hf.disj
  have hbound : vo ≤ 16 * (((slots t p).filterMap Slot.fixed).length +
    ((slots t p).filterMap Slot.bits).length) + 16 := hf.bound
  have hsorted : idx.Pairwise (fun a b => b.path < a.path) := hf.sorted
  have hidxF : ∀ x ∈ idx, ∃ f, fixed[x.fixedIdx]? = some f ∧ f.path = x.path := hf.idxFixed
  have hidxA : ∀ f ∈ fixed, ∃ x ∈ idx, x.path = f.path := hf.idxAll
  have hidxV : ∀ (i : Nat) (v : VarField), vars[i]? = some v → ∀ x ∈ idx, x.path = v.path → x.varIdx = i :=
    hf.idxVar
  have hguard : ∀ v ∈ vars, ∃ f, fixed[v.fixedIdx]? = some f ∧ f.path = v.path := hf.guard
  have hvp : (vars.map (·.setFixedIdx 0)).Perm (((slots t p).filterMap (Slot.var chk)).map (·.setFixedIdx 0)) :=
    hf.vars
  have hfp : (fixed.map (·.path)).Perm ((slots t p).map (·.1)) := hf.paths.trans (paths_perm _)
  -- the variable fields and their slots
  have hvslot : ∀ v ∈ vars, ∃ x ∈ slots t p, ∃ w, Slot.var chk x = some w ∧ v = w.setFixedIdx v.fixedIdx ∧
      v.path = x.1 := by
    intro v hv
    have h1 := hvp.mem_iff.1 (List.mem_map_of_mem (f := (·.setFixedIdx 0)) hv)
    obtain ⟨w, hw, he⟩ := List.mem_map.1 h1
    obtain ⟨x, hx, hxw⟩ := List.mem_filterMap.1 hw
    have h2 := setFixedIdx_inj he.symm
    refine ⟨x, hx, w, hxw, h2, ?_⟩
    rw [h2, VarField.setFixedIdx_path, varSlot_path hxw]
  have hvg : ∀ v ∈ vars, VarGood chk env v (sz v.path) (pl v.path) (nd v.path) := by
    intro v hv
    obtain ⟨x, hx, w, hxw, h2, h3⟩ := hvslot v hv
    have := hvars x hx w hxw v.fixedIdx
    rw [← h2] at this
    rw [h3]; exact this
  have hslotv : ∀ x ∈ slots t p, ∀ w, Slot.var chk x = some w → ∃ (j : Nat) (fi : Nat),
      vars[j]? = some (w.setFixedIdx fi) := by
    intro x hx w hxw
    have h1 : w.setFixedIdx 0 ∈ ((slots t p).filterMap (Slot.var chk)).map (·.setFixedIdx 0) :=
      List.mem_map_of_mem (List.mem_filterMap.2 ⟨x, hx, hxw⟩)
    obtain ⟨v, hv, he⟩ := List.mem_map.1 (hvp.mem_iff.2 h1)
    obtain ⟨j, hj⟩ := List.getElem?_of_mem hv
    exact ⟨j, v.fixedIdx, by rw [← setFixedIdx_inj he]; exact hj⟩
  -- the total size
  have htot : vo + total sz vars ≤ 16 + leafSum (leaves v p) := by
    have h1 : total sz vars = total sz ((slots t p).filterMap (Slot.var chk)) := by
      have hp : (vars.map (·.path)).Perm (((slots t p).filterMap (Slot.var chk)).map (·.path)) := by
        have := hvp.map VarField.path
        simpa [List.map_map, Function.comp_def] using this
      have := (hp.map sz).sum_nat
      simpa [total, List.map_map, Function.comp_def] using this
    have h2 := sum_filterMap_le (chk := chk) sz (slots t p)
    have h3 := sum_map_le hsz
    rw [sum_map_add, ← leafSum_flatMap, ← hleaves] at h3
    have h4 := (paths_perm (slots t p)).length_eq
    simp only [List.length_append, List.length_map] at h4
    omega
  have halle := hal.le
  have hlt := alignUp_lt (vo + total sz vars) hal.pos
  have hge := le_alignUp (vo + total sz vars) hal.pos
  have halign : align chk (vo + total sz vars) al = .ok (alignUp (vo + total sz vars) al) :=
    align_smallPow hal (by omega)
  -- sources
  have hpres : ∀ src, Presents src v p → ∀ x ∈ slots t p, Pres src env x.1 := by
    intro src hs x hx r l hl
    apply hs
    rw [hleaves]
    exact List.mem_flatMap.2 ⟨x, hx, hl⟩
  have hpresv : ∀ src, Presents src v p → ∀ v ∈ vars, Pres src env v.path := by
    intro src hs w hw
    obtain ⟨x, hx, _, _, _, h3⟩ := hvslot w hw
    rw [h3]; exact hpres src hs x hx
  have hpresf : ∀ src, Presents src v p → ∀ f ∈ fixed, Pres src env f.path := by
    intro src hs f hf'
    have h1 := hfp.mem_iff.1 (List.mem_map_of_mem (f := (·.path)) hf')
    obtain ⟨x, hx, he⟩ := List.mem_map.1 h1
    have he' : x.1 = f.path := he
    rw [← he']
    exact hpres src hs x hx
  -- the places of the strings
  have hvk : ∀ v ∈ vars, match v with
      | .string .. => ∃ bs, env v.path = .str bs
      | .enum .. => ∃ i w, env v.path = .case i w := by
    intro v hv
    obtain ⟨⟨q, s⟩, hx, w, hxw, h2, h3⟩ := hvslot v hv
    have hty := htyped _ hx
    generalize v.fixedIdx = fi at h2
    subst h2
    rw [VarField.setFixedIdx_path] at h3
    simp only at hty h3
    cases s with
    | prim pr => simp [Slot.var] at hxw
    | str =>
      simp [Slot.var] at hxw
      subst hxw
      generalize hev : env q = ev at hty
      cases hty with
      | str bs => exact ⟨bs, hev⟩
    | enum es =>
      simp [Slot.var] at hxw
      subst hxw
      generalize hev : env q = ev at hty
      cases hty with
      | @enum _ i c w' hc1 hc2 => exact ⟨i, w', hev⟩
  have hvapart : vars.Pairwise fun a b => Apart a.path b.path := by
    have hp : (vars.map (·.path)).Perm (((slots t p).filterMap (Slot.var chk)).map (·.path)) := by
      have := hvp.map VarField.path
      simpa [List.map_map, Function.comp_def] using this
    have h1 : (((slots t p).filterMap (Slot.var chk)).map (·.path)).Pairwise Apart := by
      rw [List.pairwise_map, List.pairwise_filterMap]
      refine (slots_apart t p).imp ?_
      intro a b hab u hu w hw
      rw [varSlot_path hu, varSlot_path hw]
      exact hab
    have h2 := (hp.pairwise_iff (fun h => ⟨h.2, h.1⟩)).2 h1
    rwa [List.pairwise_map] at h2
  have hstrs : ∀ q bs, (q, Leaf.str bs) ∈ leaves v p ↔ ∃ (j : Nat) (w : VarField), vars[j]? = some w ∧
      (q, Leaf.str bs) ∈ leaves (env w.path) w.path := by
    intro q bs
    rw [hleaves]
    constructor
    · intro h
      obtain ⟨⟨xq, xs⟩, hx, hxl⟩ := List.mem_flatMap.1 h
      have hty := htyped _ hx
      simp only at hty hxl
      cases xs with
      | prim pr =>
        generalize hev : env xq = ev at hty hxl
        cases hty with
        | prim w => simp [leaves] at hxl
      | str =>
        obtain ⟨j, fi, hj⟩ := hslotv _ hx _ rfl
        exact ⟨j, _, hj, hxl⟩
      | enum cs =>
        obtain ⟨j, fi, hj⟩ := hslotv _ hx _ rfl
        exact ⟨j, _, hj, hxl⟩
    · rintro ⟨j, w, hj, hl⟩
      obtain ⟨x, hx, _, _, _, h3⟩ := hvslot w (List.mem_of_getElem? hj)
      exact List.mem_flatMap.2 ⟨x, hx, by rw [← h3]; exact hl⟩
  have hplace : ∀ (j : Nat) (w : VarField) q (leaf : Leaf), vars[j]? = some w → (q, leaf) ∈ leaves (env w.path) w.path →
      placeVars sz pl vars vo q = vo + total sz (vars.take j) + pl w.path q := by
    intro j w q leaf hj hl
    obtain ⟨x, hx, _, _, _, h3⟩ := hvslot w (List.mem_of_getElem? hj)
    have hty := htyped x hx
    rw [← h3] at hty
    obtain ⟨r, hr⟩ := leaves_prefix hty _ _ hl
    exact placeVars_eq hvapart hj (by rw [← show _ = q from hr]; exact List.prefix_append _ _) vo
  have hshort : ∀ src, Presents src v p → ∀ buf : Bytes, vo ≤ buf.length →
      (Layout.mk al vo idx fixed vars).encode chk src buf = (do
        let (buf, o) ← encodeVars chk src vars (putAll env fixed buf) vo
        let n ← align chk o al
        pure (buf, n)) := by
    intro src hs buf hb
    have hinb : ∀ f ∈ fixed, f.offset + f.size ≤ buf.length := fun f hf' => by have := hin f hf'; omega
    rw [Layout.encode, show decide (buf.length ≥ vo) = true by simp; omega, assert_true, Res.bind_ok,
      writeFixeds_ok hgood hinb (hpresf src hs)]
    rfl
  refine ⟨alignUp (vo + total sz vars) al, placeVars sz pl vars vo,
    ⟨?_, ?_, ?_, ?_, by omega, alignUp_dvd _ _, ?_, ?_⟩⟩
  · intro n hn
    rcases List.mem_append.1 hn with hn | hn
    · obtain ⟨f, hf', rfl⟩ := List.mem_map.1 hn
      obtain ⟨hf', hfull⟩ := List.mem_filter.1 hf'
      have h1 := (hgood f hf').range
      have h2 := hin f hf'
      have h3 := full_pos (hgood f hf') hfull
      simp only
      omega
    · obtain ⟨j, w, hj, m, hm, rfl⟩ := (mem_needsVars vars vo n).1 hn
      have hw := List.mem_of_getElem? hj
      have h1 := (hvg w hw).needs m hm
      have h2 := total_take_get sz hj
      obtain ⟨x, hx, _, _, _, h3⟩ := hvslot w hw
      have h4 := hwidth x hx m (by rw [← h3]; exact hm)
      simp only
      omega
  · intro src buf r hs he
    by_cases hb : vo ≤ buf.length
    · rw [hshort src hs buf hb] at he
      obtain ⟨⟨b, o⟩, h1, h2⟩ := Res.bind_eq_ok.1 he
      obtain ⟨m, _, h2⟩ := Res.bind_eq_ok.1 h2
      cases h2
      have := encodeVars_length vars (fun w hw buf o r => (hvg w hw).len src buf o r (hpresv src hs w hw)) _ _ _ h1
      rw [putAll_length] at this
      exact this
    · rw [Layout.encode, show decide (buf.length ≥ vo) = false by simp; omega] at he
      cases he
  · intro q bs h
    obtain ⟨j, w, hj, hl⟩ := (hstrs q bs).1 h
    rw [hplace j w q _ hj hl]
    have h1 := (hvg w (List.mem_of_getElem? hj)).within q bs hl
    have h2 := total_take_get sz hj
    omega
  · intro src hs buf hb
    have hcuts : Cuts v p (placeVars sz pl vars vo) 0 buf.length ↔ ∃ (j : Nat) (w : VarField), vars[j]? = some w ∧
        Cuts (env w.path) w.path (pl w.path) (vo + total sz (vars.take j)) buf.length := by
      constructor
      · rintro ⟨q, bs, h1, h2, h3⟩
        obtain ⟨j, w, hj, hl⟩ := (hstrs q bs).1 h1
        rw [hplace j w q _ hj hl] at h2 h3
        exact ⟨j, w, hj, q, bs, hl, by omega, by omega⟩
      · rintro ⟨j, w, hj, q, bs, hl, h2, h3⟩
        refine ⟨q, bs, (hstrs q bs).2 ⟨j, w, hj, hl⟩, ?_, ?_⟩ <;> rw [hplace j w q _ hj hl] <;> omega
    rw [hcuts]
    by_cases hbv : vo ≤ buf.length
    · rw [hshort src hs buf hbv]
      by_cases hbt : buf.length < vo + total sz vars
      · have := encodeVars_short (src := src) vars (putAll env fixed buf) vo hvg (hpresv src hs) hvk (by omega)
          (by rw [putAll_length]; exact hbt)
        rw [putAll_length] at this
        rw [← this]
        cases he : encodeVars chk src vars (putAll env fixed buf) vo with
        | error e => exact Iff.rfl
        | ok r =>
          have := encodeVars_size vars _ _ _ _ he
          rw [varsSize_ok vars vo hvg (hpresv src hs) (by omega)] at this
          obtain ⟨r1, r2⟩ := r
          have this : vo + total sz vars = r2 := Except.ok.inj this
          have ha2 : align chk r2 al = .ok (alignUp (vo + total sz vars) al) := by rw [← this]; exact halign
          rw [Res.bind_ok]
          simp only [ha2, Res.bind_ok]
          simp [Res.pure_eq]
      · obtain ⟨b2, h1, _⟩ := encodeVars_ok vars (putAll env fixed buf) vo hvg
          (by rw [putAll_length]; omega) (by omega)
        rw [h1 src (hpresv src hs), Res.bind_ok]
        simp only [halign, Res.bind_ok]
        constructor
        · intro h
          simp [Res.pure_eq] at h
        · rintro ⟨j, w, hj, q, bs, hl, h2, h3⟩
          have h4 := (hvg w (List.mem_of_getElem? hj)).within q bs hl
          have h5 := total_take_get sz hj
          omega
    · rw [Layout.encode, show decide (buf.length ≥ vo) = false by simp; omega]
      constructor
      · exact fun h => nomatch h
      · rintro ⟨j, w, hj, q, bs, hl, h2, h3⟩
        omega
  · intro src hs
    rw [Layout.sizeWithSource, varsSize_ok vars vo hvg (hpresv src hs) (by omega), Res.bind_ok]
    exact halign
  · intro buf hb
    have hinb : ∀ f ∈ fixed, f.offset + f.size ≤ buf.length := fun f hf' => by have := hin f hf'; omega
    obtain ⟨b2, h1, h2, h3, h4⟩ := encodeVars_ok vars (putAll env fixed buf) vo hvg
      (by rw [putAll_length]; omega) (by omega)
    rw [putAll_length] at h2
    refine ⟨b2, ?_, h2, ?_, ?_⟩
    · intro src hs
      rw [Layout.encode, show decide (buf.length ≥ vo) = true by simp; omega, assert_true, Res.bind_ok,
        writeFixeds_ok hgood hinb (hpresf src hs)]
      simp only [Res.bind_ok]
      rw [h1 src (hpresv src hs)]
      simp only [Res.bind_ok]
      rw [halign, Res.bind_ok, Res.pure_eq]
    · intro i hi
      rw [h3 i (by omega)]
      apply putAll_outside hgood hinb
      intro f hf' _
      have hr := (hgood f hf').range
      have := hin f hf'
      omega
    · intro data hdl hd
      have hbits : ∀ f ∈ fixed, getBits data f.bitStart f.bitCount =
          if f.full then getBits buf f.bitStart f.bitCount else fieldVal env f := by
        intro f hf'
        rw [← putAll_get hgood hinb hdisj hf']
        apply getBits_congr
        intro i hi
        have hr := (hgood f hf').range
        have := hin f hf'
        rw [hd _ (by omega), h3 _ (by omega)]
      have hinside : ∀ f ∈ fixed, f.offset + f.size ≤ data.length := fun f hf' => by have := hin f hf'; omega
      have hread : Lucky (needsFixed env fixed) buf → FixedRead chk env fixed data := by
        intro hlucky
        refine ⟨hgood, hinside, fun f hf' => ?_⟩
        rw [hbits f hf']
        split
        · rename_i hfull
          exact hlucky _ (List.mem_map.2 ⟨f, List.mem_filter.2 ⟨hf', hfull⟩, rfl⟩)
        · rfl
      have hvrs := h4 data (by omega) (fun i _ hi => hd i (by omega))
      have hdrop : ∀ (j : Nat) (w : VarField), vars[j]? = some w →
          (Lucky (nd w.path) ((putAll env fixed buf).drop (vo + total sz (vars.take j))) ↔
            Lucky (nd w.path) (buf.drop (vo + total sz (vars.take j)))) := by
        intro j w hj
        refine Lucky.congr (hvg w (List.mem_of_getElem? hj)).needs fun i _ => ?_
        rw [bit_drop, bit_drop]
        apply putAll_outside hgood hinb
        intro f hf' _
        have hr := (hgood f hf').range
        have := hin f hf'
        omega
      have hvr : ∀ (j : Nat) (w : VarField), vars[j]? = some w →
          Lucky (nd w.path) (buf.drop (vo + total sz (vars.take j))) →
          VarRead chk (env w.path) (sz w.path) (data.drop (vo + total sz (vars.take j))) w :=
        fun j w hw hlucky => (hvrs j w hw).1.1 ((hdrop j w hw).2 hlucky)
      have hoff : FixedRead chk env fixed data → ∀ (j : Nat) (w : VarField), vars[j]? = some w →
          (∀ (k : Nat) (u : VarField), k < j → vars[k]? = some u →
            Lucky (nd u.path) (buf.drop (vo + total sz (vars.take k)))) →
          (Layout.mk al vo idx fixed vars).variableFieldOffset chk j data =
            .ok (vo + total sz (vars.take j)) := by
        intro hread j w hj hprev
        have hjl := (List.getElem?_eq_some_iff.1 hj).1
        have hle := total_take_le sz vars j
        change (do assert (decide (j ≤ vars.length)); varsEnd chk fixed data (vars.take j) vo) = _
        rw [show decide (j ≤ vars.length) = true by simp; omega, assert_true, Res.bind_ok]
        apply varsEnd_ok hread
        · intro u hu; exact hguard u (List.mem_of_mem_take hu)
        · intro k u hu
          rw [List.getElem?_take] at hu
          split at hu
          · rename_i hkj
            rw [List.take_take, Nat.min_eq_left (by omega)]
            exact hvr k u hu (hprev k u hkj hu)
          · cases hu
        · omega
        · omega
      -- the index entry and fixed field of a slot
      have hentry : ∀ x ∈ slots t p, ∃ (y : Index) (g : FixedField) (k : Nat), y ∈ idx ∧ idx[k]? = some y ∧ y.path = x.1 ∧
          fixed[y.fixedIdx]? = some g ∧ g.path = x.1 ∧
          (Layout.mk al vo idx fixed vars).locate chk x.1 data = .ok ⟨.mk al vo idx fixed vars, data, y⟩ := by
        intro x hx
        obtain ⟨f, hff, hfx⟩ : ∃ f ∈ fixed, f.path = x.1 := by
          have := hfp.mem_iff.2 (List.mem_map_of_mem (f := (·.1)) hx)
          obtain ⟨f, hf1, hf2⟩ := List.mem_map.1 this
          exact ⟨f, hf1, hf2⟩
        obtain ⟨y, hy, hyp⟩ := hidxA f hff
        rw [hfx] at hyp
        obtain ⟨g, hg1, hg2⟩ := hidxF y hy
        rw [hyp] at hg2
        obtain ⟨k, hk⟩ := List.getElem?_of_mem hy
        refine ⟨y, g, k, hy, hk, hyp, hg1, hg2, ?_⟩
        rw [Layout.locate, searchIndex_at hsorted hk hyp 0]
        simp only [Nat.zero_add]
        rw [getAt_ok hk]; rfl
      -- what is below an enum is looked up in the layout of its case
      have hbelow : ∀ (xq : Path) (cs : List (Str × Ty)), (xq, Slot.enum cs) ∈ slots t p →
          ∀ (j fi : Nat) (ls : List Layout), vars[j]? = some (.enum xq fi ls) →
          (Layout.mk al vo idx fixed vars).variableFieldOffset chk j data = .ok (vo + total sz (vars.take j)) →
          ∀ (i : Nat) (l : Layout), ls[i]? = some l → ∀ r : Path,
          (Layout.mk al vo idx fixed vars).locate chk (xq ++ (i :: r)) data =
            l.locate chk (xq ++ (i :: r)) (data.drop (vo + total sz (vars.take j))) := by
        intro xq cs hx j fi ls hj hoj i l hil r
        obtain ⟨y, g, k, hy, hk, hyp, -⟩ := hentry _ hx
        simp only at hyp
        have hvj : y.varIdx = j := hidxV j _ hj y hy (by rw [hyp]; rfl)
        have hapart : ∀ z ∈ idx, z ≠ y → Apart z.path y.path := by
          intro z hz hne
          obtain ⟨h', hh1, hh2⟩ := hidxF z hz
          have hzs : z.path ∈ (slots t p).map (·.1) := by
            rw [← hh2]
            exact hfp.mem_iff.1 (List.mem_map_of_mem (f := (·.path)) (List.mem_of_getElem? hh1))
          obtain ⟨s, hs, hse⟩ := List.mem_map.1 hzs
          have hpne : z.path ≠ y.path := by
            intro e
            obtain ⟨m, hm'⟩ := List.getElem?_of_mem hz
            have := getElem?_of_pairwise_lt hsorted hm' hk e
            subst this
            rw [hk] at hm'
            exact hne (by simpa using hm'.symm)
          have hsne : s ≠ (xq, Slot.enum cs) := by
            intro e; apply hpne; rw [← hse, e, hyp]
          rw [← hse, hyp]
          rcases pairwise_mem_ne (slots_apart t p) hs hx hsne with h | h
          · exact h
          · exact ⟨h.2, h.1⟩
        have hnone : ∀ z ∈ idx, z.path ≠ y.path ++ (i :: r) := by
          intro z hz e
          by_cases hzy : z = y
          · rw [hzy] at e
            have := congrArg List.length e
            simp at this
          · exact (hapart z hz hzy).2 (by rw [e]; exact List.prefix_append _ _)
        obtain ⟨m, hm1, hm2⟩ := searchIndex_inside hsorted hy (s := i :: r) (by simp) hapart hnone
        have ht := total_take_le sz vars j
        rw [Layout.locate, ← hyp, hm1]
        simp only [hm2]
        rw [if_pos ((Path.isPrefixOf_iff _ _).2 ⟨_, rfl⟩),
          getAt_ok (x := i) (by simp)]
        simp only [Res.bind_ok]
        rw [hvj, hoj]
        simp only [Res.bind_ok]
        rw [show decide (vo + total sz (vars.take j) ≤ data.length) = true by simp; omega, assert_true,
          Res.bind_ok, locateVars_eq hj]
        rw [locateVar, locateCase_eq hil]
      refine ⟨⟨?_, ?_⟩, ?_⟩
      · intro hlucky
        have hread := hread fun n hn => hlucky n (List.mem_append_left _ hn)
        have hlv := (lucky_needsVars vars vo buf).1 fun n hn => hlucky n (List.mem_append_right _ hn)
        have hvr := fun j w hw => hvr j w hw (hlv j w hw)
        have hoff := fun j w hj => hoff hread j w hj fun k u _ hu => hlv k u hu
        refine ⟨?_, ?_⟩
        · rw [Layout.encodingSize, varsEnd_ok hread vars vo hguard hvr (by omega) (by omega), Res.bind_ok]
          exact halign
        intro q leaf hm
        rw [hleaves] at hm
        obtain ⟨x, hx, hxl⟩ := List.mem_flatMap.1 hm
        obtain ⟨y, g, k, hy, hk, hyp, hg1, hg2, hloc⟩ := hentry x hx
        have hgm := List.mem_of_getElem? hg1
        have hgg := hgood g hgm
        have hgi := hread.inside g hgm
        have hgv := hread.get g hgm
        have hty := htyped x hx
        obtain ⟨xq, xs⟩ := x
        simp only at hyp hg2 hloc hxl hty
        cases xs with
        | prim pr =>
          generalize he : env xq = ev at hty hxl
          cases hty with
          | prim v =>
          simp [leaves] at hxl
          obtain ⟨rfl, rfl⟩ := hxl
          simp only [Answers, Layout.source, Layout.getPrimitive]
          rw [hloc]
          simp only [Res.bind_ok, Layout.fixed]
          rw [getAt_ok hg1]
          simp only [Res.bind_ok]
          obtain ⟨gp, gk, go⟩ := g
          simp only at hg2
          subst hg2
          cases gk with
          | prim p' =>
            obtain ⟨v', hv1, hv2⟩ := hgg
            simp only at hv1
            rw [he] at hv1
            cases hv1
            subst hv2
            simp only [FixedField.size] at hgi
            simp only [FixedField.bitStart, FixedField.bitCount, FixedField.size, fieldVal, he] at hgv
            simp only [beq_self_eq_true, assert_true, Res.bind_ok]
            rw [readRaw_ok hgi, hgv]
            simp only [Res.bind_ok]
            exact Prim.load_store _ _
          | length => obtain ⟨bs, h1, _⟩ := hgg; simp only at h1; rw [he] at h1; cases h1
          | container i p' => exact hgg.elim
          | bitfield p' a n => obtain ⟨i, w, h1, _⟩ := hgg; simp only at h1; rw [he] at h1; cases h1
        | str =>
          generalize he : env xq = ev at hty hxl
          cases hty with
          | str bs =>
          simp [leaves] at hxl
          obtain ⟨rfl, rfl⟩ := hxl
          obtain ⟨hkind, hlen⟩ := hread.length hgm (bs := bs) (by rw [hg2]; exact he)
          obtain ⟨j, fi, hj⟩ := hslotv _ hx _ rfl
          have hvj : y.varIdx = j := hidxV j _ hj y hy (by rw [hyp]; rfl)
          simp only [Answers, Layout.source, Layout.getLength, Layout.getBytes]
          rw [hloc]
          simp only [Res.bind_ok, Layout.fixed]
          rw [getAt_ok hg1]
          simp only [Res.bind_ok, hkind]
          refine ⟨hlen, ?_⟩
          rw [hvj, hoff j _ hj]
          simp only [Res.bind_ok]
          rw [hlen]
          simp only [Res.bind_ok, Layout.vars]
          rw [hj]
          have hr := hvr j _ hj
          obtain ⟨bs', e1, e2, e3⟩ := hr
          have ht := total_take_get sz hj
          simp only [VarField.setFixedIdx, VarField.path] at e1 e2 e3 ht
          rw [he] at e1
          cases e1
          simp only [VarField.setFixedIdx]
          rw [show decide (vo + total sz (vars.take j) ≤ data.length) = true by simp; omega, assert_true,
            Res.bind_ok, if_neg (by omega)]
          rw [Res.pure_eq, slice, ← e2, e3]
        | enum cs =>
          generalize he : env xq = ev at hty hxl
          cases hty with
          | @enum _ i c w' hc1 hc2 =>
          rw [leaves] at hxl
          rcases List.mem_cons.1 hxl with hxl | hxl
          · cases hxl
            simp only [Answers, Layout.source, Layout.getCaseTag]
            rw [hloc]
            simp only [Res.bind_ok, Layout.fixed]
            rw [getAt_ok hg1]
            simp only [Res.bind_ok]
            exact readTag_ok hgg hgi (w := w') (by rw [hg2]; exact he) hgv
          · obtain ⟨r, hr⟩ := leaves_prefix hc2 _ _ hxl
            simp only at hr
            obtain ⟨j, fi, hj⟩ := hslotv _ hx _ rfl
            have hvj : y.varIdx = j := hidxV j _ hj y hy (by rw [hyp]; rfl)
            have hvrj := hvr j _ hj
            obtain ⟨i', w'', l, e1, e2, e3, e4⟩ := hvrj
            simp only [VarField.setFixedIdx, VarField.path] at e1 e3 e4
            rw [he] at e1
            cases e1
            have hqq : q = xq ++ (i :: r) := by rw [← hr]; simp
            subst hqq
            exact Answers_of_locate (hbelow xq cs hx j fi _ hj (hoff j _ hj) i l e2 r) (e4 _ leaf hxl)
      · intro hun
        by_cases hF : Lucky (needsFixed env fixed) buf
        · have hread := hread hF
          have hex : ∃ j w, vars[j]? = some w ∧ ¬ Lucky (nd w.path) (buf.drop (vo + total sz (vars.take j))) := by
            refine Classical.byContradiction fun hno => hun fun n hn => ?_
            rcases List.mem_append.1 hn with hn | hn
            · exact hF n hn
            · refine (lucky_needsVars vars vo buf).2 (fun j w hj => ?_) n hn
              exact Classical.byContradiction fun h => hno ⟨j, w, hj, h⟩
          obtain ⟨j0, h0⟩ := hex
          obtain ⟨j, ⟨w, hj, hw⟩, hfirst⟩ := exists_first (P := fun j => ∃ w, vars[j]? = some w ∧
            ¬ Lucky (nd w.path) (buf.drop (vo + total sz (vars.take j)))) j0 h0
          have hoj := hoff hread j w hj fun k u hk hu =>
            Classical.byContradiction fun h => hfirst k hk ⟨u, hu, h⟩
          have hmis := (hvrs j w hj).1.2 (fun h => hw ((hdrop j w hj).1 h))
          cases w with
          | string path fi => exact hmis.elim
          | enum path fi ls =>
            obtain ⟨i, w', l, q, tag, e1, e2, e3, e4⟩ := hmis
            simp only [VarField.path] at e1
            obtain ⟨⟨xq, xs⟩, hx, v', hxw, h2, h3⟩ := hvslot _ (List.mem_of_getElem? hj)
            simp only [VarField.path] at h3
            subst h3
            have hty := htyped _ hx
            cases xs with
            | prim pr => simp [Slot.var] at hxw
            | str =>
              simp only at hty
              rw [e1] at hty
              cases hty
            | enum cs =>
              simp only at hty
              rw [e1] at hty
              cases hty with
              | @enum _ _ c _ hc1 hc2 =>
              obtain ⟨r, hr⟩ := leaves_prefix hc2 _ _ e3
              simp only at hr
              have hqq : q = path ++ (i :: r) := by rw [← hr]; simp
              subst hqq
              refine ⟨_, tag, ?_, fun ha => e4 (Answers_of_locate
                (hbelow path cs hx j fi ls hj hoj i l e2 r).symm ha)⟩
              rw [hleaves]
              refine List.mem_flatMap.2 ⟨_, hx, ?_⟩
              simp only
              rw [e1, leaves]
              exact List.mem_cons_of_mem _ e3
        · have hex : ∃ f ∈ fixed, f.full = true ∧ getBits buf f.bitStart f.bitCount ≠ fieldVal env f := by
            refine Classical.byContradiction fun hno => hF fun n hn => ?_
            obtain ⟨f, hf', rfl⟩ := List.mem_map.1 hn
            obtain ⟨hf', hfull⟩ := List.mem_filter.1 hf'
            exact Classical.byContradiction fun h => hno ⟨f, hf', hfull, h⟩
          obtain ⟨f, hf', hfull, hne⟩ := hex
          obtain ⟨x, hx, hxf⟩ := List.mem_map.1 (hfp.mem_iff.1 (List.mem_map_of_mem (f := (·.path)) hf'))
          have hxf : x.1 = f.path := hxf
          obtain ⟨y, g, k, hy, hk, hyp, hg1, hg2, hloc⟩ := hentry x hx
          have hgf : g = f := by
            have hpw : (fixed.map (·.path)).Pairwise Apart := by
              refine (hfp.pairwise_iff (fun h => ⟨h.2, h.1⟩)).2 ?_
              rw [List.pairwise_map]
              exact slots_apart t p
            rw [List.pairwise_map] at hpw
            refine Classical.byContradiction fun hgne => ?_
            have he : g.path = f.path := hg2.trans hxf
            rcases pairwise_mem_ne hpw (List.mem_of_getElem? hg1) hf' hgne with h | h
            · exact h.1 (he ▸ List.prefix_refl _)
            · exact h.1 (he ▸ List.prefix_refl _)
          subst hgf
          obtain ⟨i, w', he, hval⟩ := full_case (hgood g hf') hfull
          have hb := readTag_bits (data := data) (hgood g hf') (hinside g hf') he
          refine ⟨g.path, i, ?_, ?_⟩
          · rw [hleaves]
            refine List.mem_flatMap.2 ⟨x, hx, ?_⟩
            rw [hxf, he, leaves]
            exact List.mem_cons_self
          · simp only [Answers, Layout.source, Layout.getCaseTag]
            rw [← hxf, hloc]
            simp only [Res.bind_ok, Layout.fixed]
            rw [getAt_ok hg1]
            simp only [Res.bind_ok]
            rw [hb, hbits g hf', if_pos hfull]
            intro h
            exact hne ((Except.ok.inj h).trans hval.symm)
      · intro q bs h
        obtain ⟨j, w, hj, hl⟩ := (hstrs q bs).1 h
        have h1 := (hvrs j w hj).2 q bs hl
        rw [hplace j w q _ hj hl]
        unfold slice at h1 ⊢
        rw [List.drop_drop] at h1
        exact h1

theorem _root_.Verif.Spec.Chosen.mono {ls ls' : List (Path × Leaf)} {l m : Layout} (h : Chosen ls l m)
    (hs : ∀ x ∈ ls, x ∈ ls') : Chosen ls' l m := by
  induction h with
  | self l => exact .self l
  | case h1 h2 h3 _ ih => exact .case h1 (hs _ h2) h3 ih

/-- The leaves at and below a path. -/
def Agree (ls : List (Path × Leaf)) (v : Val) (p : Path) : Prop :=
  ∀ q leaf, p <+: q → ((q, leaf) ∈ ls ↔ (q, leaf) ∈ leaves v p)

/-- The words that are not written are right in all buffers if and only if all tags have room. -/
def Exact (ns : List Need) (v : Val) (p : Path) (l : Layout) : Prop :=
  ∀ ls, Agree ls v p → (ns = [] ↔ TagsHaveRoom false ls l)

/-- The fixed fields can be written. -/
theorem fields_good {chk : Bool} {t : Ty} {p : Path} {l : Layout} {v : Val} {env : Path → Val}
    (hfacts : TyFacts chk t p l) (hnt : nodes t < 2 ^ 59)
    (htyped : ∀ x ∈ slots t p, Typed x.2.ty (env x.1))
    (hsub : ∀ x ∈ slots t p, ∀ y ∈ leaves (env x.1) x.1, y ∈ leaves v p)
    (he : chk = true → TagsHaveRoom true (leaves v p) l)
    (hstr : ∀ q bs, (q, Leaf.str bs) ∈ leaves v p → bs.length < 2 ^ 32) :
    ∀ f ∈ l.fixed, FieldGood chk env f := by
  have hno := slots_inherit (Q := fun u => nodes u ≤ nodes t)
    (fun cs h c hc => by have := nodes_mem_tuple hc; omega)
    (fun fs h f hf => by have := nodesF_mem hf; rw [nodes] at h; omega) t p (Nat.le_refl _)
  intro f hf
  rcases hfacts.kinds f hf with ⟨g, hg, h1, h2⟩ | ⟨b, hb, pr, o, h1, h2, h3, h4⟩
  · obtain ⟨⟨q, s⟩, hx, hxg⟩ := List.mem_filterMap.1 hg
    have hty := htyped _ hx
    have hsl := hsub _ hx
    simp only at hty hsl
    cases s with
    | prim pr =>
      simp [Slot.fixed] at hxg
      subst hxg
      obtain ⟨fp, fk, fo⟩ := f
      simp only at h1 h2
      subst h1 h2
      generalize hev : env q = ev at hty
      cases hty with
      | prim w => exact ⟨w, hev, rfl⟩
    | str =>
      simp [Slot.fixed] at hxg
      subst hxg
      obtain ⟨fp, fk, fo⟩ := f
      simp only at h1 h2
      subst h1 h2
      generalize hev : env q = ev at hty hsl
      cases hty with
      | str bs => exact ⟨bs, hev, hstr q bs (hsl _ (by simp [leaves]))⟩
    | enum cs => simp [Slot.fixed] at hxg
  · obtain ⟨⟨q, s⟩, hx, hxb⟩ := List.mem_filterMap.1 hb
    have hty := htyped _ hx
    have hnx := hno _ hx
    have hroom := fun hc => he hc l (.self l) f hf pr o b.numBits h2
    simp only at hty
    cases s with
    | prim pr => simp [Slot.bits] at hxb
    | str => simp [Slot.bits] at hxb
    | enum cs =>
      simp [Slot.bits] at hxb
      subst hxb
      obtain ⟨fp, fk, fo⟩ := f
      simp only at h1 h2
      subst h1 h2
      generalize hev : env q = ev at hty
      cases hty with
      | @enum _ i c w hc1 hc2 =>
      have hilt := (List.getElem?_eq_some_iff.1 hc1).1
      have hlen : cs.length < 2 ^ 59 := by
        have := nodesF_length cs
        simp only [Slot.ty, nodes] at hnx
        omega
      have hbits := (Props.C02_required_bits (cs.length - 1) (by omega)).1 i (by omega)
      have hlt : requiredBits (cs.length - 1) < 64 := by
        have := (Props.C02_required_bits (cs.length - 1) (by omega)).2 59 (by omega)
        omega
      refine ⟨i, w, hev, hbits, h3.1, h3.2, h4, hlt, fun hc => ⟨(hroom hc).1, (hroom hc).2 rfl⟩⟩

/-- Encoding works for all values, without overflow checks; with overflow checks, for those whose tags have
room. -/
theorem codedW (chk : Bool) (n : Nat) : ∀ (t : Ty), nodes t ≤ n → n < 2 ^ 59 → Inhab t →
    ∀ (v : Val), Typed t v → ∀ (p : Path) (l : Layout),
    calculateLayout chk t p = .ok l → (chk = true → TagsHaveRoom true (leaves v p) l) →
    (∀ q bs, (q, Leaf.str bs) ∈ leaves v p → bs.length < 2 ^ 32) →
    leafSum (leaves v p) + 64 < W64 → ∃ size place ns, CodedW chk v p l size place ns ∧ Exact ns v p l := by
  induction n with
  | zero => intro t h; have := nodes_pos t; omega
  | succ n ih =>
    intro t hn hn2 hi v hv p l hl he hstr hw
    obtain ⟨hu, hcases, l', hl', hfacts⟩ := unroll_and_layout chk t hi (by omega) p
    rw [hl] at hl'
    cases hl'
    obtain ⟨env, htyped, hleaves, _⟩ := typed_slots hv p
    have hsub : ∀ x ∈ slots t p, ∀ y ∈ leaves (env x.1) x.1, y ∈ leaves v p := by
      intro x hx y hy
      rw [hleaves]; exact List.mem_flatMap.2 ⟨x, hx, hy⟩
    have hsum : ∀ x ∈ slots t p, leafSum (leaves (env x.1) x.1) ≤ leafSum (leaves v p) := by
      intro x hx
      rw [hleaves, leafSum_flatMap]
      have gen : ∀ xs : List (Path × Slot), x ∈ xs →
          leafSum (leaves (env x.1) x.1) ≤ (xs.map (fun x => leafSum (leaves (env x.1) x.1))).sum := by
        intro xs
        induction xs with
        | nil => simp
        | cons z xs ihx =>
          intro hm
          rw [List.map_cons, List.sum_cons]
          rcases List.mem_cons.1 hm with rfl | hm
          · omega
          · have := ihx hm; omega
      exact gen _ hx
    have hinh := slots_inherit (Q := Inhab) (fun cs h => by cases h with | tuple _ h => exact h)
      (fun fs h => by cases h with | struct _ h => exact h) t p hi
    have hno := slots_inherit (Q := fun u => nodes u ≤ nodes t)
      (fun cs h c hc => by have := nodes_mem_tuple hc; omega)
      (fun fs h f hf => by have := nodesF_mem hf; rw [nodes] at h; omega) t p (Nat.le_refl _)
    have hgood := fields_good hfacts (by omega) htyped hsub he hstr
    -- the variable fields
    have hex : ∀ q : Path, ∃ m : Nat × (Path → Nat) × List Need, ∀ x ∈ slots t p, x.1 = q →
        (∀ w, Slot.var chk x = some w → ∀ fi, VarGood chk env (w.setFixedIdx fi) m.1 m.2.1 m.2.2) ∧
        (∀ n ∈ m.2.2, 0 < n.width) ∧
        (∀ cs, x.2 = .enum cs → ∀ i w' c, env x.1 = .case i w' → (layouts chk cs x.1)[i]? = some c →
          Exact m.2.2 w' (x.1 ++ [i]) c) ∧
        (x.2 = .str → m.2.2 = []) ∧
        16 + m.1 ≤ leafSum (leaves (env x.1) x.1) := by
      intro q
      by_cases hq : ∃ x ∈ slots t p, x.1 = q
      · obtain ⟨x, hx, rfl⟩ := hq
        suffices ∃ m : Nat × (Path → Nat) × List Need,
            (∀ w, Slot.var chk x = some w → ∀ fi, VarGood chk env (w.setFixedIdx fi) m.1 m.2.1 m.2.2) ∧
            (∀ n ∈ m.2.2, 0 < n.width) ∧
            (∀ cs, x.2 = .enum cs → ∀ i w' c, env x.1 = .case i w' → (layouts chk cs x.1)[i]? = some c →
              Exact m.2.2 w' (x.1 ++ [i]) c) ∧
            (x.2 = .str → m.2.2 = []) ∧ 16 + m.1 ≤ leafSum (leaves (env x.1) x.1) by
          obtain ⟨m, hm⟩ := this
          refine ⟨m, fun y hy hyx => ?_⟩
          have : y = x := Classical.byContradiction fun hne => by
            rcases pairwise_mem_ne (slots_apart t p) hy hx hne with h | h
            · exact h.1 (hyx ▸ List.prefix_refl _)
            · exact h.1 (hyx ▸ List.prefix_refl _)
          rw [this]; exact hm
        have hty := htyped x hx
        have hsl := hsub x hx
        have hsu := hsum x hx
        have hix := hinh x hx
        have hnx := hno x hx
        obtain ⟨xq, xs⟩ := x
        simp only at hty hsl hsu hix hnx ⊢
        cases xs with
        | prim pr =>
          generalize hev : env xq = ev at hty ⊢
          cases hty with
          | prim w => exact ⟨(0, fun _ => 0, []), by simp [Slot.var], by simp, by simp, by simp, by simp [leaves, leafSum, leafWeight]⟩
        | str =>
          generalize hev : env xq = ev at hty hsl hsu ⊢
          cases hty with
          | str bs =>
          refine ⟨(bs.length, fun _ => 0, []), ?_, by simp, by simp, by simp, by simp [leaves, leafSum, leafWeight]⟩
          intro w hw fi
          simp [Slot.var] at hw
          subst hw
          have hlv : ∀ q cs, (q, Leaf.str cs) ∈ leaves (env (VarField.path ((VarField.string xq 0).setFixedIdx fi)))
              (VarField.path ((VarField.string xq 0).setFixedIdx fi)) ↔ q = xq ∧ cs = bs := by
            intro q cs
            simp only [VarField.setFixedIdx, VarField.path]
            rw [hev]
            simp [leaves]
          have hanswer : ∀ src, Pres src env (VarField.path ((VarField.string xq 0).setFixedIdx fi)) →
              Answers src xq (.str bs) := fun src hs => hs xq _ ((hlv xq bs).2 ⟨rfl, rfl⟩)
          constructor
          · simp
          · intro src buf o r hs he
            have ha := hanswer src hs
            simp only [VarField.setFixedIdx] at he
            rw [encodeVar, ha.1] at he
            simp only [Res.bind_ok, copyBytes] at he
            obtain ⟨b, h1, he⟩ := Res.bind_eq_ok.1 he
            obtain ⟨o', _, he⟩ := Res.bind_eq_ok.1 he
            cases he
            obtain ⟨_, _, h1⟩ := Res.bind_eq_ok.1 h1
            rw [ha.2] at h1
            simp only [Res.bind_ok, beq_self_eq_true, assert_true] at h1
            split at h1
            · cases h1
            · cases h1
              exact splice_length _ _ _ (by omega)
          · intro q cs h
            obtain ⟨_, rfl⟩ := (hlv q cs).1 h
            simp
          · intro src hs buf o hb ho
            have ha := hanswer src hs
            simp only at hb ho
            have hcut : Cuts (env (VarField.path ((VarField.string xq 0).setFixedIdx fi)))
                (VarField.path ((VarField.string xq 0).setFixedIdx fi)) (fun _ => 0) o buf.length ↔ o ≤ buf.length := by
              constructor
              · rintro ⟨q, cs, h1, h2, h3⟩
                omega
              · intro h
                exact ⟨xq, bs, (hlv xq bs).2 ⟨rfl, rfl⟩, by omega, by omega⟩
            rw [hcut]
            simp only [VarField.setFixedIdx]
            rw [encodeVar, ha.1]
            simp only [Res.bind_ok, copyBytes]
            by_cases hob : o ≤ buf.length
            · rw [show decide (o ≤ buf.length) = true by simp; omega, assert_true, Res.bind_ok, ha.2]
              simp only [Res.bind_ok, beq_self_eq_true, assert_true]
              rw [if_pos (by omega)]
              exact ⟨fun _ => hob, fun _ => rfl⟩
            · rw [show decide (o ≤ buf.length) = false by simp; omega]
              exact ⟨(fun h => nomatch h), fun h => absurd h hob⟩
          · intro src hs o ho
            simp only [VarField.setFixedIdx]
            have ha : Answers src xq (.str bs) := hs xq _ (by
              simp only [VarField.setFixedIdx, VarField.path]; rw [hev]; simp [leaves])
            rw [varSize, ha.1]
            simp only [Res.bind_ok]
            rw [addW_ok ho]
          · intro buf o hb ho
            refine ⟨splice buf o bs, ?_, splice_length _ _ _ (by omega), ?_, ?_⟩
            · intro src hs
              have ha : Answers src xq (.str bs) := hs xq _ (by
                simp only [VarField.setFixedIdx, VarField.path]; rw [hev]; simp [leaves])
              simp only [VarField.setFixedIdx]
              rw [encodeVar, ha.1]
              simp only [Res.bind_ok, copyBytes]
              rw [show decide (o ≤ buf.length) = true by simp; omega, assert_true, Res.bind_ok, ha.2]
              simp only [Res.bind_ok, beq_self_eq_true, assert_true]
              rw [if_neg (by omega), Res.pure_eq, Res.bind_ok, addW_ok ho]
              rfl
            · intro i hi
              rw [bit_splice (by omega), if_neg (by omega)]
            · intro data hdl hd
              have hts : (data.drop o).take bs.length = bs := ?_
              refine ⟨⟨fun _ => ⟨bs, by simpa [VarField.setFixedIdx, VarField.path] using hev, rfl, hts⟩,
                fun h => absurd (fun n hn => nomatch hn) h⟩, ?_⟩
              · intro q cs h
                obtain ⟨_, rfl⟩ := (hlv q cs).1 h
                exact hts
              apply bytes_ext (by simp; omega)
              intro i
              rw [bit_take, bit_drop]
              by_cases hi' : i < 8 * bs.length
              · rw [if_pos hi', hd _ (by omega) (by omega), bit_splice (by omega), if_pos (by omega)]
                congr 1; omega
              · rw [if_neg hi', bit_ge (by omega)]
        | enum cs =>
          generalize hev : env xq = ev at hty hsl hsu ⊢
          cases hty with
          | @enum _ i c w' hc1 hc2 =>
          have hcm := List.mem_of_getElem? hc1
          have hic : Inhab c.2 := by cases hix with | enum _ h => exact h c hcm
          have hnc : nodes c.2 ≤ n := by
            have := nodesF_mem hcm
            simp only [Slot.ty, nodes] at hnx
            omega
          obtain ⟨hcl, hcl2, hcl3⟩ := hcases xq cs hx
          obtain ⟨lc, hlc1, hlc2, _⟩ := hcl3 i c hc1
          have hec : chk = true → TagsHaveRoom true (leaves w' (xq ++ [i])) lc := by
            intro hchk m hm
            obtain ⟨fi, hfi⟩ : ∃ fi, VarField.enum xq fi (layouts chk cs xq) ∈ l.vars := by
              have h0 : VarField.enum xq 0 (layouts chk cs xq) ∈ (slots t p).filterMap (Slot.var chk) :=
                List.mem_filterMap.2 ⟨_, hx, rfl⟩
              have h1 : (VarField.enum xq 0 (layouts chk cs xq)).setFixedIdx 0 ∈ l.vars.map (·.setFixedIdx 0) :=
                hfacts.vars.mem_iff.2 (List.mem_map_of_mem (f := fun v => VarField.setFixedIdx 0 v) h0)
              obtain ⟨v', hv', e⟩ := List.mem_map.1 h1
              cases v' with
              | string => simp [VarField.setFixedIdx] at e
              | enum a b d =>
                simp [VarField.setFixedIdx] at e
                obtain ⟨rfl, rfl⟩ := e
                exact ⟨b, hv'⟩
            refine he hchk m (.case hfi (hsl _ (by rw [leaves]; exact List.mem_cons_self ..)) hlc1 (hm.mono ?_))
            intro y hy
            exact hsl _ (by rw [leaves]; exact List.mem_cons_of_mem _ hy)
          have hls : leafSum (leaves (.case i w') xq) = 64 + leafSum (leaves w' (xq ++ [i])) := by
            rw [leaves, leafSum_cons]; rfl
          rw [hls] at hsu ⊢
          obtain ⟨m, pm, ns, hm, hxa⟩ := ih c.2 hnc (by omega) hic w' hc2 (xq ++ [i]) lc hlc2 hec
            (fun q bs hq => hstr q bs (hsl _ (by rw [leaves]; exact List.mem_cons_of_mem _ hq))) (by omega)
          have hsmall := hm.small
          refine ⟨(m, pm, ns), ?_, fun k hk => (hm.needs k hk).2, ?_, by simp, by simp only; omega⟩
          rotate_left
          · intro es hes j u d hju hd
            cases hes
            injection hju with e1 e2
            subst e1 e2
            rw [hlc1] at hd
            cases hd
            exact hxa
          intro w hw fi
          simp [Slot.var] at hw
          subst hw
          have hlv : ∀ q bs, (q, Leaf.str bs) ∈ leaves (env (VarField.path ((VarField.enum xq 0
              (layouts chk cs xq)).setFixedIdx fi))) (VarField.path ((VarField.enum xq 0
              (layouts chk cs xq)).setFixedIdx fi)) ↔ (q, Leaf.str bs) ∈ leaves w' (xq ++ [i]) := by
            intro q bs
            simp only [VarField.setFixedIdx, VarField.path]
            rw [hev, leaves]
            simp
          have hans : ∀ src, Pres src env xq → src.tag xq = .ok i ∧ Presents src w' (xq ++ [i]) := by
            intro src hs
            have hs' : ∀ r l, (r, l) ∈ leaves (.case i w') xq → Answers src r l := by
              intro r l hrl; apply hs; rw [hev]; exact hrl
            refine ⟨hs' xq (.tag i) (by rw [leaves]; simp), fun r l hrl => hs' r l ?_⟩
            rw [leaves]; exact List.mem_cons_of_mem _ hrl
          constructor
          · exact fun k hk => (hm.needs k hk).1
          · intro src buf o r hs he
            obtain ⟨h1, h2⟩ := hans src hs
            simp only [VarField.setFixedIdx] at he
            rw [encodeVar, h1] at he
            simp only [Res.bind_ok] at he
            obtain ⟨_, ho, he⟩ := Res.bind_eq_ok.1 he
            obtain ⟨⟨b, k⟩, hb, he⟩ := Res.bind_eq_ok.1 he
            rw [encodeCase_eq hlc1] at hb
            obtain ⟨_, _, he⟩ := Res.bind_eq_ok.1 he
            obtain ⟨_, _, he⟩ := Res.bind_eq_ok.1 he
            cases he
            have hl := hm.len src _ _ h2 hb
            simp only [List.length_drop] at hl
            have ho := of_decide_eq_true (assert_ok.1 ho)
            simp only [List.length_append, List.length_take, hl]
            omega
          · intro q bs h
            exact hm.within q bs ((hlv q bs).1 h)
          · intro src hs buf o hb ho
            obtain ⟨h1, h2⟩ := hans src hs
            simp only at hb ho
            have hcut : Cuts (env (VarField.path ((VarField.enum xq 0 (layouts chk cs xq)).setFixedIdx fi)))
                (VarField.path ((VarField.enum xq 0 (layouts chk cs xq)).setFixedIdx fi)) pm o buf.length ↔
                o ≤ buf.length ∧ Cuts w' (xq ++ [i]) pm 0 (buf.drop o).length := by
              rw [List.length_drop]
              constructor
              · rintro ⟨q, bs, g1, g2, g3⟩
                exact ⟨by omega, q, bs, (hlv q bs).1 g1, by omega, by omega⟩
              · rintro ⟨g0, q, bs, g1, g2, g3⟩
                exact ⟨q, bs, (hlv q bs).2 g1, by omega, by omega⟩
            rw [hcut]
            simp only [VarField.setFixedIdx]
            rw [encodeVar, h1]
            simp only [Res.bind_ok]
            by_cases hob : o ≤ buf.length
            · rw [show decide (o ≤ buf.length) = true by simp; omega, assert_true, Res.bind_ok, encodeCase_eq hlc1,
                ← hm.short src h2 (buf.drop o) (by rw [List.length_drop]; omega)]
              cases he : lc.encode chk src (buf.drop o) with
              | error e =>
                constructor
                · exact fun h => ⟨hob, h⟩
                · exact fun h => h.2
              | ok r =>
                obtain ⟨b, k⟩ := r
                simp only [Res.bind_ok]
                rw [caseSizeWithSource_eq hlc1, hm.szs src h2]
                simp only [Res.bind_ok]
                rw [addW_ok ho]
                constructor
                · exact fun h => nomatch h
                · exact fun h => nomatch h.2
            · rw [show decide (o ≤ buf.length) = false by simp; omega]
              exact ⟨(fun h => nomatch h), fun h => absurd h.1 hob⟩
          · intro src hs o ho
            obtain ⟨h1, h2⟩ := hans src hs
            simp only [VarField.setFixedIdx]
            rw [varSize, h1]
            simp only [Res.bind_ok]
            rw [caseSizeWithSource_eq hlc1, hm.szs src h2]
            simp only [Res.bind_ok]
            rw [addW_ok ho]
          · intro buf o hb ho
            obtain ⟨b', e1, e2, e3, e4⟩ := hm.enc (buf.drop o) (by rw [List.length_drop]; omega)
            rw [List.length_drop] at e2
            have hlt : (buf.take o).length = o := by rw [List.length_take]; omega
            refine ⟨buf.take o ++ b', ?_, ?_, ?_, ?_⟩
            · intro src hs
              obtain ⟨h1, h2⟩ := hans src hs
              simp only [VarField.setFixedIdx]
              rw [encodeVar, h1]
              simp only [Res.bind_ok]
              rw [show decide (o ≤ buf.length) = true by simp; omega, assert_true, Res.bind_ok,
                encodeCase_eq hlc1, e1 src h2]
              simp only [Res.bind_ok]
              rw [caseSizeWithSource_eq hlc1, hm.szs src h2]
              simp only [Res.bind_ok]
              rw [addW_ok ho]; rfl
            · rw [List.length_append, hlt, e2]; omega
            · intro k hk
              rw [bit_append, hlt]
              by_cases hko : k < 8 * o
              · rw [if_pos hko, bit_take, if_pos hko]
              · rw [if_neg hko, e3 _ (by omega), bit_drop]
                congr 1; omega
            · intro data hdl hd
              obtain ⟨⟨f1, f2⟩, f3⟩ := e4 (data.drop o) (by rw [List.length_drop]; omega) (by
                intro k hk
                rw [bit_drop, hd _ (by omega) (by omega), bit_append, hlt, if_neg (by omega)]
                congr 1; omega)
              refine ⟨⟨fun hk => ?_, fun hk => ?_⟩, fun q bs h => f3 q bs ((hlv q bs).1 h)⟩
              · exact ⟨i, w', lc, by simpa [VarField.setFixedIdx, VarField.path] using hev, hlc1, (f1 hk).1, (f1 hk).2⟩
              · obtain ⟨q, j, g1, g2⟩ := f2 hk
                exact ⟨i, w', lc, q, j, by simpa [VarField.setFixedIdx, VarField.path] using hev, hlc1, g1, g2⟩
      · exact ⟨(0, fun _ => 0, []), fun x hx hxq => absurd ⟨x, hx, hxq⟩ hq⟩
    obtain ⟨sz, hsz⟩ := Classical.axiomOfChoice hex
    obtain ⟨size, place, hcoded⟩ := coded_of_vars (sz := fun q => (sz q).1) (pl := fun q => (sz q).2.1)
      (nd := fun q => (sz q).2.2) hfacts hleaves htyped hgood
      (fun x hx => (hsz x.1 x hx rfl).1) (fun x hx => (hsz x.1 x hx rfl).2.1)
      (fun x hx => (hsz x.1 x hx rfl).2.2.2.2) hw
    refine ⟨size, place, _, hcoded, fun ls hls => ?_⟩
    -- the variable fields and the slots
    have hvslot : ∀ w ∈ l.vars, ∃ s, (w.path, s) ∈ slots t p ∧
        (s = .str ∨ ∃ cs fi, s = .enum cs ∧ w = .enum w.path fi (layouts chk cs w.path)) := by
      intro w hw
      have h1 := hfacts.vars.mem_iff.1 (List.mem_map_of_mem (f := (·.setFixedIdx 0)) hw)
      obtain ⟨u, hu, heq⟩ := List.mem_map.1 h1
      obtain ⟨⟨xq, xs⟩, hx, hxw⟩ := List.mem_filterMap.1 hu
      cases xs with
      | prim pr => simp [Slot.var] at hxw
      | str =>
        simp [Slot.var] at hxw
        subst hxw
        cases w with
        | string a b =>
          simp [VarField.setFixedIdx] at heq
          subst heq
          exact ⟨_, hx, Or.inl rfl⟩
        | enum => simp [VarField.setFixedIdx] at heq
      | enum es =>
        simp [Slot.var] at hxw
        subst hxw
        cases w with
        | string a b => simp [VarField.setFixedIdx] at heq
        | enum a b d =>
          simp [VarField.setFixedIdx] at heq
          obtain ⟨rfl, rfl⟩ := heq
          exact ⟨_, hx, Or.inr ⟨es, b, rfl, rfl⟩⟩
    have hfull : ∀ f ∈ l.fixed, (f.full = false ↔ HasRoom false f) := by
      intro f _
      obtain ⟨fp, fk, fo⟩ := f
      cases fk with
      | prim => simp [FixedField.full, HasRoom]
      | length => simp [FixedField.full, HasRoom]
      | container => simp [FixedField.full, HasRoom]
      | bitfield pr o k =>
        simp only [FixedField.full, HasRoom, decide_eq_false_iff_not]
        constructor
        · intro h p' o' n' e
          injection e with e1 e2 e3
          subst e1 e2 e3
          exact ⟨by omega, by simp⟩
        · intro h
          have := (h pr o k rfl).1
          omega
    have hprefix : ∀ (q : Path) (s : Slot), (q, s) ∈ slots t p → p <+: q := by
      intro q s hx
      obtain ⟨r, hr⟩ := slots_prefix t p _ hx
      exact ⟨r, hr.symm⟩
    -- the leaves of an enum of this layout
    have hunder : ∀ (q : Path) (cs : List (Str × Ty)), (q, Slot.enum cs) ∈ slots t p → ∀ r leaf, q <+: r →
        ((r, leaf) ∈ ls ↔ (r, leaf) ∈ leaves (env q) q) := by
      intro q cs hx r leaf hqr
      rw [hls r leaf ((hprefix q _ hx).trans hqr), hleaves]
      constructor
      · intro h
        obtain ⟨y, hy, hyl⟩ := List.mem_flatMap.1 h
        have hpre := leaves_prefix (htyped y hy) _ _ hyl
        by_cases hyx : y = (q, Slot.enum cs)
        · rw [hyx] at hyl; exact hyl
        · exfalso
          have hor := List.prefix_or_prefix_of_prefix hpre hqr
          rcases pairwise_mem_ne (slots_apart t p) hy hx hyx with h | h <;> rcases hor with h' | h'
          · exact h.1 h'
          · exact h.2 h'
          · exact h.2 h'
          · exact h.1 h'
      · intro h
        exact List.mem_flatMap.2 ⟨_, hx, h⟩
    have hsubagree : ∀ (q : Path) (cs : List (Str × Ty)), (q, Slot.enum cs) ∈ slots t p → ∀ i w', env q = .case i w' →
        Agree ls w' (q ++ [i]) := by
      intro q cs hx i w' hev r leaf hr
      rw [hunder q cs hx r leaf ((List.prefix_append q [i]).trans hr), hev, leaves]
      constructor
      · intro h
        rcases List.mem_cons.1 h with h | h
        · exfalso
          injection h with h1 _
          subst h1
          have := hr.length_le
          rw [List.length_append] at this
          exact absurd this (Nat.not_succ_le_self _)
        · exact h
      · exact List.mem_cons_of_mem _
    constructor
    · intro hnil m hm
      obtain ⟨hnil1, hnil2⟩ := List.append_eq_nil_iff.1 hnil
      cases hm with
      | self =>
        intro f hf
        refine (hfull f hf).1 (Bool.eq_false_iff.2 fun hfl => ?_)
        have : (⟨f.bitStart, f.bitCount, fieldVal env f⟩ : Need) ∈ needsFixed env l.fixed :=
          List.mem_map.2 ⟨f, List.mem_filter.2 ⟨hf, hfl⟩, rfl⟩
        rw [hnil1] at this
        cases this
      | @case _ c _ q fi i cs hv ht hc hm =>
        obtain ⟨s, hx, hs⟩ := hvslot _ hv
        simp only [VarField.path] at hx hs
        rcases hs with rfl | ⟨es, fi', rfl, heq⟩
        · exfalso
          rw [hls q _ (hprefix q _ hx), hleaves] at ht
          obtain ⟨y, hy, hyl⟩ := List.mem_flatMap.1 ht
          have hpre := leaves_prefix (htyped y hy) _ _ hyl
          by_cases hyx : y = (q, Slot.str)
          · rw [hyx] at hyl
            have hty := htyped _ hx
            simp only at hty hyl
            generalize env q = ev at hty hyl
            cases hty with
            | str bs => simp [leaves] at hyl
          · rcases pairwise_mem_ne (slots_apart t p) hy hx hyx with h | h
            · exact h.1 hpre
            · exact h.2 hpre
        · injection heq with _ e2 e3
          subst e2 e3
          rw [hunder q es hx q _ (List.prefix_refl q)] at ht
          have hty := htyped _ hx
          obtain ⟨w', hev⟩ : ∃ w', env q = .case i w' := by
            simp only at hty ht
            generalize env q = ev at hty ht
            cases hty with
            | @enum _ j c' w' h1 h2 =>
              rw [leaves] at ht
              rcases List.mem_cons.1 ht with h | h
              · injection h with _ h
                injection h with h
                subst h
                exact ⟨w', rfl⟩
              · have := (leaves_prefix h2 _ _ h).length_le
                rw [List.length_append] at this
                exact absurd this (Nat.not_succ_le_self _)
          have hex := (hsz q _ hx rfl).2.2.1 es rfl i w' c hev hc ls (hsubagree q es hx i w' hev)
          refine hex.1 (List.eq_nil_iff_forall_not_mem.2 fun k hk => ?_) m hm
          obtain ⟨j, hj⟩ := List.getElem?_of_mem hv
          have := (mem_needsVars (sz := fun q => (sz q).1) (nd := fun q => (sz q).2.2) l.vars l.varOffset _).2
            ⟨j, _, hj, k, hk, rfl⟩
          rw [hnil2] at this
          cases this
    · intro hroom
      refine List.eq_nil_iff_forall_not_mem.2 fun k hk => ?_
      rcases List.mem_append.1 hk with hk | hk
      · obtain ⟨f, hf, _⟩ := List.mem_map.1 hk
        obtain ⟨hf, hfl⟩ := List.mem_filter.1 hf
        have := (hfull f hf).2 (hroom l (.self l) f hf)
        rw [hfl] at this
        cases this
      · obtain ⟨j, w, hj, k', hk', _⟩ := (mem_needsVars l.vars l.varOffset _).1 hk
        have hv := List.mem_of_getElem? hj
        obtain ⟨s, hx, hs⟩ := hvslot _ hv
        rcases hs with rfl | ⟨es, fi, rfl, heq⟩
        · rw [(hsz w.path _ hx rfl).2.2.2.1 rfl] at hk'
          cases hk'
        · have hty := htyped _ hx
          obtain ⟨i, w', c', hev, hc1⟩ : ∃ i w' c', env w.path = .case i w' ∧ es[i]? = some c' := by
            simp only at hty
            generalize env w.path = ev at hty
            cases hty with
            | @enum _ j c' w' h1 h2 => exact ⟨j, w', c', rfl, h1⟩
          obtain ⟨_, _, hcl3⟩ := hcases w.path es hx
          obtain ⟨lc, hlc1, _⟩ := hcl3 i c' hc1
          have hex := (hsz w.path _ hx rfl).2.2.1 es rfl i w' lc hev hlc1 ls (hsubagree w.path es hx i w' hev)
          rw [heq] at hv
          have htag : (w.path, Leaf.tag i) ∈ ls := by
            rw [hunder w.path es hx _ _ (List.prefix_refl _), hev, leaves]
            exact List.mem_cons_self
          rw [hex.2 fun m hm => hroom m (.case hv htag hlc1 hm)] at hk'
          cases hk'

/-- Encoding works for all values whose tags have room. -/
theorem coded (chk : Bool) (t : Ty) (hn : nodes t < 2 ^ 59) (hi : Inhab t)
    (v : Val) (hv : Typed t v) (p : Path) (l : Layout)
    (hl : calculateLayout chk t p = .ok l) (he : TagsHaveRoom chk (leaves v p) l)
    (hstr : ∀ q bs, (q, Leaf.str bs) ∈ leaves v p → bs.length < 2 ^ 32)
    (hw : leafSum (leaves v p) + 64 < W64) : ∃ size place, CodedW chk v p l size place [] := by
  obtain ⟨size, place, ns, h1, h2⟩ := codedW chk _ t (Nat.le_refl _) hn hi v hv p l hl (fun h => h ▸ he) hstr hw
  have hns : ns = [] := (h2 _ (fun _ _ _ => Iff.rfl)).2 fun m hm f hf pr o n hk =>
    ⟨(he m hm f hf pr o n hk).1, by simp⟩
  subst hns
  exact ⟨size, place, h1⟩

end Verif
