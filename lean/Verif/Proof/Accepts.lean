import Verif.Proof.Codec3

/-! # What the encoder accepts -/

namespace Verif

open Spec

theorem Res.assert_bind {α : Type} {b : Bool} {f : Unit → Res α} {r : α} (h : (assert b >>= f) = .ok r) :
    b = true ∧ f () = .ok r := by
  cases b
  · cases h
  · exact ⟨rfl, h⟩

theorem nodup_fst_inj {α β : Type} {xs : List (α × β)} (h : (xs.map (·.1)).Nodup) {a : α} {b c : β}
    (hb : (a, b) ∈ xs) (hc : (a, c) ∈ xs) : b = c := by
  induction xs with
  | nil => simp at hb
  | cons x xs ih =>
    rw [List.map_cons, List.nodup_cons] at h
    rcases List.mem_cons.1 hb with hb' | hb' <;> rcases List.mem_cons.1 hc with hc' | hc'
    · rw [← hb'] at hc'; cases hc'; rfl
    · exact absurd (by rw [← hb']; exact List.mem_map_of_mem (f := (·.1)) hc') h.1
    · exact absurd (by rw [← hc']; exact List.mem_map_of_mem (f := (·.1)) hb') h.1
    · exact ih h.2 hb' hc'

/-- The source presents a value of type `t` whose strings are shorter than 2^32 bytes. -/
def ShowsValue (src : DataSource) (t : Ty) (p : Path) : Prop :=
  ∃ v, Typed t v ∧ Presents src v p ∧ ∀ q bs, (q, Leaf.str bs) ∈ leaves v p → bs.length < 2 ^ 32

/-- Components that are shown make a sequence that is shown. -/
theorem shows_list {src : DataSource} (cs : List Ty) (p : Path) (i : Nat)
    (h : ∀ (k : Nat) (c : Ty), cs[k]? = some c → ShowsValue src c (p ++ [i + k])) :
    ∃ vs : List Val, vs.length = cs.length ∧
      (∀ (k : Nat) (c : Ty) (v : Val), cs[k]? = some c → vs[k]? = some v → Typed c v) ∧
      (∀ q l, (q, l) ∈ leavesFrom vs p i → Answers src q l) ∧
      ∀ q bs, (q, Leaf.str bs) ∈ leavesFrom vs p i → bs.length < 2 ^ 32 := by
  induction cs generalizing i with
  | nil => exact ⟨[], rfl, by simp, by simp [leavesFrom], by simp [leavesFrom]⟩
  | cons c cs ih =>
    obtain ⟨v, a1, a2, a3⟩ := h 0 c rfl
    obtain ⟨vs, b1, b2, b3, b4⟩ := ih (i + 1) (fun k d hd => by
      rw [show i + 1 + k = i + (k + 1) by omega]
      exact h (k + 1) d (by simpa using hd))
    rw [Nat.add_zero] at a2 a3
    refine ⟨v :: vs, by simp [b1], ?_, ?_, ?_⟩
    · intro k d w hd hw
      cases k with
      | zero => simp at hd hw; subst hd hw; exact a1
      | succ k => exact b2 k d w (by simpa using hd) (by simpa using hw)
    · intro q l hl
      rw [leavesFrom] at hl
      rcases List.mem_append.1 hl with hl | hl
      · exact a2 q l hl
      · exact b3 q l hl
    · intro q bs hl
      rw [leavesFrom] at hl
      rcases List.mem_append.1 hl with hl | hl
      · exact a3 q bs hl
      · exact b4 q bs hl

/-- Slots that are shown make a value that is shown. -/
theorem shows_slots {src : DataSource} (t : Ty) :
    ∀ p : Path, (∀ x ∈ slots t p, ShowsValue src x.2.ty x.1) → ShowsValue src t p := by
  induction t using Ty.ind with
  | unit => exact fun p _ => ⟨.unit, .unit, by simp [Presents, leaves], by simp [leaves]⟩
  | prim pr => exact fun p h => h (p, .prim pr) (by simp [slots])
  | string => exact fun p h => h (p, .str) (by simp [slots])
  | tuple cs ih =>
    intro p h
    obtain ⟨vs, h1, h2, h3, h4⟩ := shows_list (src := src) cs p 0 (fun k c hc => by
      rw [Nat.zero_add]
      refine ih c (List.mem_of_getElem? hc) _ fun x hx => h x ?_
      rw [slots, mem_slotsL_iff]
      exact ⟨k, c, hc, by simpa using hx⟩)
    exact ⟨.seq vs, .tuple h1 h2, by unfold Presents; rw [leaves]; exact h3, by rw [leaves]; exact h4⟩
  | struct fs ih =>
    intro p h
    obtain ⟨vs, h1, h2, h3, h4⟩ := shows_list (src := src) (fs.map (·.2)) p 0 (fun k c hc => by
      rw [Nat.zero_add]
      obtain ⟨f, hf, rfl⟩ := List.mem_map.1 (List.mem_of_getElem? hc)
      refine ih f hf _ fun x hx => h x ?_
      rw [slots, slotsF_eq, mem_slotsL_iff]
      exact ⟨k, f.2, hc, by simpa using hx⟩)
    refine ⟨.seq vs, .struct (by simpa using h1) (fun i f v hf hv => h2 i f.2 v ?_ hv),
      by unfold Presents; rw [leaves]; exact h3, by rw [leaves]; exact h4⟩
    rw [List.getElem?_map, hf]; rfl
  | enum cs _ => exact fun p h => h (p, .enum cs) (by simp [slots])

theorem writeFixeds_each {chk : Bool} {src : DataSource} {fs : List FixedField} :
    ∀ {buf out : Bytes}, writeFixeds chk src fs buf = .ok out →
      ∀ f ∈ fs, ∃ b b', writeFixed chk src f b = .ok b' := by
  induction fs with
  | nil => intro _ _ _ f hf; simp at hf
  | cons g fs ih =>
    intro buf out h f hf
    rw [writeFixeds] at h
    cases hg : writeFixed chk src g buf with
    | error e => rw [hg] at h; cases h
    | ok b =>
      rw [hg, Res.bind_ok] at h
      rcases List.mem_cons.1 hf with rfl | hf
      · exact ⟨_, _, hg⟩
      · exact ih h f hf

theorem encodeVars_each {chk : Bool} {src : DataSource} {vs : List VarField} :
    ∀ {buf : Bytes} {o : Nat} {out : Bytes × Nat}, encodeVars chk src vs buf o = .ok out →
      ∀ v ∈ vs, ∃ b n r, encodeVar chk src v b n = .ok r := by
  induction vs with
  | nil => intro _ _ _ _ f hf; simp at hf
  | cons g vs ih =>
    intro buf o out h v hv
    rw [encodeVars] at h
    cases hg : encodeVar chk src g buf o with
    | error e => rw [hg] at h; cases h
    | ok b =>
      rw [hg, Res.bind_ok] at h
      rcases List.mem_cons.1 hv with rfl | hv
      · exact ⟨_, _, _, hg⟩
      · exact ih h v hv

theorem encodeCase_get {chk : Bool} {src : DataSource} {ls : List Layout} {i : Nat} {buf : Bytes}
    {r : Bytes × Nat} (h : encodeCase chk src ls i buf = .ok r) :
    ∃ l, ls[i]? = some l ∧ l.encode chk src buf = .ok r := by
  induction ls generalizing i with
  | nil => rw [encodeCase] at h; cases h
  | cons l ls ih =>
    cases i with
    | zero => rw [encodeCase] at h; exact ⟨l, rfl, h⟩
    | succ i => rw [encodeCase] at h; simpa using ih h

/-- A source that the encoder takes presents a value of the type. -/
theorem encode_shows (chk : Bool) (n : Nat) : ∀ (t : Ty), nodes t ≤ n → n < 2 ^ 59 → Inhab t →
    ∀ (p : Path) (l : Layout), calculateLayout chk t p = .ok l →
    ∀ (src : DataSource) (buf : Bytes) (r : Bytes × Nat), l.encode chk src buf = .ok r → ShowsValue src t p := by
  induction n with
  | zero => intro t h; have := nodes_pos t; omega
  | succ n ih =>
    intro t hn hn2 hi p l hl src buf r henc
    obtain ⟨hu, hcases, l', hl', hfacts⟩ := unroll_and_layout chk t hi (by omega) p
    rw [hl] at hl'
    cases hl'
    obtain ⟨hf, hv⟩ : (∀ f ∈ l.fixed, ∃ b b', writeFixed chk src f b = .ok b') ∧
        ∀ v ∈ l.vars, ∃ b n r, encodeVar chk src v b n = .ok r := by
      obtain ⟨al, vo, idx, fixed, vars⟩ := l
      rw [Layout.encode] at henc
      obtain ⟨_, henc⟩ := Res.assert_bind henc
      cases h1 : writeFixeds chk src fixed buf with
      | error e => rw [h1] at henc; cases henc
      | ok b =>
        rw [h1, Res.bind_ok] at henc
        cases h2 : encodeVars chk src vars b vo with
        | error e => rw [h2] at henc; cases henc
        | ok b2 => exact ⟨writeFixeds_each h1, encodeVars_each h2⟩
    refine shows_slots t p fun x hx => ?_
    obtain ⟨q, s⟩ := x
    have same : ∀ s', (q, s') ∈ slots t p → s' = s := by
      exact fun s' hx' => nodup_fst_inj (slots_nodup t p) hx' hx
    have field : ∃ f ∈ l.fixed, f.path = q ∧ ((∃ g, Slot.fixed (q, s) = some g ∧ g.kind = f.kind) ∨
        Slot.fixed (q, s) = none) := by
      have hm : q ∈ (slots t p).map (·.1) := List.mem_map_of_mem (f := (·.1)) hx
      have hm := ((hfacts.paths.trans (paths_perm _)).mem_iff).2 hm
      obtain ⟨f, hf1, hf2⟩ := List.mem_map.1 hm
      refine ⟨f, hf1, hf2, ?_⟩
      rcases hfacts.kinds f hf1 with ⟨g, hg, h1, h2⟩ | ⟨b, hb, pr, o, h1, h2, h3, h4⟩
      · obtain ⟨⟨q', s'⟩, hx', hxg⟩ := List.mem_filterMap.1 hg
        have hq : q' = q := by
          rw [← hf2, ← h1]
          cases s' <;> simp [Slot.fixed] at hxg <;> subst hxg <;> rfl
        subst hq
        rw [same s' hx'] at hxg
        exact Or.inl ⟨g, hxg, h2⟩
      · obtain ⟨⟨q', s'⟩, hx', hxb⟩ := List.mem_filterMap.1 hb
        have hq : q' = q := by
          rw [← hf2, ← h1]
          cases s' <;> simp [Slot.bits] at hxb <;> subst hxb <;> rfl
        subst hq
        rw [same s' hx'] at hxb
        right
        cases s <;> simp [Slot.bits, Slot.fixed] at hxb ⊢
    have var : ∀ w, Slot.var chk (q, s) = some w → ∃ fi b n r,
        encodeVar chk src (w.setFixedIdx fi) b n = .ok r := by
      intro w hw
      have h1 : w.setFixedIdx 0 ∈ l.vars.map (·.setFixedIdx 0) :=
        hfacts.vars.mem_iff.2 (List.mem_map_of_mem (f := (·.setFixedIdx 0))
          (List.mem_filterMap.2 ⟨_, hx, hw⟩))
      obtain ⟨w', hw', he⟩ := List.mem_map.1 h1
      obtain ⟨b, n, r, h2⟩ := hv w' hw'
      rw [setFixedIdx_inj he] at h2
      exact ⟨_, b, n, r, h2⟩
    obtain ⟨f, hf1, hf2, hf3⟩ := field
    obtain ⟨b, b', hw⟩ := hf f hf1
    obtain ⟨fp, fk, fo⟩ := f
    simp only at hf2 hf3
    subst hf2
    cases s with
    | prim pr =>
      simp [Slot.fixed] at hf3
      subst hf3
      simp only [writeFixed] at hw
      cases hp : src.prim pr fp with
      | error e => rw [hp] at hw; cases hw
      | ok v =>
        refine ⟨.prim ⟨pr, v⟩, .prim ⟨pr, v⟩, ?_, by simp [leaves]⟩
        intro q l hl
        simp [leaves] at hl
        obtain ⟨rfl, rfl⟩ := hl
        exact hp
    | str =>
      simp [Slot.fixed] at hf3
      subst hf3
      simp only [writeFixed] at hw
      obtain ⟨fi, b2, n2, r2, h2⟩ := var _ rfl
      rw [VarField.setFixedIdx, encodeVar] at h2
      cases hlen : src.length fp with
      | error e => rw [hlen] at hw; cases hw
      | ok k =>
        rw [hlen, Res.bind_ok] at hw h2
        obtain ⟨hk, _⟩ := Res.assert_bind hw
        cases hc : copyBytes src b2 n2 fp k with
        | error e => rw [hc] at h2; cases h2
        | ok b3 =>
          unfold copyBytes at hc
          obtain ⟨_, hc⟩ := Res.assert_bind hc
          cases hb : src.bytes fp with
          | error e => rw [hb] at hc; cases hc
          | ok bs =>
            rw [hb, Res.bind_ok] at hc
            obtain ⟨he, _⟩ := Res.assert_bind hc
            have he : k = bs.length := by simpa using he
            have hk : k ≤ 4294967295 := by simpa using hk
            subst he
            refine ⟨.str bs, .str bs, ?_, ?_⟩
            · intro q l hl
              simp [leaves] at hl
              obtain ⟨rfl, rfl⟩ := hl
              exact ⟨hlen, hb⟩
            · intro q bs' hl
              simp [leaves] at hl
              obtain ⟨rfl, rfl⟩ := hl
              omega
    | enum cs =>
      obtain ⟨fi, b2, n2, r2, h2⟩ := var _ rfl
      rw [VarField.setFixedIdx, encodeVar] at h2
      cases ht : src.tag fp with
      | error e => rw [ht] at h2; cases h2
      | ok i =>
        rw [ht, Res.bind_ok] at h2
        obtain ⟨_, h2⟩ := Res.assert_bind h2
        cases hc : encodeCase chk src (layouts chk cs fp) i (b2.drop n2) with
        | error e => rw [hc] at h2; cases h2
        | ok r3 =>
          obtain ⟨lc, hlc, henc⟩ := encodeCase_get hc
          obtain ⟨_, e2, e3⟩ := hcases fp cs hx
          have hkl := (List.getElem?_eq_some_iff.1 hlc).1
          have hci := List.getElem?_eq_getElem (show i < cs.length by omega)
          obtain ⟨l', f1, f2, _⟩ := e3 i _ hci
          rw [hlc] at f1
          cases f1
          have hem : cs[i]'(by omega) ∈ cs := List.getElem_mem _
          have hinh := slots_inherit (Q := Inhab) (fun cs h => by cases h with | tuple _ h => exact h)
            (fun fs h => by cases h with | struct _ h => exact h) t p hi _ hx
          have hno := slots_inherit (Q := fun u => nodes u ≤ nodes t)
            (fun cs h c hc => by have := nodes_mem_tuple hc; omega)
            (fun fs h f hf => by have := nodesF_mem hf; rw [nodes] at h; omega) t p (Nat.le_refl _) _ hx
          have hic : Inhab (cs[i]'(by omega)).2 := by cases hinh with | enum _ h => exact h _ hem
          have hnc : nodes (cs[i]'(by omega)).2 ≤ n := by
            have := nodesF_mem hem
            simp only [Slot.ty, nodes] at hno
            omega
          obtain ⟨v, g1, g2, g3⟩ := ih _ hnc (by omega) hic _ lc f2 src _ _ henc
          refine ⟨.case i v, .enum hci g1, ?_, ?_⟩
          · intro q l hl
            rw [leaves] at hl
            rcases List.mem_cons.1 hl with hl | hl
            · cases hl; exact ht
            · exact g2 q l hl
          · intro q bs hl
            rw [leaves] at hl
            rcases List.mem_cons.1 hl with hl | hl
            · cases hl
            · exact g3 q bs hl

/-! ## Sizes -/

theorem leaves_length {t : Ty} {v : Val} (h : Typed t v) : ∀ p : Path, (leaves v p).length ≤ nodes t := by
  have list : ∀ (cs : List Ty) (vs : List Val), vs.length = cs.length →
      (∀ (i : Nat) (c : Ty) (v : Val), cs[i]? = some c → vs[i]? = some v →
        ∀ p : Path, (leaves v p).length ≤ nodes c) →
      ∀ (p : Path) (i : Nat), (leavesFrom vs p i).length ≤ nodes.nodesL cs := by
    intro cs
    induction cs with
    | nil =>
      intro vs hl _ p i
      cases vs with
      | nil => simp [leavesFrom, nodes.nodesL]
      | cons v vs => simp at hl
    | cons c cs ih =>
      intro vs hl h p i
      cases vs with
      | nil => simp at hl
      | cons v vs =>
        have h1 := h 0 c v rfl rfl (p ++ [i])
        have h2 := ih vs (by simpa using hl)
          (fun k d w hd hw => h (k + 1) d w (by simpa using hd) (by simpa using hw)) p (i + 1)
        rw [leavesFrom, nodes.nodesL, List.length_append]
        omega
  induction h with
  | unit => simp [leaves]
  | prim v => simp [leaves, nodes]
  | str bs => simp [leaves, nodes]
  | @tuple cs vs hl _ ih =>
    intro p
    have := list cs vs hl ih p 0
    rw [leaves, nodes]
    omega
  | @struct fs vs hl _ ih =>
    intro p
    have h1 := list (fs.map (·.2)) vs (by simpa using hl) (fun i c v hc hv => by
      rw [List.getElem?_map] at hc
      cases hf : fs[i]? with
      | none => rw [hf] at hc; cases hc
      | some f =>
        rw [hf] at hc
        cases hc
        exact ih i f v hf hv) p 0
    have h2 : nodes.nodesL (fs.map (·.2)) = nodes.nodesF fs := by
      clear h1 ih hl
      have : ∀ gs : List (Str × Ty), nodes.nodesL (gs.map (·.2)) = nodes.nodesF gs := by
        intro gs
        induction gs with
        | nil => simp [nodes.nodesL, nodes.nodesF]
        | cons g gs ih =>
          obtain ⟨a, b⟩ := g
          rw [List.map_cons, nodes.nodesL, nodes.nodesF, ih, nodes.nodesP]
      exact this fs
    rw [leaves, nodes]
    omega
  | @enum cs i c v hc _ ih =>
    intro p
    have h1 := ih (p ++ [i])
    have h2 := nodesF_mem (List.mem_of_getElem? hc)
    rw [leaves, nodes, List.length_cons]
    omega

/-- A value of a type with fewer than 2^24 nodes whose strings are shorter than 2^32 bytes is within the limits of
the format. -/
theorem weight_small {t : Ty} {v : Val} (h : Typed t v) (hn : nodes t < 2 ^ 24)
    (hs : ∀ q bs, (q, Leaf.str bs) ∈ leaves v [] → bs.length < 2 ^ 32) : weight v < 2 ^ 63 := by
  have hl := leaves_length h []
  have sum : ∀ (g : Path × Leaf → Nat) (ls : List (Path × Leaf)), (∀ x ∈ ls, g x ≤ 64 + 2 ^ 32) →
      (ls.map g).sum ≤ ls.length * (64 + 2 ^ 32) := by
    intro g ls
    induction ls with
    | nil => simp
    | cons x ls ih =>
      intro h
      have h1 := ih fun y hy => h y (by simp [hy])
      have h2 := h x (by simp)
      rw [List.map_cons, List.sum_cons, List.length_cons, Nat.add_mul]
      omega
  unfold weight
  refine Nat.lt_of_le_of_lt (Nat.add_le_add_left (sum _ _ ?_) 64) ?_
  · intro x hx
    obtain ⟨q, l⟩ := x
    cases l with
    | prim v => simp
    | tag i => simp
    | str bs => have := hs q bs hx; simp only; omega
  have h3 : (leaves v []).length * (64 + 2 ^ 32) ≤ 2 ^ 24 * (64 + 2 ^ 32) := Nat.mul_le_mul_right _ (by omega)
  omega

end Verif
