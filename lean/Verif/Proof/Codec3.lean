import Verif.Proof.Codec2
import Verif.Spec.Layout

/-! # Encoding: consequences for all sources and all layouts -/

namespace Verif

open Spec

/-! ## Nested layouts -/

theorem nested_facts (chk : Bool) (n : Nat) : ∀ (t : Ty), nodes t ≤ n → n < 2 ^ 59 → Inhab t →
    ∀ (p : Path) (l m : Layout), calculateLayout chk t p = .ok l → Nested l m →
      ∃ t' p', TyFacts chk t' p' m := by
  induction n with
  | zero => intro t h; have := nodes_pos t; omega
  | succ n ih =>
    intro t hn hn2 hi p l m hl hm
    obtain ⟨hu, hcases, l', hl', hfacts⟩ := unroll_and_layout chk t hi (by omega) p
    rw [hl] at hl'
    cases hl'
    cases hm with
    | self => exact ⟨t, p, hfacts⟩
    | @case _ c _ q fi cs hv hc hm =>
      have h1 := hfacts.vars.mem_iff.1 (List.mem_map_of_mem (f := (·.setFixedIdx 0)) hv)
      obtain ⟨w, hw, he⟩ := List.mem_map.1 h1
      obtain ⟨⟨xq, xs⟩, hx, hxw⟩ := List.mem_filterMap.1 hw
      cases xs with
      | prim pr => simp [Slot.var] at hxw
      | str => simp [Slot.var] at hxw; subst hxw; simp [VarField.setFixedIdx] at he
      | enum es =>
        simp [Slot.var] at hxw
        subst hxw
        simp [VarField.setFixedIdx] at he
        obtain ⟨rfl, rfl⟩ := he
        obtain ⟨_, e2, e3⟩ := hcases xq es hx
        obtain ⟨k, hk⟩ := List.getElem?_of_mem hc
        have hkl := (List.getElem?_eq_some_iff.1 hk).1
        obtain ⟨l', f1, f2, f3⟩ := e3 k _ (List.getElem?_eq_getElem (by omega))
        rw [hk] at f1
        cases f1
        have hem : es[k]'(by omega) ∈ es := List.getElem_mem _
        have hinh := slots_inherit (Q := Inhab) (fun cs h => by cases h with | tuple _ h => exact h)
          (fun fs h => by cases h with | struct _ h => exact h) t p hi _ hx
        have hno := slots_inherit (Q := fun u => nodes u ≤ nodes t)
          (fun cs h c hc => by have := nodes_mem_tuple hc; omega)
          (fun fs h f hf => by have := nodesF_mem hf; rw [nodes] at h; omega) t p (Nat.le_refl _) _ hx
        have hic : Inhab (es[k]'(by omega)).2 := by cases hinh with | enum _ h => exact h _ hem
        have hnc : nodes (es[k]'(by omega)).2 ≤ n := by
          have := nodesF_mem hem
          simp only [Slot.ty, nodes] at hno
          omega
        exact ih _ hnc (by omega) hic _ c m f2 hm

/-! ## Sizes: for every layout and source -/

theorem encode_size {chk : Bool} {src : DataSource} {l : Layout} {buf buf' : Bytes} {n : Nat}
    (h : l.encode chk src buf = .ok (buf', n)) : l.sizeWithSource chk src = .ok n := by
  obtain ⟨al, vo, idx, fixed, vars⟩ := l
  rw [Layout.encode] at h
  obtain ⟨_, _, h⟩ := Res.bind_eq_ok.1 h
  obtain ⟨b1, _, h⟩ := Res.bind_eq_ok.1 h
  obtain ⟨⟨b2, o⟩, h1, h⟩ := Res.bind_eq_ok.1 h
  obtain ⟨m, h2, h⟩ := Res.bind_eq_ok.1 h
  cases h
  rw [Layout.sizeWithSource, encodeVars_size _ _ _ _ _ h1, Res.bind_ok, h2]

/-! ## Sources that present the same value -/

theorem writeFixeds_congr {chk : Bool} {s1 s2 : DataSource} (fs : List FixedField) (buf : Bytes)
    (h : ∀ f ∈ fs, ∀ buf, writeFixed chk s1 f buf = writeFixed chk s2 f buf) :
    writeFixeds chk s1 fs buf = writeFixeds chk s2 fs buf := by
  induction fs generalizing buf with
  | nil => rfl
  | cons f fs ih =>
    rw [writeFixeds, writeFixeds, h f (by simp)]
    cases writeFixed chk s2 f buf with
    | error e => rfl
    | ok b => exact ih b (fun g hg => h g (by simp [hg]))

theorem encodeVars_congr {chk : Bool} {s1 s2 : DataSource} (vs : List VarField) (buf : Bytes) (o : Nat)
    (h : ∀ v ∈ vs, ∀ buf o, encodeVar chk s1 v buf o = encodeVar chk s2 v buf o) :
    encodeVars chk s1 vs buf o = encodeVars chk s2 vs buf o := by
  induction vs generalizing buf o with
  | nil => rw [encodeVars, encodeVars]
  | cons v vs ih =>
    rw [encodeVars, encodeVars, h v (by simp)]
    cases encodeVar chk s2 v buf o with
    | error e => rfl
    | ok b => exact ih b.1 b.2 (fun g hg => h g (by simp [hg]))

theorem varsSize_congr {chk : Bool} {s1 s2 : DataSource} (vs : List VarField) (o : Nat)
    (h : ∀ v ∈ vs, ∀ o, varSize chk s1 v o = varSize chk s2 v o) :
    varsSize chk s1 vs o = varsSize chk s2 vs o := by
  induction vs generalizing o with
  | nil => rw [varsSize, varsSize]
  | cons v vs ih =>
    rw [varsSize, varsSize, h v (by simp)]
    cases varSize chk s2 v o with
    | error e => rfl
    | ok b => exact ih b (fun g hg => h g (by simp [hg]))

theorem encode_congr (chk : Bool) (n : Nat) : ∀ (t : Ty), nodes t ≤ n → n < 2 ^ 59 → Inhab t →
    ∀ (v : Val), Typed t v → ∀ (p : Path) (l : Layout), calculateLayout chk t p = .ok l →
    ∀ s1 s2 : DataSource, Presents s1 v p → Presents s2 v p →
      l.sizeWithSource chk s1 = l.sizeWithSource chk s2 ∧
      ∀ buf, l.encode chk s1 buf = l.encode chk s2 buf := by
  induction n with
  | zero => intro t h; have := nodes_pos t; omega
  | succ n ih =>
    intro t hn hn2 hi v hv p l hl s1 s2 hs1 hs2
    obtain ⟨hu, hcases, l', hl', hfacts⟩ := unroll_and_layout chk t hi (by omega) p
    rw [hl] at hl'
    cases hl'
    obtain ⟨env, htyped, hleaves, _⟩ := typed_slots hv p
    have hsub : ∀ x ∈ slots t p, ∀ y ∈ leaves (env x.1) x.1, y ∈ leaves v p := by
      intro x hx y hy
      rw [hleaves]; exact List.mem_flatMap.2 ⟨x, hx, hy⟩
    have hp1 : ∀ x ∈ slots t p, Pres s1 env x.1 := fun x hx r l hr => hs1 r l (hsub x hx _ hr)
    have hp2 : ∀ x ∈ slots t p, Pres s2 env x.1 := fun x hx r l hr => hs2 r l (hsub x hx _ hr)
    have hfix : ∀ f ∈ l.fixed, ∀ buf, writeFixed chk s1 f buf = writeFixed chk s2 f buf := by
      intro f hf buf
      rcases hfacts.kinds f hf with ⟨g, hg, h1, h2⟩ | ⟨b, hb, pr, o, h1, h2, h3, h4⟩
      · obtain ⟨⟨q, s⟩, hx, hxg⟩ := List.mem_filterMap.1 hg
        have hty := htyped _ hx
        have q1 := hp1 _ hx
        have q2 := hp2 _ hx
        unfold Pres at q1 q2
        simp only at hty q1 q2
        cases s with
        | prim pr =>
          simp [Slot.fixed] at hxg
          subst hxg
          obtain ⟨fp, fk, fo⟩ := f
          simp only at h1 h2
          subst h1 h2
          generalize hev : env q = ev at hty q1 q2
          cases hty with
          | prim w =>
            have a1 : Answers s1 q (.prim w) := q1 q _ (by simp [leaves])
            have a2 : Answers s2 q (.prim w) := q2 q _ (by simp [leaves])
            simp only [writeFixed]
            rw [show s1.prim w.kind q = .ok w.val from a1, show s2.prim w.kind q = .ok w.val from a2]
        | str =>
          simp [Slot.fixed] at hxg
          subst hxg
          obtain ⟨fp, fk, fo⟩ := f
          simp only at h1 h2
          subst h1 h2
          generalize hev : env q = ev at hty q1 q2
          cases hty with
          | str bs =>
            have a1 : Answers s1 q (.str bs) := q1 q _ (by simp [leaves])
            have a2 : Answers s2 q (.str bs) := q2 q _ (by simp [leaves])
            simp only [writeFixed]
            rw [a1.1, a2.1]
        | enum cs => simp [Slot.fixed] at hxg
      · obtain ⟨⟨q, s⟩, hx, hxb⟩ := List.mem_filterMap.1 hb
        have hty := htyped _ hx
        have q1 := hp1 _ hx
        have q2 := hp2 _ hx
        unfold Pres at q1 q2
        simp only at hty q1 q2
        cases s with
        | prim pr => simp [Slot.bits] at hxb
        | str => simp [Slot.bits] at hxb
        | enum cs =>
          simp [Slot.bits] at hxb
          subst hxb
          obtain ⟨fp, fk, fo⟩ := f
          simp only at h1 h2
          subst h1 h2
          generalize hev : env q = ev at hty q1 q2
          cases hty with
          | @enum _ i c w hc1 hc2 =>
            have a1 : Answers s1 q (.tag i) := q1 q _ (by simp [leaves])
            have a2 : Answers s2 q (.tag i) := q2 q _ (by simp [leaves])
            simp only [writeFixed]
            rw [show s1.tag q = .ok i from a1, show s2.tag q = .ok i from a2]
    have hvar : ∀ w ∈ l.vars, (∀ o, varSize chk s1 w o = varSize chk s2 w o) ∧
        ∀ buf o, encodeVar chk s1 w buf o = encodeVar chk s2 w buf o := by
      intro w hw
      have h1 := hfacts.vars.mem_iff.1 (List.mem_map_of_mem (f := (·.setFixedIdx 0)) hw)
      obtain ⟨w0, hw0, he⟩ := List.mem_map.1 h1
      obtain ⟨⟨q, s⟩, hx, hxw⟩ := List.mem_filterMap.1 hw0
      have h2 := setFixedIdx_inj he.symm
      generalize w.fixedIdx = fi at h2
      subst h2
      have hty := htyped _ hx
      have q1 := hp1 _ hx
      have q2 := hp2 _ hx
      unfold Pres at q1 q2
      simp only at hty q1 q2
      cases s with
      | prim pr => simp [Slot.var] at hxw
      | str =>
        simp [Slot.var] at hxw
        subst hxw
        generalize hev : env q = ev at hty q1 q2
        cases hty with
        | str bs =>
          have a1 : Answers s1 q (.str bs) := q1 q _ (by simp [leaves])
          have a2 : Answers s2 q (.str bs) := q2 q _ (by simp [leaves])
          constructor
          · intro o
            rw [VarField.setFixedIdx, varSize, varSize, a1.1, a2.1]
          · intro buf o
            rw [VarField.setFixedIdx, encodeVar, encodeVar, a1.1, a2.1]
            simp only [Res.bind_ok, copyBytes, a1.2, a2.2]
      | enum es =>
        simp [Slot.var] at hxw
        subst hxw
        generalize hev : env q = ev at hty q1 q2
        cases hty with
        | @enum _ i c w' hc1 hc2 =>
          have a1 : s1.tag q = .ok i := q1 q (.tag i) (by simp [leaves])
          have a2 : s2.tag q = .ok i := q2 q (.tag i) (by simp [leaves])
          obtain ⟨hcl, hcl2, hcl3⟩ := hcases q es hx
          obtain ⟨lc, hlc1, hlc2, _⟩ := hcl3 i c hc1
          have hcm := List.mem_of_getElem? hc1
          have hinh := slots_inherit (Q := Inhab) (fun cs h => by cases h with | tuple _ h => exact h)
            (fun fs h => by cases h with | struct _ h => exact h) t p hi _ hx
          have hno := slots_inherit (Q := fun u => nodes u ≤ nodes t)
            (fun cs h c hc => by have := nodes_mem_tuple hc; omega)
            (fun fs h f hf => by have := nodesF_mem hf; rw [nodes] at h; omega) t p (Nat.le_refl _) _ hx
          have hic : Inhab c.2 := by cases hinh with | enum _ h => exact h _ hcm
          have hnc : nodes c.2 ≤ n := by
            have := nodesF_mem hcm
            simp only [Slot.ty, nodes] at hno
            omega
          obtain ⟨r1, r2⟩ := ih c.2 hnc (by omega) hic w' hc2 (q ++ [i]) lc hlc2 s1 s2
            (fun r l hr => q1 r l (by rw [leaves]; exact List.mem_cons_of_mem _ hr))
            (fun r l hr => q2 r l (by rw [leaves]; exact List.mem_cons_of_mem _ hr))
          constructor
          · intro o
            rw [VarField.setFixedIdx, varSize, varSize, a1, a2]
            simp only [Res.bind_ok]
            rw [caseSizeWithSource_eq hlc1, caseSizeWithSource_eq hlc1, r1]
          · intro buf o
            rw [VarField.setFixedIdx, encodeVar, encodeVar, a1, a2]
            simp only [Res.bind_ok]
            rw [encodeCase_eq hlc1, encodeCase_eq hlc1, r2, caseSizeWithSource_eq hlc1,
              caseSizeWithSource_eq hlc1, r1]
    obtain ⟨al, vo, idx, fixed, vars⟩ := l
    constructor
    · rw [Layout.sizeWithSource, Layout.sizeWithSource, varsSize_congr vars vo (fun w hw => (hvar w hw).1)]
    · intro buf
      rw [Layout.encode, Layout.encode]
      simp only [writeFixeds_congr (chk := chk) fixed buf hfix]
      congr 1
      funext _
      congr 1
      funext b
      rw [encodeVars_congr vars b vo (fun w hw => (hvar w hw).2)]

/-! ## Labels -/

theorem relabelled_unroll {chk : Bool} {t u : Ty} (h : Relabelled t u) :
    ∀ p, unrollType chk t p = unrollType chk u p := by
  have list : ∀ (cs ds : List Ty), cs.length = ds.length →
      (∀ (i : Nat) (c d : Ty), cs[i]? = some c → ds[i]? = some d → ∀ p, unrollType chk c p = unrollType chk d p) →
      ∀ p i, unrollTuple chk cs p i = unrollTuple chk ds p i := by
    intro cs
    induction cs with
    | nil =>
      intro ds hl _ p i
      cases ds with
      | nil => rfl
      | cons d ds => simp at hl
    | cons c cs ih =>
      intro ds hl h p i
      cases ds with
      | nil => simp at hl
      | cons d ds =>
        rw [unrollTuple, unrollTuple, h 0 c d rfl rfl, ih ds (by simpa using hl)
          (fun k a b ha hb => h (k + 1) a b (by simpa using ha) (by simpa using hb))]
  have cases' : ∀ (cs ds : List (Str × Ty)), cs.length = ds.length →
      (∀ (i : Nat) (c d : Str × Ty), cs[i]? = some c → ds[i]? = some d →
        ∀ p, unrollType chk c.2 p = unrollType chk d.2 p) →
      ∀ p i, caseLayouts chk cs p i = caseLayouts chk ds p i := by
    intro cs
    induction cs with
    | nil =>
      intro ds hl _ p i
      cases ds with
      | nil => rfl
      | cons d ds => simp at hl
    | cons c cs ih =>
      intro ds hl h p i
      cases ds with
      | nil => simp at hl
      | cons d ds =>
        rw [caseLayouts, caseLayouts, caseLayout_eq, caseLayout_eq, calculateLayout, calculateLayout,
          h 0 c d rfl rfl, ih ds (by simpa using hl)
          (fun k a b ha hb => h (k + 1) a b (by simpa using ha) (by simpa using hb))]
  induction h with
  | unit => intro p; rfl
  | prim q => intro p; rfl
  | string => intro p; rfl
  | tuple hl _ ih =>
    intro p
    rw [unrollType, unrollType, hl, list _ _ hl ih]
  | @struct cs ds hl _ ih =>
    intro p
    rw [unrollType, unrollType, hl, unrollStruct_eq, unrollStruct_eq,
      list (cs.map (·.2)) (ds.map (·.2)) (by simpa using hl)]
    intro i c d hc hd
    rw [List.getElem?_map, Option.map_eq_some_iff] at hc hd
    obtain ⟨c', hc', rfl⟩ := hc
    obtain ⟨d', hd', rfl⟩ := hd
    exact ih i c' d' hc' hd'
  | enum hl _ ih =>
    intro p
    rw [unrollType, unrollType, hl, cases' _ _ hl ih]

end Verif
