import Verif.Spec.Grown
import Verif.Proof.JsonEncoder

/-! # Proofs about types that got additional enum cases -/

namespace Verif

open Spec Json

theorem labels_some {fs gs : List (Str × Ty)} (h : fs.map (·.1) <+: gs.map (·.1)) {i : Nat} {f : Str × Ty}
    (hf : fs[i]? = some f) : ∃ g, gs[i]? = some g ∧ g.1 = f.1 := by
  obtain ⟨r, hr⟩ := h
  have h1 : (gs.map (·.1))[i]? = some f.1 := by
    rw [← hr, List.getElem?_append_left, List.getElem?_map, hf]
    · rfl
    · rw [List.length_map]; exact (List.getElem?_eq_some_iff.1 hf).1
  rw [List.getElem?_map, Option.map_eq_some_iff] at h1
  exact h1

theorem labels_length {fs gs : List (Str × Ty)} (h : fs.map (·.1) = gs.map (·.1)) : fs.length = gs.length := by
  have := congrArg List.length h
  simpa using this

theorem some_back {α : Type} {cs ds : List α} (h : cs.length = ds.length) {i : Nat} {d : α} (hd : ds[i]? = some d) :
    ∃ c, cs[i]? = some c := by
  have := (List.getElem?_eq_some_iff.1 hd).1
  exact ⟨cs[i], List.getElem?_eq_getElem (by omega)⟩

theorem some_forth {α : Type} {cs ds : List α} (h : cs.length ≤ ds.length) {i : Nat} {c : α} (hc : cs[i]? = some c) :
    ∃ d, ds[i]? = some d := by
  have := (List.getElem?_eq_some_iff.1 hc).1
  exact ⟨ds[i], List.getElem?_eq_getElem (by omega)⟩

theorem labels_back {fs gs : List (Str × Ty)} (h : fs.map (·.1) = gs.map (·.1)) {i : Nat} {g : Str × Ty}
    (hg : gs[i]? = some g) : ∃ f, fs[i]? = some f ∧ f.1 = g.1 :=
  labels_some (h ▸ List.prefix_refl _) hg

/-- Values of the first type are values of the second. -/
theorem Typed.grown {t : Ty} {v : Val} (h : Typed t v) : ∀ {u : Ty}, Grown t u → Typed u v := by
  induction h with
  | unit => intro u hg; cases hg; exact .unit
  | prim v => intro u hg; cases hg; exact .prim v
  | str bs => intro u hg; cases hg; exact .str bs
  | tuple hl _ ih =>
    intro u hg
    cases hg with
    | tuple h1 h2 =>
      refine .tuple (hl.trans h1) fun i d v hd hv => ?_
      obtain ⟨c, hc⟩ := some_back h1 hd
      exact ih i c v hc hv (h2 i c d hc hd)
  | struct hl _ ih =>
    intro u hg
    cases hg with
    | struct h1 h2 =>
      refine .struct (hl.trans (labels_length h1)) fun i d v hd hv => ?_
      obtain ⟨c, hc, _⟩ := labels_back h1 hd
      exact ih i c v hc hv (h2 i c d hc hd)
  | enum hc _ ih =>
    intro u hg
    cases hg with
    | enum h1 h2 _ =>
      obtain ⟨d, hd, _⟩ := labels_some h1 hc
      exact .enum hd (ih (h2 _ _ d hc hd))

/-- Documents taken for the first type are taken for the second, with the same value. -/
theorem Takes.grown {F : FloatText} {lax : Prop} {t : Ty} {tr : Tree} {v : Val} (h : Takes F lax t tr v) :
    ∀ {u : Ty}, Grown t u → Takes F lax u tr v := by
  induction h with
  | unit => intro u hg; cases hg; exact .unit
  | bool b => intro u hg; cases hg; exact .bool b
  | char c => intro u hg; cases hg; exact .char c
  | num h1 h2 => intro u hg; cases hg; exact .num h1 h2
  | numStr h1 h2 => intro u hg; cases hg; exact .numStr h1 h2
  | string s => intro u hg; cases hg; exact .string s
  | tuple ht hl _ ih =>
    intro u hg
    cases hg with
    | tuple h1 h2 =>
      refine .tuple (ht.trans h1) (hl.trans h1) fun i d tr v hd htr hv => ?_
      obtain ⟨c, hc⟩ := some_back h1 hd
      exact ih i c tr v hc htr hv (h2 i c d hc hd)
  | struct hn hd hp hl _ ih =>
    intro u hg
    cases hg with
    | struct h1 h2 =>
      refine .struct ((labels_length h1).symm ▸ hn) (h1 ▸ hd) (h1 ▸ hp) (hl.trans (labels_length h1))
        fun i d tr v hd htr hv => ?_
      obtain ⟨c, hc, he⟩ := labels_back h1 hd
      exact ih i c tr v hc (he ▸ htr) hv (h2 i c d hc hd)
  | gap hl hn =>
    intro u hg
    cases hg with
    | struct h1 h2 => exact .gap hl ((labels_length h1).symm.trans hn)
  | @enum cs i l c tr v hc hlast _ ih =>
    intro u hg
    cases hg with
    | @enum _ ds h1 h2 h3 =>
      obtain ⟨⟨l', d⟩, hd, he⟩ := labels_some h1 hc
      simp only at he
      subst he
      refine .enum hd ?_ (ih (h2 _ _ _ hc hd))
      intro j e hj hej
      by_cases hlt : j < cs.length
      · have hb : cs[j]? = some cs[j] := List.getElem?_eq_getElem hlt
        obtain ⟨e', he', hel⟩ := labels_some h1 hb
        rw [hej] at he'
        cases he'
        rw [hel]
        exact hlast j _ hj hb
      · exact h3 i j _ e hc (Nat.le_of_not_lt hlt) hej

/-- Documents taken for the second type are taken for the first, if their value is of the first type. -/
theorem Takes.shrink {F : FloatText} {lax : Prop} {u : Ty} {tr : Tree} {v : Val} (h : Takes F lax u tr v) :
    ∀ {t : Ty}, Grown t u → Typed t v → Takes F lax t tr v := by
  induction h with
  | unit => intro t hg _; cases hg; exact .unit
  | bool b => intro t hg _; cases hg; exact .bool b
  | char c => intro t hg _; cases hg; exact .char c
  | num h1 h2 => intro t hg _; cases hg; exact .num h1 h2
  | numStr h1 h2 => intro t hg _; cases hg; exact .numStr h1 h2
  | string s => intro t hg _; cases hg; exact .string s
  | tuple ht hl _ ih =>
    intro t hg hv
    cases hg with
    | tuple h1 h2 =>
      cases hv with
      | tuple _ hv =>
        refine .tuple (ht.trans h1.symm) (hl.trans h1.symm) fun i c tr v hc htr hvi => ?_
        obtain ⟨d, hd⟩ := some_back h1.symm hc
        exact ih i d tr v hd htr hvi (h2 i c d hc hd) (hv i c v hc hvi)
  | struct hn hd hp hl _ ih =>
    intro t hg hv
    cases hg with
    | struct h1 h2 =>
      cases hv with
      | struct _ hv =>
        refine .struct (labels_length h1 ▸ hn) (h1.symm ▸ hd) (h1.symm ▸ hp) (hl.trans (labels_length h1).symm)
          fun i c tr v hc htr hvi => ?_
        obtain ⟨d, hd, he⟩ := labels_back h1.symm hc
        exact ih i d tr v hd (he ▸ htr) hvi (h2 i c d hc hd) (hv i c v hc hvi)
  | gap hl hn =>
    intro t hg hv
    cases hg with
    | struct h1 h2 => cases hv
  | @enum ds i l d tr v hd hlast _ ih =>
    intro t hg hv
    cases hg with
    | @enum cs _ h1 h2 h3 =>
      cases hv with
      | @enum _ _ c _ hc hv =>
        obtain ⟨d', hd', he⟩ := labels_some h1 hc
        rw [hd] at hd'
        cases hd'
        obtain ⟨lc, c⟩ := c
        simp only at he
        subst he
        refine .enum hc ?_ (ih (h2 _ _ _ hc hd) hv)
        intro j e hj hej
        obtain ⟨e', he', hel⟩ := labels_some h1 hej
        rw [← hel]
        exact hlast j e' hj he'

theorem emitAll_grown {F : FloatText} {src : DataSource} : ∀ (cs ds : List Ty) (vs : List Val), cs.length = ds.length →
    vs.length = cs.length →
    (∀ (i : Nat) (c d : Ty) (v : Val), cs[i]? = some c → ds[i]? = some d → vs[i]? = some v →
      ∀ p, Presents src v p → emitterFor F p d src = emitterFor F p c src) →
    ∀ p k first, (∀ q l, (q, l) ∈ leavesFrom vs p k → Answers src q l) →
      emitAll (emittersL F p ds k) first src = emitAll (emittersL F p cs k) first src
  | [], [], _, _, _, _ => fun _ _ _ _ => rfl
  | [], d :: ds, _, h, _, _ => by simp at h
  | c :: cs, [], _, h, _, _ => by simp at h
  | c :: cs, d :: ds, [], _, h, _ => by simp at h
  | c :: cs, d :: ds, v :: vs, hl, hv, h => by
    intro p k first hs
    have a1 := h 0 c d v rfl rfl rfl (p ++ [k]) (presents_seq (i := 0) hs rfl)
    have a2 := emitAll_grown cs ds vs (by simpa using hl) (by simpa using hv)
      (fun i c d v hc hd hv => h (i + 1) c d v (by simpa using hc) (by simpa using hd) (by simpa using hv))
      p (k + 1) false (fun q l hm => hs q l (by rw [leavesFrom]; exact List.mem_append.2 (.inr hm)))
    rw [emittersL, emittersL, emitAll, emitAll]
    simp only [a1, a2]

theorem emitFields_grown {F : FloatText} {src : DataSource} : ∀ (fs gs : List (Str × Ty)) (vs : List Val),
    fs.map (·.1) = gs.map (·.1) → vs.length = fs.length →
    (∀ (i : Nat) (f g : Str × Ty) (v : Val), fs[i]? = some f → gs[i]? = some g → vs[i]? = some v →
      ∀ p, Presents src v p → emitterFor F p g.2 src = emitterFor F p f.2 src) →
    ∀ p k first, (∀ q l, (q, l) ∈ leavesFrom vs p k → Answers src q l) →
      emitFields (emittersF F p gs k) first src = emitFields (emittersF F p fs k) first src
  | [], [], _, _, _, _ => fun _ _ _ _ => rfl
  | [], d :: ds, _, h, _, _ => by simp at h
  | c :: cs, [], _, h, _, _ => by simp at h
  | c :: cs, d :: ds, [], _, h, _ => by simp at h
  | (lf, f) :: fs, (lg, g) :: gs, v :: vs, hl, hv, h => by
    intro p k first hs
    have a1 := h 0 _ _ v rfl rfl rfl (p ++ [k]) (presents_seq (i := 0) hs rfl)
    simp only [List.map_cons, List.cons.injEq] at hl
    obtain ⟨hl0, hl⟩ := hl
    subst hl0
    have a2 := emitFields_grown fs gs vs hl (by simpa using hv)
      (fun i c d v hc hd hv => h (i + 1) c d v (by simpa using hc) (by simpa using hd) (by simpa using hv))
      p (k + 1) false (fun q l hm => hs q l (by rw [leavesFrom]; exact List.mem_append.2 (.inr hm)))
    rw [emittersF, emittersF, emitterP, emitterP, emitFields, emitFields]
    simp only at a1
    simp only [a1, a2]

/-- A value of the first type is written as a document in the same way for the second type. -/
theorem emits_grown {F : FloatText} {src : DataSource} {t : Ty} {v : Val} (h : Typed t v) :
    ∀ {u : Ty}, Grown t u → ∀ p, Presents src v p → emitterFor F p u src = emitterFor F p t src := by
  induction h with
  | unit => intro u hg p _; cases hg; rfl
  | prim v => intro u hg p _; cases hg; rfl
  | str bs => intro u hg p _; cases hg; rfl
  | @tuple cs vs hl _ ih =>
    intro u hg p hs
    cases hg with
    | @tuple _ ds h1 h2 =>
      rw [emitterFor, emitterFor, emitTuple, emitTuple, emitAll_grown cs ds vs h1 hl
        (fun i c d v hc hd hv p hp => ih i c v hc hv (h2 i c d hc hd) p hp) p 0 true
        (fun q l hm => hs q l (by rw [leaves]; exact hm))]
  | @struct fs vs hl _ ih =>
    intro u hg p hs
    cases hg with
    | @struct _ gs h1 h2 =>
      rw [emitterFor, emitterFor, emitStruct, emitStruct, emitFields_grown fs gs vs h1 hl
        (fun i c d v hc hd hv p hp => ih i c v hc hv (h2 i c d hc hd) p hp) p 0 true
        (fun q l hm => hs q l (by rw [leaves]; exact hm))]
  | @enum cs i c v hc _ ih =>
    intro u hg p hs
    cases hg with
    | @enum _ ds h1 h2 h3 =>
      obtain ⟨d, hd, he⟩ := labels_some h1 hc
      obtain ⟨k1, k2⟩ := presents_case hs
      have g1 : (emittersF F p cs 0)[i]? = some (c.1, emitterFor F (p ++ [i]) c.2) := by
        rw [emittersF_get, hc]; simp
      have g2 : (emittersF F p ds 0)[i]? = some (c.1, emitterFor F (p ++ [i]) d.2) := by
        rw [emittersF_get, hd, ← he]; simp
      rw [emitterFor, emitterFor, emitEnum, emitEnum, k1]
      simp only [Res.bind_ok, g1, g2, ih (h2 i c d hc hd) _ k2]

end Verif
