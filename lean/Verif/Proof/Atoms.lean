import Verif.Proof.AtomsLayout
import Verif.Spec.Atoms

/-! # Types made of the same atoms have the same layouts up to their paths -/

namespace Verif

open Spec

/-- What a slot contributes to the atoms of its type. -/
def Slot.atom : Slot → Atom
  | .prim k => .prim k
  | .str => .text
  | .enum cs => .choice (atomsC cs)

theorem atomsF_eq (fs : List (Str × Ty)) : atomsF fs = atomsL (fs.map (·.2)) := by
  induction fs with
  | nil => simp [atomsF, atomsL]
  | cons f fs ih =>
    obtain ⟨a, b⟩ := f
    simp [atomsF, atomsL, atomsP, ih]

theorem atomsC_eq (cs : List (Str × Ty)) : atomsC cs = cs.map fun c => atoms c.2 := by
  induction cs with
  | nil => simp [atomsC]
  | cons c cs ih =>
    obtain ⟨a, b⟩ := c
    simp [atomsC, atomsP, ih]

theorem atoms_slots (t : Ty) : ∀ p : Path, atoms t = (slots t p).map fun x => x.2.atom := by
  have list : ∀ cs : List Ty, (∀ c ∈ cs, ∀ p : Path, atoms c = (slots c p).map fun x => x.2.atom) →
      ∀ (p : Path) (i : Nat), atomsL cs = (slotsL cs p i).map fun x => x.2.atom := by
    intro cs
    induction cs with
    | nil => intro _ p i; simp [atomsL, slotsL]
    | cons c cs ih =>
      intro h p i
      rw [atomsL, slotsL, List.map_append, ← h c (by simp), ← ih (fun d hd => h d (by simp [hd]))]
  induction t using Ty.ind with
  | unit => simp [atoms, slots]
  | prim k => simp [atoms, slots, Slot.atom]
  | string => simp [atoms, slots, Slot.atom]
  | tuple cs ih => intro p; rw [atoms, slots]; exact list cs ih p 0
  | struct fs ih =>
    intro p
    rw [atoms, slots, atomsF_eq, slotsF_eq]
    exact list _ (by simpa using fun b a hb => ih (a, b) hb) p 0
  | enum cs ih => simp [atoms, slots, Slot.atom]

/-- The paths `a` and `b` lead to the same atom of a `t` at path `p` and of a `u` at path `q`. -/
inductive Routes : Ty → Path → Ty → Path → Path → Path → Prop
  | slot {t u : Ty} {p q a b : Path} {i : Nat} {s s' : Slot} : (slots t p)[i]? = some (a, s) →
      (slots u q)[i]? = some (b, s') → Routes t p u q a b
  | case {t u : Ty} {p q a b a' b' : Path} {i k : Nat} {cs ds : List (Str × Ty)} {c d : Str × Ty} :
      (slots t p)[i]? = some (a, .enum cs) → (slots u q)[i]? = some (b, .enum ds) → cs[k]? = some c →
      ds[k]? = some d → Routes c.2 (a ++ [k]) d.2 (b ++ [k]) a' b' → Routes t p u q a' b'

theorem Routes.right {t u : Ty} {p q a b : Path} (h : Routes t p u q a b) : q <+: b := by
  induction h with
  | slot _ h2 =>
    obtain ⟨r, hr⟩ := slots_prefix _ _ _ (List.mem_of_getElem? h2)
    exact ⟨r, hr.symm⟩
  | case _ h2 _ _ _ ih =>
    obtain ⟨r, hr⟩ := slots_prefix _ _ _ (List.mem_of_getElem? h2)
    exact (show _ <+: _ from ⟨r, hr.symm⟩).trans ((List.prefix_append _ _).trans ih)

/-- Two slots on the way to one path are the same slot. -/
theorem slots_same {t : Ty} {p b : Path} {i j : Nat} {x y : Path × Slot} (hi : (slots t p)[i]? = some x)
    (hj : (slots t p)[j]? = some y) (h1 : x.1 <+: b) (h2 : y.1 <+: b) : i = j := by
  have key : ∀ {i j : Nat} {x y : Path × Slot}, (slots t p)[i]? = some x → (slots t p)[j]? = some y →
      x.1 <+: b → y.1 <+: b → ¬ i < j := by
    intro i j x y hi hj h1 h2 hlt
    obtain ⟨a1, a2⟩ := List.getElem?_eq_some_iff.1 hi
    obtain ⟨b1, b2⟩ := List.getElem?_eq_some_iff.1 hj
    have h := List.pairwise_iff_getElem.1 (slots_apart t p) i j a1 b1 hlt
    rw [a2, b2] at h
    rcases List.prefix_or_prefix_of_prefix h1 h2 with h3 | h3
    · exact h.1 h3
    · exact h.2 h3
  have := key hi hj h1 h2
  have := key hj hi h2 h1
  omega

theorem Routes.unique {t u : Ty} {p q a b : Path} (h : Routes t p u q a b) :
    ∀ {a2 : Path}, Routes t p u q a2 b → a = a2 := by
  induction h with
  | slot h1 h2 =>
    intro a2 h
    cases h with
    | slot g1 g2 =>
      have := slots_same h2 g2 (List.prefix_refl _) (List.prefix_refl _)
      subst this
      rw [h1] at g1
      cases g1
      rfl
    | case g1 g2 g3 g4 g5 =>
      have h6 := g5.right
      have := slots_same h2 g2 (List.prefix_refl _) ((List.prefix_append _ _).trans h6)
      subst this
      rw [h2] at g2
      cases g2
      have := h6.length_le
      rw [List.length_append, List.length_singleton] at this
      omega
  | case h1 h2 h3 h4 h5 ih =>
    have h6 := h5.right
    intro a2 h
    cases h with
    | slot g1 g2 =>
      have := slots_same h2 g2 ((List.prefix_append _ _).trans h6) (List.prefix_refl _)
      subst this
      rw [h2] at g2
      cases g2
      have := h6.length_le
      rw [List.length_append, List.length_singleton] at this
      omega
    | case g1 g2 g3 g4 g5 =>
      have g6 := g5.right
      have := slots_same h2 g2 ((List.prefix_append _ _).trans h6) ((List.prefix_append _ _).trans g6)
      subst this
      rw [h1] at g1
      rw [h2] at g2
      cases g1
      cases g2
      have := List.prefix_or_prefix_of_prefix h6 g6
      rw [List.prefix_append_right_inj, List.prefix_append_right_inj] at this
      have hk : ∀ x y : Nat, [x] <+: [y] ∨ [y] <+: [x] → x = y := by
        rintro x y (h | h)
        · exact (List.cons_prefix_cons.1 h).1
        · exact (List.cons_prefix_cons.1 h).1.symm
      obtain rfl := hk _ _ this
      rw [h3] at g3
      rw [h4] at g4
      cases g3
      cases g4
      exact ih g5

/-! ## Layouts -/

theorem slot_below {t : Ty} {p : Path} {n : Nat} (hi : Inhab t) (hn : nodes t ≤ n) {x : Path × Slot}
    (hx : x ∈ slots t p) : Inhab x.2.ty ∧ nodes x.2.ty ≤ n := by
  refine slots_inherit (Q := fun s => Inhab s ∧ nodes s ≤ n) ?_ ?_ t p ⟨hi, hn⟩ x hx
  · rintro cs ⟨h1, h2⟩ c hc
    cases h1 with
    | tuple _ h => exact ⟨h c hc, by have := nodes_mem_tuple hc; omega⟩
  · rintro fs ⟨h1, h2⟩ f hf
    cases h1 with
    | struct _ h => exact ⟨h f hf, by have := nodesF_mem hf; rw [nodes] at h2; omega⟩

theorem case_below {cs : List (Str × Ty)} {n : Nat} (hi : Inhab (.enum cs)) (hn : nodes (.enum cs) ≤ n)
    {c : Str × Ty} (hc : c ∈ cs) : Inhab c.2 ∧ nodes c.2 < n := by
  cases hi with
  | enum _ h => exact ⟨h c hc, by have := nodesF_mem hc; rw [nodes] at hn; omega⟩

theorem atomsC_get {cs ds : List (Str × Ty)} (h : atomsC cs = atomsC ds) {k : Nat} {c d : Str × Ty}
    (hc : cs[k]? = some c) (hd : ds[k]? = some d) : atoms c.2 = atoms d.2 := by
  rw [atomsC_eq, atomsC_eq] at h
  have := congrArg (·[k]?) h
  simpa [hc, hd] using this

theorem atomsC_length {cs ds : List (Str × Ty)} (h : atomsC cs = atomsC ds) : cs.length = ds.length := by
  rw [atomsC_eq, atomsC_eq] at h
  simpa using congrArg List.length h

theorem calc_twin (chk : Bool) : ∀ (n : Nat) {t u : Ty} {p q : Path} {R : Path → Path → Prop} {l m : Layout},
    nodes t ≤ n → nodes t < 2 ^ 59 → nodes u < 2 ^ 59 → Inhab t → Inhab u → atoms t = atoms u →
    (∀ a b, Routes t p u q a b → R a b) → calculateLayout chk t p = .ok l → calculateLayout chk u q = .ok m →
    LayoutTwin R l m := by
  intro n
  induction n with
  | zero => intro t _ _ _ _ _ _ hn; have := nodes_pos t; omega
  | succ n ih =>
    intro t u p q R l m hn ht hu hit hiu ha hR hl hm
    obtain ⟨a1, a2, _⟩ := unroll_and_layout chk t hit ht p
    obtain ⟨b1, b2, _⟩ := unroll_and_layout chk u hiu hu q
    have hs : (slots t p).map (fun x => x.2.atom) = (slots u q).map (fun x => x.2.atom) := by
      rw [← atoms_slots, ← atoms_slots, ha]
    have hB : Beside (fun x y : Path × Slot => x.2.atom = y.2.atom ∧ R x.1 y.1 ∧
        ∀ cs ds, x.2 = .enum cs → y.2 = .enum ds →
          Beside (LayoutTwin R) (layouts chk cs x.1) (layouts chk ds y.1)) (slots t p) (slots u q) := by
      refine .of_get (by simpa using congrArg List.length hs) ?_
      rintro i ⟨a, s⟩ ⟨b, s'⟩ hx hy
      have hat : s.atom = s'.atom := by
        have := congrArg (·[i]?) hs
        simpa [hx, hy] using this
      refine ⟨hat, hR _ _ (.slot hx hy), ?_⟩
      rintro cs ds rfl rfl
      have hmx := List.mem_of_getElem? hx
      have hmy := List.mem_of_getElem? hy
      obtain ⟨_, c2, c3⟩ := a2 _ _ hmx
      obtain ⟨_, d2, d3⟩ := b2 _ _ hmy
      have hc : atomsC cs = atomsC ds := Atom.choice.inj hat
      refine .of_get (by rw [c2, d2, atomsC_length hc]) ?_
      intro k l' m' hk hk'
      have k1 := (List.getElem?_eq_some_iff.1 hk).1
      have k2 := (List.getElem?_eq_some_iff.1 hk').1
      have e1 : cs[k]? = some cs[k] := List.getElem?_eq_getElem _
      have e2 : ds[k]? = some ds[k] := List.getElem?_eq_getElem _
      obtain ⟨l2, f1, f2, _⟩ := c3 k _ e1
      obtain ⟨m2, g1, g2, _⟩ := d3 k _ e2
      rw [hk] at f1
      rw [hk'] at g1
      cases f1
      cases g1
      have x1 := slot_below hit hn hmx
      have x2 := slot_below hiu (Nat.le_of_lt_succ (Nat.lt_succ_of_lt hu)) hmy
      have x3 := slot_below hit (Nat.le_of_lt_succ (Nat.lt_succ_of_lt ht)) hmx
      have y1 := case_below x1.1 x1.2 (List.mem_of_getElem? e1)
      have y2 := case_below x2.1 x2.2 (List.mem_of_getElem? e2)
      have y3 := case_below x3.1 x3.2 (List.mem_of_getElem? e1)
      exact ih (by omega) y3.2 y2.2 y1.1 y2.1 (atomsC_get hc e1 e2)
        (fun a' b' h => hR _ _ (.case hx hy e1 e2 h)) f2 g2
    rw [calculateLayout, a1] at hl
    rw [calculateLayout, b1] at hm
    refine finish_twin (fx := (slots t p).filterMap Slot.fixed) (gx := (slots u q).filterMap Slot.fixed)
      (bs := (slots t p).filterMap Slot.bits) (cs := (slots u q).filterMap Slot.bits)
      (vs := (slots t p).filterMap (Slot.var chk)) (ws := (slots u q).filterMap (Slot.var chk)) ?_ ?_ ?_ hl hm
    · refine hB.filterMap ?_
      rintro ⟨a, s⟩ ⟨b, s'⟩ ⟨h1, h2, _⟩
      cases s <;> cases s' <;> simp [Slot.atom] at h1
      · subst h1; exact Or.inr ⟨_, _, rfl, rfl, rfl, rfl, fun _ => h2⟩
      · exact Or.inr ⟨_, _, rfl, rfl, rfl, rfl, fun _ => h2⟩
      · exact Or.inl ⟨rfl, rfl⟩
    · refine hB.filterMap ?_
      rintro ⟨a, s⟩ ⟨b, s'⟩ ⟨h1, h2, _⟩
      cases s <;> cases s' <;> simp [Slot.atom] at h1
      · exact Or.inl ⟨rfl, rfl⟩
      · exact Or.inl ⟨rfl, rfl⟩
      · exact Or.inr ⟨_, _, rfl, rfl, by simp only [atomsC_length h1], rfl, rfl, h2⟩
    · refine hB.filterMap ?_
      rintro ⟨a, s⟩ ⟨b, s'⟩ ⟨h1, h2, h3⟩
      cases s <;> cases s' <;> simp [Slot.atom] at h1
      · exact Or.inl ⟨rfl, rfl⟩
      · exact Or.inr ⟨_, _, rfl, rfl, by rw [VarTwin]; exact h2⟩
      · exact Or.inr ⟨_, _, rfl, rfl, by rw [VarTwin]; exact ⟨h2, layoutsTwin_beside.2 (h3 _ _ rfl rfl)⟩⟩

/-! ## Values -/

/-- Leaf lists with the same contents, however they continue, have the same length, and each leaf of the second
is a leaf of the first at a related path. -/
def Pairs (Q : Path → Path → Prop) (L M : List (Path × Leaf)) : Prop :=
  ∀ r r' : List Leaf, L.map (·.2) ++ r = M.map (·.2) ++ r' →
    r = r' ∧ ∀ b x, (b, x) ∈ M → ∃ a, Q a b ∧ (a, x) ∈ L

theorem pairs_flatMap {α β : Type} {Q : Path → Path → Prop} {f : α → List (Path × Leaf)}
    {g : β → List (Path × Leaf)} {xs : List α} {ys : List β} (h : Beside (fun x y => Pairs Q (f x) (g y)) xs ys) :
    Pairs Q (xs.flatMap f) (ys.flatMap g) := by
  induction h with
  | nil => intro r r' h; exact ⟨by simpa using h, by simp⟩
  | cons h _ ih =>
    intro r r' he
    rw [List.flatMap_cons, List.flatMap_cons, List.map_append, List.map_append, List.append_assoc,
      List.append_assoc] at he
    obtain ⟨h1, h2⟩ := h _ _ he
    obtain ⟨h3, h4⟩ := ih _ _ h1
    refine ⟨h3, ?_⟩
    intro b x hb
    rw [List.flatMap_cons, List.mem_append] at hb
    rcases hb with hb | hb
    · obtain ⟨a, k1, k2⟩ := h2 b x hb
      exact ⟨a, k1, by simp [k2]⟩
    · obtain ⟨a, k1, k2⟩ := h4 b x hb
      exact ⟨a, k1, by rw [List.flatMap_cons, List.mem_append]; exact Or.inr k2⟩

theorem typed_prim {k : Prim} {v : Val} (h : Typed (.prim k) v) : ∃ x, v = .prim x := by
  cases h with
  | prim x => exact ⟨x, rfl⟩

theorem pairs_values : ∀ (n : Nat) {t u : Ty} {p q : Path} {v w : Val}, nodes t ≤ n → atoms t = atoms u →
    Typed t v → Typed u w → Pairs (Routes t p u q) (leaves v p) (leaves w q) := by
  intro n
  induction n with
  | zero => intro t _ _ _ _ _ hn; have := nodes_pos t; omega
  | succ n ih =>
    intro t u p q v w hn ha hv hw
    obtain ⟨e, e1, e2, _⟩ := typed_slots hv p
    obtain ⟨e', f1, f2, _⟩ := typed_slots hw q
    have hs : (slots t p).map (fun x => x.2.atom) = (slots u q).map (fun x => x.2.atom) := by
      rw [← atoms_slots, ← atoms_slots, ha]
    rw [e2, f2]
    refine pairs_flatMap (.of_get (by simpa using congrArg List.length hs) ?_)
    rintro i ⟨a, s⟩ ⟨b, s'⟩ hx hy
    have hat : s.atom = s'.atom := by
      have := congrArg (·[i]?) hs
      simpa [hx, hy] using this
    have ty1 := e1 _ (List.mem_of_getElem? hx)
    have ty2 := f1 _ (List.mem_of_getElem? hy)
    have hr : Routes t p u q a b := .slot hx hy
    have hsz : nodes s.ty ≤ n + 1 :=
      slots_inherit (Q := fun s => nodes s ≤ n + 1)
        (fun cs h c hc => by have := nodes_mem_tuple hc; omega)
        (fun fs h f hf => by have := nodesF_mem hf; rw [nodes] at h; omega) t p hn _ (List.mem_of_getElem? hx)
    dsimp only at ty1 ty2 ⊢
    generalize e a = v' at ty1
    generalize e' b = w' at ty2
    cases s with
    | prim k =>
      cases s' <;> simp [Slot.atom] at hat
      obtain ⟨x1, rfl⟩ := typed_prim ty1
      obtain ⟨x2, rfl⟩ := typed_prim ty2
      intro r r' h
      simp only [leaves, List.map_cons, List.map_nil, List.cons_append, List.nil_append, List.cons.injEq] at h
      refine ⟨h.2, ?_⟩
      intro b' x hb
      simp only [leaves, List.mem_singleton, Prod.mk.injEq] at hb
      exact ⟨a, hb.1 ▸ hr, by simp [leaves, hb.2, h.1]⟩
    | str =>
      cases s' <;> simp [Slot.atom] at hat
      rw [Slot.ty] at ty1 ty2
      cases ty1
      cases ty2
      intro r r' h
      simp only [leaves, List.map_cons, List.map_nil, List.cons_append, List.nil_append, List.cons.injEq] at h
      refine ⟨h.2, ?_⟩
      intro b' x hb
      simp only [leaves, List.mem_singleton, Prod.mk.injEq] at hb
      exact ⟨a, hb.1 ▸ hr, by simp [leaves, hb.2, h.1]⟩
    | enum cs =>
      cases s' <;> simp [Slot.atom] at hat
      rw [Slot.ty] at ty1 ty2 hsz
      cases ty1 with
      | @enum _ k c v2 g1 g2 =>
        cases ty2 with
        | @enum _ k' d w2 j1 j2 =>
          intro r r' h
          simp only [leaves, List.map_cons, List.cons_append, List.cons.injEq, Leaf.tag.injEq] at h
          obtain ⟨rfl, h⟩ := h
          have hc : nodes c.2 ≤ n := by
            have := nodesF_mem (List.mem_of_getElem? g1)
            rw [nodes] at hsz
            omega
          obtain ⟨m1, m2⟩ := ih hc (atomsC_get hat g1 j1) g2 j2 r r' h
          refine ⟨m1, ?_⟩
          intro b' x hb
          rw [leaves, List.mem_cons] at hb
          rcases hb with hb | hb
          · cases hb
            exact ⟨a, hr, by simp [leaves]⟩
          · obtain ⟨a', o1, o2⟩ := m2 b' x hb
            exact ⟨a', .case hx hy g1 j1 o1, by rw [leaves]; exact List.mem_cons_of_mem _ o2⟩

/-! ## Sources -/

open Classical in
/-- The answers of a source at the related paths. -/
noncomputable def rerouted (Q : Path → Path → Prop) (src : DataSource) : DataSource where
  prim k b := if h : ∃ a, Q a b then src.prim k h.choose else .error .panic
  tag b := if h : ∃ a, Q a b then src.tag h.choose else .error .panic
  length b := if h : ∃ a, Q a b then src.length h.choose else .error .panic
  bytes b := if h : ∃ a, Q a b then src.bytes h.choose else .error .panic

theorem rerouted_alike {Q : Path → Path → Prop} (hQ : ∀ {a a2 b}, Q a b → Q a2 b → a = a2) (src : DataSource) :
    Alike Q src (rerouted Q src) := by
  intro p q h
  have he : ∃ a, Q a q := ⟨p, h⟩
  have := hQ h he.choose_spec
  simp only [rerouted, dif_pos he, ← this]
  simp

theorem rerouted_presents {t u : Ty} {v w : Val} (ha : atoms t = atoms u) (hv : Typed t v) (hw : Typed u w)
    (hc : contents v = contents w) {src : DataSource} (hs : Presents src v []) :
    Presents (rerouted (Routes t [] u []) src) w [] := by
  intro b x hb
  obtain ⟨_, h2⟩ := pairs_values (p := []) (q := []) _ (Nat.le_refl _) ha hv hw [] []
    (by simpa [contents] using hc)
  obtain ⟨a, h3, h4⟩ := h2 b x hb
  have h5 := hs a x h4
  obtain ⟨k1, k2, k3, k4⟩ := rerouted_alike (Q := Routes t [] u []) (fun h h' => h.unique h') src a b h3
  cases x with
  | prim v => rw [Answers, ← k1]; exact h5
  | str bs => rw [Answers, ← k3, ← k4]; exact h5
  | tag i => rw [Answers, ← k2]; exact h5

theorem grouping {chk : Bool} {t u : Ty} (hit : Inhab t) (hiu : Inhab u) (ht : nodes t < 2 ^ 59)
    (hu : nodes u < 2 ^ 59) (ha : atoms t = atoms u) {l m : Layout} (hl : Layout.new chk t = .ok l)
    (hm : Layout.new chk u = .ok m) : LayoutTwin (Routes t [] u []) l m :=
  calc_twin chk _ (Nat.le_refl _) ht hu hit hiu ha (fun _ _ h => h) hl hm

end Verif
