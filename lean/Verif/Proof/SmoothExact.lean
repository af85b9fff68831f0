import Verif.Proof.Aligned
import Verif.Proof.Smooth

/-! # Values whose encoding is misaligned -/

namespace Verif

open Spec

/-! ## Sources of values -/

mutual
/-- What the value holds at a path. -/
def ask : Val → Path → Option Leaf
  | .unit, _ => none
  | .prim v, p => if p = [] then some (.prim v) else none
  | .str bs, p => if p = [] then some (.str bs) else none
  | .seq _, [] => none
  | .seq vs, i :: p => askFrom vs i p
  | .case i _, [] => some (.tag i)
  | .case i v, j :: p => if i = j then ask v p else none
def askFrom : List Val → Nat → Path → Option Leaf
  | [], _, _ => none
  | v :: _, 0, p => ask v p
  | _ :: vs, i + 1, p => askFrom vs i p
end

mutual
theorem ask_leaves : ∀ (v : Val) (p q : Path) (l : Leaf), (q, l) ∈ leaves v p → ∃ r, q = p ++ r ∧ ask v r = some l
  | .unit, p, q, l, h => by simp [leaves] at h
  | .prim v, p, q, l, h => by
    simp only [leaves, List.mem_singleton, Prod.mk.injEq] at h
    exact ⟨[], by simp [h.1], by rw [ask, if_pos rfl, h.2]⟩
  | .str bs, p, q, l, h => by
    simp only [leaves, List.mem_singleton, Prod.mk.injEq] at h
    exact ⟨[], by simp [h.1], by rw [ask, if_pos rfl, h.2]⟩
  | .seq vs, p, q, l, h => by
    rw [leaves] at h
    obtain ⟨k, r, h1, h2⟩ := ask_leavesFrom vs p 0 q l h
    exact ⟨k :: r, by simpa using h1, by rw [ask]; exact h2⟩
  | .case i v, p, q, l, h => by
    rw [leaves, List.mem_cons] at h
    rcases h with h | h
    · simp only [Prod.mk.injEq] at h
      exact ⟨[], by simp [h.1], by rw [ask, h.2]⟩
    · obtain ⟨r, h1, h2⟩ := ask_leaves v (p ++ [i]) q l h
      exact ⟨i :: r, by rw [h1]; simp, by rw [ask, if_pos rfl]; exact h2⟩
theorem ask_leavesFrom : ∀ (vs : List Val) (p : Path) (i : Nat) (q : Path) (l : Leaf), (q, l) ∈ leavesFrom vs p i →
    ∃ k r, q = p ++ (i + k) :: r ∧ askFrom vs k r = some l
  | [], _, _, _, _, h => by simp [leavesFrom] at h
  | v :: vs, p, i, q, l, h => by
    rw [leavesFrom, List.mem_append] at h
    rcases h with h | h
    · obtain ⟨r, h1, h2⟩ := ask_leaves v (p ++ [i]) q l h
      exact ⟨0, r, by rw [h1]; simp, by rw [askFrom]; exact h2⟩
    · obtain ⟨k, r, h1, h2⟩ := ask_leavesFrom vs p (i + 1) q l h
      exact ⟨k + 1, r, by rw [h1, show i + 1 + k = i + (k + 1) by omega], by rw [askFrom]; exact h2⟩
end

/-- A source that presents the value. -/
def valSource (v : Val) : DataSource where
  prim k q := match ask v q with
    | some (.prim x) => if h : x.kind = k then .ok (h ▸ x.val) else .error .panic
    | _ => .error .panic
  tag q := match ask v q with
    | some (.tag i) => .ok i
    | _ => .error .panic
  length q := match ask v q with
    | some (.str bs) => .ok bs.length
    | _ => .error .panic
  bytes q := match ask v q with
    | some (.str bs) => .ok bs
    | _ => .error .panic

theorem valSource_presents (v : Val) : Presents (valSource v) v [] := by
  intro q l h
  obtain ⟨r, h1, h2⟩ := ask_leaves v [] q l h
  rw [List.nil_append] at h1
  subst h1
  cases l with
  | prim x => simp [Answers, valSource, h2]
  | str bs => simp [Answers, valSource, h2]
  | tag i => simp [Answers, valSource, h2]

/-! ## Making values part by part -/

/-- Some value of the type with short strings makes all sources that present it satisfy `Q`. -/
def Makes (t : Ty) (p : Path) (Q : DataSource → Prop) : Prop :=
  ∃ v, Typed t v ∧ (∀ q bs, (q, Leaf.str bs) ∈ leaves v p → bs.length < 16) ∧ ∀ src, Presents src v p → Q src

theorem Makes.mono {t : Ty} {p : Path} {Q R : DataSource → Prop} (h : Makes t p Q) (hq : ∀ src, Q src → R src) :
    Makes t p R := by
  obtain ⟨v, h1, h2, h3⟩ := h
  exact ⟨v, h1, h2, fun src hs => hq src (h3 src hs)⟩

theorem makes_str (p : Path) {n : Nat} (hn : n < 16) : Makes .string p fun src => src.length p = .ok n := by
  refine ⟨.str (List.replicate n 0), .str _, ?_, ?_⟩
  · intro q bs h
    simp only [leaves, List.mem_singleton, Prod.mk.injEq, Leaf.str.injEq] at h
    rw [h.2, List.length_replicate]; exact hn
  · intro src hs
    have := (hs p (.str (List.replicate n 0)) (by simp [leaves])).1
    rwa [List.length_replicate] at this

theorem makes_case {cs : List (Str × Ty)} {i : Nat} {c : Str × Ty} {p : Path} {Q : DataSource → Prop}
    (hc : cs[i]? = some c) (h : Makes c.2 (p ++ [i]) Q) : Makes (.enum cs) p fun src => src.tag p = .ok i ∧ Q src := by
  obtain ⟨v, h1, h2, h3⟩ := h
  refine ⟨.case i v, .enum hc h1, ?_, ?_⟩
  · intro q bs hm
    rw [leaves, List.mem_cons] at hm
    rcases hm with hm | hm
    · cases hm
    · exact h2 q bs hm
  · intro src hs
    exact ⟨hs p (.tag i) (by simp [leaves]), h3 src fun q l hm => hs q l (by rw [leaves]; exact List.mem_cons_of_mem _ hm)⟩

/-- A primitive value of each kind. -/
theorem makes_prim (k : Prim) (p : Path) : Makes (.prim k) p fun _ => True := by
  have : ∃ v : PrimVal, v.kind = k := by
    have h : Nonempty k.Val := by
      cases k
      all_goals first
        | exact ⟨false⟩
        | exact ⟨'a'⟩
        | exact ⟨(0 : BitVec 8)⟩
        | exact ⟨(0 : BitVec 16)⟩
        | exact ⟨(0 : BitVec 32)⟩
        | exact ⟨(0 : BitVec 64)⟩
        | exact ⟨(0 : BitVec 128)⟩
    exact h.elim fun x => ⟨⟨k, x⟩, rfl⟩
  obtain ⟨v, rfl⟩ := this
  refine ⟨.prim v, .prim v, ?_, fun _ _ => trivial⟩
  intro q bs h
  simp [leaves] at h

/-- Values of the components together are a value. -/
theorem makes_slots (t : Ty) : ∀ (p : Path) (Q : Path × Slot → DataSource → Prop),
    (∀ x ∈ slots t p, Makes x.2.ty x.1 (Q x)) → Makes t p fun src => ∀ x ∈ slots t p, Q x src := by
  have list : ∀ cs : List Ty, (∀ c ∈ cs, ∀ (p : Path) (Q : Path × Slot → DataSource → Prop),
        (∀ x ∈ slots c p, Makes x.2.ty x.1 (Q x)) → Makes c p fun src => ∀ x ∈ slots c p, Q x src) →
      ∀ (p : Path) (i : Nat) (Q : Path × Slot → DataSource → Prop),
      (∀ x ∈ slotsL cs p i, Makes x.2.ty x.1 (Q x)) → ∃ vs : List Val, vs.length = cs.length ∧
        (∀ (k : Nat) (c : Ty) (v : Val), cs[k]? = some c → vs[k]? = some v → Typed c v) ∧
        (∀ q bs, (q, Leaf.str bs) ∈ leavesFrom vs p i → bs.length < 16) ∧
        ∀ src, (∀ q l, (q, l) ∈ leavesFrom vs p i → Answers src q l) → ∀ x ∈ slotsL cs p i, Q x src := by
    intro cs
    induction cs with
    | nil => intro _ p i Q _; exact ⟨[], rfl, by simp, by simp [leavesFrom], by simp [slotsL]⟩
    | cons c cs ih =>
      intro hc p i Q h
      rw [slotsL] at h
      obtain ⟨v, a1, a2, a3⟩ := hc c (by simp) (p ++ [i]) Q fun x hx => h x (List.mem_append_left _ hx)
      obtain ⟨vs, b1, b2, b3, b4⟩ := ih (fun d hd => hc d (by simp [hd])) p (i + 1) Q
        fun x hx => h x (List.mem_append_right _ hx)
      refine ⟨v :: vs, by simp [b1], ?_, ?_, ?_⟩
      · intro k d w hd hw
        cases k with
        | zero => simp at hd hw; subst hd hw; exact a1
        | succ k => exact b2 k d w (by simpa using hd) (by simpa using hw)
      · intro q bs hm
        rw [leavesFrom, List.mem_append] at hm
        rcases hm with hm | hm
        · exact a2 q bs hm
        · exact b3 q bs hm
      · intro src hs x hx
        rw [slotsL, List.mem_append] at hx
        rcases hx with hx | hx
        · exact a3 src (fun q l hm => hs q l (by rw [leavesFrom]; exact List.mem_append_left _ hm)) x hx
        · exact b4 src (fun q l hm => hs q l (by rw [leavesFrom]; exact List.mem_append_right _ hm)) x hx
  induction t using Ty.ind with
  | unit => intro p Q _; exact ⟨.unit, .unit, by simp [leaves], by simp [slots]⟩
  | prim k =>
    intro p Q h
    rw [slots] at h ⊢
    exact (h _ (List.mem_singleton.2 rfl)).mono fun src hs x hx => by rw [List.mem_singleton.1 hx]; exact hs
  | string =>
    intro p Q h
    rw [slots] at h ⊢
    exact (h _ (List.mem_singleton.2 rfl)).mono fun src hs x hx => by rw [List.mem_singleton.1 hx]; exact hs
  | enum cs _ =>
    intro p Q h
    rw [slots] at h ⊢
    exact (h _ (List.mem_singleton.2 rfl)).mono fun src hs x hx => by rw [List.mem_singleton.1 hx]; exact hs
  | tuple cs ih =>
    intro p Q h
    rw [slots] at h ⊢
    obtain ⟨vs, h1, h2, h3, h4⟩ := list cs ih p 0 Q h
    exact ⟨.seq vs, .tuple h1 h2, by rw [leaves]; exact h3, fun src hs => h4 src (by
      unfold Presents at hs; rw [leaves] at hs; exact hs)⟩
  | struct fs ih =>
    intro p Q h
    rw [slots, slotsF_eq] at h ⊢
    obtain ⟨vs, h1, h2, h3, h4⟩ := list (fs.map (·.2)) (by simpa using fun b a hb => ih (a, b) hb) p 0 Q h
    refine ⟨.seq vs, .struct (by simpa using h1) ?_, by rw [leaves]; exact h3, fun src hs => h4 src (by
      unfold Presents at hs; rw [leaves] at hs; exact hs)⟩
    intro i f v hf hv
    exact h2 i f.2 v (by rw [List.getElem?_map, hf]; rfl) hv

theorem makes_any' (n : Nat) : ∀ (t : Ty), nodes t ≤ n → Inhab t → ∀ p, Makes t p fun _ => True := by
  induction n with
  | zero => intro t h; have := nodes_pos t; omega
  | succ n ih =>
    intro t hn hi p
    have hinh := slots_inherit (Q := Inhab) (fun cs h => by cases h with | tuple _ h => exact h)
      (fun fs h => by cases h with | struct _ h => exact h) t p hi
    have hno := slots_inherit (Q := fun u => nodes u ≤ nodes t)
      (fun cs h c hc => by have := nodes_mem_tuple hc; omega)
      (fun fs h f hf => by have := nodesF_mem hf; rw [nodes] at h; omega) t p (Nat.le_refl _)
    refine (makes_slots t p (fun _ _ => True) ?_).mono fun _ _ => trivial
    intro x hx
    have h1 := hinh x hx
    have h2 := hno x hx
    obtain ⟨q, s⟩ := x
    cases s with
    | prim k => exact makes_prim k q
    | str => exact (makes_str q (n := 0) (by decide)).mono fun _ _ => trivial
    | enum cs =>
      simp only [Slot.ty] at h1 h2 ⊢
      cases h1 with
      | enum hne hall =>
        cases cs with
        | nil => exact absurd rfl hne
        | cons c cs =>
          have h3 := nodesF_mem (f := c) (fs := c :: cs) (by simp)
          rw [nodes] at h2
          exact (makes_case (cs := c :: cs) (i := 0) rfl (ih c.2 (by omega) (hall c (by simp)) _)).mono
            fun _ _ => trivial

theorem makes_any {t : Ty} (hi : Inhab t) (p : Path) : Makes t p fun _ => True := makes_any' _ t (Nat.le_refl _) hi p

/-- The variable-size fields of a layout and the slots of the type. -/
theorem var_slot {chk : Bool} {t : Ty} (hi : Inhab t) (hn : nodes t < 2 ^ 59) {p : Path} {l : Layout}
    (hl : calculateLayout chk t p = .ok l) {v : VarField} (hv : v ∈ l.vars) :
    (∃ r fi, v = .string r fi ∧ (r, .str) ∈ slots t p) ∨
    ∃ r fi cs es, v = .enum r fi cs ∧ (r, .enum es) ∈ slots t p ∧ cs ≠ [] ∧
      ∀ (k : Nat) (c : Layout), cs[k]? = some c →
        ∃ e, es[k]? = some e ∧ calculateLayout chk e.2 (r ++ [k]) = .ok c ∧ Inhab e.2 ∧ nodes e.2 < nodes t := by
  obtain ⟨hu, hcases, l', hl', hfacts⟩ := unroll_and_layout chk t hi hn p
  rw [hl] at hl'
  cases hl'
  have h1 := hfacts.vars.mem_iff.1 (List.mem_map_of_mem (f := (·.setFixedIdx 0)) hv)
  obtain ⟨w, hw, he⟩ := List.mem_map.1 h1
  obtain ⟨⟨xq, xs⟩, hx, hxw⟩ := List.mem_filterMap.1 hw
  cases xs with
  | prim pr => simp [Slot.var] at hxw
  | str =>
    simp [Slot.var] at hxw; subst hxw
    cases v with
    | string r fi => simp [VarField.setFixedIdx] at he; subst he; exact Or.inl ⟨_, _, rfl, hx⟩
    | enum r fi cs => simp [VarField.setFixedIdx] at he
  | enum es =>
    simp [Slot.var] at hxw
    subst hxw
    cases v with
    | string r fi => simp [VarField.setFixedIdx] at he
    | enum r fi cs =>
      simp [VarField.setFixedIdx] at he
      obtain ⟨rfl, rfl⟩ := he
      obtain ⟨_, e2, e3⟩ := hcases _ es hx
      have hne : es ≠ [] := by
        have := slots_inherit (Q := Inhab) (fun cs h => by cases h with | tuple _ h => exact h)
          (fun fs h => by cases h with | struct _ h => exact h) t p hi _ hx
        cases this with | enum h _ => exact h
      have hne' : layouts chk es xq ≠ [] := fun h => hne (List.length_eq_zero_iff.1 (by rw [← e2, h]; rfl))
      refine Or.inr ⟨_, _, _, es, rfl, hx, hne', fun k c hk => ?_⟩
      have hkl := (List.getElem?_eq_some_iff.1 hk).1
      have hes : es[k]? = some es[k] := List.getElem?_eq_getElem (by omega)
      obtain ⟨l', f1, f2, f3⟩ := e3 k _ hes
      rw [hk] at f1
      cases f1
      have hem : es[k]'(by omega) ∈ es := List.getElem_mem _
      have hinh := slots_inherit (Q := Inhab) (fun cs h => by cases h with | tuple _ h => exact h)
        (fun fs h => by cases h with | struct _ h => exact h) t p hi _ hx
      have hno := slots_inherit (Q := fun u => nodes u ≤ nodes t)
        (fun cs h c hc => by have := nodes_mem_tuple hc; omega)
        (fun fs h f hf => by have := nodesF_mem hf; rw [nodes] at h; omega) t p (Nat.le_refl _) _ hx
      refine ⟨_, hes, f2, ?_, ?_⟩
      · cases hinh with | enum _ h => exact h _ hem
      · have := nodesF_mem hem
        simp only [Slot.ty, nodes] at hno
        omega

theorem vars_nodup {chk : Bool} {t : Ty} (hi : Inhab t) (hn : nodes t < 2 ^ 59) {p : Path} {l : Layout}
    (hl : calculateLayout chk t p = .ok l) : (l.vars.map (·.path)).Nodup := by
  obtain ⟨hu, hcases, l', hl', hfacts⟩ := unroll_and_layout chk t hi hn p
  rw [hl] at hl'
  cases hl'
  have h1 := (hfacts.vars.map (·.path)).nodup_iff.2
  simp only [List.map_map, Function.comp_def, VarField.setFixedIdx_path] at h1
  apply h1
  have h2 := slots_nodup t p
  generalize slots t p = xs at h2
  induction xs with
  | nil => simp
  | cons x xs ih =>
    rw [List.map_cons, List.nodup_cons] at h2
    have key : ∀ y, Slot.var chk x = some y → y.path = x.1 := by
      obtain ⟨q, s⟩ := x
      intro y hy
      cases s <;> simp [Slot.var] at hy <;> subst hy <;> rfl
    have keys : ∀ z ∈ xs, ∀ y, Slot.var chk z = some y → y.path = z.1 := by
      rintro ⟨q, s⟩ _ y hy
      cases s <;> simp [Slot.var] at hy <;> subst hy <;> rfl
    rw [List.filterMap_cons]
    split
    · exact ih h2.2
    · rename_i y hy
      rw [List.map_cons, List.nodup_cons]
      refine ⟨?_, ih h2.2⟩
      intro hm
      obtain ⟨w, hw, he⟩ := List.mem_map.1 hm
      obtain ⟨z, hz, hzw⟩ := List.mem_filterMap.1 hw
      exact h2.1 (List.mem_map.2 ⟨z, hz, by rw [← keys z hz w hzw, he, key y hy]⟩)

/-- Values for the variable-size fields of a layout. -/
theorem makes_vars {chk : Bool} {t : Ty} (hi : Inhab t) (hn : nodes t < 2 ^ 59) {p : Path} {l : Layout}
    (hl : calculateLayout chk t p = .ok l) (R : VarField → DataSource → Prop)
    (hs : ∀ r fi, VarField.string r fi ∈ l.vars → ∃ n, n < 16 ∧ ∀ src, src.length r = .ok n → R (.string r fi) src)
    (he : ∀ r fi cs, VarField.enum r fi cs ∈ l.vars → ∃ k c, cs[k]? = some c ∧
      ∀ e, calculateLayout chk e (r ++ [k]) = .ok c → Inhab e → nodes e < nodes t → Makes e (r ++ [k]) fun src => src.tag r = .ok k → R (.enum r fi cs) src) :
    Makes t p fun src => ∀ v ∈ l.vars, R v src := by
  have hnd := vars_nodup hi hn hl
  have huniq : ∀ v ∈ l.vars, ∀ w ∈ l.vars, v.path = w.path → v = w := by
    intro v hv w hw h
    by_cases hne : v = w
    · exact hne
    · exfalso
      rcases pairwise_mem_ne (List.pairwise_map.1 hnd) hv hw hne with h1 | h1
      · exact h1 h
      · exact h1 h.symm
  have hsnd := slots_nodup t p
  have hsu : ∀ x ∈ slots t p, ∀ y ∈ slots t p, x.1 = y.1 → x = y := by
    intro x hx y hy h
    by_cases hne : x = y
    · exact hne
    · exfalso
      rcases pairwise_mem_ne (List.pairwise_map.1 hsnd) hx hy hne with h1 | h1
      · exact h1 h
      · exact h1 h.symm
  have hinh := slots_inherit (Q := Inhab) (fun cs h => by cases h with | tuple _ h => exact h)
      (fun fs h => by cases h with | struct _ h => exact h) t p hi
  refine (makes_slots t p (fun x src => ∀ v ∈ l.vars, v.path = x.1 → R v src) ?_).mono ?_
  · intro x hx
    by_cases hex : ∃ v ∈ l.vars, v.path = x.1
    · obtain ⟨v, hv, hvx⟩ := hex
      have key : ∀ src, R v src → ∀ w ∈ l.vars, w.path = x.1 → R w src := fun src h w hw hwx => by
        rw [huniq w hw v hv (hwx.trans hvx.symm)]; exact h
      rcases var_slot hi hn hl hv with ⟨r, fi, rfl, hm⟩ | ⟨r, fi, cs, es, rfl, hm, _, hall⟩
      · have := hsu x hx _ hm hvx.symm
        subst this
        obtain ⟨n, h1, h2⟩ := hs r fi hv
        exact (makes_str r h1).mono fun src h => key src (h2 src h)
      · have := hsu x hx _ hm hvx.symm
        subst this
        obtain ⟨k, c, h1, h2⟩ := he r fi cs hv
        obtain ⟨e, g1, g2, g3, g4⟩ := hall k c h1
        exact (makes_case g1 (h2 e.2 g2 g3 g4)).mono fun src h => key src (h.2 h.1)
    · refine (makes_any (hinh x hx) x.1).mono fun src _ v hv hvx => absurd ⟨v, hv, hvx⟩ hex
  · intro src h v hv
    rcases var_slot hi hn hl hv with ⟨r, fi, rfl, hm⟩ | ⟨r, fi, cs, es, rfl, hm, _, hall⟩
    · exact h _ hm _ hv rfl
    · exact h _ hm _ hv rfl

/-! ## Sizes -/

theorem caseSizeWithSource_get {chk : Bool} {src : DataSource} {cs : List Layout} {i : Nat} {c : Layout}
    (h : cs[i]? = some c) : caseSizeWithSource chk src cs i = c.sizeWithSource chk src := by
  induction cs generalizing i with
  | nil => simp at h
  | cons d cs ih =>
    cases i with
    | zero => simp at h; subst h; rw [caseSizeWithSource]
    | succ i => rw [caseSizeWithSource]; exact ih (by simpa using h)

theorem encodeCaseAt_get {chk : Bool} {src : DataSource} {base : Nat} {cs : List Layout} {i : Nat} {c : Layout}
    (h : cs[i]? = some c) (buf : Bytes) : encodeCaseAt chk src base cs i buf = c.encodeAt chk src base buf := by
  induction cs generalizing i with
  | nil => simp at h
  | cons d cs ih =>
    cases i with
    | zero => simp at h; subst h; rw [encodeCaseAt]
    | succ i => rw [encodeCaseAt]; exact ih (by simpa using h)

/-- The field moves the offset by `n`, up to multiples of 16. -/
def Moves (chk : Bool) (v : VarField) (n : Nat) (src : DataSource) : Prop :=
  ∀ o o', varSize chk src v o = .ok o' → o' % 16 = (o + n) % 16

theorem moves_string {chk : Bool} {r : Path} {fi n : Nat} {src : DataSource} (h : src.length r = .ok n) :
    Moves chk (.string r fi) n src := by
  intro o o' ho
  rw [varSize, h, Res.bind_ok] at ho
  exact (addW_mod ho).1

theorem moves_enum {chk : Bool} {r : Path} {fi n k : Nat} {cs : List Layout} {c : Layout} {src : DataSource}
    (h : src.tag r = .ok k) (hc : cs[k]? = some c)
    (hs : ∀ s, c.sizeWithSource chk src = .ok s → s % 16 = n % 16) : Moves chk (.enum r fi cs) n src := by
  intro o o' ho
  rw [varSize, h, Res.bind_ok, caseSizeWithSource_get hc] at ho
  obtain ⟨s, h1, ho⟩ := Res.bind_eq_ok.1 ho
  have := hs s h1
  have := (addW_mod ho).1
  omega

theorem varsSize_moves {chk : Bool} {src : DataSource} (f : Path → Nat) (vs : List VarField) :
    (∀ v ∈ vs, Moves chk v (f v.path) src) → ∀ o o', varsSize chk src vs o = .ok o' →
    o' % 16 = (o + (vs.map fun v => f v.path).sum) % 16 := by
  induction vs with
  | nil => intro _ o o' h; rw [varsSize] at h; cases h; simp
  | cons v vs ih =>
    intro hm o o' h
    rw [varsSize] at h
    obtain ⟨o1, h1, h⟩ := Res.bind_eq_ok.1 h
    have := hm v (by simp) o o1 h1
    have := ih (fun w hw => hm w (by simp [hw])) o1 o' h
    rw [List.map_cons, List.sum_cons]
    omega

/-- One field can take `n` bytes. -/
def PossibleVar : VarField → Nat → Prop
  | .string .., _ => True
  | .enum _ _ cs, n => ∃ c ∈ cs, Possible c n

theorem possibleVars_sizes {vs : List VarField} {s : Nat} (hnd : (vs.map (·.path)).Nodup) (h : PossibleVars vs s) :
    ∃ f : Path → Nat, s = (vs.map fun v => f v.path).sum ∧ ∀ v ∈ vs, PossibleVar v (f v.path) := by
  induction vs generalizing s with
  | nil => cases h; exact ⟨fun _ => 0, rfl, by simp⟩
  | cons v vs ih =>
    rw [List.map_cons, List.nodup_cons] at hnd
    have key : ∀ (n s' : Nat), PossibleVars vs s' → PossibleVar v n → s = n + s' →
        ∃ f : Path → Nat, s = ((v :: vs).map fun v => f v.path).sum ∧ ∀ w ∈ v :: vs, PossibleVar w (f w.path) := by
      intro n s' h1 h2 h3
      obtain ⟨f, g1, g2⟩ := ih hnd.2 h1
      have hne : ∀ w ∈ vs, w.path ≠ v.path := fun w hw he => hnd.1 (List.mem_map.2 ⟨w, hw, he⟩)
      refine ⟨fun q => if q = v.path then n else f q, ?_, ?_⟩
      · rw [List.map_cons, List.sum_cons]
        simp only [if_true]
        rw [h3, g1]
        congr 2
        exact List.map_congr_left fun w hw => by simp only [if_neg (hne w hw)]
      · intro w hw
        rcases List.mem_cons.1 hw with rfl | hw
        · simp only [if_true]; exact h2
        · simp only [if_neg (hne w hw)]; exact g2 w hw
    cases h with
    | string n h1 => exact key n _ h1 trivial rfl
    | enum hc hn h1 => exact key _ _ h1 ⟨_, hc, hn⟩ rfl

/-- Every possible size is, up to multiples of 16, that of a value. -/
theorem possible_makes (chk : Bool) (n : Nat) : ∀ (t : Ty), nodes t ≤ n → n < 2 ^ 59 → Inhab t → ∀ (p : Path) (l : Layout),
    calculateLayout chk t p = .ok l → AllPow l → ∀ s, Possible l s →
    Makes t p fun src => ∀ m, l.sizeWithSource chk src = .ok m → m % 16 = s % 16 := by
  induction n with
  | zero => intro t h; have := nodes_pos t; omega
  | succ n ih =>
    intro t hn hn2 hi p l hl hpow s hs
    cases hs with
    | mk h1 h2 h3 h4 =>
    rename_i s0
    obtain ⟨f, g1, g2⟩ := possibleVars_sizes (vars_nodup hi (by omega) hl) h1
    refine (makes_vars hi (by omega) hl (fun v src => Moves chk v (f v.path) src) ?_ ?_).mono ?_
    · intro r fi _
      refine ⟨f r % 16, by omega, fun src h o o' ho => ?_⟩
      have := moves_string (chk := chk) (fi := fi) h o o' ho
      simp only [VarField.path]
      omega
    · intro r fi cs hv
      obtain ⟨c, hc, hpc⟩ := g2 _ hv
      obtain ⟨k, hk⟩ := List.getElem?_of_mem hc
      refine ⟨k, c, hk, fun e he hie hne => ?_⟩
      exact (ih e (by omega) (by omega) hie _ c he (hpow.sub hv hc) _ hpc).mono fun src h ht => moves_enum ht hk h
    · intro src h m hm
      obtain ⟨al, vo, idx, fixed, vars⟩ := l
      rw [Layout.sizeWithSource] at hm
      obtain ⟨o, ho, hm⟩ := Res.bind_eq_ok.1 hm
      have := varsSize_moves f vars h vo o ho
      refine align_mod (hpow _ (.self _)) hm ?_ h2 h3 h4
      simp only [Layout.varOffset, Layout.vars] at *
      omega

/-! ## What a successful encoding at an address says -/

theorem writeRawAt_dvd {base n : Nat} {d d' : Bytes} {o v : Nat} (h : writeRawAt base n d o v = .ok d') :
    n ∣ base + o := by
  by_cases hd : n ∣ base + o
  · exact hd
  · unfold writeRawAt at h
    rw [atAddress_ub hd] at h
    split at h <;> cases h

theorem writeFixedAt_dvd {chk : Bool} {src : DataSource} {base : Nat} {f : FixedField} {buf b : Bytes}
    (h : writeFixedAt chk src base f buf = .ok b) : f.size ∣ base + f.offset := by
  unfold writeFixedAt at h
  unfold FixedField.size
  split at h
  · rename_i hk
    obtain ⟨_, _, h⟩ := Res.bind_eq_ok.1 h
    obtain ⟨_, _, h⟩ := Res.bind_eq_ok.1 h
    simp only [hk]
    exact writeRawAt_dvd h
  · rename_i hk
    obtain ⟨_, _, h⟩ := Res.bind_eq_ok.1 h
    split at h
    · obtain ⟨_, _, h⟩ := Res.bind_eq_ok.1 h
      obtain ⟨_, _, h⟩ := Res.bind_eq_ok.1 h
      obtain ⟨_, _, h⟩ := Res.bind_eq_ok.1 h
      simp only [hk]
      exact writeRawAt_dvd h
    · cases h
  · rename_i hk
    obtain ⟨_, _, h⟩ := Res.bind_eq_ok.1 h
    simp only [hk]
    exact writeRawAt_dvd h
  · cases h

theorem writeFixedsAt_dvd {chk : Bool} {src : DataSource} {base : Nat} {fs : List FixedField} : ∀ {buf b : Bytes},
    writeFixedsAt chk src base fs buf = .ok b → ∀ f ∈ fs, f.size ∣ base + f.offset := by
  induction fs with
  | nil => simp
  | cons g fs ih =>
    intro buf b h f hf
    rw [writeFixedsAt] at h
    obtain ⟨b1, h1, h⟩ := Res.bind_eq_ok.1 h
    rcases List.mem_cons.1 hf with rfl | hf
    · exact writeFixedAt_dvd h1
    · exact ih h f hf

theorem encodeVarAt_size {chk : Bool} {src : DataSource} {base : Nat} {v : VarField} {buf b : Bytes} {o o' : Nat}
    (h : encodeVarAt chk src base v buf o = .ok (b, o')) : varSize chk src v o = .ok o' := by
  cases v with
  | string r fi =>
    rw [encodeVarAt] at h
    obtain ⟨n, h1, h⟩ := Res.bind_eq_ok.1 h
    obtain ⟨_, _, h⟩ := Res.bind_eq_ok.1 h
    obtain ⟨_, h2, h⟩ := Res.bind_eq_ok.1 h
    cases h
    rw [varSize, h1, Res.bind_ok, h2]
  | enum r fi cs =>
    rw [encodeVarAt] at h
    obtain ⟨n, h1, h⟩ := Res.bind_eq_ok.1 h
    obtain ⟨_, _, h⟩ := Res.bind_eq_ok.1 h
    obtain ⟨_, _, h⟩ := Res.bind_eq_ok.1 h
    obtain ⟨_, h3, h⟩ := Res.bind_eq_ok.1 h
    obtain ⟨_, h4, h⟩ := Res.bind_eq_ok.1 h
    cases h
    rw [varSize, h1, Res.bind_ok, h3, Res.bind_ok, h4]

theorem encodeVarAt_case {chk : Bool} {src : DataSource} {base : Nat} {q : Path} {fi k : Nat} {cs : List Layout}
    {c : Layout} {buf : Bytes} {o : Nat} {x : Bytes × Nat} (h : encodeVarAt chk src base (.enum q fi cs) buf o = .ok x)
    (ht : src.tag q = .ok k) (hc : cs[k]? = some c) : ∃ b r, c.encodeAt chk src (base + o) b = .ok r := by
  rw [encodeVarAt, ht, Res.bind_ok] at h
  obtain ⟨_, _, h⟩ := Res.bind_eq_ok.1 h
  obtain ⟨y, h1, h⟩ := Res.bind_eq_ok.1 h
  rw [encodeCaseAt_get hc] at h1
  exact ⟨_, _, h1⟩

theorem encodeVarsAt_split {chk : Bool} {src : DataSource} {base : Nat} (us vs : List VarField) : ∀ {buf : Bytes} {o : Nat}
    {r : Bytes × Nat}, encodeVarsAt chk src base (us ++ vs) buf o = .ok r →
    ∃ b o', varsSize chk src us o = .ok o' ∧ encodeVarsAt chk src base vs b o' = .ok r := by
  induction us with
  | nil => intro buf o r h; exact ⟨buf, o, by rw [varsSize], h⟩
  | cons u us ih =>
    intro buf o r h
    rw [List.cons_append, encodeVarsAt] at h
    obtain ⟨⟨b1, o1⟩, h1, h⟩ := Res.bind_eq_ok.1 h
    obtain ⟨b2, o2, h2, h3⟩ := ih h
    exact ⟨b2, o2, by rw [varsSize, encodeVarAt_size h1, Res.bind_ok]; exact h2, h3⟩

theorem encodeAt_parts {chk : Bool} {src : DataSource} {l : Layout} {base : Nat} {buf : Bytes} {r : Bytes × Nat}
    (h : l.encodeAt chk src base buf = .ok r) : (∀ f ∈ l.fixed, f.size ∣ base + f.offset) ∧
      ∃ b r', encodeVarsAt chk src base l.vars b l.varOffset = .ok r' := by
  obtain ⟨al, vo, idx, fixed, vars⟩ := l
  rw [Layout.encodeAt] at h
  obtain ⟨_, _, h⟩ := Res.bind_eq_ok.1 h
  obtain ⟨b, h1, h⟩ := Res.bind_eq_ok.1 h
  obtain ⟨r', h2, h⟩ := Res.bind_eq_ok.1 h
  exact ⟨writeFixedsAt_dvd h1, b, r', h2⟩

/-! ## Choices that keep the alignment -/

/-- The field moves the offset by a multiple of `D`. -/
def Calm (chk : Bool) (D : Nat) (v : VarField) (src : DataSource) : Prop :=
  ∀ o o', varSize chk src v o = .ok o' → o' % D = o % D

theorem Calm.mono {chk : Bool} {D A : Nat} {v : VarField} {src : DataSource} (h : Calm chk A v src) (hd : D ∣ A) :
    Calm chk D v src := by
  intro o o' ho
  have := h o o' ho
  rw [← Nat.mod_mod_of_dvd o' hd, ← Nat.mod_mod_of_dvd o hd, this]

theorem varsSize_calm {chk : Bool} {src : DataSource} {D : Nat} (vs : List VarField) :
    (∀ v ∈ vs, Calm chk D v src) → ∀ {o o'}, varsSize chk src vs o = .ok o' → o' % D = o % D := by
  induction vs with
  | nil => intro _ o o' h; rw [varsSize] at h; cases h; rfl
  | cons v vs ih =>
    intro hm o o' h
    rw [varsSize] at h
    obtain ⟨o1, h1, h⟩ := Res.bind_eq_ok.1 h
    rw [ih (fun w hw => hm w (by simp [hw])) h, hm v (by simp) o o1 h1]

theorem max_case {cs : List Layout} (h : cs ≠ []) (r : Path) (fi : Nat) :
    ∃ (k : Nat) (c : Layout), cs[k]? = some c ∧ c.alignment = (VarField.enum r fi cs).alignment := by
  cases cs with
  | nil => exact absurd rfl h
  | cons c cs =>
    rw [VarField.alignment]
    have : ∀ (ds : List Layout) (a : Nat), (ds.foldl (fun m l => max m l.alignment) a = a) ∨
        ∃ (k : Nat) (d : Layout), ds[k]? = some d ∧ d.alignment = ds.foldl (fun m l => max m l.alignment) a := by
      intro ds
      induction ds with
      | nil => intro a; exact Or.inl rfl
      | cons d ds ih =>
        intro a
        rw [List.foldl_cons]
        rcases ih (max a d.alignment) with h | ⟨k, e, h1, h2⟩
        · rw [h]
          by_cases hm : a ≤ d.alignment
          · exact Or.inr ⟨0, d, rfl, by omega⟩
          · exact Or.inl (by omega)
        · exact Or.inr ⟨k + 1, e, by simpa using h1, h2⟩
    rcases this cs c.alignment with h | ⟨k, d, h1, h2⟩
    · exact ⟨0, c, rfl, h.symm⟩
    · exact ⟨k + 1, d, by simpa using h1, h2⟩

section
variable {chk : Bool} {t : Ty} (hi : Inhab t) (hn : nodes t < 2 ^ 59) {p : Path} {l : Layout}
  (hl : calculateLayout chk t p = .ok l) (hpow : AllPow l)
include hi hn hl

theorem cases_nonempty {r : Path} {fi : Nat} {cs : List Layout} (hv : VarField.enum r fi cs ∈ l.vars) : cs ≠ [] := by
  rcases var_slot hi hn hl hv with ⟨_, _, h, _⟩ | ⟨_, _, _, _, h, _, h1, _⟩
  · cases h
  · cases h; exact h1

include hpow

theorem var_pow {v : VarField} (hv : v ∈ l.vars) : SmallPow v.alignment := by
  cases v with
  | string r fi => exact Or.inl rfl
  | enum r fi cs =>
    obtain ⟨k, c, h1, h2⟩ := max_case (cases_nonempty hi hn hl hv) r fi
    rw [← h2]
    exact hpow c (.case hv (List.mem_of_getElem? h1) (.self _))

omit hi hn hl hpow in
theorem calm_string {r : Path} {fi A : Nat} {src : DataSource} (hA : SmallPow A) (h : src.length r = .ok 0) :
    Calm chk A (.string r fi) src := by
  intro o o' ho
  have := moves_string (fi := fi) h o o' ho
  rcases hA with rfl | rfl | rfl | rfl | rfl <;> omega

omit hi hn hl hpow in
theorem calm_enum {r : Path} {fi k A : Nat} {cs : List Layout} {c : Layout} {src : DataSource} (hA : SmallPow c.alignment)
    (h : src.tag r = .ok k) (hc : cs[k]? = some c) (ha : c.alignment = A) : Calm chk A (.enum r fi cs) src := by
  intro o o' ho
  rw [varSize, h, Res.bind_ok, caseSizeWithSource_get hc] at ho
  obtain ⟨s, h1, ho⟩ := Res.bind_eq_ok.1 ho
  have h2 := sizeWithSource_dvd hA h1
  have h3 := (addW_mod ho).1
  subst ha
  rcases hA with e | e | e | e | e <;> rw [e] at h2 ⊢ <;> omega

/-- All fields keep the offset a multiple of their alignment, except those for which another choice is given. -/
theorem makes_calm (S : VarField → Prop) (R : VarField → DataSource → Prop)
    (hS : ∀ v ∈ l.vars, S v → ∃ r fi cs k c, v = .enum r fi cs ∧ cs[k]? = some c ∧
      ∀ e, calculateLayout chk e (r ++ [k]) = .ok c → Inhab e → nodes e < nodes t →
        Makes e (r ++ [k]) fun src => src.tag r = .ok k → R v src) :
    Makes t p fun src => ∀ v ∈ l.vars, (S v → R v src) ∧ (¬ S v → Calm chk v.alignment v src) := by
  refine makes_vars hi hn hl (fun v src => (S v → R v src) ∧ (¬ S v → Calm chk v.alignment v src)) ?_ ?_
  · intro r fi hv
    refine ⟨0, by decide, fun src h => ⟨fun hs => ?_, fun _ => calm_string (Or.inl rfl) h⟩⟩
    obtain ⟨_, _, _, _, _, he, _⟩ := hS _ hv hs
    cases he
  · intro r fi cs hv
    by_cases hs : S (.enum r fi cs)
    · obtain ⟨r', fi', cs', k, c, he, h1, h2⟩ := hS _ hv hs
      cases he
      exact ⟨k, c, h1, fun e a b d => (h2 e a b d).mono fun src h ht => ⟨fun _ => h ht, fun hn => absurd hs hn⟩⟩
    · obtain ⟨k, c, h1, h2⟩ := max_case (cases_nonempty hi hn hl hv) r fi
      have hc := hpow c (.case hv (List.mem_of_getElem? h1) (.self _))
      exact ⟨k, c, h1, fun e a b d => (makes_any b _).mono fun src _ ht =>
        ⟨fun h => absurd h hs, fun _ => calm_enum hc ht h1 h2⟩⟩

end

/-- Encoding succeeds only at multiples of the alignment. -/
def Needs (chk : Bool) (l : Layout) (src : DataSource) : Prop :=
  ∀ base buf r, l.encodeAt chk src base buf = .ok r → l.alignment ∣ base

/-- Encoding does not succeed at multiples of the alignment. -/
def Strays (chk : Bool) (l : Layout) (src : DataSource) : Prop :=
  ∀ base buf r, l.alignment ∣ base → l.encodeAt chk src base buf ≠ .ok r

/-- Some value needs the alignment. -/
theorem makes_needs (chk : Bool) (n : Nat) : ∀ (t : Ty), nodes t ≤ n → n < 2 ^ 59 → Inhab t → ∀ (p : Path) (l : Layout),
    calculateLayout chk t p = .ok l → AllPow l → Makes t p (Needs chk l) := by
  induction n with
  | zero => intro t h; have := nodes_pos t; omega
  | succ n ih =>
    intro t hn hn2 hi p l hl hpow
    obtain ⟨_, _, l', hl', hfacts⟩ := unroll_and_layout chk t hi (by omega) p
    rw [hl] at hl'
    cases hl'
    rcases hfacts.top with h1 | ⟨f, hf, h1⟩ | ⟨v, hv, h1⟩
    · exact (makes_any hi p).mono fun src _ base buf r _ => by rw [h1]; exact Nat.one_dvd _
    · refine (makes_any hi p).mono fun src _ base buf r h => ?_
      have h2 := (encodeAt_parts h).1 f hf
      rw [← h1]
      exact (Nat.dvd_add_left (hfacts.aligned f hf).1).1 h2
    · -- the first field has this alignment as well
      obtain ⟨w, ws, hw⟩ : ∃ w ws, l.vars = w :: ws := by
        cases hvs : l.vars with
        | nil => rw [hvs] at hv; cases hv
        | cons w ws => exact ⟨w, ws, rfl⟩
      have hwm : w ∈ l.vars := by rw [hw]; simp
      have hwa : w.alignment = l.alignment := by
        have h2 := (hfacts.valigned w hwm).2
        have h3 := Nat.le_of_dvd hfacts.al.pos h2
        have h4 := hfacts.vsorted
        rw [hw, List.pairwise_cons] at h4
        rw [hw] at hv
        rcases List.mem_cons.1 hv with rfl | hv
        · exact h1
        · have := h4.1 v hv; omega
      cases w with
      | string r fi =>
        have : l.alignment = 1 := hwa.symm
        exact (makes_any hi p).mono fun src _ base buf r _ => by rw [this]; exact Nat.one_dvd _
      | enum q fi cs =>
        obtain ⟨k, c, g1, g2⟩ := max_case (cases_nonempty hi (by omega) hl hwm) q fi
        have hcm := List.mem_of_getElem? g1
        refine (makes_calm hi (by omega) hl hpow (fun v => v = .enum q fi cs)
          (fun _ src => src.tag q = .ok k ∧ Needs chk c src) ?_).mono ?_
        · rintro v hv rfl
          refine ⟨q, fi, cs, k, c, rfl, g1, fun e a b d => ?_⟩
          exact (ih e (by omega) (by omega) b _ c a (hpow.sub hwm hcm)).mono fun src h ht => ⟨ht, h⟩
        · intro src h base buf r he
          obtain ⟨h3, h4⟩ := (h _ hwm).1 rfl
          obtain ⟨b, r', h5⟩ := (encodeAt_parts he).2
          rw [hw, encodeVarsAt] at h5
          obtain ⟨x, h6, _⟩ := Res.bind_eq_ok.1 h5
          obtain ⟨b2, r2, h7⟩ := encodeVarAt_case h6 h3 g1
          have h8 := h4 _ _ _ h7
          rw [g2] at h8
          rw [← hwa]
          exact (Nat.dvd_add_left (hfacts.valigned _ hwm).1).1 h8

theorem mem_ne_of_nodup {us ws : List VarField} {v : VarField} (h : ((us ++ v :: ws).map (·.path)).Nodup) :
    (∀ u ∈ us, u ≠ v) ∧ ∀ u ∈ ws, u ≠ v := by
  rw [List.map_append, List.nodup_append] at h
  obtain ⟨_, h2, h3⟩ := h
  rw [List.map_cons, List.nodup_cons] at h2
  constructor
  · rintro u hu rfl
    exact h3 u.path (List.mem_map_of_mem hu) u.path (by simp) rfl
  · rintro u hu rfl
    exact h2.1 (List.mem_map_of_mem hu)

/-- Two enums of which the second is not aligned after the first. -/
theorem makes_crooked (chk : Bool) {t : Ty} (hi : Inhab t) (hn : nodes t < 2 ^ 59) {p : Path} {l : Layout}
    (hl : calculateLayout chk t p = .ok l) (hpow : AllPow l) {us vs ws : List VarField} {q1 q2 : Path} {f1 f2 : Nat}
    {cs ds : List Layout} (hv : l.vars = us ++ .enum q1 f1 cs :: (vs ++ .enum q2 f2 ds :: ws)) {c d : Layout}
    (hc : c ∈ cs) (hd : d ∈ ds) {n : Nat} (hp : Possible c n) (hnd : ¬ d.alignment ∣ n) : Makes t p (Strays chk l) := by
  obtain ⟨_, _, l', hl', hfacts⟩ := unroll_and_layout chk t hi hn p
  rw [hl] at hl'
  cases hl'
  have hnod := vars_nodup hi hn hl
  have hm1 : VarField.enum q1 f1 cs ∈ l.vars := by rw [hv]; simp
  have hm2 : VarField.enum q2 f2 ds ∈ l.vars := by rw [hv]; simp
  have hne1 : (∀ u ∈ us, u ≠ .enum q1 f1 cs) ∧ ∀ u ∈ vs ++ .enum q2 f2 ds :: ws, u ≠ .enum q1 f1 cs :=
    mem_ne_of_nodup (by rw [← hv]; exact hnod)
  have hne2 : (∀ u ∈ us ++ .enum q1 f1 cs :: vs, u ≠ .enum q2 f2 ds) ∧ ∀ u ∈ ws, u ≠ .enum q2 f2 ds :=
    mem_ne_of_nodup (by rw [List.append_assoc, List.cons_append, ← hv]; exact hnod)
  obtain ⟨i, hci⟩ := List.getElem?_of_mem hc
  obtain ⟨j, hdj⟩ := List.getElem?_of_mem hd
  have hdp : SmallPow d.alignment := hpow d (.case hm2 hd (.self _))
  have hle := enum_alignment_le (p := q2) (fi := f2) d hd
  have hdw : d.alignment ∣ (VarField.enum q2 f2 ds).alignment := hdp.dvd (var_pow hi hn hl hpow hm2) hle
  have hbefore : ∀ u ∈ us ++ .enum q1 f1 cs :: vs, d.alignment ∣ u.alignment := by
    intro u hu
    have h1 := hfacts.vsorted
    rw [hv, show us ++ VarField.enum q1 f1 cs :: (vs ++ .enum q2 f2 ds :: ws) =
      (us ++ .enum q1 f1 cs :: vs) ++ (.enum q2 f2 ds :: ws) by simp, List.pairwise_append] at h1
    have h2 := h1.2.2 u hu _ (List.mem_cons_self ..)
    have hul : u ∈ l.vars := by
      rw [hv, show us ++ VarField.enum q1 f1 cs :: (vs ++ .enum q2 f2 ds :: ws) =
        (us ++ .enum q1 f1 cs :: vs) ++ (.enum q2 f2 ds :: ws) by simp]
      exact List.mem_append_left _ hu
    exact hdp.dvd (var_pow hi hn hl hpow hul) (by omega)
  refine (makes_calm hi hn hl hpow (fun v => v = .enum q1 f1 cs ∨ v = .enum q2 f2 ds)
    (fun v src => (v = .enum q1 f1 cs → Moves chk v n src) ∧
      (v = .enum q2 f2 ds → src.tag q2 = .ok j ∧ Needs chk d src)) ?_).mono ?_
  · intro v hvm hS
    by_cases h1 : v = .enum q1 f1 cs
    · subst h1
      refine ⟨q1, f1, cs, i, c, rfl, hci, fun e a b g => ?_⟩
      refine (possible_makes chk _ e (Nat.le_refl _) (by omega) b _ c a (hpow.sub hm1 hc) n hp).mono fun src h ht => ?_
      exact ⟨fun _ => moves_enum ht hci h, fun he => absurd he.symm (hne1.2 _ (by simp))⟩
    · have h2 : v = .enum q2 f2 ds := hS.resolve_left h1
      subst h2
      refine ⟨q2, f2, ds, j, d, rfl, hdj, fun e a b g => ?_⟩
      exact (makes_needs chk _ e (Nat.le_refl _) (by omega) b _ d a (hpow.sub hm2 hd)).mono fun src h ht =>
        ⟨fun he => absurd he h1, fun _ => ⟨ht, h⟩⟩
  · intro src h base buf r hb he
    have hcalm : ∀ u ∈ us ++ .enum q1 f1 cs :: vs, u ≠ .enum q1 f1 cs → Calm chk d.alignment u src := by
      intro u hu hne
      have hul : u ∈ l.vars := by
        rw [hv, show us ++ VarField.enum q1 f1 cs :: (vs ++ .enum q2 f2 ds :: ws) =
          (us ++ .enum q1 f1 cs :: vs) ++ (.enum q2 f2 ds :: ws) by simp]
        exact List.mem_append_left _ hu
      exact ((h u hul).2 fun hor => hor.elim hne (hne2.1 u hu)).mono (hbefore u hu)
    obtain ⟨b, r', h1⟩ := (encodeAt_parts he).2
    rw [hv] at h1
    obtain ⟨b1, o1, h2, h3⟩ := encodeVarsAt_split _ _ h1
    rw [encodeVarsAt] at h3
    obtain ⟨⟨b2, o2⟩, h4, h5⟩ := Res.bind_eq_ok.1 h3
    obtain ⟨b3, o3, h6, h7⟩ := encodeVarsAt_split _ _ h5
    rw [encodeVarsAt] at h7
    obtain ⟨x, h8, _⟩ := Res.bind_eq_ok.1 h7
    obtain ⟨ht, hneeds⟩ := ((h _ hm2).1 (Or.inr rfl)).2 rfl
    obtain ⟨b4, r4, h9⟩ := encodeVarAt_case h8 ht hdj
    have e1 := varsSize_calm us (fun u hu => hcalm u (by simp [hu]) (hne1.1 u hu)) h2
    have e2 := ((h _ hm1).1 (Or.inl rfl)).1 rfl _ _ (encodeVarAt_size h4)
    have e3 := varsSize_calm vs (fun u hu => hcalm u (by simp [hu]) (hne1.2 u (by simp [hu]))) h6
    have e4 := hneeds _ _ _ h9
    have e5 : d.alignment ∣ base :=
      Nat.dvd_trans hdw (Nat.dvd_trans (hfacts.valigned _ hm2).2 hb)
    have e6 : d.alignment ∣ l.varOffset := Nat.dvd_trans hdw (hfacts.valigned _ hm2).1
    apply hnd
    rcases hdp with e | e | e | e | e <;> rw [e] at e1 e3 e4 e5 e6 ⊢ <;> omega

/-- A case with such a value makes one for the whole. -/
theorem makes_around (chk : Bool) {t : Ty} (hi : Inhab t) (hn : nodes t < 2 ^ 59) {p : Path} {l : Layout}
    (hl : calculateLayout chk t p = .ok l) (hpow : AllPow l) {q : Path} {fi : Nat} {cs : List Layout} {c : Layout}
    (hv : VarField.enum q fi cs ∈ l.vars) (hc : c ∈ cs)
    (ih : ∀ (e : Ty) (r : Path), nodes e < 2 ^ 59 → Inhab e → calculateLayout chk e r = .ok c → Makes e r (Strays chk c)) :
    Makes t p (Strays chk l) := by
  obtain ⟨_, _, l', hl', hfacts⟩ := unroll_and_layout chk t hi hn p
  rw [hl] at hl'
  cases hl'
  obtain ⟨us, ws, hvs⟩ := List.append_of_mem hv
  obtain ⟨k, hck⟩ := List.getElem?_of_mem hc
  have hne := mem_ne_of_nodup (v := .enum q fi cs) (us := us) (ws := ws) (by rw [← hvs]; exact vars_nodup hi hn hl)
  have hcp : SmallPow c.alignment := hpow c (.case hv hc (.self _))
  have hcw : c.alignment ∣ (VarField.enum q fi cs).alignment :=
    hcp.dvd (var_pow hi hn hl hpow hv) (enum_alignment_le c hc)
  refine (makes_calm hi hn hl hpow (fun v => v = .enum q fi cs)
    (fun v src => src.tag q = .ok k ∧ Strays chk c src) ?_).mono ?_
  · rintro v hvm rfl
    exact ⟨q, fi, cs, k, c, rfl, hck, fun e a b g => (ih e _ (by omega) b a).mono fun src h ht => ⟨ht, h⟩⟩
  · intro src h base buf r hb he
    obtain ⟨b, r', h1⟩ := (encodeAt_parts he).2
    rw [hvs] at h1
    obtain ⟨b1, o1, h2, h3⟩ := encodeVarsAt_split _ _ h1
    rw [encodeVarsAt] at h3
    obtain ⟨x, h4, _⟩ := Res.bind_eq_ok.1 h3
    obtain ⟨ht, hbr⟩ := (h _ hv).1 rfl
    obtain ⟨b4, r4, h9⟩ := encodeVarAt_case h4 ht hck
    refine hbr _ _ _ ?_ h9
    have e1 := varsSize_calm us (D := c.alignment) (fun u hu => by
      have hul : u ∈ l.vars := by rw [hvs]; exact List.mem_append_left _ hu
      have h5 := hfacts.vsorted
      rw [hvs, List.pairwise_append] at h5
      have h6 := h5.2.2 u hu _ (List.mem_cons_self ..)
      have := Nat.le_of_dvd (var_pow hi hn hl hpow hv).pos hcw
      exact ((h u hul).2 (hne.1 u hu)).mono (hcp.dvd (var_pow hi hn hl hpow hul) (by omega))) h2
    have e6 : c.alignment ∣ l.varOffset := Nat.dvd_trans hcw (hfacts.valigned _ hv).1
    have e5 : c.alignment ∣ base := Nat.dvd_trans hcw (Nat.dvd_trans (hfacts.valigned _ hv).2 hb)
    exact Nat.dvd_add e5 (Nat.dvd_of_mod_eq_zero (by rw [e1]; exact Nat.mod_eq_zero_of_dvd e6))

/-- A layout that is not smooth has a value whose encoding is misaligned. -/
theorem makes_strays (chk : Bool) {l m : Layout} (hm : Nested l m) {us vs ws : List VarField} {q1 q2 : Path}
    {f1 f2 : Nat} {cs ds : List Layout} (hv : m.vars = us ++ .enum q1 f1 cs :: (vs ++ .enum q2 f2 ds :: ws))
    {c d : Layout} (hc : c ∈ cs) (hd : d ∈ ds) {n : Nat} (hp : Possible c n) (hnd : ¬ d.alignment ∣ n) :
    AllPow l → ∀ (t : Ty) (p : Path), nodes t < 2 ^ 59 → Inhab t → calculateLayout chk t p = .ok l →
    Makes t p (Strays chk l) := by
  induction hm with
  | self l => intro hpow t p hn hi hl; exact makes_crooked chk hi hn hl hpow hv hc hd hp hnd
  | case hv' hc' _ ih =>
    intro hpow t p hn hi hl
    exact makes_around chk hi hn hl hpow hv' hc' (ih hv (hpow.sub hv' hc'))

theorem not_smooth {l : Layout} (h : ¬ Smooth l) : ∃ (m : Layout) (us vs ws : List VarField) (q1 q2 : Path) (f1 f2 : Nat)
    (cs ds : List Layout) (c d : Layout) (n : Nat), Nested l m ∧
    m.vars = us ++ .enum q1 f1 cs :: (vs ++ .enum q2 f2 ds :: ws) ∧ c ∈ cs ∧ d ∈ ds ∧ Possible c n ∧
    ¬ d.alignment ∣ n := by
  have gen : ∀ {R : VarField → VarField → Prop} {xs : List VarField}, ¬ xs.Pairwise R →
      ∃ us v vs w ws, xs = us ++ v :: (vs ++ w :: ws) ∧ ¬ R v w := by
    intro R xs
    induction xs with
    | nil => intro h; exact absurd .nil h
    | cons x xs ih =>
      intro h
      by_cases hx : ∀ y ∈ xs, R x y
      · obtain ⟨us, v, vs, w, ws, h1, h2⟩ := ih fun hp => h (.cons hx hp)
        exact ⟨x :: us, v, vs, w, ws, by rw [h1]; rfl, h2⟩
      · simp only [Classical.not_forall] at hx
        obtain ⟨y, hy, hr⟩ := hx
        obtain ⟨vs, ws, h1⟩ := List.append_of_mem hy
        exact ⟨[], x, vs, y, ws, by rw [h1]; rfl, hr⟩
  unfold Smooth at h
  simp only [Classical.not_forall] at h
  obtain ⟨m, hm, h⟩ := h
  obtain ⟨us, v, vs, w, ws, h1, h2⟩ := gen h
  simp only [Classical.not_forall] at h2
  obtain ⟨p, fi, cs, q, gi, ds, rfl, rfl, c, hc, n, hn, d, hd, hnd⟩ := h2
  exact ⟨m, us, vs, ws, p, q, fi, gi, cs, ds, c, d, n, hm, h1, hc, hd, hn, hnd⟩

/-! ## With addresses everything is as without, or undefined -/

/-- `x` is `y`, or a pointer that is not aligned was followed. -/
def Near {α : Type} (x y : Res α) : Prop := x = y ∨ x = .error .ub

theorem Near.refl {α : Type} (x : Res α) : Near x x := Or.inl rfl

theorem Near.bind {α β : Type} {x y : Res α} {f g : α → Res β} (h : Near x y) (hf : ∀ a, Near (f a) (g a)) :
    Near (x >>= f) (y >>= g) := by
  rcases h with rfl | rfl
  · cases x with
    | ok a => exact hf a
    | error e => exact Or.inl rfl
  · exact Or.inr rfl

theorem writeRawAt_near (base n : Nat) (d : Bytes) (o v : Nat) : Near (writeRawAt base n d o v) (writeRaw n d o v) := by
  by_cases h : n ∣ base + o
  · exact Or.inl (writeRawAt_eq h)
  · unfold writeRawAt writeRaw
    split
    · exact .refl _
    · right
      rw [atAddress_ub h]; rfl

theorem readRawAt_near (base n : Nat) (d : Bytes) (o : Nat) : Near (readRawAt base n d o) (readRaw n d o) := by
  by_cases h : n ∣ base + o
  · exact Or.inl (readRawAt_eq h)
  · unfold readRawAt readRaw
    split
    · exact .refl _
    · right
      rw [atAddress_ub h]; rfl

theorem writeFixedAt_near (chk : Bool) (src : DataSource) (base : Nat) (f : FixedField) (buf : Bytes) :
    Near (writeFixedAt chk src base f buf) (writeFixed chk src f buf) := by
  unfold writeFixedAt writeFixed
  cases hk : f.kind with
  | length => exact .bind (.refl _) fun _ => .bind (.refl _) fun _ => writeRawAt_near ..
  | bitfield p o n =>
    refine .bind (.refl _) fun _ => ?_
    by_cases hc : p.isContainer = true
    · simp only [if_pos hc]
      exact .bind (.refl _) fun _ => .bind (readRawAt_near ..) fun _ => .bind (.refl _) fun _ => writeRawAt_near ..
    · simp only [if_neg hc]
      exact .refl _
  | prim p => exact .bind (.refl _) fun _ => writeRawAt_near ..
  | container i p => exact .refl _

theorem writeFixedsAt_near (chk : Bool) (src : DataSource) (base : Nat) (fs : List FixedField) : ∀ buf,
    Near (writeFixedsAt chk src base fs buf) (writeFixeds chk src fs buf) := by
  induction fs with
  | nil => intro buf; exact .refl _
  | cons f fs ih => intro buf; rw [writeFixedsAt, writeFixeds]; exact .bind (writeFixedAt_near ..) ih

mutual
theorem encodeAt_near (chk : Bool) (src : DataSource) : ∀ (l : Layout) (base : Nat) (buf : Bytes),
    Near (l.encodeAt chk src base buf) (l.encode chk src buf)
  | .mk al vo idx fixed vars, base, buf => by
    rw [Layout.encodeAt, Layout.encode]
    exact .bind (.refl _) fun _ => .bind (writeFixedsAt_near ..) fun b =>
      .bind (encodeVarsAt_near chk src vars base b vo) fun _ => .refl _
theorem encodeVarsAt_near (chk : Bool) (src : DataSource) : ∀ (vs : List VarField) (base : Nat) (buf : Bytes) (o : Nat),
    Near (encodeVarsAt chk src base vs buf o) (encodeVars chk src vs buf o)
  | [], _, _, _ => by rw [encodeVarsAt, encodeVars]; exact .refl _
  | v :: vs, base, buf, o => by
    rw [encodeVarsAt, encodeVars]
    exact .bind (encodeVarAt_near chk src v base buf o) fun x => encodeVarsAt_near chk src vs base x.1 x.2
theorem encodeVarAt_near (chk : Bool) (src : DataSource) : ∀ (v : VarField) (base : Nat) (buf : Bytes) (o : Nat),
    Near (encodeVarAt chk src base v buf o) (encodeVar chk src v buf o)
  | .string r fi, base, buf, o => by rw [encodeVarAt, encodeVar]; exact .refl _
  | .enum r fi cs, base, buf, o => by
    rw [encodeVarAt, encodeVar]
    exact .bind (.refl _) fun _ => .bind (.refl _) fun _ =>
      .bind (encodeCaseAt_near chk src cs _ (base + o) _) fun _ => .refl _
theorem encodeCaseAt_near (chk : Bool) (src : DataSource) : ∀ (cs : List Layout) (i base : Nat) (buf : Bytes),
    Near (encodeCaseAt chk src base cs i buf) (encodeCase chk src cs i buf)
  | [], _, _, _ => by rw [encodeCaseAt, encodeCase]; exact .refl _
  | c :: cs, 0, base, buf => by rw [encodeCaseAt, encodeCase]; exact encodeAt_near chk src c base buf
  | c :: cs, i + 1, base, buf => by rw [encodeCaseAt, encodeCase]; exact encodeCaseAt_near chk src cs i base buf
end

theorem chosen_nested {ls : List (Path × Leaf)} {l m : Layout} (h : Chosen ls l m) : Nested l m := by
  induction h with
  | self l => exact .self l
  | case hv _ hc _ ih => exact .case hv (List.mem_of_getElem? hc) ih

/-- Sizes of values without variable-size fields. -/
theorem possible_fixed {l : Layout} {n : Nat} (h : Possible l n) (hv : l.vars = []) :
    l.alignment ∣ n ∧ l.varOffset ≤ n ∧ n < l.varOffset + l.alignment := by
  cases h with
  | mk h1 h2 h3 h4 =>
    rw [hv] at h1
    cases h1
    exact ⟨h2, h3, h4⟩

theorem nested_fixed {l m : Layout} (h : Nested l m) (hv : l.vars = []) : m = l := by
  cases h with
  | self => rfl
  | case hv' _ _ => rw [hv] at hv'; simp at hv'

end Verif
