import Verif.Proof.Locate

/-! # Case layouts come from the case types; consequences for the readers and short buffers -/

namespace Verif

open Spec

theorem extract_append {t u : Ty} {p q : Path} (h : t.extract p = .ok u) : t.extract (p ++ q) = u.extract q := by
  induction p generalizing t with
  | nil => rw [Ty.extract] at h; cases h; rfl
  | cons i p ih =>
    rw [Ty.extract] at h
    obtain ⟨c, hc, h⟩ := Res.bind_eq_ok.1 h
    rw [List.cons_append, Ty.extract, hc, Res.bind_ok]
    exact ih h

theorem slots_extract (t : Ty) : ∀ (q : Path) (x : Path × Slot), x ∈ slots t q →
    ∃ r, x.1 = q ++ r ∧ t.extract r = .ok x.2.ty := by
  induction t using Ty.ind with
  | unit => simp [slots]
  | prim p => intro q x hx; simp [slots] at hx; exact ⟨[], by simp [hx], by rw [hx]; rfl⟩
  | string => intro q x hx; simp [slots] at hx; exact ⟨[], by simp [hx], by rw [hx]; rfl⟩
  | tuple cs ih =>
    intro q x hx
    rw [slots] at hx
    obtain ⟨k, c, h1, h2⟩ := mem_slotsL hx
    obtain ⟨r, hr, he⟩ := ih c (List.mem_of_getElem? h1) _ _ h2
    refine ⟨k :: r, by rw [hr, List.append_assoc, Nat.zero_add]; rfl, ?_⟩
    rw [Ty.extract, Ty.child]
    simp only [h1]
    exact he
  | struct fs ih =>
    intro q x hx
    rw [slots, slotsF_eq] at hx
    obtain ⟨k, c, h1, h2⟩ := mem_slotsL hx
    rw [List.getElem?_map, Option.map_eq_some_iff] at h1
    obtain ⟨f, h1, rfl⟩ := h1
    obtain ⟨r, hr, he⟩ := ih f (List.mem_of_getElem? h1) _ _ h2
    refine ⟨k :: r, by rw [hr, List.append_assoc, Nat.zero_add]; rfl, ?_⟩
    rw [Ty.extract, Ty.child]
    simp only [h1]
    exact he
  | enum cs ih => intro q x hx; simp [slots] at hx; exact ⟨[], by simp [hx], by rw [hx]; rfl⟩

/-- The cases of an enum field are the layouts of the cases of an enum inside the type. -/
theorem case_sub {chk : Bool} {t : Ty} (hi : Inhab t) (hn : nodes t < 2 ^ 59) {p : Path} {l : Layout}
    (hl : calculateLayout chk t p = .ok l) {r : Path} {fi : Nat} {cs : List Layout}
    (hv : VarField.enum r fi cs ∈ l.vars) {c : Layout} (hc : c ∈ cs) :
    ∃ t' s, calculateLayout chk t' (p ++ s) = .ok c ∧ t.extract s = .ok t' ∧ Inhab t' ∧
      nodes t' < nodes t := by
  obtain ⟨hu, hcases, l', hl', hfacts⟩ := unroll_and_layout chk t hi hn p
  rw [hl] at hl'
  cases hl'
  have h1 := hfacts.vars.mem_iff.1 (List.mem_map_of_mem (f := (·.setFixedIdx 0)) hv)
  obtain ⟨w, hw, he⟩ := List.mem_map.1 h1
  obtain ⟨⟨xq, xs⟩, hx, hxw⟩ := List.mem_filterMap.1 hw
  cases xs with
  | prim pr => simp [Slot.var] at hxw
  | str => simp [Slot.var] at hxw; subst hxw; simp [VarField.setFixedIdx] at he
  | enum es =>
    simp [Slot.var] at hxw
    subst hxw
    simp [VarField.setFixedIdx] at he
    obtain ⟨rfl, rfl⟩ := he
    obtain ⟨_, e2, e3⟩ := hcases xq es hx
    obtain ⟨k, hk⟩ := List.getElem?_of_mem hc
    have hkl := (List.getElem?_eq_some_iff.1 hk).1
    obtain ⟨l', f1, f2, f3⟩ := e3 k _ (List.getElem?_eq_getElem (by omega))
    rw [hk] at f1
    cases f1
    have hem : es[k]'(by omega) ∈ es := List.getElem_mem _
    have hinh := slots_inherit (Q := Inhab) (fun cs h => by cases h with | tuple _ h => exact h)
      (fun fs h => by cases h with | struct _ h => exact h) t p hi _ hx
    have hno := slots_inherit (Q := fun u => nodes u ≤ nodes t)
      (fun cs h c hc => by have := nodes_mem_tuple hc; omega)
      (fun fs h f hf => by have := nodesF_mem hf; rw [nodes] at h; omega) t p (Nat.le_refl _) _ hx
    have hic : Inhab (es[k]'(by omega)).2 := by cases hinh with | enum _ h => exact h _ hem
    have hnc : nodes (es[k]'(by omega)).2 < nodes t := by
      have := nodesF_mem hem
      simp only [Slot.ty, nodes] at hno
      omega
    obtain ⟨s, hs1, hs2⟩ := slots_extract t p _ hx
    simp only at hs1
    refine ⟨_, s ++ [k], ?_, ?_, hic, hnc⟩
    · rw [← List.append_assoc, ← hs1]; exact f2
    · rw [extract_append hs2, Ty.extract, Slot.ty, Ty.child]
      rw [List.getElem?_eq_getElem (show k < es.length by omega)]
      rfl

theorem nested_trans {a b c : Layout} (h : Nested a b) : Nested b c → Nested a c := by
  induction h with
  | self => exact id
  | case hv hc _ ih => exact fun h => .case hv hc (ih h)

/-- A nested layout is the layout of a part of the type. -/
theorem nested_sub {chk : Bool} {l m : Layout} (hm : Nested l m) : ∀ {t : Ty}, Inhab t → nodes t < 2 ^ 59 →
    ∀ {p : Path}, calculateLayout chk t p = .ok l → ∃ t' s, calculateLayout chk t' (p ++ s) = .ok m ∧
      t.extract s = .ok t' ∧ Inhab t' ∧ nodes t' ≤ nodes t := by
  induction hm with
  | self l => intro t hi hn p hl; exact ⟨t, [], by simpa using hl, rfl, hi, Nat.le_refl _⟩
  | case hv hc _ ih =>
    intro t hi hn p hl
    obtain ⟨t1, s1, a1, a2, a3, a4⟩ := case_sub hi hn hl hv hc
    obtain ⟨t2, s2, b1, b2, b3, b4⟩ := ih a3 (by omega) a1
    exact ⟨t2, s1 ++ s2, by rw [← List.append_assoc]; exact b1, by rw [extract_append a2]; exact b2, b3,
      by omega⟩

/-- The kind of a fixed-size field tells the type at its path. -/
theorem field_type {chk : Bool} {t : Ty} (hi : Inhab t) (hn : nodes t < 2 ^ 59) {l m : Layout}
    (hl : Layout.new chk t = .ok l) (hm : Nested l m) {f : FixedField} (hf : f ∈ m.fixed) :
    (∃ p, f.kind = .prim p ∧ t.extract f.path = .ok (.prim p)) ∨
    (f.kind = .length ∧ t.extract f.path = .ok .string) ∨
    (∃ p o n cs, f.kind = .bitfield p o n ∧ t.extract f.path = .ok (.enum cs)) := by
  obtain ⟨t', s, h1, h2, h3, h4⟩ := nested_sub hm hi hn hl
  obtain ⟨_, _, l', hl', hfacts⟩ := unroll_and_layout chk t' h3 (by omega) ([] ++ s)
  rw [h1] at hl'
  cases hl'
  rcases hfacts.kinds f hf with ⟨g, hg, e1, e2⟩ | ⟨b, hb, q, o, e1, e2, _, _⟩
  · obtain ⟨⟨r, sl⟩, hx, hxg⟩ := List.mem_filterMap.1 hg
    obtain ⟨u, hu1, hu2⟩ := slots_extract _ _ _ hx
    cases sl with
    | prim pr =>
      simp [Slot.fixed] at hxg; subst hxg
      refine Or.inl ⟨pr, e2.symm, ?_⟩
      rw [← e1]
      rw [show r = s ++ u by simpa using hu1, extract_append h2]; exact hu2
    | str =>
      simp [Slot.fixed] at hxg; subst hxg
      refine Or.inr (Or.inl ⟨e2.symm, ?_⟩)
      rw [← e1]
      rw [show r = s ++ u by simpa using hu1, extract_append h2]; exact hu2
    | enum cs => simp [Slot.fixed] at hxg
  · obtain ⟨⟨r, sl⟩, hx, hxb⟩ := List.mem_filterMap.1 hb
    obtain ⟨u, hu1, hu2⟩ := slots_extract _ _ _ hx
    cases sl with
    | prim pr => simp [Slot.bits] at hxb
    | str => simp [Slot.bits] at hxb
    | enum cs =>
      simp [Slot.bits] at hxb; subst hxb
      refine Or.inr (Or.inr ⟨q, o, _, cs, e2, ?_⟩)
      rw [← e1]
      rw [show r = s ++ u by simpa using hu1, extract_append h2]; exact hu2

/-- The field a reader looks at belongs to the requested path. -/
theorem locate_field {chk : Bool} {t : Ty} (hi : Inhab t) (hn : nodes t < 2 ^ 59) {l : Layout}
    (hl : Layout.new chk t = .ok l) {data : Bytes} {q : Path} {w : Located} {f : FixedField}
    (hw : l.locate chk q data = .ok w) (hf : getAt w.layout.fixed w.index.fixedIdx = .ok f) :
    Nested l w.layout ∧ f ∈ w.layout.fixed ∧ f.path = q := by
  obtain ⟨h1, h2, h3, _⟩ := locate_facts chk _ t (Nat.le_refl _) hn hi [] l hl q data w hw
  obtain ⟨t', s, g1, g2, g3, g4⟩ := nested_sub h1 hi hn hl
  obtain ⟨_, _, l', hl', hfacts⟩ := unroll_and_layout chk t' g3 (by omega) ([] ++ s)
  rw [g1] at hl'
  cases hl'
  obtain ⟨f', e1, e2⟩ := hfacts.idxFixed _ h2
  unfold getAt at hf
  rw [e1] at hf
  cases hf
  exact ⟨h1, List.mem_of_getElem? e1, e2.trans h3⟩

/-! ## Short buffers -/

theorem writeRaw_length {n : Nat} {buf buf' : Bytes} {o v : Nat} (h : writeRaw n buf o v = .ok buf') :
    buf'.length = buf.length := by
  unfold writeRaw at h
  split at h
  · cases h
  · split at h
    · cases h
    · cases h; rw [splice_length _ _ _ (by simp; omega)]

theorem writeRaw_no_ub {n : Nat} {buf : Bytes} {o v : Nat} (h : o + n ≤ buf.length) :
    writeRaw n buf o v ≠ .error .ub := by
  unfold writeRaw
  rw [if_neg (by omega), if_neg (by omega)]
  simp

theorem bind_no_ub {α β : Type} {x : Res α} {f : α → Res β} (hx : x ≠ .error .ub)
    (hf : ∀ a, x = .ok a → f a ≠ .error .ub) : (x >>= f) ≠ .error .ub := by
  cases x with
  | error e => intro h; exact hx (by cases h; rfl)
  | ok a => exact hf a rfl

theorem assert_no_ub (b : Bool) : assert b ≠ .error .ub := by unfold assert; split <;> simp

theorem addW_no_ub (chk : Bool) (a b : Nat) : addW chk a b ≠ .error .ub := by
  unfold addW; split
  · simp
  · split <;> simp

theorem subW_no_ub (chk : Bool) (a b : Nat) : subW chk a b ≠ .error .ub := by
  unfold subW; split
  · simp
  · split <;> simp

theorem shlW_no_ub (chk : Bool) (w a s : Nat) : shlW chk w a s ≠ .error .ub := by
  unfold shlW; split
  · simp
  · split <;> simp

theorem align_no_ub (chk : Bool) (v a : Nat) : align chk v a ≠ .error .ub := by
  unfold align
  refine bind_no_ub (assert_no_ub _) fun _ _ => bind_no_ub (addW_no_ub _ _ _) fun _ _ =>
    bind_no_ub (subW_no_ub _ _ _) fun _ _ => bind_no_ub (subW_no_ub _ _ _) fun _ _ => by simp [pure, Except.pure]

theorem tagMask_no_ub (chk : Bool) (w o n : Nat) : tagMask chk w o n ≠ .error .ub := by
  unfold tagMask
  refine bind_no_ub (shlW_no_ub _ _ _ _) fun _ _ => bind_no_ub ?_ fun _ _ => shlW_no_ub _ _ _ _
  unfold subP; split <;> simp

theorem writeFixed_tame {chk : Bool} {src : DataSource} (hs : Tame src) {f : FixedField} {buf : Bytes}
    (h : f.offset + f.size ≤ buf.length) : writeFixed chk src f buf ≠ .error .ub ∧
      ∀ b, writeFixed chk src f buf = .ok b → b.length = buf.length := by
  unfold FixedField.size at h
  unfold writeFixed
  cases hk : f.kind with
  | length =>
    simp only [hk] at h ⊢
    refine ⟨bind_no_ub (hs.length _) fun _ _ => bind_no_ub (assert_no_ub _) fun _ _ => writeRaw_no_ub h, ?_⟩
    intro b hb
    obtain ⟨_, _, hb⟩ := Res.bind_eq_ok.1 hb
    obtain ⟨_, _, hb⟩ := Res.bind_eq_ok.1 hb
    exact writeRaw_length hb
  | container i p => simp
  | prim p =>
    simp only [hk] at h ⊢
    refine ⟨bind_no_ub (hs.prim _ _) fun _ _ => writeRaw_no_ub h, ?_⟩
    intro b hb
    obtain ⟨_, _, hb⟩ := Res.bind_eq_ok.1 hb
    exact writeRaw_length hb
  | bitfield p o n =>
    simp only [hk] at h ⊢
    by_cases hc : p.isContainer
    · simp only [hc, if_true]
      refine ⟨bind_no_ub (hs.tag _) fun _ _ => bind_no_ub (tagMask_no_ub _ _ _ _) fun _ _ =>
        bind_no_ub (by rw [readRaw_ok h]; simp) fun _ _ => bind_no_ub (shlW_no_ub _ _ _ _) fun _ _ =>
        writeRaw_no_ub h, ?_⟩
      intro b hb
      obtain ⟨_, _, hb⟩ := Res.bind_eq_ok.1 hb
      obtain ⟨_, _, hb⟩ := Res.bind_eq_ok.1 hb
      obtain ⟨_, _, hb⟩ := Res.bind_eq_ok.1 hb
      obtain ⟨_, _, hb⟩ := Res.bind_eq_ok.1 hb
      exact writeRaw_length hb
    · simp only [hc]
      refine ⟨bind_no_ub (hs.tag _) fun _ _ => by simp, ?_⟩
      intro b hb
      obtain ⟨_, _, hb⟩ := Res.bind_eq_ok.1 hb
      simp at hb

theorem writeFixeds_tame {chk : Bool} {src : DataSource} (hs : Tame src) (fs : List FixedField) (buf : Bytes)
    (h : ∀ f ∈ fs, f.offset + f.size ≤ buf.length) : writeFixeds chk src fs buf ≠ .error .ub := by
  induction fs generalizing buf with
  | nil => simp [writeFixeds]
  | cons f fs ih =>
    rw [writeFixeds]
    obtain ⟨h1, h2⟩ := writeFixed_tame (chk := chk) hs (h f (by simp))
    refine bind_no_ub h1 fun b hb => ih b fun g hg => ?_
    rw [h2 b hb]
    exact h g (by simp [hg])

theorem caseSize_tame {chk : Bool} {src : DataSource} (cs : List Layout) (i : Nat)
    (h : ∀ c ∈ cs, c.sizeWithSource chk src ≠ .error .ub) : caseSizeWithSource chk src cs i ≠ .error .ub := by
  induction cs generalizing i with
  | nil => rw [caseSizeWithSource]; simp
  | cons c cs ih =>
    cases i with
    | zero => rw [caseSizeWithSource]; exact h c (by simp)
    | succ i => rw [caseSizeWithSource]; exact ih i (fun d hd => h d (by simp [hd]))

theorem encodeCase_tame {chk : Bool} {src : DataSource} (cs : List Layout) (i : Nat) (buf : Bytes)
    (h : ∀ c ∈ cs, c.encode chk src buf ≠ .error .ub) : encodeCase chk src cs i buf ≠ .error .ub := by
  induction cs generalizing i with
  | nil => rw [encodeCase]; simp
  | cons c cs ih =>
    cases i with
    | zero => rw [encodeCase]; exact h c (by simp)
    | succ i => rw [encodeCase]; exact ih i (fun d hd => h d (by simp [hd]))

/-- Without strings, encoding never leaves the buffer, however short it is. -/
theorem encode_tame {chk : Bool} {src : DataSource} (hs : Tame src) (n : Nat) : ∀ (t : Ty), nodes t ≤ n →
    n < 2 ^ 59 → Inhab t → (∀ p, t.extract p ≠ .ok .string) → ∀ (p : Path) (l : Layout),
    calculateLayout chk t p = .ok l → l.sizeWithSource chk src ≠ .error .ub ∧
      ∀ buf, l.encode chk src buf ≠ .error .ub := by
  induction n with
  | zero => intro t h; have := nodes_pos t; omega
  | succ n ih =>
    intro t hn hn2 hi hns p l hl
    obtain ⟨_, _, l', hl', hfacts⟩ := unroll_and_layout chk t hi (by omega) p
    rw [hl] at hl'
    cases hl'
    have hvars : ∀ v ∈ l.vars, ∃ r fi cs, v = .enum r fi cs ∧ ∀ c ∈ cs,
        c.sizeWithSource chk src ≠ .error .ub ∧ ∀ buf, c.encode chk src buf ≠ .error .ub := by
      intro v hv
      cases v with
      | string r fi =>
        exfalso
        have h1 := hfacts.vars.mem_iff.1 (List.mem_map_of_mem (f := (·.setFixedIdx 0)) hv)
        obtain ⟨w, hw, he⟩ := List.mem_map.1 h1
        obtain ⟨⟨xq, xs⟩, hx, hxw⟩ := List.mem_filterMap.1 hw
        obtain ⟨s, _, hs2⟩ := slots_extract _ _ _ hx
        cases xs with
        | prim pr => simp [Slot.var] at hxw
        | str => exact hns s hs2
        | enum es => simp [Slot.var] at hxw; subst hxw; simp [VarField.setFixedIdx] at he
      | enum r fi cs =>
        refine ⟨r, fi, cs, rfl, fun c hc => ?_⟩
        obtain ⟨t', s, h1, h2, h3, h4⟩ := case_sub hi (by omega) hl hv hc
        exact ih t' (by omega) (by omega) h3 (fun q hq => hns (s ++ q) (by rw [extract_append h2]; exact hq))
          _ c h1
    obtain ⟨al, vo, idx, fixed, vars⟩ := l
    constructor
    · rw [Layout.sizeWithSource]
      refine bind_no_ub ?_ fun _ _ => align_no_ub _ _ _
      have : ∀ (vs : List VarField) (o : Nat), (∀ v ∈ vs, v ∈ vars) → varsSize chk src vs o ≠ .error .ub := by
        intro vs
        induction vs with
        | nil => intro o _; rw [varsSize]; simp
        | cons v vs ihv =>
          intro o hsub
          rw [varsSize]
          refine bind_no_ub ?_ fun o' _ => ihv o' (fun w hw => hsub w (by simp [hw]))
          obtain ⟨r, fi, cs, rfl, hc⟩ := hvars v (hsub v (by simp))
          rw [varSize]
          exact bind_no_ub (hs.tag _) fun _ _ =>
            bind_no_ub (caseSize_tame cs _ (fun c hcm => (hc c hcm).1)) fun _ _ => addW_no_ub _ _ _
      exact this vars vo (fun _ h => h)
    · intro buf
      rw [Layout.encode]
      refine bind_no_ub (assert_no_ub _) fun _ ha => ?_
      have hle : vo ≤ buf.length := of_decide_eq_true (assert_eq_ok ha)
      refine bind_no_ub (writeFixeds_tame hs fixed buf (fun f hf => Nat.le_trans (hfacts.inside f hf) hle))
        fun b _ => ?_
      refine bind_no_ub ?_ fun x _ => bind_no_ub (align_no_ub _ _ _) fun _ _ => by simp [pure, Except.pure]
      have : ∀ (vs : List VarField) (b : Bytes) (o : Nat), (∀ v ∈ vs, v ∈ vars) →
          encodeVars chk src vs b o ≠ .error .ub := by
        intro vs
        induction vs with
        | nil => intro b o _; rw [encodeVars]; simp
        | cons v vs ihv =>
          intro b o hsub
          rw [encodeVars]
          refine bind_no_ub ?_ fun x _ => ihv x.1 x.2 (fun w hw => hsub w (by simp [hw]))
          obtain ⟨r, fi, cs, rfl, hc⟩ := hvars v (hsub v (by simp))
          rw [encodeVar]
          exact bind_no_ub (hs.tag _) fun _ _ => bind_no_ub (assert_no_ub _) fun _ _ =>
            bind_no_ub (encodeCase_tame cs _ _ (fun c hcm => (hc c hcm).2 _)) fun _ _ =>
            bind_no_ub (caseSize_tame cs _ (fun c hcm => (hc c hcm).1)) fun _ _ =>
            bind_no_ub (addW_no_ub _ _ _) fun _ _ => by simp [pure, Except.pure]
      exact this vars b vo (fun _ h => h)

end Verif
