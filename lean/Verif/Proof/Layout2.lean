import Verif.Proof.Layout

/-! # Facts about a finished layout: indices and the whole -/

namespace Verif

/-! ## Indices -/

theorem mem_enumIndices {fs : List FixedField} {i : Nat} {x : Index} :
    x ∈ enumIndices fs i ↔ ∃ k f, fs[k]? = some f ∧ x = ⟨f.path, i + k, 0⟩ := by
  induction fs generalizing i with
  | nil => simp [enumIndices]
  | cons f fs ih =>
    rw [enumIndices, List.mem_cons, ih]
    constructor
    · rintro (h | ⟨k, g, h1, h2⟩)
      · exact ⟨0, f, rfl, h⟩
      · exact ⟨k + 1, g, by simpa using h1, by rw [h2, show i + 1 + k = i + (k + 1) by omega]⟩
    · rintro ⟨k, g, h1, h2⟩
      cases k with
      | zero => left; simp at h1; subst h1; exact h2
      | succ k =>
        right
        exact ⟨k, g, by simpa using h1, by rw [h2, show i + 1 + k = i + (k + 1) by omega]⟩

theorem enumIndices_map_path (fs : List FixedField) (i : Nat) :
    (enumIndices fs i).map (·.path) = fs.map (·.path) := by
  induction fs generalizing i with
  | nil => rfl
  | cons f fs ih => simp [enumIndices, ih]

theorem setVarIdx_getElem? (xs : List Index) (i v j : Nat) :
    (setVarIdx xs i v)[j]? = if j = i then (xs[j]?).map (fun x => { x with varIdx := v }) else xs[j]? := by
  induction xs generalizing i j with
  | nil => cases i <;> simp [setVarIdx]
  | cons x xs ih =>
    cases i with
    | zero => cases j <;> simp [setVarIdx]
    | succ i => cases j with
      | zero => simp [setVarIdx]
      | succ j => simp [setVarIdx, ih]

theorem setVarIdx_map (xs : List Index) (i v : Nat) :
    (setVarIdx xs i v).map (fun x => (x.path, x.fixedIdx)) = xs.map (fun x => (x.path, x.fixedIdx)) := by
  induction xs generalizing i with
  | nil => cases i <;> rfl
  | cons x xs ih => cases i with
    | zero => rfl
    | succ i => simp [setVarIdx, ih]

theorem pairwise_of_map {xs ys : List Index}
    (h : xs.map (fun x => (x.path, x.fixedIdx)) = ys.map (fun x => (x.path, x.fixedIdx)))
    (hy : ys.Pairwise (fun a b => b.path < a.path)) : xs.Pairwise (fun a b => b.path < a.path) := by
  have h1 : (ys.map (fun x => (x.path, x.fixedIdx))).Pairwise (fun a b => b.1 < a.1) := by
    rw [List.pairwise_map]; exact hy
  rw [← h, List.pairwise_map] at h1
  exact h1

theorem lookupMap_get {xs : List Index} (hp : xs.Pairwise (fun a b => b.path < a.path)) {x : Index}
    (hx : x ∈ xs) : mapGet Path.cmp x.path (lookupMap xs) = some x.fixedIdx := by
  have gen : ∀ (ys : List Index) (m : List (Path × Nat)), ys.Pairwise (fun a b => b.path < a.path) →
      (x ∈ ys ∨ (mapGet Path.cmp x.path m = some x.fixedIdx ∧ ∀ y ∈ ys, y.path ≠ x.path)) →
      mapGet Path.cmp x.path (ys.foldl (fun m x => mapInsert Path.cmp x.path x.fixedIdx m) m) =
        some x.fixedIdx := by
    intro ys
    induction ys with
    | nil => intro m _ h; rcases h with h | h; · simp at h
             · exact h.1
    | cons y ys ih =>
      intro m hp h
      rw [List.pairwise_cons] at hp
      rw [List.foldl_cons]
      apply ih _ hp.2
      rcases h with h | ⟨h1, h2⟩
      · rcases List.mem_cons.1 h with rfl | h
        · right
          refine ⟨by rw [mapGet_path_insert, if_pos rfl], fun z hz e => ?_⟩
          have := hp.1 z hz
          rw [e] at this
          exact absurd this (List.lt_irrefl _)
        · exact Or.inl h
      · right
        refine ⟨?_, fun z hz => h2 z (by simp [hz])⟩
        rw [mapGet_path_insert, if_neg (fun e => h2 y (by simp) e.symm)]
        exact h1
  exact gen xs [] hp (Or.inl hx)

@[simp] theorem VarField.setFixedIdx_path (v : VarField) (i : Nat) : (v.setFixedIdx i).path = v.path := by
  cases v <;> rfl
@[simp] theorem VarField.setFixedIdx_fixedIdx (v : VarField) (i : Nat) :
    (v.setFixedIdx i).fixedIdx = i := by cases v <;> rfl
@[simp] theorem VarField.setFixedIdx_alignment (v : VarField) (i : Nat) :
    (v.setFixedIdx i).alignment = v.alignment := by
  cases v with
  | string => rfl
  | enum p f cs => cases cs <;> rfl
@[simp] theorem VarField.setFixedIdx_set (v : VarField) (i j : Nat) :
    (v.setFixedIdx i).setFixedIdx j = v.setFixedIdx j := by cases v <;> rfl

theorem linkVars_ok (lookup : List (Path × Nat)) (xs0 : List Index)
    (hp : xs0.Pairwise (fun a b => b.path < a.path))
    (hl : ∀ x ∈ xs0, mapGet Path.cmp x.path lookup = some x.fixedIdx)
    (vs : List VarField) (i : Nat) (xs : List Index)
    (hxs : xs.map (fun x => (x.path, x.fixedIdx)) = xs0.map (fun x => (x.path, x.fixedIdx)))
    (hv : ∀ v ∈ vs, ∃ x ∈ xs0, x.path = v.path) (hn : (vs.map (·.path)).Nodup) :
    ∃ vs' xs', linkVars lookup vs i xs = .ok (vs', xs') ∧
      xs'.map (fun x => (x.path, x.fixedIdx)) = xs0.map (fun x => (x.path, x.fixedIdx)) ∧
      vs'.map (·.setFixedIdx 0) = vs.map (·.setFixedIdx 0) ∧
      (∀ v ∈ vs', ∃ x ∈ xs0, x.path = v.path ∧ x.fixedIdx = v.fixedIdx) ∧
      (∀ (j : Nat) (v : VarField), vs'[j]? = some v → ∀ x ∈ xs', x.path = v.path → x.varIdx = i + j) ∧
      (∀ x' ∈ xs', (∀ v ∈ vs, v.path ≠ x'.path) → x' ∈ xs) := by
  induction vs generalizing i xs with
  | nil => exact ⟨[], xs, rfl, hxs, rfl, by simp, by simp, fun x' hx' _ => hx'⟩
  | cons v vs ih =>
    rw [List.map_cons, List.nodup_cons] at hn
    obtain ⟨x0, hx0, hxp⟩ := hv v (by simp)
    have hpx := pairwise_of_map hxs hp
    obtain ⟨k, hk, hkx⟩ : ∃ (k : Nat) (x : Index), xs[k]? = some x ∧ x.path = v.path := by
      obtain ⟨k, hk⟩ := List.getElem?_of_mem hx0
      have h1 : (xs0.map (fun x => (x.path, x.fixedIdx)))[k]? = some (x0.path, x0.fixedIdx) := by
        simp [hk]
      rw [← hxs] at h1
      simp only [List.getElem?_map, Option.map_eq_some_iff, Prod.mk.injEq] at h1
      obtain ⟨y, hy, h2, -⟩ := h1
      exact ⟨k, y, hy, h2.trans hxp⟩
    rw [linkVars, searchIndex_at hpx hkx.1 hkx.2 0]
    have hg := hl x0 hx0
    rw [hxp] at hg
    simp only [hg]
    obtain ⟨vs', xs', h1, h2, h3, h4, h5, h6⟩ := ih (i + 1) (setVarIdx xs (0 + k) i)
      ((setVarIdx_map _ _ _).trans hxs) (fun w hw => hv w (by simp [hw])) hn.2
    refine ⟨_, xs', by rw [h1]; rfl, h2, by simp [h3], ?_, ?_, ?_⟩
    · intro w hw
      rcases List.mem_cons.1 hw with rfl | hw
      · exact ⟨x0, hx0, by simp [hxp]⟩
      · exact h4 w hw
    · intro j w hw x hx hxw
      cases j with
      | zero =>
        have hwv : w = v.setFixedIdx x0.fixedIdx := by simpa using hw.symm
        subst hwv
        rw [VarField.setFixedIdx_path] at hxw
        have hmem := h6 x hx (by
          intro u hu e
          apply hn.1
          rw [← hxw, ← e]
          exact List.mem_map_of_mem hu)
        obtain ⟨m, hm⟩ := List.getElem?_of_mem hmem
        rw [setVarIdx_getElem?] at hm
        split at hm
        · obtain ⟨y, _, rfl⟩ := Option.map_eq_some_iff.1 hm
          rfl
        · rename_i hne
          exact absurd (getElem?_of_pairwise_lt hpx hm hkx.1 (hxw.trans hkx.2.symm)) (by omega)
      | succ j =>
        have := h5 j w (by simpa using hw) x hx hxw
        omega
    · intro x' hx' hne
      have hmem := h6 x' hx' (fun u hu => hne u (by simp [hu]))
      obtain ⟨m, hm⟩ := List.getElem?_of_mem hmem
      rw [setVarIdx_getElem?] at hm
      split at hm
      · rename_i hmk
        obtain ⟨y, hy, rfl⟩ := Option.map_eq_some_iff.1 hm
        rw [show m = k by omega, hkx.1] at hy
        cases hy
        exact absurd hkx.2.symm (hne v (by simp))
      · exact List.mem_of_getElem? hm

/-! ## The finished layout -/

/-- First bit and number of bits of a fixed field. -/
def FixedField.bitStart (f : FixedField) : Nat :=
  match f.kind with
  | .bitfield _ o _ => 8 * f.offset + o
  | _ => 8 * f.offset

def FixedField.bitCount (f : FixedField) : Nat :=
  match f.kind with
  | .bitfield _ _ n => n
  | _ => 8 * f.size

/-- The bit ranges of two fields do not overlap. -/
def BitDisjoint (f g : FixedField) : Prop :=
  f.bitStart + f.bitCount ≤ g.bitStart ∨ g.bitStart + g.bitCount ≤ f.bitStart

/-- All facts about the layout made from unrolled fields. -/
structure LayoutFacts (fx : List FixedField) (bs : List Bitfield) (vs : List VarField) (l : Layout) :
    Prop where
  al : SmallPow l.alignment
  paths : (l.fixed.map (·.path)).Perm (fx.map (·.path) ++ bs.map (·.path))
  kinds : ∀ f ∈ l.fixed, (∃ g ∈ fx, g.path = f.path ∧ g.kind = f.kind) ∨
    (∃ b ∈ bs, ∃ p o, b.path = f.path ∧ f.kind = .bitfield p o b.numBits ∧
      (p.isContainer = true ∧ p.size ≤ 8) ∧
      o + b.numBits ≤ 8 * p.size)
  disj : l.fixed.Pairwise BitDisjoint
  bytes : l.fixed.Pairwise (fun f g => f.offset + f.size ≤ g.offset ∨ g.offset + g.size ≤ f.offset ∨
    (f.offset = g.offset ∧ ∃ p a m b n, f.kind = .bitfield p a m ∧ g.kind = .bitfield p b n))
  inside : ∀ f ∈ l.fixed, f.offset + f.size ≤ l.varOffset
  aligned : ∀ f ∈ l.fixed, f.size ∣ f.offset ∧ f.size ∣ l.alignment
  valigned : ∀ v ∈ l.vars, v.alignment ∣ l.varOffset ∧ v.alignment ∣ l.alignment
  top : l.alignment = 1 ∨ (∃ f ∈ l.fixed, f.size = l.alignment) ∨ (∃ v ∈ l.vars, v.alignment = l.alignment)
  vsorted : l.vars.Pairwise (fun v w => w.alignment ≤ v.alignment)
  bound : l.varOffset ≤ 16 * (fx.length + bs.length) + 16
  vars : (l.vars.map (·.setFixedIdx 0)).Perm (vs.map (·.setFixedIdx 0))
  guard : ∀ v ∈ l.vars, ∃ f, l.fixed[v.fixedIdx]? = some f ∧ f.path = v.path
  sorted : l.indices.Pairwise (fun a b => b.path < a.path)
  idxFixed : ∀ x ∈ l.indices, ∃ f, l.fixed[x.fixedIdx]? = some f ∧ f.path = x.path
  idxAll : ∀ f ∈ l.fixed, ∃ x ∈ l.indices, x.path = f.path
  idxVar : ∀ (i : Nat) (v : VarField), l.vars[i]? = some v → ∀ x ∈ l.indices, x.path = v.path →
    x.varIdx = i

theorem totalSize_le (fs : List FixedField) : totalSize fs ≤ 16 * fs.length := by
  induction fs with
  | nil => simp [totalSize]
  | cons f fs ih =>
    have := f.size_pow.le
    simp only [totalSize, List.map_cons, List.sum_cons, List.length_cons] at *
    omega

theorem pairwise_mem_ne {α : Type} {R : α → α → Prop} {l : List α} (h : l.Pairwise R) {a b : α}
    (ha : a ∈ l) (hb : b ∈ l) (hne : a ≠ b) : R a b ∨ R b a := by
  induction l with
  | nil => simp at ha
  | cons x xs ih =>
    rw [List.pairwise_cons] at h
    rcases List.mem_cons.1 ha with ea | ha' <;> rcases List.mem_cons.1 hb with eb | hb'
    · exact absurd (ea.trans eb.symm) hne
    · subst ea; exact Or.inl (h.1 b hb')
    · subst eb; exact Or.inr (h.1 a ha')
    · exact ih h.2 ha' hb'

theorem finishLayout_ok (chk : Bool) (fx : List FixedField) (bs : List Bitfield) (vs : List VarField)
    (hfx : ∀ f ∈ fx, (∃ p, f.kind = .prim p) ∨ f.kind = .length)
    (hbs : ∀ b ∈ bs, b.numBits ≤ 64)
    (hva : ∀ v ∈ vs, SmallPow v.alignment)
    (hn : (fx.map (·.path) ++ bs.map (·.path)).Nodup)
    (hvp : ∀ v ∈ vs, v.path ∈ fx.map (·.path) ++ bs.map (·.path))
    (hvn : (vs.map (·.path)).Nodup)
    (hsz : 16 * (fx.length + bs.length) + 32 < W64) :
    ∃ l, finishLayout chk fx bs vs = .ok l ∧ LayoutFacts fx bs vs l := by
  obtain ⟨bs', cs, ha, hal⟩ := allocateBitfields_ok bs hbs
  -- the sorted fixed fields, before and after placing
  obtain ⟨F0, hF0⟩ : ∃ F0, F0 = sortBy (fun l r : FixedField => decide (r.size ≤ l.size))
    (fx ++ containerFields cs 0) := ⟨_, rfl⟩
  obtain ⟨V0, hV0⟩ : ∃ V0, V0 = sortBy (fun l r : VarField => decide (r.alignment ≤ l.alignment)) vs :=
    ⟨_, rfl⟩
  have hF0p : F0.Perm (fx ++ containerFields cs 0) := by rw [hF0]; exact sortBy_perm _ _
  have hV0p : V0.Perm vs := by rw [hV0]; exact sortBy_perm _ _
  have hF0s : F0.Pairwise (fun a b => b.size ≤ a.size) := by rw [hF0]; exact sortBy_ge_pairwise _ _
  have hV0s : V0.Pairwise (fun a b => b.alignment ≤ a.alignment) := by
    rw [hV0]; exact sortBy_ge_pairwise _ _
  have hbits : bs'.length ≤ bs.length := by
    have := congrArg List.length hal.same
    simp only [List.length_map] at this
    rw [this, (sortBy_perm _ _).length_eq]; exact Nat.le_refl _
  have hcs : cs.length ≤ bs.length := by
    have := hal.grow
    rw [(sortBy_perm _ _).length_eq] at this
    simpa using this
  have hF0k : ∀ f ∈ F0, (∃ p, f.kind = .prim p) ∨ f.kind = .length ∨
      (∃ k c, cs[k]? = some c ∧ f.kind = .container k c.prim) := by
    intro f hf
    rcases List.mem_append.1 (hF0p.mem_iff.1 hf) with h | h
    · rcases hfx f h with h | h
      · exact Or.inl h
      · exact Or.inr (Or.inl h)
    · obtain ⟨k, c, h1, h2⟩ := (containerFields_spec cs 0 f).1 h
      exact Or.inr (Or.inr ⟨k, c, h1, by rw [h2]; simp⟩)
  have hF0nb : ∀ f ∈ F0, ∀ p a b, f.kind ≠ .bitfield p a b := by
    intro f hf p a b e
    rcases hF0k f hf with ⟨q, h⟩ | h | ⟨k, c, _, h⟩ <;> rw [h] at e <;> cases e
  have hF0len : F0.length ≤ fx.length + bs.length := by
    rw [hF0p.length_eq, List.length_append, containerFields_length]; omega
  have hts := totalSize_le F0
  have hao := assignOffsets_ok chk F0 0 hF0nb (by omega)
  obtain ⟨F, hF⟩ : ∃ F, F = placed F0 0 := ⟨_, rfl⟩
  rw [← hF] at hao
  have hFk : ∀ f ∈ F, (∃ g ∈ F0, f.path = g.path ∧ f.kind = g.kind ∧ f.size = g.size) := by
    intro f hf
    rw [hF] at hf
    obtain ⟨g, h1, h2, h3, h4, _, _⟩ := mem_placed hf
    exact ⟨g, h1, h2, h3, h4⟩
  have hFin : ∀ f ∈ F, f.offset + f.size ≤ totalSize F0 := by
    intro f hf
    rw [hF] at hf
    obtain ⟨g, _, _, _, _, _, h⟩ := mem_placed hf
    omega
  have hFpw : F.Pairwise (fun f g => f.offset + f.size ≤ g.offset) := by rw [hF]; exact placed_pairwise _ _
  have hFal : ∀ g ∈ F, g.size ∣ g.offset := by
    rw [hF]; exact placed_aligned F0 0 hF0s (fun _ _ => Nat.dvd_zero _)
  have hFmap : F.map (fun f => (f.path, f.kind)) = F0.map (fun f => (f.path, f.kind)) := by
    rw [hF]; exact placed_map_path _ _
  have hFs : F.Pairwise (fun a b => b.size ≤ a.size) := by
    have h1 : ∀ (l : List FixedField) (s : Nat), l.Pairwise (fun a b => b.size ≤ a.size) →
        (placed l s).Pairwise (fun a b => b.size ≤ a.size) := by
      intro l
      induction l with
      | nil => intro s _; exact .nil
      | cons f fs ih =>
        intro s h
        rw [List.pairwise_cons] at h
        rw [placed, List.pairwise_cons]
        refine ⟨fun g hg => ?_, ih _ h.2⟩
        obtain ⟨f', h1, _, _, h4, _, _⟩ := mem_placed hg
        rw [h4]
        exact h.1 f' h1
    rw [hF]; exact h1 F0 0 hF0s
  have hFnb : ∀ f ∈ F, ∀ p a b, f.kind ≠ .bitfield p a b := by
    intro f hf p a b
    obtain ⟨g, hg, _, h, _⟩ := hFk f hf
    rw [h]; exact hF0nb g hg p a b
  obtain ⟨fa, hfa, hfap, hfal, hfat⟩ := firstSize_spec hFnb hFs
  have hV0a : ∀ v ∈ V0, SmallPow v.alignment := fun v hv => hva v (hV0p.mem_iff.1 hv)
  obtain ⟨hvap, hval, hvat⟩ := firstAlignment_spec hV0a hV0s
  have hat : align chk (0 + totalSize F0) (firstAlignment V0) =
      .ok (alignUp (totalSize F0) (firstAlignment V0)) := by
    rw [Nat.zero_add]; exact align_smallPow hvap (by omega)
  have hvo1 := le_alignUp (totalSize F0) hvap.pos
  have hvo2 := alignUp_lt (totalSize F0) hvap.pos
  have hvle := hvap.le
  -- containers
  have hcont : ∀ b ∈ bs', ∃ r, containerAt b.index F = some r := by
    intro b hb
    obtain ⟨h1, -, -⟩ := hal.room b hb
    have hmem : (⟨[], .container b.index (cs[b.index]'h1).prim, 0⟩ : FixedField) ∈ F0 := by
      apply hF0p.mem_iff.2
      apply List.mem_append_right
      exact (containerFields_spec cs 0 _).2 ⟨b.index, cs[b.index]'h1, List.getElem?_eq_getElem h1, by simp⟩
    have h2 : (([] : Path), FixedKind.container b.index (cs[b.index]'h1).prim) ∈
        F.map (fun f => (f.path, f.kind)) := by
      rw [hFmap]
      exact List.mem_map_of_mem hmem
    obtain ⟨f, hf, he⟩ := List.mem_map.1 h2
    exact containerAt_of_mem hf (by simpa using congrArg Prod.snd he)
  have hbf := bitfieldFields_ok hcont
  have hbits1 : ∀ b ∈ bs', ∃ g ∈ F, ∃ p c, (bitField F b).kind = .bitfield p b.bitOffset b.numBits ∧
      g.kind = .container b.index p ∧ g.offset = (bitField F b).offset ∧ cs[b.index]? = some c ∧
      c.prim = p := by
    intro b hb
    obtain ⟨⟨o, p⟩, hr⟩ := hcont b hb
    obtain ⟨g, hg, h1, h2⟩ := containerAt_mem hr
    obtain ⟨g0, hg0, _, h3, _⟩ := hFk g hg
    rcases hF0k g0 hg0 with ⟨q, h⟩ | h | ⟨k, c, hk, h⟩
    · rw [h1, h] at h3; cases h3
    · rw [h1, h] at h3; cases h3
    · rw [h1, h] at h3
      cases h3
      exact ⟨g, hg, _, c, by simp [bitField, hr], h1, by simp [bitField, hr, h2], hk, rfl⟩
  -- the final fixed fields
  obtain ⟨G, hG⟩ : ∃ G, G = F.filter (fun f => !f.isContainer) ++ bs'.map (bitField F) := ⟨_, rfl⟩
  have hnc : ∀ f, f ∈ F.filter (fun f => !f.isContainer) →
      f ∈ F ∧ ∀ k p, f.kind ≠ .container k p := by
    intro f hf
    rw [List.mem_filter] at hf
    refine ⟨hf.1, fun k p e => ?_⟩
    have := hf.2
    simp [FixedField.isContainer, e] at this
  have hbpath : (bs'.map (bitField F)).map (·.path) = bs'.map (·.path) := by
    rw [List.map_map]; rfl
  have hbsp : (bs'.map (·.path)).Perm (bs.map (·.path)) := by
    have h1 : bs'.map (·.path) =
        (sortBy (fun l r : Bitfield => decide (r.numBits ≤ l.numBits)) bs).map (·.path) := by
      have := congrArg (List.map Prod.fst) hal.same
      rw [List.map_map, List.map_map] at this
      exact this
    rw [h1]
    exact (sortBy_perm _ _).map _
  have hfpath : ((F.filter (fun f => !f.isContainer)).map (·.path)).Perm (fx.map (·.path)) := by
    have key : ∀ l : List FixedField, (l.filter (fun f => !f.isContainer)).map (·.path) =
        ((l.map (fun f => (f.path, f.kind))).filter (fun q => match q.2 with
          | .container .. => false | _ => true)).map (·.1) := by
      intro l
      induction l with
      | nil => rfl
      | cons f fs ih =>
        simp only [List.map_cons, List.filter_cons]
        unfold FixedField.isContainer at *
        cases f.kind <;> simp [ih]
    rw [key, hFmap, ← key]
    have h1 := (hF0p.filter (fun f => !f.isContainer)).map (·.path)
    refine h1.trans ?_
    rw [List.filter_append]
    have h2 : (containerFields cs 0).filter (fun f => !f.isContainer) = [] := by
      rw [List.filter_eq_nil_iff]
      intro f hf
      obtain ⟨k, c, _, h⟩ := (containerFields_spec cs 0 f).1 hf
      simp [h, FixedField.isContainer]
    have h3 : fx.filter (fun f => !f.isContainer) = fx := by
      rw [List.filter_eq_self]
      intro f hf
      rcases hfx f hf with ⟨p, h⟩ | h <;> simp [h, FixedField.isContainer]
    rw [h2, h3]; simp
  have hGpath : (G.map (·.path)).Perm (fx.map (·.path) ++ bs.map (·.path)) := by
    rw [hG, List.map_append, hbpath]
    exact hfpath.append hbsp
  have hGnd : (G.map (·.path)).Nodup := hGpath.nodup_iff.2 hn
  -- indices
  obtain ⟨X, hX⟩ : ∃ X, X = sortBy (fun l r : Index => Path.cmp l.path r.path != .lt) (enumIndices G 0) :=
    ⟨_, rfl⟩
  have hXs : X.Pairwise (fun a b => b.path < a.path) := by
    rw [hX]; exact sortBy_path_pairwise _ (by rw [enumIndices_map_path]; exact hGnd)
  have hXm : ∀ x, x ∈ X ↔ ∃ k f, G[k]? = some f ∧ x = ⟨f.path, k, 0⟩ := by
    intro x
    rw [hX, (sortBy_perm _ _).mem_iff, mem_enumIndices]
    simp
  obtain ⟨V, Y, hlink, hY, hV, hVg, hVi, -⟩ := linkVars_ok (lookupMap X) X hXs
    (fun x hx => lookupMap_get hXs hx) V0 0 X rfl
    (by
      intro v hv
      have h1 := hvp v (hV0p.mem_iff.1 hv)
      have h2 := hGpath.mem_iff.2 h1
      obtain ⟨f, hf, he⟩ := List.mem_map.1 h2
      obtain ⟨k, hk⟩ := List.getElem?_of_mem hf
      exact ⟨⟨f.path, k, 0⟩, (hXm _).2 ⟨k, f, hk, rfl⟩, he⟩)
    ((hV0p.map _).nodup_iff.2 hvn)
  have hYX : ∀ y ∈ Y, ∃ x ∈ X, x.path = y.path ∧ x.fixedIdx = y.fixedIdx := by
    intro y hy
    have : (y.path, y.fixedIdx) ∈ X.map (fun x => (x.path, x.fixedIdx)) := by
      rw [← hY]; exact List.mem_map_of_mem hy
    obtain ⟨x, hx, he⟩ := List.mem_map.1 this
    exact ⟨x, hx, by simpa using congrArg Prod.fst he, by simpa using congrArg Prod.snd he⟩
  have hXY : ∀ x ∈ X, ∃ y ∈ Y, y.path = x.path := by
    intro x hx
    have : (x.path, x.fixedIdx) ∈ Y.map (fun x => (x.path, x.fixedIdx)) := by
      rw [hY]; exact List.mem_map_of_mem hx
    obtain ⟨y, hy, he⟩ := List.mem_map.1 this
    exact ⟨y, hy, by simpa using congrArg Prod.fst he⟩
  have hXf : ∀ x ∈ X, ∃ f, G[x.fixedIdx]? = some f ∧ f.path = x.path := by
    intro x hx
    obtain ⟨k, f, hk, rfl⟩ := (hXm x).1 hx
    exact ⟨f, hk, rfl⟩
  -- membership facts of the final fields
  have hGcases : ∀ f ∈ G, (f ∈ F ∧ (∀ k p, f.kind ≠ .container k p)) ∨
      ∃ b ∈ bs', f = bitField F b := by
    intro f hf
    rw [hG] at hf
    rcases List.mem_append.1 hf with h | h
    · exact Or.inl (hnc f h)
    · obtain ⟨b, hb, rfl⟩ := List.mem_map.1 h
      exact Or.inr ⟨b, hb, rfl⟩
  -- each field lies in the byte range of an element of F
  have hGF : ∀ f ∈ G, ∃ g ∈ F, g.offset = f.offset ∧ g.size = f.size := by
    intro f hf
    rcases hGcases f hf with h | ⟨b, hb, rfl⟩
    · exact ⟨f, h.1, rfl, rfl⟩
    · obtain ⟨g, hg, p, c, h1, h2, h3, h4, h5⟩ := hbits1 b hb
      exact ⟨g, hg, h3, by simp [FixedField.size, h1, h2]⟩
  have hused : ∀ b ∈ bs', ∀ c, cs[b.index]? = some c → b.bitOffset + b.numBits ≤ 8 * c.prim.size := by
    intro b hb c hc
    obtain ⟨_, _, h⟩ := hal.room b hb
    have h2 := (hal.ok c (List.mem_of_getElem? hc)).2
    unfold usedBits at h
    rw [hc] at h
    simp at h
    omega
  refine ⟨.mk (max fa (firstAlignment V0)) (alignUp (totalSize F0) (firstAlignment V0)) Y G V, ?_, ?_⟩
  · unfold finishLayout
    rw [ha]
    simp only [Res.bind_ok]
    rw [← hF0, ← hV0, hao]
    simp only [Res.bind_ok]
    rw [hfa]
    simp only [Res.bind_ok]
    rw [hat]
    simp only [Res.bind_ok]
    rw [hbf]
    simp only [Res.bind_ok]
    rw [← hG, ← hX, hlink]
    rfl
  · constructor
    case al => exact hfap.max hvap
    case paths => exact hGpath
    case kinds =>
      intro f hf
      rcases hGcases f hf with ⟨h1, h2⟩ | ⟨b, hb, rfl⟩
      · left
        obtain ⟨g, hg, e1, e2, _⟩ := hFk f h1
        rcases List.mem_append.1 (hF0p.mem_iff.1 hg) with h | h
        · exact ⟨g, h, e1.symm, e2.symm⟩
        · obtain ⟨k, c, _, h⟩ := (containerFields_spec cs 0 g).1 h
          exact absurd (by rw [e2, h]) (h2 (0 + k) c.prim)
      · right
        obtain ⟨g, hg, p, c, h1, h2, h3, h4, h5⟩ := hbits1 b hb
        have hbm : (b.path, b.numBits) ∈ bs.map (fun f => (f.path, f.numBits)) := by
          have : (b.path, b.numBits) ∈ bs'.map (fun f => (f.path, f.numBits)) :=
            List.mem_map_of_mem hb
          rw [hal.same] at this
          exact ((sortBy_perm _ _).map _).mem_iff.1 this
        obtain ⟨b0, hb0, he⟩ := List.mem_map.1 hbm
        have e1 : b0.path = b.path := by simpa using congrArg Prod.fst he
        have e2 : b0.numBits = b.numBits := by simpa using congrArg Prod.snd he
        refine ⟨b0, hb0, p, b.bitOffset, e1, by rw [e2]; exact h1, ?_, ?_⟩
        · rw [← h5]; exact (hal.ok c (List.mem_of_getElem? h4)).1
        · rw [e2, ← h5]; exact hused b hb c h4
    case disj =>
      change G.Pairwise BitDisjoint
      have hne : ∀ f ∈ F, ∀ g ∈ F, f ≠ g → f.offset + f.size ≤ g.offset ∨ g.offset + g.size ≤ f.offset :=
        fun f hf g hg h => pairwise_mem_ne hFpw hf hg h
      have hplain : ∀ f ∈ F, f.bitStart = 8 * f.offset ∧ f.bitCount = 8 * f.size := by
        intro f hf
        have := hFnb f hf
        unfold FixedField.bitStart FixedField.bitCount
        cases hk : f.kind <;> simp
        exact absurd hk (this _ _ _)
      have hbit : ∀ b ∈ bs', ∃ g ∈ F, (∃ p, g.kind = .container b.index p) ∧
          (bitField F b).bitStart = 8 * g.offset + b.bitOffset ∧
          (bitField F b).bitCount = b.numBits ∧
          b.bitOffset + b.numBits ≤ 8 * g.size := by
        intro b hb
        obtain ⟨g, hg, p, c, h1, h2, h3, h4, h5⟩ := hbits1 b hb
        refine ⟨g, hg, ⟨p, h2⟩, ?_, ?_, ?_⟩
        · simp [FixedField.bitStart, h1, h3]
        · simp [FixedField.bitCount, h1]
        · have := hused b hb c h4
          simp only [FixedField.size, h2]
          rw [← h5]; exact this
      rw [hG, List.pairwise_append]
      refine ⟨?_, ?_, ?_⟩
      · have h1 := hFpw.filter (fun f => !f.isContainer)
        rw [List.pairwise_iff_getElem] at h1 ⊢
        intro i j hi hj hij
        have h2 := h1 i j hi hj hij
        obtain ⟨a1, a2⟩ := hplain _ (hnc _ (List.getElem_mem hi)).1
        obtain ⟨b1, b2⟩ := hplain _ (hnc _ (List.getElem_mem hj)).1
        left
        rw [a1, a2, b1]; omega
      · rw [List.pairwise_map]
        have hd := hal.disj
        rw [List.pairwise_iff_getElem] at hd ⊢
        intro i j hi hj hij
        have h2 := hd i j hi hj hij
        obtain ⟨g, hg, ⟨p, gk⟩, a1, a2, a3⟩ := hbit _ (List.getElem_mem hi)
        obtain ⟨g', hg', ⟨p', gk'⟩, b1, b2, b3⟩ := hbit _ (List.getElem_mem hj)
        by_cases he : bs'[i].index = bs'[j].index
        · -- same container
          have hsame : (bitField F bs'[i]).offset = (bitField F bs'[j]).offset := by
            simp [bitField, he]
          obtain ⟨q, hq, p1, c1, i1, i2, i3, i4, i5⟩ := hbits1 _ (List.getElem_mem hi)
          obtain ⟨q', hq', p1', c1', j1, j2, j3, j4, j5⟩ := hbits1 _ (List.getElem_mem hj)
          left
          have s1 : (bitField F bs'[i]).bitStart = 8 * (bitField F bs'[i]).offset + bs'[i].bitOffset := by
            simp [FixedField.bitStart, i1]
          have s2 : (bitField F bs'[j]).bitStart = 8 * (bitField F bs'[j]).offset + bs'[j].bitOffset := by
            simp [FixedField.bitStart, j1]
          have := h2 he
          rw [s1, s2, a2, hsame]; omega
        · have hgne : g ≠ g' := by
            intro e; rw [e, gk'] at gk; exact he (FixedKind.container.inj gk).1.symm
          unfold BitDisjoint
          rw [a1, a2, b1, b2]
          rcases hne g hg g' hg' hgne with h | h
          · left; omega
          · right; omega
      · intro f hf h hh
        obtain ⟨b, hb, rfl⟩ := List.mem_map.1 hh
        obtain ⟨hfF, hfk⟩ := hnc f hf
        obtain ⟨g, hg, ⟨p, gk⟩, a1, a2, a3⟩ := hbit b hb
        obtain ⟨f1, f2⟩ := hplain f hfF
        have hgne : f ≠ g := by intro e; exact hfk _ _ (e ▸ gk)
        unfold BitDisjoint
        rw [a1, a2, f1, f2]
        rcases hne f hfF g hg hgne with h | h
        · left; omega
        · right; omega
    case bytes =>
      change G.Pairwise _
      have hne : ∀ f ∈ F, ∀ g ∈ F, f ≠ g → f.offset + f.size ≤ g.offset ∨ g.offset + g.size ≤ f.offset :=
        fun f hf g hg h => pairwise_mem_ne hFpw hf hg h
      rw [hG, List.pairwise_append]
      refine ⟨?_, ?_, ?_⟩
      · refine (hFpw.filter (fun f => !f.isContainer)).imp ?_
        intro a b h
        exact Or.inl h
      · rw [List.pairwise_map]
        rw [List.pairwise_iff_getElem]
        intro i j hi hj hij
        obtain ⟨g, hg, p, c, h1, h2, h3, h4, h5⟩ := hbits1 _ (List.getElem_mem hi)
        obtain ⟨g', hg', p', c', h1', h2', h3', h4', h5'⟩ := hbits1 _ (List.getElem_mem hj)
        have z1 : g.size = (bitField F bs'[i]).size := by simp [FixedField.size, h1, h2]
        have z2 : g'.size = (bitField F bs'[j]).size := by simp [FixedField.size, h1', h2']
        by_cases hgg : g = g'
        · right; right
          have hpp : p' = p := by rw [hgg, h2'] at h2; exact (FixedKind.container.inj h2).2
          rw [hpp] at h1'
          exact ⟨by rw [← h3, ← h3', hgg], p, _, _, _, _, h1, h1'⟩
        · rcases hne g hg g' hg' hgg with h | h
          · left; omega
          · right; left; omega
      · intro f hf h hh
        obtain ⟨b, hb, rfl⟩ := List.mem_map.1 hh
        obtain ⟨hfF, hfk⟩ := hnc f hf
        obtain ⟨g, hg, p, c, h1, h2, h3, h4, h5⟩ := hbits1 b hb
        have z1 : g.size = (bitField F b).size := by simp [FixedField.size, h1, h2]
        have hgne : f ≠ g := by intro e; exact hfk _ _ (e ▸ h2)
        rcases hne f hfF g hg hgne with h | h
        · left; omega
        · right; left; omega
    case inside =>
      intro f hf
      obtain ⟨g, hg, h1, h2⟩ := hGF f hf
      have := hFin g hg
      change f.offset + f.size ≤ alignUp (totalSize F0) (firstAlignment V0)
      omega
    case aligned =>
      intro f hf
      obtain ⟨g, hg, h1, h2⟩ := hGF f hf
      refine ⟨by rw [← h1, ← h2]; exact hFal g hg, ?_⟩
      rw [← h2]
      exact SmallPow.dvd g.size_pow (hfap.max hvap) (Nat.le_trans (hfal g hg) (Nat.le_max_left _ _))
    case valigned =>
      intro v hv
      have h1 : v.setFixedIdx 0 ∈ V0.map (·.setFixedIdx 0) := by
        rw [← hV]; exact List.mem_map_of_mem hv
      obtain ⟨w, hw, he⟩ := List.mem_map.1 h1
      have h2 : v.alignment = w.alignment := by
        have := congrArg VarField.alignment he
        simpa using this.symm
      rw [h2]
      refine ⟨?_, SmallPow.dvd (hV0a w hw) (hfap.max hvap) (Nat.le_trans (hval w hw) (Nat.le_max_right _ _))⟩
      exact Nat.dvd_trans (SmallPow.dvd (hV0a w hw) hvap (hval w hw)) (alignUp_dvd _ _)
    case top =>
      change max fa (firstAlignment V0) = 1 ∨ (∃ f ∈ G, f.size = max fa (firstAlignment V0)) ∨
        (∃ v ∈ V, v.alignment = max fa (firstAlignment V0))
      have hvo := hvap.pos
      have hfo := hfap.pos
      rcases Nat.lt_or_ge fa (firstAlignment V0) with hlt | hge
      · rw [Nat.max_eq_right (by omega)]
        rcases hvat with h | ⟨w, hw, he⟩
        · omega
        · have h1 : w.setFixedIdx 0 ∈ V.map (·.setFixedIdx 0) := by
            rw [hV]; exact List.mem_map_of_mem hw
          obtain ⟨v, hv, hve⟩ := List.mem_map.1 h1
          have h2 : v.alignment = w.alignment := by
            have := congrArg VarField.alignment hve
            simpa using this
          exact .inr (.inr ⟨v, hv, by rw [h2]; exact he⟩)
      · rw [Nat.max_eq_left hge]
        rcases hfat with h | ⟨f, hf, he⟩
        · exact .inl h
        · refine .inr (.inl ?_)
          obtain ⟨g, hg, _, hk, _⟩ := hFk f hf
          rcases hF0k g hg with ⟨q, h⟩ | h | ⟨k, c, hkc, h⟩
          · refine ⟨f, ?_, he⟩
            rw [hG]
            exact List.mem_append_left _ (List.mem_filter.2 ⟨hf, by simp [FixedField.isContainer, hk, h]⟩)
          · refine ⟨f, ?_, he⟩
            rw [hG]
            exact List.mem_append_left _ (List.mem_filter.2 ⟨hf, by simp [FixedField.isContainer, hk, h]⟩)
          · obtain ⟨b, hb, hbi⟩ := hal.used k (by simp) (List.getElem?_eq_some_iff.1 hkc).1
            obtain ⟨_, _, p, c', h1, _, _, h4, h5⟩ := hbits1 b hb
            rw [hbi, hkc] at h4
            cases h4
            refine ⟨bitField F b, by rw [hG]; exact List.mem_append_right _ (List.mem_map_of_mem hb), ?_⟩
            rw [← he]
            simp [FixedField.size, h1, hk, h, h5]
    case vsorted =>
      change V.Pairwise _
      have h1 : V.map VarField.alignment = V0.map VarField.alignment := by
        have := congrArg (List.map VarField.alignment) hV
        simpa [List.map_map, Function.comp_def] using this
      have h2 : (V0.map VarField.alignment).Pairwise (fun a b => b ≤ a) := List.pairwise_map.2 hV0s
      rw [← h1] at h2
      exact List.pairwise_map.1 h2
    case bound =>
      change alignUp (totalSize F0) (firstAlignment V0) ≤ _
      omega
    case vars => exact (List.Perm.of_eq hV).trans (hV0p.map _)
    case guard =>
      intro v hv
      obtain ⟨x, hx, h1, h2⟩ := hVg v hv
      obtain ⟨f, hf, h3⟩ := hXf x hx
      exact ⟨f, by rw [← h2]; exact hf, h3.trans h1⟩
    case sorted => exact pairwise_of_map hY hXs
    case idxFixed =>
      intro y hy
      obtain ⟨x, hx, h1, h2⟩ := hYX y hy
      obtain ⟨f, hf, h3⟩ := hXf x hx
      exact ⟨f, by rw [← h2]; exact hf, h3.trans h1⟩
    case idxAll =>
      intro f hf
      obtain ⟨k, hk⟩ := List.getElem?_of_mem hf
      obtain ⟨y, hy, he⟩ := hXY ⟨f.path, k, 0⟩ ((hXm _).2 ⟨k, f, hk, rfl⟩)
      exact ⟨y, hy, he⟩
    case idxVar =>
      intro i v hv x hx he
      have := hVi i v hv x hx he
      omega

end Verif
