import Verif.Proof.Readable

/-! # What encoding writes, bit by bit

`w i` is what is written to bit `i`, if it is. -/

namespace Verif

open Spec

theorem bitAt_eq (data : Bytes) (i : Nat) : bitAt data i = bit data i := (bit_eq data i).symm

/-- The number of bits below `n` that are written. -/
def countW (w : Nat → Option Bool) (n : Nat) : Nat := (List.range n).countP fun i => (w i).isSome

theorem countW_succ (w : Nat → Option Bool) (n : Nat) :
    countW w (n + 1) = countW w n + if (w n).isSome then 1 else 0 := by
  simp [countW, List.range_succ, List.countP_append, List.countP_cons]

theorem countW_congr {w w' : Nat → Option Bool} (n : Nat) (h : ∀ i, i < n → (w i).isSome = (w' i).isSome) :
    countW w n = countW w' n := by
  induction n with
  | zero => rfl
  | succ n ih => rw [countW_succ, countW_succ, ih fun i hi => h i (by omega), h n (by omega)]

theorem countW_none (n : Nat) : countW (fun _ => none) n = 0 := by
  induction n with
  | zero => rfl
  | succ n ih => rw [countW_succ, ih]; simp

/-- One thing written besides another. -/
def orW (a b : Nat → Option Bool) : Nat → Option Bool := fun i => (a i).or (b i)

theorem countW_or {a b : Nat → Option Bool} (h : ∀ i, (a i).isSome → (b i).isSome → False) (n : Nat) :
    countW (orW a b) n = countW a n + countW b n := by
  induction n with
  | zero => rfl
  | succ n ih =>
    rw [countW_succ, countW_succ, countW_succ, ih]
    have := h n
    simp only [orW, Option.isSome_or]
    generalize (a n).isSome = x at this ⊢
    generalize (b n).isSome = y at this ⊢
    cases x <;> cases y <;> simp_all <;> omega

theorem countW_mono {w : Nat → Option Bool} {m n : Nat} (hmn : m ≤ n) (h : ∀ i, (w i).isSome → i < m) :
    countW w n = countW w m := by
  induction n with
  | zero => rw [show m = 0 by omega]
  | succ n ih =>
    by_cases hm : m = n + 1
    · rw [hm]
    · rw [countW_succ, ih (by omega)]
      cases hw : w n with
      | none => simp
      | some b => exact absurd (h n (by rw [hw]; rfl)) (by omega)

/-- `n` bits from `s` on. -/
def rangeW (s n : Nat) (f : Nat → Bool) : Nat → Option Bool :=
  fun i => if s ≤ i ∧ i < s + n then some (f (i - s)) else none

theorem countW_range {s n m : Nat} (f : Nat → Bool) (h : s + n ≤ m) : countW (rangeW s n f) m = n := by
  have gen : ∀ m, countW (rangeW s n f) m = min (m - s) n := by
    intro m
    induction m with
    | zero => simp [countW]
    | succ m ih =>
      rw [countW_succ, ih]
      by_cases hm : s ≤ m ∧ m < s + n
      · simp only [rangeW, hm, and_self, ↓reduceIte, Option.isSome_some]; omega
      · simp only [rangeW, hm, ↓reduceIte, Option.isSome_none]; simp; omega
  rw [gen]; omega

/-- The same `8 * o` bits later. -/
def shiftW (o : Nat) (w : Nat → Option Bool) : Nat → Option Bool :=
  fun i => if 8 * o ≤ i then w (i - 8 * o) else none

theorem countW_shift {o n : Nat} (w : Nat → Option Bool) : countW (shiftW o w) (8 * o + n) = countW w n := by
  have h0 : ∀ k, k ≤ 8 * o → countW (shiftW o w) k = 0 := by
    intro k
    induction k with
    | zero => simp [countW]
    | succ k ih => intro hk; rw [countW_succ, ih (by omega)]; simp [shiftW, show ¬ 8 * o ≤ k by omega]
  induction n with
  | zero => rw [Nat.add_zero, h0 _ (Nat.le_refl _)]; rfl
  | succ n ih =>
    rw [← Nat.add_assoc, countW_succ, countW_succ, ih]
    simp [shiftW, show 8 * o + n - 8 * o = n by omega]

/-! ## Fixed size fields -/

/-- What one field writes. -/
def fieldW (env : Path → Val) (f : FixedField) : Nat → Option Bool :=
  rangeW f.bitStart f.bitCount fun k => (fieldVal env f).testBit k

/-- What the fields write. -/
def fieldsW (env : Path → Val) : List FixedField → Nat → Option Bool
  | [] => fun _ => none
  | f :: fs => orW (fieldW env f) (fieldsW env fs)

theorem fieldW_some {env : Path → Val} {f : FixedField} {i : Nat} (h : (fieldW env f i).isSome) :
    f.bitStart ≤ i ∧ i < f.bitStart + f.bitCount := by
  simp only [fieldW, rangeW] at h
  split at h
  · assumption
  · cases h

theorem fieldsW_some {env : Path → Val} {fs : List FixedField} {i : Nat} {b : Bool} (h : fieldsW env fs i = some b) :
    ∃ f ∈ fs, fieldW env f i = some b := by
  induction fs with
  | nil => cases h
  | cons f fs ih =>
    simp only [fieldsW, orW, Option.or_eq_some_iff] at h
    rcases h with h | ⟨_, h⟩
    · exact ⟨f, by simp, h⟩
    · obtain ⟨g, hg, h⟩ := ih h
      exact ⟨g, by simp [hg], h⟩

theorem fieldW_disjoint {env : Path → Val} {f g : FixedField} (h : BitDisjoint f g) (i : Nat)
    (h1 : (fieldW env f i).isSome) (h2 : (fieldW env g i).isSome) : False := by
  have a := fieldW_some h1
  have b := fieldW_some h2
  unfold BitDisjoint at h
  omega

theorem fieldsW_disjoint {env : Path → Val} {f : FixedField} {fs : List FixedField}
    (h : ∀ g ∈ fs, BitDisjoint f g) (i : Nat) (h1 : (fieldW env f i).isSome) (h2 : (fieldsW env fs i).isSome) :
    False := by
  obtain ⟨b, hb⟩ := Option.isSome_iff_exists.1 h2
  obtain ⟨g, hg, hb⟩ := fieldsW_some hb
  exact fieldW_disjoint (h g hg) i h1 (by rw [hb]; rfl)

theorem countW_fields {env : Path → Val} {fs : List FixedField} {n : Nat} (hd : fs.Pairwise BitDisjoint)
    (hn : ∀ f ∈ fs, f.bitStart + f.bitCount ≤ n) :
    countW (fieldsW env fs) n = (fs.map FixedField.bitCount).sum := by
  induction fs with
  | nil => exact countW_none n
  | cons f fs ih =>
    rw [List.pairwise_cons] at hd
    rw [fieldsW, countW_or (fieldsW_disjoint hd.1), ih hd.2 fun g hg => hn g (by simp [hg]), List.map_cons,
      List.sum_cons, fieldW, countW_range _ (hn f (by simp))]

theorem bit_put_eq {chk : Bool} {env : Path → Val} {f : FixedField} {buf : Bytes} (h : FieldGood chk env f)
    (hfull : f.full = false) (hb : f.offset + f.size ≤ buf.length) (i : Nat) :
    bit (put env f buf) i = (fieldW env f i).getD (bit buf i) := by
  have hr := h.range
  unfold put
  rw [hfull, if_neg (by simp), bit_setBits _ (by omega)]
  simp only [fieldW, rangeW]
  split <;> rfl

theorem bit_putAll {chk : Bool} {env : Path → Val} {fs : List FixedField} {buf : Bytes}
    (h : ∀ f ∈ fs, FieldGood chk env f) (hfull : ∀ f ∈ fs, f.full = false)
    (hb : ∀ f ∈ fs, f.offset + f.size ≤ buf.length) (hd : fs.Pairwise BitDisjoint) (i : Nat) :
    bit (putAll env fs buf) i = (fieldsW env fs i).getD (bit buf i) := by
  induction fs generalizing buf with
  | nil => rfl
  | cons f fs ih =>
    rw [List.pairwise_cons] at hd
    rw [putAll, ih (fun g hg => h g (by simp [hg])) (fun g hg => hfull g (by simp [hg]))
      (fun g hg => by rw [put_length]; exact hb g (by simp [hg])) hd.2,
      bit_put_eq (h f (by simp)) (hfull f (by simp)) (hb f (by simp))]
    have := fieldsW_disjoint (env := env) hd.1 i
    simp only [fieldsW, orW]
    cases h1 : fieldW env f i <;> cases h2 : fieldsW env fs i <;> simp_all

/-! ## Variable size fields -/

/-- What the variable fields write, from `o` on. -/
def varsW (sz : Path → Nat) (ws : Path → Nat → Option Bool) : List VarField → Nat → Nat → Option Bool
  | [], _ => fun _ => none
  | v :: vs, o => orW (shiftW o (ws v.path)) (varsW sz ws vs (o + sz v.path))

theorem varsW_ge {sz : Path → Nat} {ws : Path → Nat → Option Bool} (vs : List VarField) : ∀ {o i : Nat},
    (varsW sz ws vs o i).isSome → 8 * o ≤ i := by
  induction vs with
  | nil => intro o i h; cases h
  | cons v vs ih =>
    intro o i h
    simp only [varsW, orW, Option.isSome_or, Bool.or_eq_true] at h
    rcases h with h | h
    · simp only [shiftW] at h
      split at h
      · assumption
      · cases h
    · have := ih h; omega

theorem varsW_lt {sz : Path → Nat} {ws : Path → Nat → Option Bool} (vs : List VarField)
    (hd : ∀ v ∈ vs, ∀ i, (ws v.path i).isSome → i < 8 * sz v.path) : ∀ {o i : Nat},
    (varsW sz ws vs o i).isSome → i < 8 * (o + total sz vs) := by
  induction vs with
  | nil => intro o i h; cases h
  | cons v vs ih =>
    intro o i h
    rw [total_cons]
    simp only [varsW, orW, Option.isSome_or, Bool.or_eq_true] at h
    rcases h with h | h
    · simp only [shiftW] at h
      split at h
      · have := hd v (by simp) _ h; omega
      · cases h
    · have := ih (fun w hw => hd w (by simp [hw])) h; omega

theorem shift_vars_disjoint {sz : Path → Nat} {ws : Path → Nat → Option Bool} {v : VarField} (vs : List VarField) {o : Nat}
    (hd : ∀ i, (ws v.path i).isSome → i < 8 * sz v.path) (i : Nat) (h1 : (shiftW o (ws v.path) i).isSome)
    (h2 : (varsW sz ws vs (o + sz v.path) i).isSome) : False := by
  have := varsW_ge vs h2
  simp only [shiftW] at h1
  split at h1
  · have := hd _ h1; omega
  · cases h1

theorem countW_vars {sz : Path → Nat} {ws : Path → Nat → Option Bool} (vs : List VarField)
    (hd : ∀ v ∈ vs, ∀ i, (ws v.path i).isSome → i < 8 * sz v.path) : ∀ o : Nat,
    countW (varsW sz ws vs o) (8 * (o + total sz vs)) = (vs.map fun v => countW (ws v.path) (8 * sz v.path)).sum := by
  induction vs with
  | nil => intro o; exact countW_none _
  | cons v vs ih =>
    intro o
    have hv := hd v (by simp)
    rw [varsW, countW_or (shift_vars_disjoint vs hv), total_cons, ← Nat.add_assoc,
      ih (fun w hw => hd w (by simp [hw])), List.map_cons, List.sum_cons,
      show 8 * (o + sz v.path + total sz vs) = 8 * o + 8 * (sz v.path + total sz vs) by omega, countW_shift,
      countW_mono (m := 8 * sz v.path) (by omega) hv]

/-- Where the parts of the variable fields are. -/
theorem varsW_some {sz : Path → Nat} {ws : Path → Nat → Option Bool} (vs : List VarField) : ∀ {o i : Nat} {b : Bool},
    varsW sz ws vs o i = some b → ∃ (j : Nat) (v : VarField), vs[j]? = some v ∧
      8 * (o + total sz (vs.take j)) ≤ i ∧ ws v.path (i - 8 * (o + total sz (vs.take j))) = some b := by
  induction vs with
  | nil => intro o i b h; cases h
  | cons v vs ih =>
    intro o i b h
    simp only [varsW, orW, Option.or_eq_some_iff] at h
    rcases h with h | ⟨_, h⟩
    · simp only [shiftW] at h
      split at h
      · exact ⟨0, v, rfl, by simpa [total] using ‹_›, by simpa [total] using h⟩
      · cases h
    · obtain ⟨j, u, h1, h2, h3⟩ := ih h
      refine ⟨j + 1, u, by simpa using h1, ?_, ?_⟩
      · rw [List.take_succ_cons, total_cons, ← Nat.add_assoc]; exact h2
      · rw [List.take_succ_cons, total_cons, ← Nat.add_assoc]; exact h3

/-! ## Which bits are written -/

mutual
/-- The bits that `encode` sets, from the tags and lengths of the data source alone. -/
def Layout.written (chk : Bool) (src : DataSource) : Layout → Nat → Bool
  | .mk _ vo _ fixed vars, i => (fieldsW (fun _ => .unit) fixed i).isSome || varsWritten chk src vars vo i
/-- The bits of variable fields. -/
def varsWritten (chk : Bool) (src : DataSource) : List VarField → Nat → Nat → Bool
  | [], _, _ => false
  | v :: vs, o, i => (decide (8 * o ≤ i) && varWritten chk src v (i - 8 * o)) ||
    match varSize chk src v o with
    | .ok o' => varsWritten chk src vs o' i
    | .error _ => false
/-- The bits of one variable field. -/
def varWritten (chk : Bool) (src : DataSource) : VarField → Nat → Bool
  | .string path _, i => match src.length path with
    | .ok n => decide (i < 8 * n)
    | .error _ => false
  | .enum path _ cases, i => match src.tag path with
    | .ok k => caseWritten chk src cases k i
    | .error _ => false
/-- The bits of one case. -/
def caseWritten (chk : Bool) (src : DataSource) : List Layout → Nat → Nat → Bool
  | [], _, _ => false
  | l :: _, 0, i => l.written chk src i
  | _ :: ls, k + 1, i => caseWritten chk src ls k i
end

theorem caseWritten_eq {chk : Bool} {src : DataSource} {i : Nat} {l : Layout} : ∀ {ls : List Layout} {k : Nat},
    ls[k]? = some l → caseWritten chk src ls k i = l.written chk src i
  | _ :: _, 0, h => by cases h; rw [caseWritten]
  | _ :: _, k + 1, h => by rw [caseWritten]; exact caseWritten_eq h

theorem fieldsW_isSome (env env' : Path → Val) (fs : List FixedField) (i : Nat) :
    (fieldsW env fs i).isSome = (fieldsW env' fs i).isSome := by
  induction fs with
  | nil => rfl
  | cons f fs ih =>
    simp only [fieldsW, orW, Option.isSome_or, ih]
    congr 1
    simp only [fieldW, rangeW]
    split <;> rfl

/-- What reading the place of a variable field shows. -/
def VarSeen (chk : Bool) (w : Val) (data : Bytes) : VarField → Prop
  | .string _ _ => ∃ bs, w = .str bs ∧ data.take bs.length = bs
  | .enum path _ cases => ∃ i w' l, w = .case i w' ∧ cases[i]? = some l ∧
      Presents (l.source chk data) w' (path ++ [i])

/-- What is known of one variable field. -/
structure VarOver (chk : Bool) (env : Path → Val) (v : VarField) (sz : Nat) (w : Nat → Option Bool) : Prop where
  dom : ∀ i, (w i).isSome → i < 8 * sz
  size : ∀ src, Pres src env v.path → ∀ o, o + sz < W64 → varSize chk src v o = .ok (o + sz)
  enc : ∀ src buf o r, Pres src env v.path → o + sz ≤ buf.length → o + sz < W64 →
    encodeVar chk src v buf o = .ok r →
    r.1.length = buf.length ∧ ∀ i, bit r.1 i = (shiftW o w i).getD (bit buf i)
  shape : ∀ src, Pres src env v.path → ∀ i, (w i).isSome = varWritten chk src v i
  seen : ∀ data, sz ≤ data.length → VarSeen chk (env v.path) data v →
    VarRead chk (env v.path) sz data v ∧ ∀ i b, w i = some b → bit data i = b

theorem varsSize_over {chk : Bool} {env : Path → Val} {sz : Path → Nat} {ws : Path → Nat → Option Bool}
    {src : DataSource} (vs : List VarField) (o : Nat)
    (hg : ∀ v ∈ vs, VarOver chk env v (sz v.path) (ws v.path))
    (hs : ∀ v ∈ vs, Pres src env v.path) (ho : o + total sz vs < W64) :
    varsSize chk src vs o = .ok (o + total sz vs) := by
  induction vs generalizing o with
  | nil => rw [varsSize]; simp [total]
  | cons v vs ih =>
    rw [total_cons] at ho ⊢
    rw [varsSize, (hg v (by simp)).size src (hs v (by simp)) o (by omega), Res.bind_ok,
      ih _ (fun w hw => hg w (by simp [hw])) (fun w hw => hs w (by simp [hw])) (by omega)]
    rw [Nat.add_assoc]

theorem varsW_written {chk : Bool} {env : Path → Val} {sz : Path → Nat} {ws : Path → Nat → Option Bool}
    {src : DataSource} (i : Nat) (vs : List VarField) (o : Nat)
    (hg : ∀ v ∈ vs, VarOver chk env v (sz v.path) (ws v.path))
    (hs : ∀ v ∈ vs, Pres src env v.path) (ho : o + total sz vs < W64) :
    (varsW sz ws vs o i).isSome = varsWritten chk src vs o i := by
  induction vs generalizing o with
  | nil => rw [varsWritten]; rfl
  | cons v vs ih =>
    rw [total_cons] at ho
    rw [varsWritten, (hg v (by simp)).size src (hs v (by simp)) o (by omega)]
    simp only [varsW, orW, Option.isSome_or]
    rw [ih _ (fun w hw => hg w (by simp [hw])) (fun w hw => hs w (by simp [hw])) (by omega)]
    congr 1
    simp only [shiftW]
    by_cases h : 8 * o ≤ i
    · simp [h, (hg v (by simp)).shape src (hs v (by simp))]
    · simp [h]

theorem encodeVars_bits {chk : Bool} {env : Path → Val} {sz : Path → Nat} {ws : Path → Nat → Option Bool}
    {src : DataSource} (vs : List VarField) : ∀ (buf : Bytes) (o : Nat) (r : Bytes × Nat),
    (∀ v ∈ vs, VarOver chk env v (sz v.path) (ws v.path)) → (∀ v ∈ vs, Pres src env v.path) →
    o + total sz vs ≤ buf.length → o + total sz vs < W64 → encodeVars chk src vs buf o = .ok r →
    ∀ i, bit r.1 i = (varsW sz ws vs o i).getD (bit buf i) := by
  induction vs with
  | nil => intro buf o r _ _ _ _ h i; rw [encodeVars] at h; cases h; rfl
  | cons v vs ih =>
    intro buf o r hg hs hb ho h i
    rw [total_cons] at hb ho
    rw [encodeVars] at h
    obtain ⟨⟨b1, o1⟩, h1, h⟩ := Res.bind_eq_ok.1 h
    obtain ⟨e1, e3⟩ := (hg v (by simp)).enc src buf o _ (hs v (by simp)) (by omega) (by omega) h1
    have e2 := encodeVar_size h1
    rw [(hg v (by simp)).size src (hs v (by simp)) o (by omega)] at e2
    cases e2
    simp only at e1 e3 h
    rw [ih b1 _ r (fun w hw => hg w (by simp [hw])) (fun w hw => hs w (by simp [hw])) (by omega) (by omega) h i, e3]
    have := shift_vars_disjoint vs (o := o) (hg v (by simp)).dom i
    simp only [varsW, orW]
    cases h1 : shiftW o (ws v.path) i <;> cases h2 : varsW sz ws vs (o + sz v.path) i <;> simp_all

/-! ## Finding slots -/

/-- The index entry and the fixed field of a slot. -/
theorem locate_entry {chk : Bool} {t : Ty} {p : Path} {l : Layout} (hf : TyFacts chk t p l) (data : Bytes)
    {x : Path × Slot} (hx : x ∈ slots t p) : ∃ (y : Index) (g : FixedField) (k : Nat), y ∈ l.indices ∧
      l.indices[k]? = some y ∧ y.path = x.1 ∧ l.fixed[y.fixedIdx]? = some g ∧ g.path = x.1 ∧
      l.locate chk x.1 data = .ok ⟨l, data, y⟩ := by
  have hfp : (l.fixed.map (·.path)).Perm ((slots t p).map (·.1)) := hf.paths.trans (paths_perm _)
  obtain ⟨al, vo, idx, fixed, vars⟩ := l
  obtain ⟨f, hff, hfx⟩ : ∃ f ∈ fixed, f.path = x.1 := by
    have := hfp.mem_iff.2 (List.mem_map_of_mem (f := (·.1)) hx)
    obtain ⟨f, hf1, hf2⟩ := List.mem_map.1 this
    exact ⟨f, hf1, hf2⟩
  obtain ⟨y, hy, hyp⟩ := hf.idxAll f hff
  rw [hfx] at hyp
  obtain ⟨g, hg1, hg2⟩ := hf.idxFixed y hy
  rw [hyp] at hg2
  obtain ⟨k, hk⟩ := List.getElem?_of_mem hy
  refine ⟨y, g, k, hy, hk, hyp, hg1, hg2, ?_⟩
  have hk' : idx[k]? = some y := hk
  have hsorted : idx.Pairwise (fun a b => b.path < a.path) := hf.sorted
  rw [Layout.locate, searchIndex_at hsorted hk' hyp 0]
  simp only [Nat.zero_add]
  rw [getAt_ok hk']; rfl

/-- What is below an enum is looked up in the layout of its case. -/
theorem locate_below {chk : Bool} {t : Ty} {p : Path} {l : Layout} (hf : TyFacts chk t p l) {data : Bytes}
    {xq : Path} {cs : List (Str × Ty)} (hx : (xq, Slot.enum cs) ∈ slots t p) {j fi : Nat} {ls : List Layout}
    (hj : l.vars[j]? = some (.enum xq fi ls)) {a : Nat} (hoj : l.variableFieldOffset chk j data = .ok a)
    (ha : a ≤ data.length) {i : Nat} {lc : Layout} (hil : ls[i]? = some lc) (r : Path) :
    l.locate chk (xq ++ (i :: r)) data = lc.locate chk (xq ++ (i :: r)) (data.drop a) := by
  obtain ⟨y, g, k, hy, hk, hyp, -⟩ := locate_entry hf data hx
  have hfp : (l.fixed.map (·.path)).Perm ((slots t p).map (·.1)) := hf.paths.trans (paths_perm _)
  simp only at hyp
  have hvj : y.varIdx = j := hf.idxVar j _ hj y hy (by rw [hyp]; rfl)
  have hapart : ∀ z ∈ l.indices, z ≠ y → Apart z.path y.path := by
    intro z hz hne
    obtain ⟨h', hh1, hh2⟩ := hf.idxFixed z hz
    have hzs : z.path ∈ (slots t p).map (·.1) := by
      rw [← hh2]
      exact hfp.mem_iff.1 (List.mem_map_of_mem (f := (·.path)) (List.mem_of_getElem? hh1))
    obtain ⟨s, hs, hse⟩ := List.mem_map.1 hzs
    have hpne : z.path ≠ y.path := by
      intro e
      obtain ⟨m, hm'⟩ := List.getElem?_of_mem hz
      have := getElem?_of_pairwise_lt hf.sorted hm' hk e
      subst this
      rw [hk] at hm'
      exact hne (by simpa using hm'.symm)
    have hsne : s ≠ (xq, Slot.enum cs) := by
      intro e; apply hpne; rw [← hse, e, hyp]
    rw [← hse, hyp]
    rcases pairwise_mem_ne (slots_apart t p) hs hx hsne with h | h
    · exact h
    · exact ⟨h.2, h.1⟩
  have hnone : ∀ z ∈ l.indices, z.path ≠ y.path ++ (i :: r) := by
    intro z hz e
    by_cases hzy : z = y
    · rw [hzy] at e
      have := congrArg List.length e
      simp at this
    · exact (hapart z hz hzy).2 (by rw [e]; exact List.prefix_append _ _)
  obtain ⟨m, hm1, hm2⟩ := searchIndex_inside hf.sorted hy (s := i :: r) (by simp) hapart hnone
  obtain ⟨al, vo, idx, fixed, vars⟩ := l
  simp only [Layout.indices, Layout.vars] at *
  rw [Layout.locate, ← hyp, hm1]
  simp only [hm2]
  rw [if_pos ((Path.isPrefixOf_iff _ _).2 ⟨_, rfl⟩), getAt_ok (x := i) (by simp)]
  simp only [Res.bind_ok]
  rw [hvj, hoj]
  simp only [Res.bind_ok]
  rw [show decide (a ≤ data.length) = true by simp; omega, assert_true, Res.bind_ok, locateVars_eq hj]
  rw [locateVar, locateCase_eq hil]

theorem load_eq_store {k : Prim} {n : Nat} {v : k.Val} (hn : n < 2 ^ (8 * k.size)) (h : k.load n = .ok v) :
    n = k.store v := by
  cases k
  case bool =>
    simp only [Prim.load] at h
    split at h
    · cases h; assumption
    · split at h
      · cases h; assumption
      · cases h
  case char =>
    simp only [Prim.load] at h
    split at h
    · rename_i hv
      cases h
      show n = (Char.ofNatAux n hv).toNat
      rfl
    · cases h
  all_goals
    have h := (Except.ok.inj h).symm
    subst h
    exact ((BitVec.toNat_ofNat _ _).trans (Nat.mod_eq_of_lt hn)).symm

/-! ## One layout -/

/-- Everything about which bits are written when encoding `v`. -/
structure Overlaid (chk : Bool) (v : Val) (p : Path) (l : Layout) (size : Nat) (w : Nat → Option Bool) : Prop where
  dom : ∀ i, (w i).isSome → i < 8 * size
  enc : ∀ src buf r, Presents src v p → size ≤ buf.length → l.encode chk src buf = .ok r →
    ∀ i, bit r.1 i = (w i).getD (bit buf i)
  shape : ∀ src, Presents src v p → ∀ i, (w i).isSome = l.written chk src i
  seen : ∀ data, size ≤ data.length → Presents (l.source chk data) v p → ∀ i b, w i = some b → bit data i = b

theorem over_of_vars {chk : Bool} {t : Ty} {p : Path} {l : Layout} {v : Val} {env : Path → Val}
    {sz : Path → Nat} {ws : Path → Nat → Option Bool} {size : Nat} {place : Path → Nat} (hf : TyFacts chk t p l)
    (hleaves : leaves v p = (slots t p).flatMap (fun x => leaves (env x.1) x.1))
    (htyped : ∀ x ∈ slots t p, Typed x.2.ty (env x.1))
    (hlay : ∀ r cs, (r, Slot.enum cs) ∈ slots t p → (layouts chk cs r).length = cs.length)
    (hgood : ∀ f ∈ l.fixed, FieldGood chk env f) (hfull : ∀ f ∈ l.fixed, f.full = false)
    (hvars : ∀ x ∈ slots t p, ∀ w, Slot.var chk x = some w → ∀ fi,
      VarOver chk env (w.setFixedIdx fi) (sz x.1) (ws x.1))
    (hsz : ∀ x ∈ slots t p, 16 + sz x.1 ≤ leafSum (leaves (env x.1) x.1))
    (hw : leafSum (leaves v p) + 64 < W64) (hc : CodedW chk v p l size place []) :
    Overlaid chk v p l size (orW (fieldsW env l.fixed) (varsW sz ws l.vars l.varOffset)) ∧
    countW (orW (fieldsW env l.fixed) (varsW sz ws l.vars l.varOffset)) (8 * size) =
      (l.fixed.map FixedField.bitCount).sum + (l.vars.map fun v => countW (ws v.path) (8 * sz v.path)).sum := by
  have hin : ∀ f ∈ l.fixed, f.offset + f.size ≤ l.varOffset := hf.inside
  have hvp := hf.vars
  have hfp : (l.fixed.map (·.path)).Perm ((slots t p).map (·.1)) := hf.paths.trans (paths_perm _)
  have hvslot : ∀ v ∈ l.vars, ∃ x ∈ slots t p, ∃ w, Slot.var chk x = some w ∧ v = w.setFixedIdx v.fixedIdx ∧
      v.path = x.1 := by
    intro v hv
    have h1 := hvp.mem_iff.1 (List.mem_map_of_mem (f := (·.setFixedIdx 0)) hv)
    obtain ⟨w, hw, he⟩ := List.mem_map.1 h1
    obtain ⟨x, hx, hxw⟩ := List.mem_filterMap.1 hw
    have h2 := setFixedIdx_inj he.symm
    refine ⟨x, hx, w, hxw, h2, ?_⟩
    rw [h2, VarField.setFixedIdx_path, varSlot_path hxw]
  have hvg : ∀ v ∈ l.vars, VarOver chk env v (sz v.path) (ws v.path) := by
    intro v hv
    obtain ⟨x, hx, w, hxw, h2, h3⟩ := hvslot v hv
    have := hvars x hx w hxw v.fixedIdx
    rw [← h2] at this
    rw [h3]; exact this
  have htot : l.varOffset + total sz l.vars ≤ 16 + leafSum (leaves v p) := by
    have h1 : total sz l.vars = total sz ((slots t p).filterMap (Slot.var chk)) := by
      have hp : (l.vars.map (·.path)).Perm (((slots t p).filterMap (Slot.var chk)).map (·.path)) := by
        have := hvp.map VarField.path
        simpa [List.map_map, Function.comp_def] using this
      have := (hp.map sz).sum_nat
      simpa [total, List.map_map, Function.comp_def] using this
    have h2 := sum_filterMap_le (chk := chk) sz (slots t p)
    have h3 := sum_map_le hsz
    rw [sum_map_add, ← leafSum_flatMap, ← hleaves] at h3
    have h4 := (paths_perm (slots t p)).length_eq
    have h5 := hf.bound
    simp only [List.length_append, List.length_map] at h4
    omega
  have halle := hf.al.le
  have hlt := alignUp_lt (l.varOffset + total sz l.vars) hf.al.pos
  have hge := le_alignUp (l.varOffset + total sz l.vars) hf.al.pos
  have halign : align chk (l.varOffset + total sz l.vars) l.alignment =
      .ok (alignUp (l.varOffset + total sz l.vars) l.alignment) := align_smallPow hf.al (by omega)
  have hpres : ∀ src, Presents src v p → ∀ x ∈ slots t p, Pres src env x.1 := by
    intro src hs x hx r l hl
    apply hs
    rw [hleaves]
    exact List.mem_flatMap.2 ⟨x, hx, hl⟩
  have hpresv : ∀ src, Presents src v p → ∀ v ∈ l.vars, Pres src env v.path := by
    intro src hs w hw
    obtain ⟨x, hx, _, _, _, h3⟩ := hvslot w hw
    rw [h3]; exact hpres src hs x hx
  have hpresf : ∀ src, Presents src v p → ∀ f ∈ l.fixed, Pres src env f.path := by
    intro src hs f hf'
    have h1 := hfp.mem_iff.1 (List.mem_map_of_mem (f := (·.path)) hf')
    obtain ⟨x, hx, he⟩ := List.mem_map.1 h1
    have he' : x.1 = f.path := he
    rw [← he']
    exact hpres src hs x hx
  -- the size
  have hsize : size = alignUp (l.varOffset + total sz l.vars) l.alignment := by
    obtain ⟨b, _, hb, _, h2⟩ := hc.enc (List.replicate size 0) (by simp)
    have h3 := (h2 b (by rw [hb]; simp) (fun _ _ => rfl)).1.1 lucky_nil
    have h4 := hc.szs _ h3.2
    rw [show l.sizeWithSource chk (l.source chk b) = (do
        let o ← varsSize chk (l.source chk b) l.vars l.varOffset
        align chk o l.alignment) by cases l; rw [Layout.sizeWithSource]; rfl,
      varsSize_over l.vars _ hvg (hpresv _ h3.2) (by omega), Res.bind_ok, halign] at h4
    exact (Except.ok.inj h4).symm
  have hencode : ∀ src buf, Presents src v p → size ≤ buf.length → l.encode chk src buf = (do
        let (buf, o) ← encodeVars chk src l.vars (putAll env l.fixed buf) l.varOffset
        let n ← align chk o l.alignment
        pure (buf, n)) := by
    intro src buf hs hb
    have h1 := writeFixeds_ok (src := src) (buf := buf) hgood (fun f hf' => by have := hin f hf'; omega)
      (hpresf src hs)
    obtain ⟨al, vo, idx, fixed, vars⟩ := l
    simp only [Layout.fixed, Layout.vars, Layout.varOffset, Layout.alignment] at *
    rw [Layout.encode, show decide (buf.length ≥ vo) = true by simp; omega, assert_true, Res.bind_ok, h1]
    rfl
  have hbelow : ∀ i, (fieldsW env l.fixed i).isSome → i < 8 * l.varOffset := by
    intro i h
    obtain ⟨b, hb⟩ := Option.isSome_iff_exists.1 h
    obtain ⟨f, hf', hb⟩ := fieldsW_some hb
    have h1 := fieldW_some (by rw [hb]; rfl : (fieldW env f i).isSome)
    have h2 := (hgood f hf').range
    have h3 := hin f hf'
    omega
  have hdisj : ∀ i, (fieldsW env l.fixed i).isSome → (varsW sz ws l.vars l.varOffset i).isSome → False := by
    intro i h1 h2
    have := hbelow i h1
    have := varsW_ge l.vars h2
    omega
  have hvdom : ∀ v ∈ l.vars, ∀ i, (ws v.path i).isSome → i < 8 * sz v.path := fun v hv => (hvg v hv).dom
  refine ⟨⟨?_, ?_, ?_, ?_⟩, ?_⟩
  · intro i h
    simp only [orW, Option.isSome_or, Bool.or_eq_true] at h
    rcases h with h | h
    · have := hbelow i h; omega
    · have := varsW_lt l.vars hvdom h; omega
  · intro src buf r hs hb h i
    rw [hencode src buf hs hb] at h
    obtain ⟨⟨b1, o1⟩, h1, h⟩ := Res.bind_eq_ok.1 h
    obtain ⟨m, _, h⟩ := Res.bind_eq_ok.1 h
    cases h
    rw [encodeVars_bits l.vars _ _ _ hvg (hpresv src hs) (by rw [putAll_length]; omega) (by omega) h1 i,
      bit_putAll hgood hfull (fun f hf' => by have := hin f hf'; omega) hf.disj]
    have := hdisj i
    simp only [orW]
    cases h1 : fieldsW env l.fixed i <;> cases h2 : varsW sz ws l.vars l.varOffset i <;> simp_all
  · intro src hs i
    have h1 := varsW_written i l.vars l.varOffset hvg (hpresv src hs) (by omega)
    have h2 := fieldsW_isSome env (fun _ => .unit) l.fixed i
    simp only [orW, Option.isSome_or, h1, h2]
    cases l
    rw [Layout.written]; rfl
  · intro data hdl hs
    -- the fixed fields
    have hread : FixedRead chk env l.fixed data := by
      refine ⟨hgood, fun f hf' => by have := hin f hf'; omega, fun f hf' => ?_⟩
      obtain ⟨x, hx, hxf⟩ := List.mem_map.1 (hfp.mem_iff.1 (List.mem_map_of_mem (f := (·.path)) hf'))
      have hxf : x.1 = f.path := hxf
      obtain ⟨y, g, k, hy, hk, hyp, hg1, hg2, hloc⟩ := locate_entry hf data hx
      have hgf : g = f := by
        have hpw : (l.fixed.map (·.path)).Pairwise Apart := by
          refine (hfp.pairwise_iff (fun h => ⟨h.2, h.1⟩)).2 ?_
          rw [List.pairwise_map]
          exact slots_apart t p
        rw [List.pairwise_map] at hpw
        refine Classical.byContradiction fun hgne => ?_
        have he : g.path = f.path := hg2.trans hxf
        rcases pairwise_mem_ne hpw (List.mem_of_getElem? hg1) hf' hgne with h | h
        · exact h.1 (he ▸ List.prefix_refl _)
        · exact h.1 (he ▸ List.prefix_refl _)
      subst hgf
      have hgg := hgood g hf'
      have hgi : g.offset + g.size ≤ data.length := by have := hin g hf'; omega
      have ha := hpresf _ hs g hf'
      rw [hxf] at hloc
      cases hgk : g.kind with
      | container i k => rw [FieldGood, hgk] at hgg; exact hgg.elim
      | prim pr =>
        simp only [FieldGood, hgk] at hgg
        obtain ⟨u, h1, h2⟩ := hgg
        have ha := ha g.path (.prim u) (by rw [h1]; simp [leaves])
        simp only [Answers, Layout.source, Layout.getPrimitive] at ha
        rw [hloc] at ha
        simp only [Res.bind_ok] at ha
        rw [getAt_ok hg1] at ha
        subst h2
        simp only [Res.bind_ok, hgk, beq_self_eq_true, assert_true] at ha
        have hsz' : g.size = u.kind.size := by simp [FixedField.size, hgk]
        rw [readRaw_ok (by omega)] at ha
        simp only [Res.bind_ok] at ha
        simp only [FixedField.bitStart, FixedField.bitCount, hgk, fieldVal, h1, hsz']
        exact load_eq_store (getBits_lt _ _ _) ha
      | length =>
        simp only [FieldGood, hgk] at hgg
        obtain ⟨bs, h1, h2⟩ := hgg
        have ha := (ha g.path (.str bs) (by rw [h1]; simp [leaves])).1
        simp only [Layout.source, Layout.getLength] at ha
        rw [hloc] at ha
        simp only [Res.bind_ok] at ha
        rw [getAt_ok hg1] at ha
        have hsz' : g.size = 4 := by simp [FixedField.size, hgk]
        simp only [Res.bind_ok, hgk] at ha
        rw [readRaw_ok (by omega)] at ha
        simp only [FixedField.bitStart, FixedField.bitCount, hgk, fieldVal, h1, hsz']
        exact Except.ok.inj ha
      | bitfield pr o n =>
        have hgg' := hgg
        simp only [FieldGood, hgk] at hgg'
        obtain ⟨i, u, h1, _⟩ := hgg'
        have ha := ha g.path (.tag i) (by rw [h1]; simp [leaves])
        simp only [Answers, Layout.source, Layout.getCaseTag] at ha
        rw [hloc] at ha
        simp only [Res.bind_ok] at ha
        rw [getAt_ok hg1] at ha
        simp only [Res.bind_ok] at ha
        rw [readTag_bits hgg hgi h1] at ha
        rw [Except.ok.inj ha]
        simp [fieldVal, hgk, h1]
    -- the variable fields, one after the other
    have hvr : ∀ (j : Nat) (w : VarField), l.vars[j]? = some w →
        VarRead chk (env w.path) (sz w.path) (data.drop (l.varOffset + total sz (l.vars.take j))) w ∧
        ∀ i b, ws w.path i = some b → bit (data.drop (l.varOffset + total sz (l.vars.take j))) i = b := by
      intro j
      induction j using Nat.strongRecOn with
      | ind j ih =>
      intro w hj
      have hwm := List.mem_of_getElem? hj
      have hjl := (List.getElem?_eq_some_iff.1 hj).1
      have ht1 := total_take_le sz l.vars j
      have ht2 := total_take_get sz hj
      have hoff : l.variableFieldOffset chk j data = .ok (l.varOffset + total sz (l.vars.take j)) := by
        have : varsEnd chk l.fixed data (l.vars.take j) l.varOffset =
            .ok (l.varOffset + total sz (l.vars.take j)) := by
          apply varsEnd_ok hread
          · intro u hu; exact hf.guard u (List.mem_of_mem_take hu)
          · intro k u hu
            rw [List.getElem?_take] at hu
            split at hu
            · rename_i hkj
              rw [List.take_take, Nat.min_eq_left (by omega)]
              exact (ih k hkj u hu).1
            · cases hu
          · omega
          · omega
        rw [← this]
        obtain ⟨al, vo, idx, fixed, vars⟩ := l
        change (do assert (decide (j ≤ vars.length)); varsEnd chk fixed data (vars.take j) vo) = _
        simp only [Layout.vars] at hjl
        rw [show decide (j ≤ vars.length) = true by simp; omega, assert_true, Res.bind_ok]
        rfl
      refine (hvg w hwm).seen _ (by rw [List.length_drop]; omega) ?_
      obtain ⟨⟨xq, xs⟩, hx, u, hxw, h2, h3⟩ := hvslot w hwm
      have hty := htyped _ hx
      simp only at hty h3
      obtain ⟨y, g, k, hy, hk, hyp, hg1, hg2, hloc⟩ := locate_entry hf data hx
      simp only at hyp hg2 hloc
      have hvj : y.varIdx = j := hf.idxVar j _ hj y hy (by rw [hyp, h3])
      cases xs with
      | prim pr => simp [Slot.var] at hxw
      | str =>
        simp [Slot.var] at hxw
        subst hxw
        generalize w.fixedIdx = fi at h2
        subst h2
        simp only [VarField.setFixedIdx, VarField.path] at hj ht2 ⊢
        generalize hev : env xq = ev at hty
        cases hty with
        | str bs =>
        refine ⟨bs, rfl, ?_⟩
        obtain ⟨hkind, hlen⟩ := hread.length (List.mem_of_getElem? hg1) (bs := bs) (by rw [hg2]; exact hev)
        have ha := (hpres _ hs _ hx xq (.str bs) (by simp only; rw [hev]; simp [leaves])).2
        simp only [Layout.source, Layout.getBytes] at ha
        rw [hloc] at ha
        simp only [Res.bind_ok] at ha
        rw [getAt_ok hg1] at ha
        simp only [Res.bind_ok, hkind] at ha
        rw [hvj, hoff] at ha
        simp only [Res.bind_ok] at ha
        rw [hlen] at ha
        simp only [Res.bind_ok] at ha
        rw [hj] at ha
        simp only at ha
        obtain ⟨_, _, ha⟩ := Res.bind_eq_ok.1 ha
        split at ha
        · cases ha
        · exact Except.ok.inj ha
      | enum cs =>
        simp [Slot.var] at hxw
        subst hxw
        generalize w.fixedIdx = fi at h2
        subst h2
        simp only [VarField.setFixedIdx, VarField.path] at hj ht2 ⊢
        generalize hev : env xq = ev at hty
        cases hty with
        | @enum _ i c w' hc1 hc2 =>
        have hlen : ∃ lc, (layouts chk cs xq)[i]? = some lc := by
          have h1 := hlay xq cs hx
          have h2 := (List.getElem?_eq_some_iff.1 hc1).1
          exact ⟨_, List.getElem?_eq_getElem (by omega)⟩
        obtain ⟨lc, hlc⟩ := hlen
        refine ⟨i, w', lc, rfl, hlc, fun q leaf hq => ?_⟩
        obtain ⟨r, hr⟩ := leaves_prefix hc2 _ _ hq
        simp only at hr
        have hqq : q = xq ++ (i :: r) := by rw [← hr]; simp
        subst hqq
        have ha := hpres _ hs _ hx (xq ++ (i :: r)) leaf (by
          simp only; rw [hev, leaves]; exact List.mem_cons_of_mem _ hq)
        exact Answers_of_locate (locate_below hf hx hj hoff (by omega) hlc r).symm ha
    intro i b h
    simp only [orW, Option.or_eq_some_iff] at h
    rcases h with h | ⟨_, h⟩
    · obtain ⟨f, hf', h⟩ := fieldsW_some h
      have h1 := fieldW_some (by rw [h]; rfl : (fieldW env f i).isSome)
      simp only [fieldW, rangeW, if_pos h1] at h
      have h2 := getBits_testBit data f.bitStart f.bitCount (i - f.bitStart)
      rw [hread.get f hf', show f.bitStart + (i - f.bitStart) = i by omega,
        show decide (i - f.bitStart < f.bitCount) = true by simp; omega, Bool.true_and] at h2
      rw [← h2]
      exact Option.some.inj h
    · obtain ⟨j, w, hj, h1, h2⟩ := varsW_some l.vars h
      have := (hvr j w hj).2 _ _ h2
      rw [bit_drop, Nat.add_sub_cancel' h1] at this
      exact this
  · rw [countW_or hdisj, countW_mono (w := varsW sz ws l.vars l.varOffset) (m := 8 * (l.varOffset + total sz l.vars)) (by omega)
      (fun i h => by have := varsW_lt l.vars hvdom h; omega), countW_vars l.vars hvdom, countW_fields hf.disj ?_]
    intro f hf'
    have h2 := (hgood f hf').range
    have h3 := hin f hf'
    omega

/-! ## All layouts -/

/-- The bits of the fixed size field of a slot. -/
def slotBits : Slot → Nat
  | .prim p => 8 * p.size
  | .str => 32
  | .enum cs => requiredBits (cs.length - 1)

/-- The same by path. -/
def bitsAtPath (xs : List (Path × Slot)) (q : Path) : Nat :=
  match xs.find? (fun x => x.1 == q) with
  | some x => slotBits x.2
  | none => 0

theorem bitsAtPath_eq {xs : List (Path × Slot)} (h : (xs.map (·.1)).Nodup) {x : Path × Slot} (hx : x ∈ xs) :
    bitsAtPath xs x.1 = slotBits x.2 := by
  have : xs.find? (fun y => y.1 == x.1) = some x := by
    induction xs with
    | nil => simp at hx
    | cons y ys ih =>
      rw [List.map_cons, List.nodup_cons] at h
      rcases List.mem_cons.1 hx with rfl | hx
      · simp
      · rw [List.find?_cons_of_neg, ih h.2 hx]
        intro e
        exact h.1 (by rw [eq_of_beq e]; exact List.mem_map_of_mem hx)
  rw [bitsAtPath, this]

theorem sum_map_eq {α : Type} {f g : α → Nat} {xs : List α} (h : ∀ x ∈ xs, f x = g x) :
    (xs.map f).sum = (xs.map g).sum := by
  rw [List.map_congr_left h]

theorem sum_filterMap_eq {chk : Bool} (nb : Path → Nat) (xs : List (Path × Slot))
    (h : ∀ x ∈ xs, Slot.var chk x = none → nb x.1 = 0) :
    ((xs.filterMap (Slot.var chk)).map fun v => nb v.path).sum = (xs.map fun x => nb x.1).sum := by
  induction xs with
  | nil => rfl
  | cons x xs ih =>
    have ih := ih fun y hy => h y (by simp [hy])
    cases hv : Slot.var chk x with
    | none => rw [List.filterMap_cons_none hv, List.map_cons, List.sum_cons, h x (by simp) hv, ih, Nat.zero_add]
    | some w => rw [List.filterMap_cons_some hv, List.map_cons, List.sum_cons, List.map_cons, List.sum_cons, ih,
        varSlot_path hv]

theorem requiredBits_tagBits {n : Nat} (hn : n < 2 ^ 59) : requiredBits (n - 1) = tagBits n := by
  unfold tagBits
  split
  · rename_i h
    rw [show n - 1 = 0 by omega]; rfl
  · rename_i h
    have h1 := Props.C02_required_bits (n - 1) (by omega)
    have hlo : n - 1 < 2 ^ (Nat.log2 (n - 1) + 1) := Nat.lt_log2_self
    have hhi : 2 ^ Nat.log2 (n - 1) ≤ n - 1 := Nat.log2_self_le (by omega)
    have a := h1.1 (n - 1) (Nat.le_refl _)
    have b := h1.2 (Nat.log2 (n - 1) + 1) (by omega)
    have c : Nat.log2 (n - 1) < requiredBits (n - 1) :=
      (Nat.pow_lt_pow_iff_right (a := 2) (by omega)).1 (Nat.lt_of_le_of_lt hhi a)
    omega

/-- Data that presents a value is not changed by encoding the value. -/
theorem Overlaid.fixed {chk : Bool} {v : Val} {p : Path} {l : Layout} {size : Nat} {place : Path → Nat}
    {w : Nat → Option Bool} (hc : CodedW chk v p l size place []) (h : Overlaid chk v p l size w) {data : Bytes}
    (hl : size ≤ data.length) (hs : Presents (l.source chk data) v p) {src : DataSource} (hsrc : Presents src v p) :
    l.encode chk src data = .ok (data, size) ∧ l.encodingSize chk data = .ok size := by
  obtain ⟨b, h1, h2, _, h4⟩ := hc.enc data hl
  have hb : b = data := by
    refine bytes_ext h2 fun i => ?_
    rw [h.enc _ _ _ hs hl (h1 _ hs) i]
    cases hw : w i with
    | none => rfl
    | some x => exact (h.seen data hl hs i x hw).symm
  subst hb
  exact ⟨h1 src hsrc, ((h4 b hl fun _ _ => rfl).1.1 lucky_nil).1⟩

/-- What is known of a string. -/
theorem varOver_str {chk : Bool} {env : Path → Val} {xq : Path} {bs : Bytes} (hev : env xq = .str bs) (fi : Nat) :
    VarOver chk env ((VarField.string xq 0).setFixedIdx fi) bs.length (rangeW 0 (8 * bs.length) (bit bs)) := by
  have hanswer : ∀ src, Pres src env (VarField.path ((VarField.string xq 0).setFixedIdx fi)) →
      Answers src xq (.str bs) := fun src hs => hs xq _ (by
        simp only [VarField.setFixedIdx, VarField.path]; rw [hev]; simp [leaves])
  constructor
  · intro i hi
    simp only [rangeW] at hi
    split at hi
    · omega
    · cases hi
  · intro src hs o ho
    simp only [VarField.setFixedIdx]
    rw [varSize, (hanswer src hs).1]
    simp only [Res.bind_ok]
    rw [addW_ok ho]
  · intro src buf o r hs hb ho h
    have ha := hanswer src hs
    simp only [VarField.setFixedIdx] at h
    rw [encodeVar, ha.1] at h
    simp only [Res.bind_ok, copyBytes] at h
    rw [show decide (o ≤ buf.length) = true by simp; omega, assert_true, Res.bind_ok, ha.2] at h
    simp only [Res.bind_ok, beq_self_eq_true, assert_true] at h
    rw [if_neg (by omega), Res.pure_eq, Res.bind_ok, addW_ok ho] at h
    cases h
    refine ⟨splice_length _ _ _ hb, fun i => ?_⟩
    rw [bit_splice hb]
    simp only [shiftW, rangeW]
    by_cases h1 : 8 * o ≤ i
    · by_cases h2 : i < 8 * (o + bs.length)
      · rw [if_pos ⟨h1, h2⟩, if_pos h1, if_pos (by omega)]; rfl
      · rw [if_neg (by omega), if_pos h1, if_neg (by omega)]; rfl
    · rw [if_neg (by omega), if_neg h1]; rfl
  · intro src hs i
    simp only [VarField.setFixedIdx]
    rw [varWritten, (hanswer src hs).1]
    simp only [rangeW]
    split
    · simp; omega
    · simp; omega
  · intro data hdl hseen
    simp only [VarField.setFixedIdx, VarSeen, VarRead, VarField.path, hev] at hseen ⊢
    obtain ⟨cs, h1, h2⟩ := hseen
    cases h1
    refine ⟨⟨bs, rfl, rfl, h2⟩, fun i b hb => ?_⟩
    simp only [rangeW] at hb
    split at hb
    · rename_i hi
      have h3 : bit (data.take bs.length) i = bit bs i := by rw [h2]
      rw [bit_take, if_pos (by omega)] at h3
      rw [h3]
      exact Option.some.inj hb
    · cases hb

/-- What is known of an enum, from what is known of its case. -/
theorem varOver_enum {chk : Bool} {env : Path → Val} {xq : Path} {i : Nat} {w' : Val} {ls : List Layout} {lc : Layout}
    {m : Nat} {pm : Path → Nat} {wm : Nat → Option Bool} (hev : env xq = .case i w') (hlc1 : ls[i]? = some lc)
    (hm : CodedW chk w' (xq ++ [i]) lc m pm []) (hov : Overlaid chk w' (xq ++ [i]) lc m wm) (fi : Nat) :
    VarOver chk env ((VarField.enum xq 0 ls).setFixedIdx fi) m wm := by
  have hans : ∀ src, Pres src env xq → src.tag xq = .ok i ∧ Presents src w' (xq ++ [i]) := by
    intro src hs
    have hs' : ∀ r l, (r, l) ∈ leaves (.case i w') xq → Answers src r l := by
      intro r l hrl; apply hs; rw [hev]; exact hrl
    refine ⟨hs' xq (.tag i) (by rw [leaves]; simp), fun r l hrl => hs' r l ?_⟩
    rw [leaves]; exact List.mem_cons_of_mem _ hrl
  constructor
  · exact hov.dom
  · intro src hs o ho
    obtain ⟨h1, h2⟩ := hans src hs
    simp only [VarField.setFixedIdx]
    rw [varSize, h1]
    simp only [Res.bind_ok]
    rw [caseSizeWithSource_eq hlc1, hm.szs src h2]
    simp only [Res.bind_ok]
    rw [addW_ok ho]
  · intro src buf o r hs hb ho h
    obtain ⟨h1, h2⟩ := hans src hs
    simp only [VarField.setFixedIdx] at h
    rw [encodeVar, h1] at h
    simp only [Res.bind_ok] at h
    rw [show decide (o ≤ buf.length) = true by simp; omega, assert_true, Res.bind_ok,
      encodeCase_eq hlc1] at h
    obtain ⟨⟨b', k⟩, hb', h⟩ := Res.bind_eq_ok.1 h
    obtain ⟨_, _, h⟩ := Res.bind_eq_ok.1 h
    obtain ⟨_, _, h⟩ := Res.bind_eq_ok.1 h
    cases h
    have hlt : (buf.take o).length = o := by rw [List.length_take]; omega
    have hl' := hm.len src _ _ h2 hb'
    simp only [List.length_drop] at hl'
    refine ⟨by simp only [List.length_append, hlt, hl']; omega, fun k => ?_⟩
    simp only
    rw [bit_append, hlt]
    simp only [shiftW]
    by_cases hk : 8 * o ≤ k
    · have := hov.enc src _ _ h2 (by rw [List.length_drop]; omega) hb' (k - 8 * o)
      rw [bit_drop, Nat.add_sub_cancel' hk] at this
      rw [if_neg (by omega), if_pos hk, this]
    · rw [if_pos (by omega), if_neg hk, bit_take, if_pos (by omega)]; rfl
  · intro src hs k
    obtain ⟨h1, h2⟩ := hans src hs
    simp only [VarField.setFixedIdx]
    rw [varWritten, h1]
    simp only
    rw [caseWritten_eq hlc1]
    exact hov.shape src h2 k
  · intro data hdl hseen
    simp only [VarField.setFixedIdx, VarSeen, VarRead, VarField.path, hev] at hseen ⊢
    obtain ⟨i', u, lc', h1, h2, h3⟩ := hseen
    cases h1
    rw [hlc1] at h2
    cases h2
    have h4 := hov.fixed hm hdl h3 h3
    exact ⟨⟨i, w', lc, rfl, hlc1, h4.2, h3⟩, hov.seen data hdl h3⟩

theorem overlaid (chk : Bool) (n : Nat) : ∀ (t : Ty), nodes t ≤ n → n < 2 ^ 59 → Inhab t →
    ∀ (v : Val), Typed t v → ∀ (p : Path) (l : Layout),
    calculateLayout chk t p = .ok l → TagsHaveRoom chk (leaves v p) l →
    (∀ q bs, (q, Leaf.str bs) ∈ leaves v p → bs.length < 2 ^ 32) →
    leafSum (leaves v p) + 64 < W64 → ∃ size place w, CodedW chk v p l size place [] ∧
      Overlaid chk v p l size w ∧ countW w (8 * size) = valueBits v t := by
  induction n with
  | zero => intro t h; have := nodes_pos t; omega
  | succ n ih =>
    intro t hn hn2 hi v hv p l hl he hstr hw
    obtain ⟨size, place, hcoded⟩ := coded chk t (by omega) hi v hv p l hl he hstr hw
    obtain ⟨hu, hcases, l', hl', hfacts⟩ := unroll_and_layout chk t hi (by omega) p
    rw [hl] at hl'
    cases hl'
    obtain ⟨env, htyped, hleaves, hbits⟩ := typed_slots hv p
    have hsub : ∀ x ∈ slots t p, ∀ y ∈ leaves (env x.1) x.1, y ∈ leaves v p := by
      intro x hx y hy
      rw [hleaves]; exact List.mem_flatMap.2 ⟨x, hx, hy⟩
    have hsum : ∀ x ∈ slots t p, leafSum (leaves (env x.1) x.1) ≤ leafSum (leaves v p) := by
      intro x hx
      rw [hleaves, leafSum_flatMap]
      have gen : ∀ xs : List (Path × Slot), x ∈ xs →
          leafSum (leaves (env x.1) x.1) ≤ (xs.map (fun x => leafSum (leaves (env x.1) x.1))).sum := by
        intro xs
        induction xs with
        | nil => simp
        | cons z xs ihx =>
          intro hm
          rw [List.map_cons, List.sum_cons]
          rcases List.mem_cons.1 hm with rfl | hm
          · omega
          · have := ihx hm; omega
      exact gen _ hx
    have hinh := slots_inherit (Q := Inhab) (fun cs h => by cases h with | tuple _ h => exact h)
      (fun fs h => by cases h with | struct _ h => exact h) t p hi
    have hno := slots_inherit (Q := fun u => nodes u ≤ nodes t)
      (fun cs h c hc => by have := nodes_mem_tuple hc; omega)
      (fun fs h f hf => by have := nodesF_mem hf; rw [nodes] at h; omega) t p (Nat.le_refl _)
    have hgood := fields_good hfacts (by omega) htyped hsub (fun h => by rw [← h]; exact he) hstr
    have hfull : ∀ f ∈ l.fixed, f.full = false := by
      intro f hf
      have hroom := he l (.self l) f hf
      unfold HasRoom at hroom
      unfold FixedField.full
      split
      · rename_i pr o k hk
        have := (hroom pr o k hk).1
        simpa using this
      · rfl
    have hex : ∀ q : Path, ∃ m : Nat × (Nat → Option Bool), ∀ x ∈ slots t p, x.1 = q →
        (∀ w, Slot.var chk x = some w → ∀ fi, VarOver chk env (w.setFixedIdx fi) m.1 m.2) ∧
        16 + m.1 ≤ leafSum (leaves (env x.1) x.1) ∧
        slotBits x.2 + countW m.2 (8 * m.1) = valueBits (env x.1) x.2.ty := by
      intro q
      by_cases hq : ∃ x ∈ slots t p, x.1 = q
      · obtain ⟨x, hx, rfl⟩ := hq
        suffices ∃ m : Nat × (Nat → Option Bool),
            (∀ w, Slot.var chk x = some w → ∀ fi, VarOver chk env (w.setFixedIdx fi) m.1 m.2) ∧
            16 + m.1 ≤ leafSum (leaves (env x.1) x.1) ∧
            slotBits x.2 + countW m.2 (8 * m.1) = valueBits (env x.1) x.2.ty by
          obtain ⟨m, hm⟩ := this
          refine ⟨m, fun y hy hyx => ?_⟩
          have : y = x := Classical.byContradiction fun hne => by
            rcases pairwise_mem_ne (slots_apart t p) hy hx hne with h | h
            · exact h.1 (hyx ▸ List.prefix_refl _)
            · exact h.1 (hyx ▸ List.prefix_refl _)
          rw [this]; exact hm
        have hty := htyped x hx
        have hsl := hsub x hx
        have hsu := hsum x hx
        have hix := hinh x hx
        have hnx := hno x hx
        obtain ⟨xq, xs⟩ := x
        simp only at hty hsl hsu hix hnx ⊢
        cases xs with
        | prim pr =>
          generalize hev : env xq = ev at hty ⊢
          cases hty with
          | prim w =>
            exact ⟨(0, fun _ => none), by simp [Slot.var], by simp [leaves, leafSum, leafWeight],
              by simp [slotBits, countW, valueBits]⟩
        | str =>
          generalize hev : env xq = ev at hty hsl hsu ⊢
          cases hty with
          | str bs =>
          refine ⟨(bs.length, rangeW 0 (8 * bs.length) (bit bs)), ?_, by simp [leaves, leafSum, leafWeight], ?_⟩
          rotate_left
          · rw [slotBits, countW_range _ (by simp), valueBits]
          intro w hw fi
          simp [Slot.var] at hw
          subst hw
          exact varOver_str hev fi
        | enum cs =>
          generalize hev : env xq = ev at hty hsl hsu ⊢
          cases hty with
          | @enum _ i c w' hc1 hc2 =>
          have hcm := List.mem_of_getElem? hc1
          have hic : Inhab c.2 := by cases hix with | enum _ h => exact h c hcm
          have hnc : nodes c.2 ≤ n := by
            have := nodesF_mem hcm
            simp only [Slot.ty, nodes] at hnx
            omega
          obtain ⟨hcl, hcl2, hcl3⟩ := hcases xq cs hx
          obtain ⟨lc, hlc1, hlc2, _⟩ := hcl3 i c hc1
          have hec : TagsHaveRoom chk (leaves w' (xq ++ [i])) lc := by
            intro m hm
            obtain ⟨fi, hfi⟩ : ∃ fi, VarField.enum xq fi (layouts chk cs xq) ∈ l.vars := by
              have h0 : VarField.enum xq 0 (layouts chk cs xq) ∈ (slots t p).filterMap (Slot.var chk) :=
                List.mem_filterMap.2 ⟨_, hx, rfl⟩
              have h1 : (VarField.enum xq 0 (layouts chk cs xq)).setFixedIdx 0 ∈ l.vars.map (·.setFixedIdx 0) :=
                hfacts.vars.mem_iff.2 (List.mem_map_of_mem (f := fun v => VarField.setFixedIdx 0 v) h0)
              obtain ⟨v', hv', e⟩ := List.mem_map.1 h1
              cases v' with
              | string => simp [VarField.setFixedIdx] at e
              | enum a b d =>
                simp [VarField.setFixedIdx] at e
                obtain ⟨rfl, rfl⟩ := e
                exact ⟨b, hv'⟩
            refine he m (.case hfi (hsl _ (by rw [leaves]; exact List.mem_cons_self ..)) hlc1 (hm.mono ?_))
            intro y hy
            exact hsl _ (by rw [leaves]; exact List.mem_cons_of_mem _ hy)
          have hls : leafSum (leaves (.case i w') xq) = 64 + leafSum (leaves w' (xq ++ [i])) := by
            rw [leaves, leafSum_cons]; rfl
          rw [hls] at hsu ⊢
          obtain ⟨m, pm, wm, hm, hov, hcount⟩ := ih c.2 hnc (by omega) hic w' hc2 (xq ++ [i]) lc hlc2 hec
            (fun q bs hq => hstr q bs (hsl _ (by rw [leaves]; exact List.mem_cons_of_mem _ hq))) (by omega)
          have hsmall := hm.small
          refine ⟨(m, wm), ?_, by simp only; omega, ?_⟩
          rotate_left
          · have hlen : cs.length < 2 ^ 59 := by
              have := nodesF_length cs
              simp only [Slot.ty, nodes] at hnx
              omega
            simp only [slotBits, Slot.ty]
            rw [hcount, valueBits, hc1, requiredBits_tagBits hlen]
          intro w hw fi
          simp [Slot.var] at hw
          subst hw
          exact varOver_enum hev hlc1 hm hov fi
      · exact ⟨(0, fun _ => none), fun x hx hxq => absurd ⟨x, hx, hxq⟩ hq⟩
    obtain ⟨m, hm⟩ := Classical.axiomOfChoice hex
    obtain ⟨h1, h2⟩ := over_of_vars (sz := fun q => (m q).1) (ws := fun q => (m q).2) hfacts hleaves htyped
      (fun r cs hx => (hcases r cs hx).2.1) hgood hfull (fun x hx => (hm x.1 x hx rfl).1)
      (fun x hx => (hm x.1 x hx rfl).2.1) hw hcoded
    refine ⟨size, place, _, hcoded, h1, ?_⟩
    rw [h2, hbits]
    -- the bits of the fixed size fields
    have hfp : (l.fixed.map (·.path)).Perm ((slots t p).map (·.1)) := hfacts.paths.trans (paths_perm _)
    have hnd := slots_nodup t p
    have hfixed : (l.fixed.map FixedField.bitCount).sum = ((slots t p).map fun x => slotBits x.2).sum := by
      have e1 : (l.fixed.map FixedField.bitCount).sum = (l.fixed.map fun f => bitsAtPath (slots t p) f.path).sum := by
        apply sum_map_eq
        intro f hf
        rcases hfacts.kinds f hf with ⟨g, hg, h1, h2⟩ | ⟨b, hb, pr, o, h1, h2, _⟩
        · obtain ⟨⟨q, s⟩, hx, hxg⟩ := List.mem_filterMap.1 hg
          cases s with
          | prim pr =>
            simp [Slot.fixed] at hxg
            subst hxg
            rw [← h1, bitsAtPath_eq hnd hx]
            simp only at h2
            simp [FixedField.bitCount, FixedField.size, slotBits, ← h2]
          | str =>
            simp [Slot.fixed] at hxg
            subst hxg
            rw [← h1, bitsAtPath_eq hnd hx]
            simp only at h2
            simp [FixedField.bitCount, FixedField.size, slotBits, ← h2]
          | enum cs => simp [Slot.fixed] at hxg
        · obtain ⟨⟨q, s⟩, hx, hxb⟩ := List.mem_filterMap.1 hb
          cases s with
          | prim pr => simp [Slot.bits] at hxb
          | str => simp [Slot.bits] at hxb
          | enum cs =>
            simp [Slot.bits] at hxb
            subst hxb
            rw [← h1, bitsAtPath_eq hnd hx]
            simp only at h2
            simp [FixedField.bitCount, slotBits, h2]
      have e2 : (l.fixed.map fun f => bitsAtPath (slots t p) f.path).sum =
          ((slots t p).map fun x => bitsAtPath (slots t p) x.1).sum := by
        have := (hfp.map (bitsAtPath (slots t p))).sum_nat
        simpa [List.map_map, Function.comp_def] using this
      rw [e1, e2]
      exact sum_map_eq fun x hx => bitsAtPath_eq hnd hx
    have hvsum : (l.vars.map fun v => countW (m v.path).2 (8 * (m v.path).1)).sum =
        ((slots t p).map fun x => countW (m x.1).2 (8 * (m x.1).1)).sum := by
      rw [← sum_filterMap_eq (chk := chk) (fun q => countW (m q).2 (8 * (m q).1))]
      · have hp : (l.vars.map (·.path)).Perm (((slots t p).filterMap (Slot.var chk)).map (·.path)) := by
          have := hfacts.vars.map VarField.path
          simpa [List.map_map, Function.comp_def] using this
        have := (hp.map fun q => countW (m q).2 (8 * (m q).1)).sum_nat
        simpa [List.map_map, Function.comp_def] using this
      · intro x hx hxv
        have h3 := (hm x.1 x hx rfl).2.2
        have hty := htyped x hx
        obtain ⟨q, s⟩ := x
        cases s with
        | prim pr =>
          simp only at h3 hty ⊢
          generalize env q = ev at h3 hty
          cases hty with
          | prim u =>
            simp only [slotBits, valueBits] at h3
            omega
        | str => simp [Slot.var] at hxv
        | enum cs => simp [Slot.var] at hxv
    rw [hfixed, hvsum]
    have gen : ∀ xs : List (Path × Slot), (∀ x ∈ xs, slotBits x.2 + countW (m x.1).2 (8 * (m x.1).1) =
        valueBits (env x.1) x.2.ty) → (xs.map fun x => slotBits x.2).sum +
        (xs.map fun x => countW (m x.1).2 (8 * (m x.1).1)).sum = (xs.map fun x => valueBits (env x.1) x.2.ty).sum := by
      intro xs hxs
      induction xs with
      | nil => rfl
      | cons x xs ihx =>
        have a := hxs x (by simp)
        have b := ihx fun y hy => hxs y (by simp [hy])
        simp only [List.map_cons, List.sum_cons]
        omega
    exact gen _ fun x hx => (hm x.1 x hx rfl).2.2

/-- The same for the layouts of whole types. -/
theorem fits_overlaid {chk : Bool} {t : Ty} {v : Val} (h : Fits chk t v) {l : Layout}
    (hl : Layout.new chk t = .ok l) : ∃ size place w, CodedW chk v [] l size place [] ∧
      Overlaid chk v [] l size w ∧ countW w (8 * size) = valueBits v t := by
  have hw := h.total
  rw [weight_eq v []] at hw
  exact overlaid chk _ t (Nat.le_refl _) h.nodes h.inhab v h.typed [] l hl (h.tags l hl) h.strings (by omega)

end Verif
