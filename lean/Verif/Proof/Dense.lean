import Verif.Spec.Dense
import Verif.Proof.Width

/-! # Encodings are dense: hardly more bytes than the contents -/

namespace Verif

open Spec

theorem addW_bounds {chk : Bool} {a b c : Nat} (h : addW chk a b = .ok c) :
    c ≤ a + b ∧ (chk = true → c = a + b) := by
  unfold addW at h
  split at h
  · cases h; exact ⟨Nat.le_refl _, fun _ => rfl⟩
  · split at h
    · cases h
    · cases h
      exact ⟨Nat.mod_le _ _, fun hc => absurd hc (by assumption)⟩

theorem align_bounds {chk : Bool} {v a n : Nat} (ha : a < W64) (h : align chk v a = .ok n) :
    n + 1 ≤ v + a ∧ (chk = true → v ≤ n) := by
  cases hp : isPow2 a with
  | false => rw [align_not_pow2 hp] at h; cases h
  | true =>
    obtain ⟨k, hk, rfl⟩ := (isPow2_iff ha).1 hp
    have hpos := Nat.two_pow_pos k
    by_cases hv : v + 2 ^ k < W64
    · rw [align_ok hk hv] at h
      cases h
      exact ⟨alignUp_lt v hpos, fun _ => le_alignUp v hpos⟩
    · unfold align at h
      rw [hp] at h
      obtain ⟨_, _, h⟩ := Res.bind_eq_ok.1 h
      obtain ⟨s, hs, h⟩ := Res.bind_eq_ok.1 h
      obtain ⟨t, ht, h⟩ := Res.bind_eq_ok.1 h
      obtain ⟨m, _, h⟩ := Res.bind_eq_ok.1 h
      cases h
      obtain ⟨h1, h2⟩ := addW_bounds hs
      refine ⟨?_, fun hc => ?_⟩
      · have : t + 1 ≤ v + 2 ^ k := by
          unfold subW at ht
          split at ht
          · cases ht; omega
          · split at ht
            · cases ht
            · cases ht; omega
        have := Nat.and_le_left (n := t) (m := notW m)
        omega
      · unfold addW at hs
        rw [if_neg hv, if_pos hc] at hs
        cases hs

/-- The bytes one variable size field adds. -/
def VarField.own (chk : Bool) (src : DataSource) : VarField → Res Nat
  | .string p _ => src.length p
  | .enum p _ cs => do
    let i ← src.tag p
    caseSizeWithSource chk src cs i

/-- The bytes one variable size field adds, zero if that fails. -/
def VarField.bytes (chk : Bool) (src : DataSource) (v : VarField) : Nat :=
  match v.own chk src with
  | .ok n => n
  | .error _ => 0

theorem varSize_own {chk : Bool} {src : DataSource} {v : VarField} {o o' : Nat}
    (h : varSize chk src v o = .ok o') :
    (∃ n, v.own chk src = .ok n) ∧ o' ≤ o + v.bytes chk src ∧ (chk = true → o' = o + v.bytes chk src) := by
  cases v with
  | string p i =>
    rw [varSize] at h
    obtain ⟨n, hn, h⟩ := Res.bind_eq_ok.1 h
    have e : (VarField.string p i).own chk src = .ok n := hn
    simp only [VarField.bytes, e]
    exact ⟨⟨n, rfl⟩, addW_bounds h⟩
  | enum p i cs =>
    rw [varSize] at h
    obtain ⟨t, ht, h⟩ := Res.bind_eq_ok.1 h
    obtain ⟨n, hn, h⟩ := Res.bind_eq_ok.1 h
    have e : (VarField.enum p i cs).own chk src = .ok n := by
      rw [VarField.own, ht]; exact hn
    simp only [VarField.bytes, e]
    exact ⟨⟨n, rfl⟩, addW_bounds h⟩

theorem varsSize_own {chk : Bool} {src : DataSource} : ∀ {vs : List VarField} {o o' : Nat},
    varsSize chk src vs o = .ok o' →
    (∀ v ∈ vs, ∃ n, v.own chk src = .ok n) ∧ o' ≤ o + (vs.map (·.bytes chk src)).sum ∧
      (chk = true → o' = o + (vs.map (·.bytes chk src)).sum)
  | [], o, o', h => by
    rw [varsSize] at h
    cases h
    simp
  | v :: vs, o, o', h => by
    rw [varsSize] at h
    obtain ⟨m, hm, h⟩ := Res.bind_eq_ok.1 h
    obtain ⟨a1, a2, a3⟩ := varSize_own hm
    obtain ⟨b1, b2, b3⟩ := varsSize_own h
    rw [List.map_cons, List.sum_cons]
    refine ⟨?_, by omega, fun hc => by have := a3 hc; have := b3 hc; omega⟩
    intro x hx
    rcases List.mem_cons.1 hx with rfl | hx
    · exact a1
    · exact b1 x hx

theorem setFixedIdx_own {chk : Bool} {src : DataSource} {i : Nat} (v : VarField) :
    (v.setFixedIdx i).own chk src = v.own chk src := by cases v <;> rfl

theorem linkVars_own {chk : Bool} {src : DataSource} {lookup : List (Path × Nat)} :
    ∀ {vs vs' : List VarField} {i : Nat} {xs xs' : List Index}, linkVars lookup vs i xs = .ok (vs', xs') →
    vs'.map (·.own chk src) = vs.map (·.own chk src)
  | [], _, _, _, _, h => by cases h; rfl
  | v :: vs, vs', i, xs, xs', h => by
    rw [linkVars] at h
    split at h
    · cases h
    · split at h
      · cases h
      · obtain ⟨⟨ws, ys⟩, h1, h⟩ := Res.bind_eq_ok.1 h
        cases h
        simp only [List.map_cons, setFixedIdx_own, linkVars_own h1]

theorem bytes_map {chk : Bool} {src : DataSource} {vs ws : List VarField}
    (h : vs.map (·.own chk src) = ws.map (·.own chk src)) :
    vs.map (·.bytes chk src) = ws.map (·.bytes chk src) := by
  have e : ∀ us : List VarField, us.map (·.bytes chk src) =
      (us.map (·.own chk src)).map (fun r => match r with | .ok n => n | .error _ => 0) := by
    intro us
    rw [List.map_map]
    rfl
  rw [e, e, h]

theorem assignOffsets_total {chk : Bool} : ∀ {fs gs : List FixedField} {s n : Nat},
    assignOffsets chk fs s = .ok (gs, n) →
    n ≤ s + (fs.map (·.size)).sum ∧ (chk = true → n = s + (fs.map (·.size)).sum)
  | [], _, s, n, h => by cases h; simp
  | f :: fs, gs, s, n, h => by
    rw [assignOffsets] at h
    obtain ⟨a, ha, h⟩ := Res.bind_eq_ok.1 h
    obtain ⟨b, hb, h⟩ := Res.bind_eq_ok.1 h
    obtain ⟨⟨gs', t⟩, ht, h⟩ := Res.bind_eq_ok.1 h
    cases h
    have he : a = f.size := by
      unfold FixedKind.size at ha
      unfold FixedField.size
      split at ha <;> cases ha <;> simp [*]
    subst he
    obtain ⟨a1, a2⟩ := addW_bounds hb
    obtain ⟨b1, b2⟩ := assignOffsets_total ht
    rw [List.map_cons, List.sum_cons]
    exact ⟨by omega, fun hc => by have := a2 hc; have := b2 hc; omega⟩

theorem allocateLoop_total : ∀ {fs fs' : List Bitfield} {cs cs' : List Container},
    allocateLoop fs cs = .ok (fs', cs') →
    ((cs'.map (·.prim)).map (·.size)).sum ≤
      ((cs.map (·.prim)).map (·.size)).sum + (fs.map (fun f => wordFor f.numBits)).sum
  | [], _, cs, cs', h => by
    cases h
    simp
  | f :: fs, fs', cs, cs', h => by
    rw [allocateLoop] at h
    split at h
    · rename_i j o ds hp
      obtain ⟨⟨gs, es⟩, h1, h2⟩ := Res.bind_eq_ok.1 h
      cases h2
      have ih := allocateLoop_total h1
      rw [placeBits_prims hp] at ih
      simp only [List.map_cons, List.sum_cons]
      omega
    · obtain ⟨p, h0, h⟩ := Res.bind_eq_ok.1 h
      obtain ⟨⟨gs, es⟩, h1, h2⟩ := Res.bind_eq_ok.1 h
      cases h2
      have ih := allocateLoop_total h1
      have := primitiveForBits_size h0
      simp only [List.map_append, List.map_cons, List.map_nil, List.sum_append, List.sum_cons, List.sum_nil] at ih ⊢
      omega

theorem containerFields_total : ∀ (cs : List Container) (i : Nat),
    ((containerFields cs i).map (·.size)).sum = ((cs.map (·.prim)).map (·.size)).sum
  | [], i => rfl
  | c :: cs, i => by
    simp only [containerFields, List.map_cons, List.sum_cons, containerFields_total cs (i + 1)]
    rfl

/-- The bytes of the fields of an unrolled type, without tags. -/
def Unrolled.body (chk : Bool) (src : DataSource) (u : Unrolled) : Nat :=
  (u.fixed.map (·.size)).sum + (u.vars.map (·.bytes chk src)).sum

/-- The bytes of one word for every tag. -/
def Unrolled.words (u : Unrolled) : Nat := (u.bits.map (fun b => wordFor b.numBits)).sum

theorem finish_dense {chk : Bool} {src : DataSource} {u : Unrolled} {l : Layout} {n w : Nat}
    (h : finishLayout chk u.fixed u.bits u.vars = .ok l) (hs : l.sizeWithSource chk src = .ok n)
    (hl : l.alignment ≤ w) (hw : w < W64) :
    (∀ v ∈ u.vars, ∃ n, v.own chk src = .ok n) ∧
      n + 2 ≤ u.body chk src + u.words + 2 * w ∧ (chk = true → u.body chk src ≤ n) ∧
      ((∀ v ∈ u.vars, v.alignment = 1) → n + 1 ≤ u.body chk src + u.words + w) := by
  unfold finishLayout at h
  obtain ⟨⟨bits, cs⟩, h1, h⟩ := Res.bind_eq_ok.1 h
  obtain ⟨⟨fs, size⟩, h2, h⟩ := Res.bind_eq_ok.1 h
  obtain ⟨fa, h3, h⟩ := Res.bind_eq_ok.1 h
  obtain ⟨o, h4, h⟩ := Res.bind_eq_ok.1 h
  obtain ⟨_, _, h⟩ := Res.bind_eq_ok.1 h
  obtain ⟨⟨vs, xs⟩, h5, h⟩ := Res.bind_eq_ok.1 h
  cases h
  rw [Layout.sizeWithSource] at hs
  obtain ⟨o', h6, h7⟩ := Res.bind_eq_ok.1 hs
  rw [Layout.alignment] at hl
  obtain ⟨a1, a2, a3⟩ := varsSize_own h6
  have hown := linkVars_own (chk := chk) (src := src) h5
  rw [bytes_map hown] at a2 a3
  have hvp := sortBy_perm (fun l r : VarField => decide (r.alignment ≤ l.alignment)) u.vars
  have hfp := sortBy_perm (fun l r : FixedField => decide (r.size ≤ l.size)) (u.fixed ++ containerFields cs 0)
  rw [(hvp.map _).sum_nat] at a2 a3
  obtain ⟨b1, b2⟩ := assignOffsets_total h2
  rw [(hfp.map _).sum_nat, List.map_append, List.sum_append, containerFields_total] at b1 b2
  have c := allocateLoop_total h1
  rw [((sortBy_perm _ _).map _).sum_nat] at c
  simp only [List.map_nil, List.sum_nil, Nat.zero_add] at c b1 b2
  obtain ⟨d1, d2⟩ := align_bounds (by omega) h4
  obtain ⟨e1, e2⟩ := align_bounds (by omega) h7
  refine ⟨?_, ?_, ?_, ?_⟩
  · intro v hv
    have : v.own chk src ∈ vs.map (·.own chk src) := by
      rw [hown]
      exact List.mem_map_of_mem (hvp.mem_iff.2 hv)
    obtain ⟨x, hx, he⟩ := List.mem_map.1 this
    obtain ⟨n, hn⟩ := a1 x hx
    exact ⟨n, by rw [← he]; exact hn⟩
  · unfold Unrolled.body Unrolled.words
    omega
  · intro hc
    have := a3 hc
    have := b2 hc
    have := d2 hc
    have := e2 hc
    unfold Unrolled.body
    omega
  · intro hone
    have hva : firstAlignment (sortBy (fun l r : VarField => decide (r.alignment ≤ l.alignment)) u.vars) = 1 := by
      generalize hss : sortBy (fun l r : VarField => decide (r.alignment ≤ l.alignment)) u.vars = ss at hvp ⊢
      cases ss with
      | nil => rfl
      | cons x ss => exact hone x (hvp.mem_iff.1 (.head _))
    rw [hva] at d1
    unfold Unrolled.body Unrolled.words
    omega

/-- What the induction shows of an unrolled type.  An enum costs the padding at its end, and the padding in front of
the variable size fields of the record it is in; the latter is not counted here for the enums at the top. -/
def Unrolled.Dense (chk : Bool) (src : DataSource) (u : Unrolled) (c t e w : Nat) : Prop :=
  (∃ x, x + u.bits.length = 2 * e ∧ u.body chk src + u.words + x ≤ c + t + x * w) ∧
    (chk = true → c ≤ u.body chk src) ∧ (u.bits.length = 0 → ∀ v ∈ u.vars, v.alignment = 1)

theorem Unrolled.Dense.append {chk : Bool} {src : DataSource} {a b : Unrolled} {c t e c' t' e' w : Nat}
    (ha : a.Dense chk src c t e w) (hb : b.Dense chk src c' t' e' w) :
    (a.append b).Dense chk src (c + c') (t + t') (e + e') w := by
  obtain ⟨⟨x, hx, a1⟩, a2, a3⟩ := ha
  obtain ⟨⟨y, hy, b1⟩, b2, b3⟩ := hb
  unfold Unrolled.Dense
  unfold Unrolled.body Unrolled.words at *
  simp only [Unrolled.append, List.map_append, List.sum_append, List.length_append]
  refine ⟨⟨x + y, by omega, by rw [Nat.add_mul]; omega⟩, fun hc => by have := a2 hc; have := b2 hc; omega, ?_⟩
  intro h v hv
  rcases List.mem_append.1 hv with hv | hv
  · exact a3 (by omega) v hv
  · exact b3 (by omega) v hv

theorem presents_head {src : DataSource} {v : Val} {vs : List Val} {q : Path} {i : Nat}
    (h : ∀ p l, (p, l) ∈ leavesFrom (v :: vs) q i → Answers src p l) :
    Presents src v (q ++ [i]) ∧ ∀ p l, (p, l) ∈ leavesFrom vs q (i + 1) → Answers src p l := by
  constructor
  · intro p l hp
    exact h p l (by rw [leavesFrom]; exact List.mem_append_left _ hp)
  · intro p l hp
    exact h p l (by rw [leavesFrom]; exact List.mem_append_right _ hp)

theorem caseLayouts_get {chk : Bool} : ∀ {cs : List (Str × Ty)} {q : Path} {i : Nat} {ls : List Layout},
    caseLayouts chk cs q i = .ok ls → ∀ {j : Nat} {c : Str × Ty}, cs[j]? = some c →
    ∃ l, calculateLayout chk c.2 (q ++ [i + j]) = .ok l ∧
      ∀ src, caseSizeWithSource chk src ls j = l.sizeWithSource chk src
  | [], _, _, _, _, j, c, hj => by simp at hj
  | (x, d) :: cs, q, i, ls, h, j, c, hj => by
    rw [caseLayouts] at h
    obtain ⟨l, hl, h⟩ := Res.bind_eq_ok.1 h
    obtain ⟨ms, hm, h⟩ := Res.bind_eq_ok.1 h
    cases h
    cases j with
    | zero =>
      cases hj
      rw [caseLayout] at hl
      exact ⟨l, hl, fun src => by rw [caseSizeWithSource]⟩
    | succ j =>
      obtain ⟨m, h1, h2⟩ := caseLayouts_get hm (j := j) hj
      refine ⟨m, ?_, fun src => by rw [caseSizeWithSource]; exact h2 src⟩
      rw [show i + (j + 1) = i + 1 + j by omega]
      exact h1

/-- Every value of the type is unrolled densely. -/
def DenseAt (chk : Bool) (src : DataSource) (t : Ty) : Prop :=
  ∀ (q : Path) (u : Unrolled) (v : Val) (w : Nat), nodes t < 2 ^ 59 → unrollType chk t q = .ok u → Typed t v →
    Presents src v q → widest t ≤ w → w < W64 → (∀ x ∈ u.vars, ∃ n, x.own chk src = .ok n) →
    u.Dense chk src (content v) (tagWords v t) (enums v) w

theorem DenseAt.layout {chk : Bool} {src : DataSource} {t : Ty} (ht : DenseAt chk src t) {q : Path} {l : Layout}
    {v : Val} {w n : Nat} (hn : nodes t < 2 ^ 59) (h : calculateLayout chk t q = .ok l) (hv : Typed t v)
    (hp : Presents src v q) (hw : widest t ≤ w) (hw64 : w < W64) (hs : l.sizeWithSource chk src = .ok n) :
    n + (2 * enums v + 1) ≤ content v + tagWords v t + (2 * enums v + 1) * w ∧
      (chk = true → content v ≤ n) := by
  have hal := calculateLayout_widest hn h
  have hpos := widest_pos t
  rw [calculateLayout] at h
  obtain ⟨u, hu, h⟩ := Res.bind_eq_ok.1 h
  obtain ⟨h1, h2, h3, h3'⟩ := finish_dense h hs (by rw [hal]; exact hw) hw64
  obtain ⟨⟨x, hx, h4⟩, h5, h6⟩ := ht q u v w hn hu hv hp hw hw64 h1
  refine ⟨?_, fun hc => Nat.le_trans (h5 hc) (h3 hc)⟩
  by_cases hb : u.bits.length = 0
  · have := h3' (h6 hb)
    have e : x = 2 * enums v := by omega
    subst e
    rw [Nat.add_mul]
    omega
  · obtain ⟨y, hy⟩ : ∃ y, 2 * enums v + 1 = x + 2 + y := ⟨u.bits.length - 1, by omega⟩
    have : y ≤ y * w := Nat.le_mul_of_pos_right y (by omega)
    rw [hy, Nat.add_mul, Nat.add_mul]
    omega

theorem unrollTuple_dense {chk : Bool} {src : DataSource} {w : Nat} (hw64 : w < W64) : ∀ (cs : List Ty)
    (vs : List Val) (q : Path) (i : Nat) (u : Unrolled), (∀ c ∈ cs, DenseAt chk src c) →
    nodes.nodesL cs < 2 ^ 59 → unrollTuple chk cs q i = .ok u → vs.length = cs.length →
    (∀ (i : Nat) (c : Ty) (v : Val), cs[i]? = some c → vs[i]? = some v → Typed c v) →
    (∀ p l, (p, l) ∈ leavesFrom vs q i → Answers src p l) → widestL cs ≤ w →
    (∀ x ∈ u.vars, ∃ n, x.own chk src = .ok n) →
    u.Dense chk src (contentL vs) (tagWordsL vs cs) (enumsL vs) w
  | [], [], q, i, u, _, _, h, _, _, _, _, _ => by
    cases h
    simp [Unrolled.Dense, Unrolled.body, Unrolled.words, contentL, tagWordsL, enumsL]
  | [], _ :: _, _, _, _, _, _, _, hl, _, _, _, _ => by simp at hl
  | _ :: _, [], _, _, _, _, _, _, hl, _, _, _, _ => by simp at hl
  | c :: cs, v :: vs, q, i, u, hc, hn, h, hl, ht, hp, hw, hok => by
    rw [unrollTuple] at h
    obtain ⟨a, ha, h⟩ := Res.bind_eq_ok.1 h
    obtain ⟨b, hb, h⟩ := Res.bind_eq_ok.1 h
    cases h
    rw [nodes.nodesL] at hn
    rw [widestL] at hw
    obtain ⟨hp1, hp2⟩ := presents_head hp
    rw [contentL, tagWordsL, enumsL]
    exact (hc c (.head _) _ a v w (by omega) ha (ht 0 c v rfl rfl) hp1 (by omega) hw64
      (fun x hx => hok x (List.mem_append_left _ hx))).append
      (unrollTuple_dense hw64 cs vs q (i + 1) b (fun d hd => hc d (.tail _ hd)) (by omega) hb (by simpa using hl)
        (fun j d x h1 h2 => ht (j + 1) d x h1 h2) hp2 (by omega) (fun x hx => hok x (List.mem_append_right _ hx)))

theorem unrollStruct_dense {chk : Bool} {src : DataSource} {w : Nat} (hw64 : w < W64) : ∀ (cs : List (Str × Ty))
    (vs : List Val) (q : Path) (i : Nat) (u : Unrolled), (∀ c ∈ cs, DenseAt chk src c.2) →
    nodes.nodesF cs < 2 ^ 59 → unrollStruct chk cs q i = .ok u → vs.length = cs.length →
    (∀ (i : Nat) (c : Str × Ty) (v : Val), cs[i]? = some c → vs[i]? = some v → Typed c.2 v) →
    (∀ p l, (p, l) ∈ leavesFrom vs q i → Answers src p l) → widestF cs ≤ w →
    (∀ x ∈ u.vars, ∃ n, x.own chk src = .ok n) →
    u.Dense chk src (contentL vs) (tagWordsL vs (cs.map (·.2))) (enumsL vs) w
  | [], [], q, i, u, _, _, h, _, _, _, _, _ => by
    cases h
    simp [Unrolled.Dense, Unrolled.body, Unrolled.words, contentL, tagWordsL, enumsL]
  | [], _ :: _, _, _, _, _, _, _, hl, _, _, _, _ => by simp at hl
  | _ :: _, [], _, _, _, _, _, _, hl, _, _, _, _ => by simp at hl
  | (s, c) :: cs, v :: vs, q, i, u, hc, hn, h, hl, ht, hp, hw, hok => by
    rw [unrollStruct] at h
    obtain ⟨a, ha, h⟩ := Res.bind_eq_ok.1 h
    obtain ⟨b, hb, h⟩ := Res.bind_eq_ok.1 h
    cases h
    rw [unrollField] at ha
    rw [nodes.nodesF, nodes.nodesP] at hn
    rw [widestF, widestP] at hw
    obtain ⟨hp1, hp2⟩ := presents_head hp
    rw [contentL, List.map_cons, tagWordsL, enumsL]
    exact (hc (s, c) (.head _) _ a v w (by simp only; omega) ha (ht 0 (s, c) v rfl rfl) hp1 (by simp only; omega) hw64
      (fun x hx => hok x (List.mem_append_left _ hx))).append
      (unrollStruct_dense hw64 cs vs q (i + 1) b (fun d hd => hc d (.tail _ hd)) (by omega) hb (by simpa using hl)
        (fun j d x h1 h2 => ht (j + 1) d x h1 h2) hp2 (by omega) (fun x hx => hok x (List.mem_append_right _ hx)))

theorem nodesF_get : ∀ {cs : List (Str × Ty)} {i : Nat} {c : Str × Ty}, cs[i]? = some c →
    nodes c.2 ≤ nodes.nodesF cs ∧ widest c.2 ≤ widestF cs
  | [], i, c, h => by simp at h
  | (s, d) :: cs, 0, c, h => by
    cases h
    rw [nodes.nodesF, nodes.nodesP, widestF, widestP]
    simp only
    omega
  | (s, d) :: cs, i + 1, c, h => by
    have := nodesF_get (cs := cs) (i := i) h
    rw [nodes.nodesF, widestF]
    omega

mutual
theorem dense_at (chk : Bool) (src : DataSource) : ∀ t : Ty, DenseAt chk src t
  | .unit => by
    intro q u v w _ h hv _ _ _ _
    cases h
    cases hv
    simp [Unrolled.Dense, Unrolled.body, Unrolled.words, content, tagWords, enums]
  | .prim p => by
    intro q u v w _ h hv _ _ _ _
    cases h
    cases hv
    simp [Unrolled.Dense, Unrolled.body, Unrolled.words, content, tagWords, enums, FixedField.size]
  | .string => by
    intro q u v w _ h hv hp _ _ _
    cases h
    cases hv with
    | str bs =>
      have hl : src.length q = .ok bs.length := (hp q (.str bs) (by simp [leaves])).1
      simp [Unrolled.Dense, Unrolled.body, Unrolled.words, content, tagWords, enums, FixedField.size,
        VarField.bytes, VarField.own, hl, VarField.alignment]
  | .tuple cs => by
    intro q u v w hn h hv hp hw hw64 hok
    cases hv with
    | tuple hl ht =>
      rw [unrollType] at h
      obtain ⟨_, _, h⟩ := Res.bind_eq_ok.1 h
      rw [nodes] at hn
      rw [widest] at hw
      rw [content, tagWords, enums]
      exact unrollTuple_dense hw64 cs _ q 0 u (all_dense_at chk src cs) (by omega) h hl ht
        (fun p l hpl => hp p l (by rw [leaves]; exact hpl)) hw hok
  | .struct fs => by
    intro q u v w hn h hv hp hw hw64 hok
    cases hv with
    | struct hl ht =>
      rw [unrollType] at h
      obtain ⟨_, _, h⟩ := Res.bind_eq_ok.1 h
      rw [nodes] at hn
      rw [widest] at hw
      rw [content, tagWords, enums]
      exact unrollStruct_dense hw64 fs _ q 0 u (fields_dense_at chk src fs) (by omega) h hl ht
        (fun p l hpl => hp p l (by rw [leaves]; exact hpl)) hw hok
  | .enum cs => by
    intro q u v w hn h hv hp hw hw64 hok
    have ih := fields_dense_at chk src cs
    cases hv with
    | @enum _ i c v hi hv =>
      rw [unrollType] at h
      obtain ⟨_, _, h⟩ := Res.bind_eq_ok.1 h
      obtain ⟨ls, hls, h⟩ := Res.bind_eq_ok.1 h
      cases h
      rw [nodes] at hn
      rw [widest] at hw
      have hlen : cs.length < 2 ^ 59 := by
        have := nodesF_length cs
        omega
      obtain ⟨hc1, hc2⟩ := nodesF_get hi
      obtain ⟨l, hl, hsz⟩ := caseLayouts_get hls hi
      rw [Nat.zero_add] at hl
      have htag : src.tag q = .ok i := hp q (.tag i) (by simp [leaves])
      have hown : (VarField.enum q 0 ls).own chk src = l.sizeWithSource chk src := by
        rw [VarField.own, htag]
        exact hsz src
      obtain ⟨n, hn'⟩ := hok _ (List.mem_singleton.2 rfl)
      rw [hown] at hn'
      obtain ⟨h1, h2⟩ := (ih c (List.mem_of_getElem? hi)).layout (by omega) hl hv
        (fun p x hpx => hp p x (by rw [leaves]; exact .tail _ hpx)) (by omega) hw64 hn'
      simp only [Unrolled.Dense, Unrolled.body, Unrolled.words, content, tagWords, enums, hi, List.map_cons,
        List.map_nil, List.sum_cons, List.sum_nil, VarField.bytes, hown, hn', tagWord_spec hlen, List.length_cons,
        List.length_nil]
      exact ⟨⟨2 * enums v + 1, by omega, by omega⟩, fun hc => by have := h2 hc; omega, fun h => by omega⟩
theorem all_dense_at (chk : Bool) (src : DataSource) : ∀ cs : List Ty, ∀ c ∈ cs, DenseAt chk src c
  | [], _, h => by cases h
  | c :: cs, d, h => by
    have h1 := dense_at chk src c
    have h2 := all_dense_at chk src cs
    rcases List.mem_cons.1 h with rfl | h
    · exact h1
    · exact h2 d h
theorem fields_dense_at (chk : Bool) (src : DataSource) : ∀ cs : List (Str × Ty), ∀ c ∈ cs, DenseAt chk src c.2
  | [], _, h => by cases h
  | c :: cs, d, h => by
    have h1 := field_dense_at chk src c
    have h2 := fields_dense_at chk src cs
    rcases List.mem_cons.1 h with rfl | h
    · exact h1
    · exact h2 d h
theorem field_dense_at (chk : Bool) (src : DataSource) : ∀ c : Str × Ty, DenseAt chk src c.2
  | (_, t) => dense_at chk src t
end

theorem widest_le : ∀ t : Ty, widest t ≤ 16 := by
  intro t
  have hp : ∀ p : Prim, p.size ≤ 16 := by intro p; cases p <;> decide
  have ht : ∀ n, tagWord n ≤ 16 := by
    intro n
    unfold tagWord
    repeat' split
    all_goals omega
  exact Ty.rec (motive_1 := fun t => widest t ≤ 16) (motive_2 := fun cs => widestL cs ≤ 16)
    (motive_3 := fun fs => widestF fs ≤ 16) (motive_4 := fun f => widestP f ≤ 16)
    (by simp [widest]) (fun p => by rw [widest]; exact hp p) (by simp [widest])
    (fun cs h => by rw [widest]; exact h) (fun fs h => by rw [widest]; exact h)
    (fun cs h => by rw [widest]; have := ht cs.length; omega)
    (by simp [widestL]) (fun c cs h1 h2 => by rw [widestL]; omega)
    (by simp [widestF]) (fun c cs h1 h2 => by rw [widestF]; omega)
    (fun s t h => by rw [widestP]; exact h) t

mutual
theorem tagWords_none : ∀ (v : Val) (t : Ty), enums v = 0 → tagWords v t = 0
  | .unit, t, _ => by cases t <;> rfl
  | .prim _, t, _ => by cases t <;> rfl
  | .str _, t, _ => by cases t <;> rfl
  | .seq vs, t, h => by
    rw [enums] at h
    have := tagWordsL_none vs
    cases t with
    | tuple cs => rw [tagWords]; exact this cs h
    | struct fs => rw [tagWords]; exact this _ h
    | _ => rfl
  | .case i v, t, h => by rw [enums] at h; omega
theorem tagWordsL_none : ∀ (vs : List Val) (cs : List Ty), enumsL vs = 0 → tagWordsL vs cs = 0
  | [], cs, _ => by cases cs <;> rfl
  | v :: vs, [], _ => rfl
  | v :: vs, c :: cs, h => by
    rw [enumsL] at h
    rw [tagWordsL, tagWords_none v c (by omega), tagWordsL_none vs cs (by omega)]
end

end Verif
