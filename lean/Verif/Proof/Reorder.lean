import Verif.Spec.Reorder
import Verif.Proof.Dense
import Verif.Proof.GrownUnroll

/-! # The order of components does not matter to the size -/

namespace Verif

open Spec

/-! ## Sorted lists -/

theorem sorted_unique : ∀ {as bs : List Nat}, as.Perm bs → as.Pairwise (fun a b => b ≤ a) →
    bs.Pairwise (fun a b => b ≤ a) → as = bs
  | [], bs, h, _, _ => by rw [h.nil_eq]
  | a :: as, [], h, _, _ => by cases h.symm.nil_eq
  | a :: as, b :: bs, h, h1, h2 => by
    have e : a = b := by
      have x := List.mem_cons.1 (h.mem_iff.1 (.head _))
      have y := List.mem_cons.1 (h.symm.mem_iff.1 (.head _))
      rcases x with x | x
      · exact x
      · rcases y with y | y
        · exact y.symm
        · have := (List.pairwise_cons.1 h2).1 a x
          have := (List.pairwise_cons.1 h1).1 b y
          omega
    subst e
    rw [sorted_unique h.cons_inv (List.pairwise_cons.1 h1).2 (List.pairwise_cons.1 h2).2]

theorem sortBy_keys {α β : Type} (f : α → Nat) (g : β → Nat) {as : List α} {bs : List β}
    (h : (as.map f).Perm (bs.map g)) :
    (sortBy (fun l r => decide (f r ≤ f l)) as).map f = (sortBy (fun l r => decide (g r ≤ g l)) bs).map g := by
  have h1 := sortBy_ge_pairwise f as
  have h2 := sortBy_ge_pairwise g bs
  refine sorted_unique ?_ (List.pairwise_map.2 h1) (List.pairwise_map.2 h2)
  exact (((sortBy_perm _ as).map f).trans h).trans ((sortBy_perm _ bs).map g).symm

/-! ## Containers -/

/-- A tag of so many bits. -/
def plainBits (b : Nat) : Bitfield := ⟨[], 0, b, 0⟩

theorem allocateLoop_bits : ∀ {fs gs fs' : List Bitfield} {cs cs' : List Container},
    fs.map (·.numBits) = gs.map (·.numBits) → allocateLoop fs cs = .ok (fs', cs') →
    ∃ gs', allocateLoop gs cs = .ok (gs', cs')
  | [], [], _, cs, cs', _, h => by cases h; exact ⟨[], rfl⟩
  | [], _ :: _, _, _, _, he, _ => by simp at he
  | _ :: _, [], _, _, _, he, _ => by simp at he
  | f :: fs, g :: gs, fs', cs, cs', he, h => by
    simp only [List.map_cons, List.cons.injEq] at he
    rw [allocateLoop] at h ⊢
    rw [← he.1]
    split at h
    · rename_i j o ds hp
      obtain ⟨⟨hs, es⟩, h1, h2⟩ := Res.bind_eq_ok.1 h
      cases h2
      obtain ⟨gs', h3⟩ := allocateLoop_bits he.2 h1
      exact ⟨_, by simp only [h3]; rfl⟩
    · rename_i hp
      obtain ⟨p, h0, h⟩ := Res.bind_eq_ok.1 h
      obtain ⟨⟨hs, es⟩, h1, h2⟩ := Res.bind_eq_ok.1 h
      cases h2
      obtain ⟨gs', h3⟩ := allocateLoop_bits he.2 h1
      exact ⟨_, by simp only [h0, Res.bind_ok, h3]; rfl⟩

/-- Bytes of all containers. -/
def Container.total (cs : List Container) : Nat := ((cs.map (·.prim)).map (·.size)).sum

/-- Bytes of the containers for tags of so many bits. -/
def packed (bs : List Nat) : Nat :=
  match allocateBitfields (bs.map plainBits) with
  | .ok (_, cs) => Container.total cs
  | .error _ => 0

theorem packed_eq {bits bits' : List Bitfield} {cs : List Container} (h : allocateBitfields bits = .ok (bits', cs))
    {bs : List Nat} (hb : (bits.map (·.numBits)).Perm bs) : packed bs = Container.total cs := by
  unfold allocateBitfields at h
  have he := sortBy_keys (fun b : Bitfield => b.numBits) (fun b : Bitfield => b.numBits)
    (as := bits) (bs := bs.map plainBits) (by
      rw [List.map_map]
      simpa [plainBits, Function.comp_def] using hb)
  obtain ⟨gs, h1⟩ := allocateLoop_bits he h
  unfold packed allocateBitfields
  rw [h1]

/-! ## Sizes of fields -/

/-- The sizes of fixed size fields, the bits of tags, and alignments and bytes of variable size fields. -/
structure Sizes where
  fixed : List Nat := []
  bits : List Nat := []
  vars : List (Nat × Nat) := []

/-- The largest alignment of variable size fields. -/
def Sizes.top (s : Sizes) : Nat := (sortBy (fun l r => decide (r ≤ l)) (s.vars.map (·.1))).headD 1

/-- A record with such fields and alignment `w` takes `n` bytes. -/
def Sizes.Gives (s : Sizes) (w n : Nat) : Prop :=
  ∃ o, align true (s.fixed.sum + packed s.bits) s.top = .ok o ∧ align true (o + (s.vars.map (·.2)).sum) w = .ok n

theorem Sizes.Gives.unique {s : Sizes} {w n m : Nat} (h : s.Gives w n) (h' : s.Gives w m) : n = m := by
  obtain ⟨o, h1, h2⟩ := h
  obtain ⟨o', h3, h4⟩ := h'
  rw [h1] at h3
  cases h3
  rw [h2] at h4
  cases h4
  rfl

/-- An unrolled type has fields of these sizes. -/
structure Unrolled.Has (src : DataSource) (u : Unrolled) (s : Sizes) : Prop where
  fixed : (u.fixed.map (·.size)).Perm s.fixed
  bits : (u.bits.map (·.numBits)).Perm s.bits
  vars : (u.vars.map fun x => (x.alignment, x.bytes true src)).Perm s.vars

theorem finish_gives {src : DataSource} {u : Unrolled} {l : Layout} {n : Nat} {s : Sizes}
    (h : finishLayout true u.fixed u.bits u.vars = .ok l) (hs : l.sizeWithSource true src = .ok n)
    (hu : (∀ x ∈ u.vars, ∃ n, x.own true src = .ok n) → u.Has src s) : s.Gives l.alignment n := by
  unfold finishLayout at h
  obtain ⟨⟨bits, cs⟩, h1, h⟩ := Res.bind_eq_ok.1 h
  obtain ⟨⟨fs, size⟩, h2, h⟩ := Res.bind_eq_ok.1 h
  obtain ⟨fa, h3, h⟩ := Res.bind_eq_ok.1 h
  obtain ⟨o, h4, h⟩ := Res.bind_eq_ok.1 h
  obtain ⟨_, _, h⟩ := Res.bind_eq_ok.1 h
  obtain ⟨⟨vs, xs⟩, h5, h⟩ := Res.bind_eq_ok.1 h
  cases h
  rw [Layout.sizeWithSource] at hs
  obtain ⟨o', h6, h7⟩ := Res.bind_eq_ok.1 hs
  rw [Layout.alignment]
  obtain ⟨a1, _, a3⟩ := varsSize_own h6
  have a3 := a3 rfl
  have hown := linkVars_own (chk := true) (src := src) h5
  rw [bytes_map hown] at a3
  have hvp := sortBy_perm (fun l r : VarField => decide (r.alignment ≤ l.alignment)) u.vars
  have hfp := sortBy_perm (fun l r : FixedField => decide (r.size ≤ l.size)) (u.fixed ++ containerFields cs 0)
  rw [(hvp.map _).sum_nat] at a3
  have b2 := (assignOffsets_total h2).2 rfl
  rw [(hfp.map _).sum_nat, List.map_append, List.sum_append, containerFields_total, Nat.zero_add] at b2
  obtain ⟨c1, c2, c3⟩ := hu (by
    intro v hv
    have : v.own true src ∈ vs.map (·.own true src) := by
      rw [hown]
      exact List.mem_map_of_mem (hvp.mem_iff.2 hv)
    obtain ⟨x, hx, he⟩ := List.mem_map.1 this
    obtain ⟨n, hn⟩ := a1 x hx
    exact ⟨n, by rw [← he]; exact hn⟩)
  have hp := packed_eq h1 c2
  have htop : s.top = firstAlignment (sortBy (fun l r : VarField => decide (r.alignment ≤ l.alignment)) u.vars) := by
    have c4 := c3.map (·.1)
    rw [List.map_map] at c4
    have := sortBy_keys (fun v : VarField => v.alignment) (fun k : Nat => k) (as := u.vars) (bs := s.vars.map (·.1))
      (by rw [List.map_id']; exact c4)
    unfold Sizes.top
    rw [List.map_id'] at this
    rw [← this]
    cases sortBy (fun l r : VarField => decide (r.alignment ≤ l.alignment)) u.vars <;> rfl
  have e1 : s.fixed.sum + packed s.bits = size := by
    rw [hp, b2, c1.sum_nat]
    rfl
  have e2 : o + (s.vars.map (·.2)).sum = o' := by
    have c5 := c3.map (·.2)
    rw [List.map_map] at c5
    rw [a3, ← c5.sum_nat]
    rfl
  exact ⟨o, by rw [e1, htop]; exact h4, by rw [e2]; exact h7⟩

/-! ## Sizes of values -/

/-- Wherever a value of the type is, its fields have these sizes. -/
def HasSizes (src : DataSource) (t : Ty) (v : Val) (s : Sizes) : Prop :=
  nodes t < 2 ^ 59 → ∀ (q : Path) (u : Unrolled), unrollType true t q = .ok u → Presents src v q →
    (∀ x ∈ u.vars, ∃ n, x.own true src = .ok n) → u.Has src s

theorem HasSizes.gives {src : DataSource} {t : Ty} {v : Val} {s : Sizes} (hs : HasSizes src t v s)
    (hn : nodes t < 2 ^ 59) {q : Path} {l : Layout} (hl : calculateLayout true t q = .ok l) (hp : Presents src v q)
    {n : Nat} (h : l.sizeWithSource true src = .ok n) : s.Gives (widest t) n := by
  rw [← calculateLayout_widest hn hl]
  rw [calculateLayout] at hl
  obtain ⟨u, hu, hl⟩ := Res.bind_eq_ok.1 hl
  exact finish_gives hl h (hs hn q u hu hp)

/-- The fields of many values. -/
def Sizes.many {α : Type} (f : α → Sizes) (zs : List α) : Sizes :=
  ⟨zs.flatMap fun z => (f z).fixed, zs.flatMap fun z => (f z).bits, zs.flatMap fun z => (f z).vars⟩

theorem Unrolled.Has.append {src : DataSource} {a b : Unrolled} {α : Type} {f : α → Sizes} {z : α} {zs : List α}
    (ha : a.Has src (f z)) (hb : b.Has src (Sizes.many f zs)) : (a.append b).Has src (Sizes.many f (z :: zs)) := by
  obtain ⟨a1, a2, a3⟩ := ha
  obtain ⟨b1, b2, b3⟩ := hb
  refine ⟨?_, ?_, ?_⟩
  all_goals simp only [Unrolled.append, List.map_append, Sizes.many, List.flatMap_cons]
  · exact a1.append b1
  · exact a2.append b2
  · exact a3.append b3

theorem Unrolled.Has.perm {src : DataSource} {u : Unrolled} {α : Type} {f : α → Sizes} {zs zs' : List α}
    (h : zs.Perm zs') (hu : u.Has src (Sizes.many f zs)) : u.Has src (Sizes.many f zs') :=
  ⟨hu.fixed.trans (h.flatMap_right _), hu.bits.trans (h.flatMap_right _), hu.vars.trans (h.flatMap_right _)⟩

theorem unrollTuple_has {src : DataSource} {α : Type} {ty : α → Ty} {val : α → Val} {f : α → Sizes} :
    ∀ (zs : List α) (q : Path) (i : Nat) (u : Unrolled), (∀ z ∈ zs, HasSizes src (ty z) (val z) (f z)) →
    nodes.nodesL (zs.map ty) < 2 ^ 59 → unrollTuple true (zs.map ty) q i = .ok u →
    (∀ p l, (p, l) ∈ leavesFrom (zs.map val) q i → Answers src p l) →
    (∀ x ∈ u.vars, ∃ n, x.own true src = .ok n) → u.Has src (Sizes.many f zs)
  | [], q, i, u, _, _, h, _, _ => by
    cases h
    exact ⟨.nil, .nil, .nil⟩
  | z :: zs, q, i, u, hz, hn, h, hp, hok => by
    rw [List.map_cons, unrollTuple] at h
    obtain ⟨a, ha, h⟩ := Res.bind_eq_ok.1 h
    obtain ⟨b, hb, h⟩ := Res.bind_eq_ok.1 h
    cases h
    rw [List.map_cons, nodes.nodesL] at hn
    obtain ⟨hp1, hp2⟩ := presents_head hp
    exact (hz z (.head _) (by omega) _ a ha hp1 (fun x hx => hok x (List.mem_append_left _ hx))).append
      (unrollTuple_has zs q (i + 1) b (fun y hy => hz y (.tail _ hy)) (by omega) hb hp2
        (fun x hx => hok x (List.mem_append_right _ hx)))

theorem unrollStruct_has {src : DataSource} {α : Type} {label : α → Str} {ty : α → Ty} {val : α → Val}
    {f : α → Sizes} :
    ∀ (zs : List α) (q : Path) (i : Nat) (u : Unrolled), (∀ z ∈ zs, HasSizes src (ty z) (val z) (f z)) →
    nodes.nodesF (zs.map fun z => (label z, ty z)) < 2 ^ 59 →
    unrollStruct true (zs.map fun z => (label z, ty z)) q i = .ok u →
    (∀ p l, (p, l) ∈ leavesFrom (zs.map val) q i → Answers src p l) →
    (∀ x ∈ u.vars, ∃ n, x.own true src = .ok n) → u.Has src (Sizes.many f zs)
  | [], q, i, u, _, _, h, _, _ => by
    cases h
    exact ⟨.nil, .nil, .nil⟩
  | z :: zs, q, i, u, hz, hn, h, hp, hok => by
    rw [List.map_cons, unrollStruct] at h
    obtain ⟨a, ha, h⟩ := Res.bind_eq_ok.1 h
    obtain ⟨b, hb, h⟩ := Res.bind_eq_ok.1 h
    cases h
    rw [unrollField] at ha
    rw [List.map_cons, nodes.nodesF, nodes.nodesP] at hn
    obtain ⟨hp1, hp2⟩ := presents_head hp
    exact (hz z (.head _) (by omega) _ a ha hp1 (fun x hx => hok x (List.mem_append_left _ hx))).append
      (unrollStruct_has zs q (i + 1) b (fun y hy => hz y (.tail _ hy)) (by omega) hb hp2
        (fun x hx => hok x (List.mem_append_right _ hx)))

theorem widestL_iff {k : Nat} (hk : 0 < k) : ∀ cs : List Ty, widestL cs ≤ k ↔ ∀ c ∈ cs, widest c ≤ k
  | [] => by simp [widestL]; omega
  | c :: cs => by simp [widestL, Nat.max_le, widestL_iff hk cs]

theorem widestF_iff {k : Nat} (hk : 0 < k) : ∀ cs : List (Str × Ty), widestF cs ≤ k ↔ ∀ c ∈ cs, widest c.2 ≤ k
  | [] => by simp [widestF]; omega
  | (s, c) :: cs => by simp [widestF, widestP, Nat.max_le, widestF_iff hk cs]

theorem Shuffled.widest {t t' : Ty} {v v' : Val} (h : Shuffled t v t' v') : widest t = widest t' := by
  induction h with
  | unit => rfl
  | prim v v' h => rw [h]
  | str => rfl
  | @tuple zs zs' hp _ ih =>
    refine eq_of_bounds (widest_pos _) (widest_pos _) fun k hk => ?_
    rw [Spec.widest, Spec.widest, widestL_iff hk, widestL_iff hk]
    simp only [List.forall_mem_map]
    constructor
    · intro h z hz
      rw [← ih z (hp.mem_iff.2 hz)]; exact h z (hp.mem_iff.2 hz)
    · intro h z hz
      rw [ih z hz]; exact h z (hp.mem_iff.1 hz)
  | @struct zs zs' hp _ ih =>
    refine eq_of_bounds (widest_pos _) (widest_pos _) fun k hk => ?_
    rw [Spec.widest, Spec.widest, widestF_iff hk, widestF_iff hk]
    simp only [List.forall_mem_map]
    constructor
    · intro h z hz
      rw [← ih z (hp.mem_iff.2 hz)]; exact h z (hp.mem_iff.2 hz)
    · intro h z hz
      rw [ih z hz]; exact h z (hp.mem_iff.1 hz)
  | enum hl _ _ hw _ _ => rw [Spec.widest, Spec.widest, hl, hw]

theorem enum_hasSizes {src : DataSource} {cs : List (Str × Ty)} {i : Nat} {c : Str × Ty} {v : Val} {s : Sizes}
    (hi : cs[i]? = some c) (hs : HasSizes src c.2 v s) {n : Nat} (hg : ∀ m, s.Gives (widest c.2) m → m = n) :
    HasSizes src (.enum cs) (.case i v) ⟨[], [requiredBits (cs.length - 1)], [(widestF cs, n)]⟩ := by
  intro hn q u h hp hok
  rw [unrollType] at h
  obtain ⟨_, _, h⟩ := Res.bind_eq_ok.1 h
  obtain ⟨ls, hls, h⟩ := Res.bind_eq_ok.1 h
  cases h
  rw [nodes] at hn
  obtain ⟨hc1, hc2⟩ := nodesF_get hi
  obtain ⟨h1, h2⟩ := caseLayouts_widest cs q 0 ls (by omega) hls
  have hal : (VarField.enum q 0 ls).alignment = widestF cs :=
    eq_of_bounds (enum_alignment_pos h1) (widestF_pos cs) fun k hk => by
      rw [enum_alignment_iff hk]; exact h2 k hk
  obtain ⟨l, hl, hsz⟩ := caseLayouts_get hls hi
  rw [Nat.zero_add] at hl
  have htag : src.tag q = .ok i := hp q (.tag i) (by simp [leaves])
  have hown : (VarField.enum q 0 ls).own true src = l.sizeWithSource true src := by
    rw [VarField.own, htag]
    exact hsz src
  obtain ⟨m, hm⟩ := hok _ (List.mem_singleton.2 rfl)
  have hb : (VarField.enum q 0 ls).bytes true src = n := by
    rw [VarField.bytes, hm]
    rw [hown] at hm
    exact hg m (hs.gives (by omega) hl (fun p x hpx => hp p x (by rw [leaves]; exact .tail _ hpx)) hm)
  refine ⟨.nil, .refl _, ?_⟩
  simp only [List.map_cons, List.map_nil, hal, hb]
  exact .refl _

open Classical in
theorem pick {α : Type} {zs : List α} {P : α → Sizes → Prop} (h : ∀ z ∈ zs, ∃ s, P z s) :
    ∃ f : α → Sizes, ∀ z ∈ zs, P z (f z) := by
  refine ⟨fun z => if hz : ∃ s, P z s then Classical.choose hz else {}, fun z hz => ?_⟩
  simp only [dif_pos (h z hz)]
  exact Classical.choose_spec (h z hz)

theorem Shuffled.sizes {src src' : DataSource} {t t' : Ty} {v v' : Val} (h : Shuffled t v t' v') :
    ∃ s, HasSizes src t v s ∧ HasSizes src' t' v' s := by
  induction h with
  | unit =>
    exact ⟨{}, fun _ q u h _ _ => by cases h; exact ⟨.nil, .nil, .nil⟩,
      fun _ q u h _ _ => by cases h; exact ⟨.nil, .nil, .nil⟩⟩
  | prim v v' hk =>
    refine ⟨⟨[v.kind.size], [], []⟩, fun _ q u h _ _ => ?_, fun _ q u h _ _ => ?_⟩
    · cases h; exact ⟨.refl _, .nil, .nil⟩
    · cases h; rw [hk]; exact ⟨.refl _, .nil, .nil⟩
  | str bs bs' hl =>
    have key : ∀ (src : DataSource) (cs : Bytes), cs.length = bs.length →
        HasSizes src .string (.str cs) ⟨[4], [], [(1, bs.length)]⟩ := by
      intro src cs hc _ q u h hp _
      cases h
      have hl : src.length q = .ok cs.length := (hp q (.str cs) (by simp [leaves])).1
      refine ⟨.refl _, .nil, ?_⟩
      simp only [List.map_cons, List.map_nil, VarField.bytes, VarField.own, hl, hc, VarField.alignment]
      exact .refl _
    exact ⟨_, key src bs rfl, key src' bs' hl.symm⟩
  | @tuple zs zs' hp _ ih =>
    obtain ⟨f, hf⟩ := pick ih
    refine ⟨Sizes.many f zs, fun hn q u h hs hok => ?_, fun hn q u h hs hok => ?_⟩
    · rw [unrollType] at h
      obtain ⟨_, _, h⟩ := Res.bind_eq_ok.1 h
      rw [nodes] at hn
      exact unrollTuple_has zs q 0 u (fun z hz => (hf z hz).1)
        (Nat.lt_of_le_of_lt (Nat.le_add_left _ 1) hn) h (fun p l hpl => hs p l (by rw [leaves]; exact hpl)) hok
    · rw [unrollType] at h
      obtain ⟨_, _, h⟩ := Res.bind_eq_ok.1 h
      rw [nodes] at hn
      exact (unrollTuple_has zs' q 0 u (fun z hz => (hf z (hp.mem_iff.2 hz)).2)
        (Nat.lt_of_le_of_lt (Nat.le_add_left _ 1) hn) h
        (fun p l hpl => hs p l (by rw [leaves]; exact hpl)) hok).perm hp.symm
  | @struct zs zs' hp _ ih =>
    obtain ⟨f, hf⟩ := pick ih
    refine ⟨Sizes.many f zs, fun hn q u h hs hok => ?_, fun hn q u h hs hok => ?_⟩
    · rw [unrollType] at h
      obtain ⟨_, _, h⟩ := Res.bind_eq_ok.1 h
      rw [nodes] at hn
      exact unrollStruct_has zs q 0 u (fun z hz => (hf z hz).1) (by omega) h
        (fun p l hpl => hs p l (by rw [leaves]; exact hpl)) hok
    · rw [unrollType] at h
      obtain ⟨_, _, h⟩ := Res.bind_eq_ok.1 h
      rw [nodes] at hn
      exact (unrollStruct_has zs' q 0 u (fun z hz => (hf z (hp.mem_iff.2 hz)).2) (by omega) h
        (fun p l hpl => hs p l (by rw [leaves]; exact hpl)) hok).perm hp.symm
  | @enum cs cs' i i' c c' v v' hl hi hi' hw hr ih =>
    obtain ⟨s, h1, h2⟩ := ih
    have he := Shuffled.widest hr
    obtain ⟨n, hn⟩ : ∃ n, ∀ m, s.Gives (Spec.widest c.2) m → m = n := by
      by_cases hex : ∃ n, s.Gives (Spec.widest c.2) n
      · obtain ⟨n, hn⟩ := hex
        exact ⟨n, fun m hm => hm.unique hn⟩
      · exact ⟨0, fun m hm => absurd ⟨m, hm⟩ hex⟩
    refine ⟨_, enum_hasSizes hi h1 hn, ?_⟩
    rw [hl, hw]
    exact enum_hasSizes hi' h2 (by rw [← he]; exact hn)

end Verif
