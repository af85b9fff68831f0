import Verif.Spec.Width
import Verif.Proof.Overlay

/-! # The alignment of a layout is the widest word of the type -/

namespace Verif

open Spec

/-- Bytes of the container made for so many bits. -/
def wordFor (n : Nat) : Nat := if n > 64 then 16 else if n > 32 then 8 else if n > 16 then 4 else if n > 8 then 2 else 1

theorem wordFor_mono {m n : Nat} (h : m ≤ n) : wordFor m ≤ wordFor n := by
  unfold wordFor
  repeat' split
  all_goals omega

theorem primitiveForBits_size {n : Nat} {p : Prim} (h : primitiveForBits n = .ok p) : p.size = wordFor n := by
  unfold primitiveForBits at h
  obtain ⟨_, _, h⟩ := Res.bind_eq_ok.1 h
  unfold wordFor
  repeat' split at h
  all_goals cases h
  all_goals simp [Prim.size, *]

theorem placeBits_prims {nb : Nat} : ∀ {cs cs' : List Container} {i j o : Nat},
    placeBits nb cs i = some (j, o, cs') → cs'.map (·.prim) = cs.map (·.prim)
  | [], _, _, _, _, h => by simp [placeBits] at h
  | c :: cs, cs', i, j, o, h => by
    rw [placeBits] at h
    split at h
    · cases h; rfl
    · split at h
      · rename_i j' o' ds hp
        cases h
        simp [placeBits_prims hp]
      · cases h

theorem allocateLoop_sizes : ∀ {fs fs' : List Bitfield} {cs cs' : List Container},
    allocateLoop fs cs = .ok (fs', cs') →
    (∀ k, (∀ c ∈ cs.map (·.prim), c.size ≤ k) → (∀ f ∈ fs, wordFor f.numBits ≤ k) →
      ∀ c ∈ cs'.map (·.prim), c.size ≤ k) ∧ ∀ c ∈ cs.map (·.prim), c ∈ cs'.map (·.prim)
  | [], _, cs, cs', h => by
    cases h
    exact ⟨fun k hk _ => hk, fun c hc => hc⟩
  | f :: fs, fs', cs, cs', h => by
    rw [allocateLoop] at h
    split at h
    · rename_i j o ds hp
      obtain ⟨⟨gs, es⟩, h1, h2⟩ := Res.bind_eq_ok.1 h
      cases h2
      have ih := allocateLoop_sizes h1
      rw [placeBits_prims hp] at ih
      exact ⟨fun k hk hf => ih.1 k hk fun g hg => hf g (.tail _ hg), ih.2⟩
    · obtain ⟨p, h0, h⟩ := Res.bind_eq_ok.1 h
      obtain ⟨⟨gs, es⟩, h1, h2⟩ := Res.bind_eq_ok.1 h
      cases h2
      have ih := allocateLoop_sizes h1
      simp only [List.map_append, List.map_cons, List.map_nil] at ih
      refine ⟨fun k hk hf => ih.1 k ?_ fun g hg => hf g (.tail _ hg), fun c hc => ih.2 c (by simp [hc])⟩
      intro c hc
      rcases List.mem_append.1 hc with hc | hc
      · exact hk c hc
      · rw [List.mem_singleton.1 hc, primitiveForBits_size h0]
        exact hf f (.head _)

theorem allocate_sizes {fs fs' : List Bitfield} {cs : List Container} (h : allocateBitfields fs = .ok (fs', cs))
    (k : Nat) : (∀ c ∈ cs, c.prim.size ≤ k) ↔ ∀ f ∈ fs, wordFor f.numBits ≤ k := by
  have hperm := sortBy_perm (fun l r : Bitfield => decide (r.numBits ≤ l.numBits)) fs
  have hsort := sortBy_ge_pairwise (fun b : Bitfield => b.numBits) fs
  unfold allocateBitfields at h
  constructor
  · intro hk f hf
    have hf := hperm.mem_iff.2 hf
    cases hs : sortBy (fun l r : Bitfield => decide (r.numBits ≤ l.numBits)) fs with
    | nil => rw [hs] at hf; cases hf
    | cons g gs =>
      rw [hs] at h hf hsort
      rw [allocateLoop] at h
      simp only [placeBits] at h
      obtain ⟨p, h0, h⟩ := Res.bind_eq_ok.1 h
      obtain ⟨⟨gs', es⟩, h1, h2⟩ := Res.bind_eq_ok.1 h
      cases h2
      have hp := (allocateLoop_sizes h1).2 p (by simp)
      obtain ⟨c, hc, he⟩ := List.mem_map.1 hp
      have hg : wordFor g.numBits ≤ k := by
        rw [← primitiveForBits_size h0, ← he]; exact hk c hc
      rcases List.mem_cons.1 hf with rfl | hf
      · exact hg
      · exact Nat.le_trans (wordFor_mono ((List.pairwise_cons.1 hsort).1 f hf)) hg
  · intro hk c hc
    have := (allocateLoop_sizes h).1 k (by simp) (fun f hf => hk f (hperm.mem_iff.1 hf))
    exact this c.prim (List.mem_map_of_mem hc)

theorem Prim.size_pos (p : Prim) : 0 < p.size := p.size_pow.pos

theorem assignOffsets_first {chk : Bool} {fs gs : List FixedField} {s n : Nat}
    (h : assignOffsets chk fs s = .ok (gs, n)) : firstSize gs = firstSize fs := by
  cases fs with
  | nil => cases h; rfl
  | cons f fs =>
    rw [assignOffsets] at h
    obtain ⟨_, _, h⟩ := Res.bind_eq_ok.1 h
    obtain ⟨_, _, h⟩ := Res.bind_eq_ok.1 h
    obtain ⟨⟨gs', _⟩, _, h⟩ := Res.bind_eq_ok.1 h
    cases h
    rfl

theorem containerFields_sizes (k : Nat) : ∀ (cs : List Container) (i : Nat),
    (∀ f ∈ containerFields cs i, f.size ≤ k) ↔ ∀ c ∈ cs, c.prim.size ≤ k
  | [], i => by simp [containerFields]
  | c :: cs, i => by
    simp only [containerFields, List.forall_mem_cons, containerFields_sizes k cs (i + 1)]
    rfl

/-- The alignment `finishLayout` computes is the largest of the sizes and alignments it is given. -/
theorem finishLayout_alignment {chk : Bool} {fx : List FixedField} {bs : List Bitfield} {vs : List VarField}
    {l : Layout} (h : finishLayout chk fx bs vs = .ok l) (hv : ∀ v ∈ vs, 0 < v.alignment) :
    0 < l.alignment ∧ ∀ k, 0 < k → (l.alignment ≤ k ↔ (∀ f ∈ fx, f.size ≤ k) ∧
      (∀ b ∈ bs, wordFor b.numBits ≤ k) ∧ ∀ v ∈ vs, v.alignment ≤ k) := by
  unfold finishLayout at h
  obtain ⟨⟨bits, cs⟩, h1, h⟩ := Res.bind_eq_ok.1 h
  obtain ⟨⟨fs, size⟩, h2, h⟩ := Res.bind_eq_ok.1 h
  obtain ⟨fa, h3, h⟩ := Res.bind_eq_ok.1 h
  obtain ⟨_, _, h⟩ := Res.bind_eq_ok.1 h
  obtain ⟨_, _, h⟩ := Res.bind_eq_ok.1 h
  obtain ⟨⟨_, _⟩, _, h⟩ := Res.bind_eq_ok.1 h
  cases h
  rw [assignOffsets_first h2] at h3
  have hfs := sortBy_ge_pairwise (fun f : FixedField => f.size) (fx ++ containerFields cs 0)
  have hfp := sortBy_perm (fun l r : FixedField => decide (r.size ≤ l.size)) (fx ++ containerFields cs 0)
  have hvs := sortBy_ge_pairwise (fun v : VarField => v.alignment) vs
  have hvp := sortBy_perm (fun l r : VarField => decide (r.alignment ≤ l.alignment)) vs
  have hcont : ∀ k, (∀ f ∈ containerFields cs 0, f.size ≤ k) ↔ ∀ b ∈ bs, wordFor b.numBits ≤ k := by
    intro k
    rw [← allocate_sizes h1 k]
    exact containerFields_sizes k cs 0
  have hfa : 0 < fa ∧ ∀ k, 0 < k → (fa ≤ k ↔ ∀ f ∈ fx ++ containerFields cs 0, f.size ≤ k) := by
    generalize hs : sortBy (fun l r : FixedField => decide (r.size ≤ l.size)) (fx ++ containerFields cs 0) = ss at *
    cases ss with
    | nil =>
      cases h3
      refine ⟨by omega, fun k hk => ⟨fun _ f hf => ?_, fun _ => hk⟩⟩
      have := hfp.mem_iff.2 hf
      cases this
    | cons f ss =>
      have he : fa = f.size := by
        have h3 : f.kind.size = .ok fa := h3
        unfold FixedKind.size at h3
        unfold FixedField.size
        split at h3 <;> cases h3 <;> simp [*]
      subst he
      refine ⟨f.size_pow.pos, fun k _ => ⟨fun hk g hg => ?_, fun hk => hk f (hfp.mem_iff.1 (.head _))⟩⟩
      rcases List.mem_cons.1 (hfp.mem_iff.2 hg) with rfl | hg
      · exact hk
      · exact Nat.le_trans ((List.pairwise_cons.1 hfs).1 g hg) hk
  have hva : 0 < firstAlignment (sortBy (fun l r : VarField => decide (r.alignment ≤ l.alignment)) vs) ∧
      ∀ k, 0 < k → (firstAlignment (sortBy (fun l r : VarField => decide (r.alignment ≤ l.alignment)) vs) ≤ k ↔
        ∀ v ∈ vs, v.alignment ≤ k) := by
    generalize hs : sortBy (fun l r : VarField => decide (r.alignment ≤ l.alignment)) vs = ss at *
    cases ss with
    | nil =>
      refine ⟨by simp [firstAlignment], fun k hk => ⟨fun _ f hf => ?_, fun _ => hk⟩⟩
      have := hvp.mem_iff.2 hf
      cases this
    | cons f ss =>
      rw [firstAlignment]
      refine ⟨hv f (hvp.mem_iff.1 (.head _)), fun k _ =>
        ⟨fun hk g hg => ?_, fun hk => hk f (hvp.mem_iff.1 (.head _))⟩⟩
      rcases List.mem_cons.1 (hvp.mem_iff.2 hg) with rfl | hg
      · exact hk
      · exact Nat.le_trans ((List.pairwise_cons.1 hvs).1 g hg) hk
  rw [Layout.alignment]
  refine ⟨by omega, fun k hk => ?_⟩
  rw [Nat.max_le, hfa.2 k hk, hva.2 k hk, ← hcont k]
  simp only [List.mem_append, or_imp, forall_and, and_assoc]

theorem tagWord_spec {n : Nat} (hn : n < 2 ^ 59) : wordFor (requiredBits (n - 1)) = tagWord n := by
  rw [requiredBits_tagBits hn]
  unfold tagBits
  split
  · rename_i h
    have : n ≤ 2 ^ 8 := by omega
    simp [tagWord, wordFor, this]
  · rename_i h
    have hlo : n - 1 < 2 ^ (Nat.log2 (n - 1) + 1) := Nat.lt_log2_self
    have hhi : 2 ^ Nat.log2 (n - 1) ≤ n - 1 := Nat.log2_self_le (by omega)
    have key : ∀ k, n ≤ 2 ^ k ↔ Nat.log2 (n - 1) + 1 ≤ k := by
      intro k
      constructor
      · intro hk
        exact (Nat.pow_lt_pow_iff_right (a := 2) (by omega)).1 (Nat.lt_of_le_of_lt hhi (by omega))
      · intro hk
        have := Nat.pow_le_pow_right (n := 2) (by omega) hk
        omega
    have k59 := (key 59).1 (by omega)
    unfold tagWord wordFor
    simp only [key]
    repeat' split
    all_goals omega

theorem enum_alignment_iff {p : Path} {fi : Nat} {cs : List Layout} {k : Nat} (hk : 0 < k) :
    (VarField.enum p fi cs).alignment ≤ k ↔ ∀ c ∈ cs, c.alignment ≤ k := by
  cases cs with
  | nil => simp [VarField.alignment]; omega
  | cons c cs =>
    rw [VarField.alignment]
    have : ∀ (cs : List Layout) (a : Nat), cs.foldl (fun m l => max m l.alignment) a ≤ k ↔
        a ≤ k ∧ ∀ c ∈ cs, c.alignment ≤ k := by
      intro cs
      induction cs with
      | nil => simp
      | cons c cs ih => intro a; simp [ih, Nat.max_le, and_assoc]
    simp [this]

theorem enum_alignment_pos {p : Path} {fi : Nat} {cs : List Layout} (h : ∀ c ∈ cs, 0 < c.alignment) :
    0 < (VarField.enum p fi cs).alignment := by
  cases cs with
  | nil => simp [VarField.alignment]
  | cons c cs =>
    have h1 := h c (.head _)
    have h2 := (foldl_max_le cs c.alignment).1
    rw [VarField.alignment]
    omega

theorem widest_pos : ∀ t : Ty, 0 < widest t
  | .unit => by simp [widest]
  | .prim p => p.size_pos
  | .string => by simp [widest]
  | .tuple [] => by simp [widest, widestL]
  | .tuple (t :: ts) => by
    have := widest_pos t
    simp only [widest, widestL]; omega
  | .struct [] => by simp [widest, widestF]
  | .struct ((_, t) :: fs) => by
    have := widest_pos t
    simp only [widest, widestF, widestP]; omega
  | .enum cs => by
    have : 0 < tagWord cs.length := by
      unfold tagWord
      repeat' split
      all_goals omega
    rw [widest]; omega

/-- What `k` bounds all words of an unrolled type. -/
def Unrolled.Within (u : Unrolled) (k : Nat) : Prop :=
  (∀ f ∈ u.fixed, f.size ≤ k) ∧ (∀ b ∈ u.bits, wordFor b.numBits ≤ k) ∧ ∀ v ∈ u.vars, v.alignment ≤ k

theorem within_append {a b : Unrolled} {k : Nat} : (a.append b).Within k ↔ a.Within k ∧ b.Within k := by
  simp only [Unrolled.Within, Unrolled.append, List.mem_append, or_imp, forall_and]
  constructor
  · rintro ⟨⟨a1, a2⟩, ⟨b1, b2⟩, c1, c2⟩; exact ⟨⟨a1, b1, c1⟩, a2, b2, c2⟩
  · rintro ⟨⟨a1, b1, c1⟩, a2, b2, c2⟩; exact ⟨⟨a1, a2⟩, ⟨b1, b2⟩, c1, c2⟩

/-- The words of an unrolled type. -/
def Unrolled.Widest (u : Unrolled) (w : Nat) : Prop :=
  (∀ v ∈ u.vars, 0 < v.alignment) ∧ ∀ k, 0 < k → (u.Within k ↔ w ≤ k)

theorem Unrolled.Widest.append {a b : Unrolled} {v w : Nat} (ha : a.Widest v) (hb : b.Widest w) :
    (a.append b).Widest (max v w) := by
  refine ⟨fun x hx => ?_, fun k hk => ?_⟩
  · rcases List.mem_append.1 hx with hx | hx
    · exact ha.1 x hx
    · exact hb.1 x hx
  · rw [within_append, ha.2 k hk, hb.2 k hk, Nat.max_le]

theorem finish_widest {chk : Bool} {u : Unrolled} {w : Nat} (hu : u.Widest w) (hw : 0 < w) {l : Layout}
    (h : finishLayout chk u.fixed u.bits u.vars = .ok l) : l.alignment = w := by
  obtain ⟨h1, h2⟩ := finishLayout_alignment h hu.1
  have h3 : ∀ k, 0 < k → (l.alignment ≤ k ↔ w ≤ k) := fun k hk => (h2 k hk).trans (hu.2 k hk)
  have a := (h3 w hw).2 (Nat.le_refl _)
  have b := (h3 l.alignment h1).1 (Nat.le_refl _)
  omega

mutual
theorem unroll_widest {chk : Bool} : ∀ (t : Ty) (q : Path) (u : Unrolled), nodes t < 2 ^ 59 →
    unrollType chk t q = .ok u → u.Widest (widest t)
  | .unit, q, u, _, h => by
    cases h
    exact ⟨by simp, fun k hk => by simp [Unrolled.Within, widest]; omega⟩
  | .prim p, q, u, _, h => by
    cases h
    exact ⟨by simp, fun k hk => by simp [Unrolled.Within, widest, FixedField.size]⟩
  | .string, q, u, _, h => by
    cases h
    exact ⟨by simp [VarField.alignment], fun k hk => by
      simp [Unrolled.Within, widest, FixedField.size, VarField.alignment]; omega⟩
  | .tuple cs, q, u, hn, h => by
    rw [unrollType] at h
    obtain ⟨_, _, h⟩ := Res.bind_eq_ok.1 h
    rw [widest]
    exact unrollTuple_widest cs q 0 u (by rw [nodes] at hn; omega) h
  | .struct fs, q, u, hn, h => by
    rw [unrollType] at h
    obtain ⟨_, _, h⟩ := Res.bind_eq_ok.1 h
    rw [widest]
    exact unrollStruct_widest fs q 0 u (by rw [nodes] at hn; omega) h
  | .enum cs, q, u, hn, h => by
    rw [unrollType] at h
    obtain ⟨_, _, h⟩ := Res.bind_eq_ok.1 h
    obtain ⟨ls, hl, h⟩ := Res.bind_eq_ok.1 h
    cases h
    rw [nodes] at hn
    obtain ⟨h1, h2⟩ := caseLayouts_widest cs q 0 ls (by omega) hl
    have hlen : cs.length < 2 ^ 59 := by
      have := nodesF_length cs
      omega
    refine ⟨?_, fun k hk => ?_⟩
    · intro v hv
      rw [List.mem_singleton.1 hv]
      exact enum_alignment_pos h1
    · simp only [Unrolled.Within, List.not_mem_nil, false_imp_iff, implies_true, true_and, List.mem_singleton,
        forall_eq, tagWord_spec hlen, enum_alignment_iff hk, widest, Nat.max_le, h2 k hk]
theorem unrollTuple_widest {chk : Bool} : ∀ (cs : List Ty) (q : Path) (i : Nat) (u : Unrolled),
    nodes.nodesL cs < 2 ^ 59 → unrollTuple chk cs q i = .ok u → u.Widest (widestL cs)
  | [], q, i, u, _, h => by
    cases h
    exact ⟨by simp, fun k hk => by simp [Unrolled.Within, widestL]; omega⟩
  | c :: cs, q, i, u, hn, h => by
    rw [unrollTuple] at h
    obtain ⟨a, ha, h⟩ := Res.bind_eq_ok.1 h
    obtain ⟨b, hb, h⟩ := Res.bind_eq_ok.1 h
    cases h
    rw [nodes.nodesL] at hn
    rw [widestL]
    exact (unroll_widest c _ a (by omega) ha).append (unrollTuple_widest cs q (i + 1) b (by omega) hb)
theorem unrollStruct_widest {chk : Bool} : ∀ (fs : List (Str × Ty)) (q : Path) (i : Nat) (u : Unrolled),
    nodes.nodesF fs < 2 ^ 59 → unrollStruct chk fs q i = .ok u → u.Widest (widestF fs)
  | [], q, i, u, _, h => by
    cases h
    exact ⟨by simp, fun k hk => by simp [Unrolled.Within, widestF]; omega⟩
  | (x, c) :: cs, q, i, u, hn, h => by
    rw [unrollStruct] at h
    obtain ⟨a, ha, h⟩ := Res.bind_eq_ok.1 h
    obtain ⟨b, hb, h⟩ := Res.bind_eq_ok.1 h
    cases h
    rw [nodes.nodesF, nodes.nodesP] at hn
    rw [widestF, widestP]
    rw [unrollField] at ha
    exact (unroll_widest c _ a (by omega) ha).append (unrollStruct_widest cs q (i + 1) b (by omega) hb)
theorem caseLayouts_widest {chk : Bool} : ∀ (cs : List (Str × Ty)) (q : Path) (i : Nat) (ls : List Layout),
    nodes.nodesF cs < 2 ^ 59 → caseLayouts chk cs q i = .ok ls →
    (∀ l ∈ ls, 0 < l.alignment) ∧ ∀ k, 0 < k → ((∀ l ∈ ls, l.alignment ≤ k) ↔ widestF cs ≤ k)
  | [], q, i, ls, _, h => by
    cases h
    exact ⟨by simp, fun k hk => by simp [widestF]; omega⟩
  | (x, c) :: cs, q, i, ls, hn, h => by
    rw [caseLayouts] at h
    obtain ⟨l, hl, h⟩ := Res.bind_eq_ok.1 h
    obtain ⟨ms, hm, h⟩ := Res.bind_eq_ok.1 h
    cases h
    rw [nodes.nodesF, nodes.nodesP] at hn
    rw [caseLayout] at hl
    obtain ⟨u, hu, hl⟩ := Res.bind_eq_ok.1 hl
    have h1 := finish_widest (unroll_widest c _ u (by omega) hu) (widest_pos c) hl
    obtain ⟨h2, h3⟩ := caseLayouts_widest cs q (i + 1) ms (by omega) hm
    refine ⟨?_, fun k hk => ?_⟩
    · intro m hm
      rcases List.mem_cons.1 hm with rfl | hm
      · rw [h1]; exact widest_pos c
      · exact h2 m hm
    · rw [widestF, widestP, Nat.max_le, ← h3 k hk, ← h1]
      simp
end

theorem calculateLayout_widest {chk : Bool} {t : Ty} {q : Path} {l : Layout} (hn : nodes t < 2 ^ 59)
    (h : calculateLayout chk t q = .ok l) : l.alignment = widest t := by
  rw [calculateLayout] at h
  obtain ⟨u, hu, h⟩ := Res.bind_eq_ok.1 h
  exact finish_widest (unroll_widest t q u hn hu) (widest_pos t) h

end Verif
