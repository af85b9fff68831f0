import Verif.Proof.GrownLayout

/-! # The layout of a type whose enums got additional cases -/

namespace Verif

open Spec

theorem widestL_le {k : Nat} (hk : 0 < k) : ∀ {cs : List Ty}, widestL cs ≤ k ↔ ∀ c ∈ cs, widest c ≤ k
  | [] => by simp [widestL]; omega
  | c :: cs => by simp [widestL, Nat.max_le, widestL_le hk (cs := cs)]

theorem widestF_le {k : Nat} (hk : 0 < k) : ∀ {cs : List (Str × Ty)}, widestF cs ≤ k ↔ ∀ c ∈ cs, widest c.2 ≤ k
  | [] => by simp [widestF]; omega
  | (x, c) :: cs => by simp [widestF, widestP, Nat.max_le, widestF_le hk (cs := cs)]

theorem eq_of_bounds {a b : Nat} (ha : 0 < a) (hb : 0 < b) (h : ∀ k, 0 < k → (a ≤ k ↔ b ≤ k)) : a = b := by
  have h1 := (h a ha).1 (Nat.le_refl _)
  have h2 := (h b hb).2 (Nat.le_refl _)
  omega

theorem widestL_pos (cs : List Ty) : 0 < widestL cs := widest_pos (.tuple cs)

theorem widestF_pos (cs : List (Str × Ty)) : 0 < widestF cs := widest_pos (.struct cs)

theorem tagWord_roomy {m n : Nat} (h1 : m ≤ n) (h2 : ∀ k, m ≤ 2 ^ k → n ≤ 2 ^ k) : tagWord m = tagWord n := by
  have h3 : ∀ k, m ≤ 2 ^ k ↔ n ≤ 2 ^ k := fun k => ⟨h2 k, fun h => Nat.le_trans h1 h⟩
  unfold tagWord
  simp only [h3]

theorem get_forth {α : Type} {cs ds : List α} (h : cs.length ≤ ds.length) {i : Nat} {c : α} (hc : cs[i]? = some c) :
    ∃ d, ds[i]? = some d := by
  have := (List.getElem?_eq_some_iff.1 hc).1
  exact ⟨ds[i], List.getElem?_eq_getElem (by omega)⟩

/-- Additional cases do not change the widest word. -/
theorem widest_roomy {t u : Ty} (h : Roomy t u) : widest t = widest u := by
  induction h with
  | unit => rfl
  | prim p => rfl
  | string => rfl
  | @tuple cs ds hl _ ih =>
    rw [widest, widest]
    refine eq_of_bounds (widestL_pos _) (widestL_pos _) fun k hk => ?_
    rw [widestL_le hk, widestL_le hk]
    constructor
    · intro h d hd
      obtain ⟨i, hd⟩ := List.getElem?_of_mem hd
      obtain ⟨c, hc⟩ := get_forth (Nat.le_of_eq hl.symm) hd
      rw [← ih i c d hc hd]
      exact h c (List.mem_of_getElem? hc)
    · intro h c hc
      obtain ⟨i, hc⟩ := List.getElem?_of_mem hc
      obtain ⟨d, hd⟩ := get_forth (Nat.le_of_eq hl) hc
      rw [ih i c d hc hd]
      exact h d (List.mem_of_getElem? hd)
  | @struct cs ds hl _ ih =>
    rw [widest, widest]
    refine eq_of_bounds (widestF_pos _) (widestF_pos _) fun k hk => ?_
    rw [widestF_le hk, widestF_le hk]
    constructor
    · intro h d hd
      obtain ⟨i, hd⟩ := List.getElem?_of_mem hd
      obtain ⟨c, hc⟩ := get_forth (Nat.le_of_eq hl.symm) hd
      rw [← ih i c d hc hd]
      exact h c (List.mem_of_getElem? hc)
    · intro h c hc
      obtain ⟨i, hc⟩ := List.getElem?_of_mem hc
      obtain ⟨d, hd⟩ := get_forth (Nat.le_of_eq hl) hc
      rw [ih i c d hc hd]
      exact h d (List.mem_of_getElem? hd)
  | @enum cs ds hl ht _ hw ih =>
    rw [widest, widest, tagWord_roomy hl ht]
    congr 1
    refine eq_of_bounds (widestF_pos _) (widestF_pos _) fun k hk => ?_
    rw [widestF_le hk, widestF_le hk]
    constructor
    · intro h d hd
      obtain ⟨i, hd⟩ := List.getElem?_of_mem hd
      by_cases hi : i < cs.length
      · have hc : cs[i]? = some cs[i] := List.getElem?_eq_getElem hi
        rw [← ih i _ d hc hd]
        exact h _ (List.mem_of_getElem? hc)
      · obtain ⟨c, hc, hle⟩ := hw i d (Nat.le_of_not_lt hi) hd
        exact Nat.le_trans hle (h c hc)
    · intro h c hc
      obtain ⟨i, hc⟩ := List.getElem?_of_mem hc
      obtain ⟨d, hd⟩ := get_forth hl hc
      rw [ih i c d hc hd]
      exact h d (List.mem_of_getElem? hd)

/-- As `VarsGrown`, with the same alignments. -/
def AllGrown : List VarField → List VarField → Prop
  | [], [] => True
  | v :: vs, w :: ws => (VarGrown v w ∧ v.alignment = w.alignment) ∧ AllGrown vs ws
  | _, _ => False

theorem AllGrown.append : ∀ {vs ws : List VarField}, AllGrown vs ws → ∀ {vs' ws' : List VarField}, AllGrown vs' ws' →
    AllGrown (vs ++ vs') (ws ++ ws')
  | [], [], _, _, _, h => h
  | v :: vs, w :: ws, h, _, _, h' => by
    simp only [AllGrown, List.cons_append] at h ⊢
    exact ⟨h.1, AllGrown.append h.2 h'⟩
  | [], _ :: _, h, _, _, _ => by simp [AllGrown] at h
  | _ :: _, [], h, _, _, _ => by simp [AllGrown] at h

theorem sortInsert_grown {x y : VarField} (hx : VarGrown x y ∧ x.alignment = y.alignment) :
    ∀ {vs ws : List VarField}, AllGrown vs ws →
    AllGrown (sortInsert (fun l r => decide (r.alignment ≤ l.alignment)) x vs)
      (sortInsert (fun l r => decide (r.alignment ≤ l.alignment)) y ws)
  | [], [], _ => by simp [sortInsert, AllGrown, hx]
  | v :: vs, w :: ws, h => by
    have h0 := h
    rw [AllGrown] at h
    simp only [sortInsert, hx.2, h.1.2, decide_eq_true_eq]
    split
    · rw [AllGrown]; exact ⟨hx, h0⟩
    · rw [AllGrown]; exact ⟨h.1, sortInsert_grown hx h.2⟩
  | [], _ :: _, h => by simp [AllGrown] at h
  | _ :: _, [], h => by simp [AllGrown] at h

theorem sortBy_grown : ∀ {vs ws : List VarField}, AllGrown vs ws →
    AllGrown (sortBy (fun l r => decide (r.alignment ≤ l.alignment)) vs)
      (sortBy (fun l r => decide (r.alignment ≤ l.alignment)) ws)
  | [], [], _ => by simp [sortBy, AllGrown]
  | v :: vs, w :: ws, h => by
    rw [AllGrown] at h
    exact sortInsert_grown h.1 (sortBy_grown h.2)
  | [], _ :: _, h => by simp [AllGrown] at h
  | _ :: _, [], h => by simp [AllGrown] at h

theorem VarGrown.path {v w : VarField} (h : VarGrown v w) : v.path = w.path := by
  cases v <;> cases w <;> simp only [VarGrown] at h
  · exact h.1
  · exact h.1

theorem VarGrown.setFixedIdx {v w : VarField} (h : VarGrown v w) (i : Nat) :
    VarGrown (v.setFixedIdx i) (w.setFixedIdx i) := by
  cases v <;> cases w <;> simp only [VarGrown] at h <;> simp [VarField.setFixedIdx, VarGrown, h]

theorem linkVars_grown {lookup : List (Path × Nat)} : ∀ {vs ws : List VarField}, AllGrown vs ws →
    ∀ {i : Nat} {ix ix' : List Index} {vs' : List VarField}, linkVars lookup vs i ix = .ok (vs', ix') →
    ∃ ws', linkVars lookup ws i ix = .ok (ws', ix') ∧ VarsGrown vs' ws'
  | [], [], _, _, _, _, _, h => by
    cases h
    exact ⟨[], rfl, by simp [VarsGrown]⟩
  | v :: vs, w :: ws, hg, i, ix, ix', vs', h => by
    rw [AllGrown] at hg
    rw [linkVars] at h ⊢
    rw [← hg.1.1.path]
    cases hs : searchIndex v.path ix 0 with
    | insertAt k => rw [hs] at h; cases h
    | «at» k =>
      rw [hs] at h
      simp only at h ⊢
      cases hm : mapGet Path.cmp v.path lookup with
      | none => rw [hm] at h; cases h
      | some fi =>
        rw [hm] at h
        obtain ⟨⟨us, iy⟩, h1, h2⟩ := Res.bind_eq_ok.1 h
        cases h2
        obtain ⟨ws', h3, h4⟩ := linkVars_grown hg.2 h1
        simp only [h3, Res.bind_ok]
        refine ⟨_, rfl, ?_⟩
        rw [VarsGrown]
        exact ⟨hg.1.1.setFixedIdx fi, h4⟩
  | [], _ :: _, h, _, _, _, _, _ => by simp [AllGrown] at h
  | _ :: _, [], h, _, _, _, _, _ => by simp [AllGrown] at h

theorem finish_grown {chk : Bool} {fx : List FixedField} {bs : List Bitfield} {vs ws : List VarField}
    (hg : AllGrown vs ws) {l : Layout} (h : finishLayout chk fx bs vs = .ok l) :
    ∃ m, finishLayout chk fx bs ws = .ok m ∧ LayoutGrown l m := by
  have hs := sortBy_grown hg
  have hf : firstAlignment (sortBy (fun l r : VarField => decide (r.alignment ≤ l.alignment)) ws) =
      firstAlignment (sortBy (fun l r : VarField => decide (r.alignment ≤ l.alignment)) vs) := by
    generalize sortBy (fun l r : VarField => decide (r.alignment ≤ l.alignment)) vs = xs at hs
    generalize sortBy (fun l r : VarField => decide (r.alignment ≤ l.alignment)) ws = ys at hs
    cases xs <;> cases ys <;> simp only [AllGrown] at hs
    · rfl
    · exact hs.1.2.symm
  unfold finishLayout at h ⊢
  obtain ⟨⟨bits, cs⟩, h1, h⟩ := Res.bind_eq_ok.1 h
  obtain ⟨⟨fs, size⟩, h2, h⟩ := Res.bind_eq_ok.1 h
  obtain ⟨fa, h3, h⟩ := Res.bind_eq_ok.1 h
  obtain ⟨sz, h4, h⟩ := Res.bind_eq_ok.1 h
  obtain ⟨bf, h5, h⟩ := Res.bind_eq_ok.1 h
  obtain ⟨⟨us, ix⟩, h6, h⟩ := Res.bind_eq_ok.1 h
  cases h
  obtain ⟨us', h7, h8⟩ := linkVars_grown hs h6
  simp only [h1, h2, h3, h4, h5, h7, hf, Res.bind_ok]
  refine ⟨_, rfl, ?_⟩
  rw [LayoutGrown]
  exact ⟨rfl, rfl, rfl, rfl, h8⟩

theorem tagBits_roomy {m n : Nat} (h0 : 0 < m) (hn : n < 2 ^ 59) (h1 : m ≤ n) (h2 : ∀ k, m ≤ 2 ^ k → n ≤ 2 ^ k) :
    requiredBits (m - 1) = requiredBits (n - 1) := by
  have a := Props.C02_required_bits (m - 1) (by omega)
  have b := Props.C02_required_bits (n - 1) (by omega)
  have a1 := a.1 (m - 1) (Nat.le_refl _)
  have b1 := b.1 (n - 1) (Nat.le_refl _)
  have c := h2 (requiredBits (m - 1)) (by omega)
  have e1 := b.2 (requiredBits (m - 1)) (by omega)
  have e2 := a.2 (requiredBits (n - 1)) (by omega)
  omega

/-- The unrolled types differ only in cases of enums. -/
def Unrolled.Grown (a b : Unrolled) : Prop := a.fixed = b.fixed ∧ a.bits = b.bits ∧ AllGrown a.vars b.vars

theorem Unrolled.Grown.append {a b a' b' : Unrolled} (h : a.Grown b) (h' : a'.Grown b') :
    (a.append a').Grown (b.append b') := by
  refine ⟨?_, ?_, h.2.2.append h'.2.2⟩
  · simp only [Unrolled.append, h.1, h'.1]
  · simp only [Unrolled.append, h.2.1, h'.2.1]

mutual
theorem unroll_grown {chk : Bool} : ∀ (t : Ty) {u : Ty} {q : Path} {a b : Unrolled}, Roomy t u → nodes t < 2 ^ 59 →
    nodes u < 2 ^ 59 → unrollType chk t q = .ok a → unrollType chk u q = .ok b → a.Grown b
  | .unit, u, q, a, b, hr, _, _, ha, hb => by
    cases hr
    cases ha; cases hb
    exact ⟨rfl, rfl, by simp [AllGrown]⟩
  | .prim p, u, q, a, b, hr, _, _, ha, hb => by
    cases hr
    cases ha; cases hb
    exact ⟨rfl, rfl, by simp [AllGrown]⟩
  | .string, u, q, a, b, hr, _, _, ha, hb => by
    cases hr
    cases ha; cases hb
    exact ⟨rfl, rfl, by simp [AllGrown, VarGrown]⟩
  | .tuple cs, u, q, a, b, hr, hn, hm, ha, hb => by
    cases hr with
    | tuple hl hc =>
      rw [unrollType] at ha hb
      obtain ⟨_, _, ha⟩ := Res.bind_eq_ok.1 ha
      obtain ⟨_, _, hb⟩ := Res.bind_eq_ok.1 hb
      rw [nodes] at hn hm
      exact unrollTuple_grown cs hl hc (by omega) (by omega) ha hb
  | .struct fs, u, q, a, b, hr, hn, hm, ha, hb => by
    cases hr with
    | struct hl hc =>
      rw [unrollType] at ha hb
      obtain ⟨_, _, ha⟩ := Res.bind_eq_ok.1 ha
      obtain ⟨_, _, hb⟩ := Res.bind_eq_ok.1 hb
      rw [nodes] at hn hm
      exact unrollStruct_grown fs hl hc (by omega) (by omega) ha hb
  | .enum cs, u, q, a, b, hr, hn, hm, ha, hb => by
    have hw := widest_roomy hr
    cases hr with
    | @enum _ ds hl ht hc hnew =>
      rw [unrollType] at ha hb
      obtain ⟨_, hpos, ha⟩ := Res.bind_eq_ok.1 ha
      obtain ⟨_, _, hb⟩ := Res.bind_eq_ok.1 hb
      obtain ⟨ls, hls, ha⟩ := Res.bind_eq_ok.1 ha
      obtain ⟨ms, hms, hb⟩ := Res.bind_eq_ok.1 hb
      cases ha; cases hb
      rw [nodes] at hn hm
      have hlen : ds.length < 2 ^ 59 := by
        have := nodesF_length ds
        omega
      have hpos : 0 < cs.length := by
        cases cs with
        | nil => cases hpos
        | cons => simp
      refine ⟨rfl, by simp only [tagBits_roomy hpos hlen hl ht], ?_⟩
      have hg := caseLayouts_grown cs hl hc (by omega) (by omega) hls hms
      have w1 := caseLayouts_widest cs q 0 ls (by omega) hls
      have w2 := caseLayouts_widest ds q 0 ms (by omega) hms
      have hF : ∀ k, 0 < k → (widestF cs ≤ k ↔ widestF ds ≤ k) := by
        intro k hk
        rw [widestF_le hk, widestF_le hk]
        constructor
        · intro h d hd
          obtain ⟨i, hd⟩ := List.getElem?_of_mem hd
          by_cases hi : i < cs.length
          · have hci : cs[i]? = some cs[i] := List.getElem?_eq_getElem hi
            rw [← widest_roomy (hc i _ d hci hd)]
            exact h _ (List.mem_of_getElem? hci)
          · obtain ⟨c, hcm, hle⟩ := hnew i d (Nat.le_of_not_lt hi) hd
            exact Nat.le_trans hle (h c hcm)
        · intro h c hcm
          obtain ⟨i, hci⟩ := List.getElem?_of_mem hcm
          obtain ⟨d, hd⟩ := get_forth hl hci
          rw [widest_roomy (hc i c d hci hd)]
          exact h d (List.mem_of_getElem? hd)
      simp only [AllGrown, VarGrown, true_and, and_true]
      refine ⟨hg, eq_of_bounds ?_ ?_ fun k hk => ?_⟩
      · exact enum_alignment_pos w1.1
      · exact enum_alignment_pos w2.1
      · rw [enum_alignment_iff hk, enum_alignment_iff hk, w1.2 k hk, w2.2 k hk, hF k hk]
theorem unrollTuple_grown {chk : Bool} : ∀ (cs : List Ty) {ds : List Ty} {q : Path} {i : Nat} {a b : Unrolled},
    cs.length = ds.length → (∀ (i : Nat) (c d : Ty), cs[i]? = some c → ds[i]? = some d → Roomy c d) →
    nodes.nodesL cs < 2 ^ 59 → nodes.nodesL ds < 2 ^ 59 →
    unrollTuple chk cs q i = .ok a → unrollTuple chk ds q i = .ok b → a.Grown b
  | [], [], q, i, a, b, _, _, _, _, ha, hb => by
    cases ha; cases hb
    exact ⟨rfl, rfl, by simp [AllGrown]⟩
  | c :: cs, d :: ds, q, i, a, b, hl, hc, hn, hm, ha, hb => by
    rw [unrollTuple] at ha hb
    obtain ⟨a1, ha1, ha⟩ := Res.bind_eq_ok.1 ha
    obtain ⟨a2, ha2, ha⟩ := Res.bind_eq_ok.1 ha
    obtain ⟨b1, hb1, hb⟩ := Res.bind_eq_ok.1 hb
    obtain ⟨b2, hb2, hb⟩ := Res.bind_eq_ok.1 hb
    cases ha; cases hb
    rw [nodes.nodesL] at hn hm
    exact (unroll_grown c (hc 0 c d rfl rfl) (by omega) (by omega) ha1 hb1).append
      (unrollTuple_grown cs (by simpa using hl)
        (fun i c d h1 h2 => hc (i + 1) c d (by simpa using h1) (by simpa using h2)) (by omega) (by omega) ha2 hb2)
  | [], _ :: _, _, _, _, _, h, _, _, _, _, _ => by simp at h
  | _ :: _, [], _, _, _, _, h, _, _, _, _, _ => by simp at h
theorem unrollStruct_grown {chk : Bool} : ∀ (cs : List (Str × Ty)) {ds : List (Str × Ty)} {q : Path} {i : Nat}
    {a b : Unrolled}, cs.length = ds.length →
    (∀ (i : Nat) (c d : Str × Ty), cs[i]? = some c → ds[i]? = some d → Roomy c.2 d.2) →
    nodes.nodesF cs < 2 ^ 59 → nodes.nodesF ds < 2 ^ 59 →
    unrollStruct chk cs q i = .ok a → unrollStruct chk ds q i = .ok b → a.Grown b
  | [], [], q, i, a, b, _, _, _, _, ha, hb => by
    cases ha; cases hb
    exact ⟨rfl, rfl, by simp [AllGrown]⟩
  | (x, c) :: cs, (y, d) :: ds, q, i, a, b, hl, hc, hn, hm, ha, hb => by
    rw [unrollStruct, unrollField] at ha hb
    obtain ⟨a1, ha1, ha⟩ := Res.bind_eq_ok.1 ha
    obtain ⟨a2, ha2, ha⟩ := Res.bind_eq_ok.1 ha
    obtain ⟨b1, hb1, hb⟩ := Res.bind_eq_ok.1 hb
    obtain ⟨b2, hb2, hb⟩ := Res.bind_eq_ok.1 hb
    cases ha; cases hb
    rw [nodes.nodesF, nodes.nodesP] at hn hm
    exact (unroll_grown c (u := d) (hc 0 _ _ rfl rfl) (by omega) (by omega) ha1 hb1).append
      (unrollStruct_grown cs (by simpa using hl)
        (fun i c d h1 h2 => hc (i + 1) c d (by simpa using h1) (by simpa using h2)) (by omega) (by omega) ha2 hb2)
  | [], _ :: _, _, _, _, _, h, _, _, _, _, _ => by simp at h
  | _ :: _, [], _, _, _, _, h, _, _, _, _, _ => by simp at h
theorem caseLayouts_grown {chk : Bool} : ∀ (cs : List (Str × Ty)) {ds : List (Str × Ty)} {q : Path} {i : Nat}
    {ls ms : List Layout}, cs.length ≤ ds.length →
    (∀ (i : Nat) (c d : Str × Ty), cs[i]? = some c → ds[i]? = some d → Roomy c.2 d.2) →
    nodes.nodesF cs < 2 ^ 59 → nodes.nodesF ds < 2 ^ 59 →
    caseLayouts chk cs q i = .ok ls → caseLayouts chk ds q i = .ok ms → LayoutsGrown ls ms
  | [], _, q, i, ls, ms, _, _, _, _, ha, _ => by
    cases ha
    simp [LayoutsGrown]
  | (x, c) :: cs, (y, d) :: ds, q, i, ls, ms, hl, hc, hn, hm, ha, hb => by
    rw [caseLayouts, caseLayout] at ha hb
    obtain ⟨l, hl1, ha⟩ := Res.bind_eq_ok.1 ha
    obtain ⟨ls', hl2, ha⟩ := Res.bind_eq_ok.1 ha
    obtain ⟨m, hm1, hb⟩ := Res.bind_eq_ok.1 hb
    obtain ⟨ms', hm2, hb⟩ := Res.bind_eq_ok.1 hb
    cases ha; cases hb
    obtain ⟨a1, ha1, hl1⟩ := Res.bind_eq_ok.1 hl1
    obtain ⟨b1, hb1, hm1⟩ := Res.bind_eq_ok.1 hm1
    rw [nodes.nodesF, nodes.nodesP] at hn hm
    have hg := unroll_grown c (u := d) (hc 0 _ _ rfl rfl) (by omega) (by omega) ha1 hb1
    rw [LayoutsGrown]
    refine ⟨?_, caseLayouts_grown cs (by simpa using hl)
        (fun i c d h1 h2 => hc (i + 1) c d (by simpa using h1) (by simpa using h2)) (by omega) (by omega) hl2 hm2⟩
    obtain ⟨m', h1, h2⟩ := finish_grown hg.2.2 hl1
    rw [hg.1, hg.2.1, hm1] at h1
    cases h1
    exact h2
  | _ :: _, [], _, _, _, _, h, _, _, _, _, _ => by simp at h
end

/-- The layout of a type with additional cases is the layout with the additional cases. -/
theorem layout_grown {chk : Bool} {t u : Ty} (hr : Roomy t u) (hn : nodes t < 2 ^ 59) (hm : nodes u < 2 ^ 59)
    {q : Path} {l m : Layout} (hl : calculateLayout chk t q = .ok l) (hu : calculateLayout chk u q = .ok m) :
    LayoutGrown l m := by
  rw [calculateLayout] at hl hu
  obtain ⟨a, ha, hl⟩ := Res.bind_eq_ok.1 hl
  obtain ⟨b, hb, hu⟩ := Res.bind_eq_ok.1 hu
  have hg := unroll_grown t hr hn hm ha hb
  obtain ⟨m', h1, h2⟩ := finish_grown hg.2.2 hl
  rw [hg.1, hg.2.1, hu] at h1
  cases h1
  exact h2

end Verif
