import Verif.Spec.Types
import Verif.Proof.Text

/-! # Lemmas about types and paths -/

namespace Verif

open Spec

/-! ## Order -/

theorem Path.cmp_nil_nil : Path.cmp [] [] = .eq := rfl
theorem Path.cmp_nil_cons (b : Nat) (q : Path) : Path.cmp [] (b :: q) = .lt := by
  simp [Path.cmp, Path.cmpLoop, Nat.compare_eq_lt]
theorem Path.cmp_cons_nil (b : Nat) (q : Path) : Path.cmp (b :: q) [] = .gt := by
  simp [Path.cmp, Path.cmpLoop, Nat.compare_eq_gt]
theorem Path.cmp_cons_cons (a b : Nat) (p q : Path) :
    Path.cmp (a :: p) (b :: q) = if a < b then .lt else if b < a then .gt else Path.cmp p q := by
  simp only [Path.cmp, Path.cmpLoop]
  by_cases h1 : a < b
  · simp [h1]
  · by_cases h2 : b < a
    · simp [h1, h2]
    · simp only [h1, h2, if_false, List.length_cons]
      cases Path.cmpLoop p q with
      | some o => rfl
      | none =>
        simp only [Nat.compare_eq_ite_lt]
        simp

theorem Path.cmp_lt_iff (p q : Path) : Path.cmp p q = .lt ↔ p < q := by
  induction p generalizing q with
  | nil => cases q <;> simp [Path.cmp_nil_nil, Path.cmp_nil_cons]
  | cons a p ih =>
    cases q with
    | nil => simp [Path.cmp_cons_nil]
    | cons b q =>
      rw [Path.cmp_cons_cons, List.cons_lt_cons_iff]
      by_cases h1 : a < b
      · simp [h1]
      · by_cases h2 : b < a
        · simp [h1, h2]; omega
        · have : a = b := by omega
          simp [this, ih]

theorem Path.cmp_swap (p q : Path) : Path.cmp q p = (Path.cmp p q).swap := by
  induction p generalizing q with
  | nil => cases q <;> simp [Path.cmp_nil_nil, Path.cmp_nil_cons, Path.cmp_cons_nil]
  | cons a p ih =>
    cases q with
    | nil => simp [Path.cmp_cons_nil, Path.cmp_nil_cons]
    | cons b q =>
      rw [Path.cmp_cons_cons, Path.cmp_cons_cons]
      by_cases h1 : a < b
      · simp [h1, show ¬ b < a by omega]
      · by_cases h2 : b < a
        · simp [h1, h2]
        · simp [h1, h2, ih]

theorem Path.cmp_gt_iff (p q : Path) : Path.cmp p q = .gt ↔ q < p := by
  rw [← Path.cmp_lt_iff q p, Path.cmp_swap p q]; cases Path.cmp p q <;> simp

theorem Path.cmp_eq_iff (p q : Path) : Path.cmp p q = .eq ↔ p = q := by
  induction p generalizing q with
  | nil => cases q <;> simp [Path.cmp_nil_nil, Path.cmp_nil_cons]
  | cons a p ih =>
    cases q with
    | nil => simp [Path.cmp_cons_nil]
    | cons b q =>
      rw [Path.cmp_cons_cons]
      by_cases h1 : a < b
      · simp [h1]; omega
      · by_cases h2 : b < a
        · simp [h1, h2]; omega
        · have : a = b := by omega
          simp [this, ih]

theorem Path.isPrefixOf_iff (p q : Path) : Path.isPrefixOf p q = true ↔ ∃ s, q = p ++ s := by
  unfold Path.isPrefixOf
  constructor
  · intro h
    split at h
    · exact absurd h (by simp)
    · have := of_decide_eq_true (p := p = q.take p.length) (by simpa using h)
      exact ⟨q.drop p.length, by
        conv => lhs; rw [← List.take_append_drop p.length q]
        rw [← this]⟩
  · rintro ⟨s, rfl⟩
    simp

/-! ## Names -/

theorem splitDots_ne_nil (cur s : Str) : splitDots cur s ≠ [] := by
  induction s generalizing cur with
  | nil => simp [splitDots]
  | cons c cs ih => rw [splitDots]; split <;> simp [ih]

theorem intercalate_cons {x : Str} {l : List Str} (h : l ≠ []) :
    List.intercalate ['.'] (x :: l) = x ++ '.' :: List.intercalate ['.'] l := by
  cases l with
  | nil => exact absurd rfl h
  | cons y l => simp [List.intercalate, List.intersperse]

theorem splitDots_spec (cur s : Str) (h : '.' ∉ cur) :
    (∀ x ∈ splitDots cur s, '.' ∉ x) ∧
      cur.reverse ++ s = List.intercalate ['.'] (splitDots cur s) := by
  induction s generalizing cur with
  | nil => simp [splitDots, h, List.intercalate]
  | cons c cs ih =>
    rw [splitDots]
    split
    · rename_i hc
      subst hc
      obtain ⟨h1, h2⟩ := ih [] (by simp)
      refine ⟨?_, ?_⟩
      · intro x hx
        rcases List.mem_cons.1 hx with rfl | hx
        · simpa using h
        · exact h1 x hx
      · rw [intercalate_cons (splitDots_ne_nil _ _), ← h2]; simp
    · rename_i hc
      obtain ⟨h1, h2⟩ := ih (c :: cur) (by
        intro hm
        rcases List.mem_cons.1 hm with e | hm
        · exact hc e.symm
        · exact h hm)
      exact ⟨h1, by rw [← h2]; simp⟩

theorem splitDots_append (cur x s : Str) (h : '.' ∉ x) :
    splitDots cur (x ++ '.' :: s) = (cur.reverse ++ x) :: splitDots [] s := by
  induction x generalizing cur with
  | nil => simp [splitDots]
  | cons c cs ih =>
    have hc : c ≠ '.' := fun e => h (by simp [e])
    rw [List.cons_append, splitDots, if_neg hc, ih _ (fun hm => h (by simp [hm]))]
    simp

theorem splitDots_last (cur x : Str) (h : '.' ∉ x) : splitDots cur x = [cur.reverse ++ x] := by
  induction x generalizing cur with
  | nil => simp [splitDots]
  | cons c cs ih =>
    have hc : c ≠ '.' := fun e => h (by simp [e])
    rw [splitDots, if_neg hc, ih _ (fun hm => h (by simp [hm]))]
    simp

theorem splitDots_intercalate (l : List Str) (h0 : l ≠ []) (h : ∀ x ∈ l, '.' ∉ x) :
    splitDots [] (List.intercalate ['.'] l) = l := by
  induction l with
  | nil => exact absurd rfl h0
  | cons x l ih =>
    cases l with
    | nil => simpa [List.intercalate] using splitDots_last [] x (h x (by simp))
    | cons y l =>
      rw [intercalate_cons (by simp), splitDots_append _ _ _ (h x (by simp)),
        ih (by simp) (fun z hz => h z (by simp [hz]))]
      simp

theorem pieces_iff (name : Str) (l : List Str) : Pieces name l ↔ splitDots [] name = l := by
  constructor
  · rintro ⟨h1, h2, rfl⟩
    exact splitDots_intercalate l h1 h2
  · rintro rfl
    obtain ⟨h1, h2⟩ := splitDots_spec [] name (by simp)
    exact ⟨splitDots_ne_nil _ _, h1, by simpa using h2⟩

theorem digitChar_plus {d : Nat} (h : d < 10) : digitChar d ≠ '+' := digitChar_ne h (by decide)

theorem parseUnsigned_iff (max : Nat) (s : Str) (n : Nat) :
    parseUnsigned max s = some n ↔ Numeral s n ∧ n ≤ max := by
  have dd : ∀ ds : List Nat, ds.map (fun d => Char.ofNat (48 + d)) = ds.map digitChar := fun _ => rfl
  have strip : ∀ ds : List Nat, ds ≠ [] → (∀ d ∈ ds, d < 10) → ∀ t : Str,
      (t = ds.map digitChar ∨ t = '+' :: ds.map digitChar) → stripPlus t = ds.map digitChar := by
    intro ds h0 h1 t ht
    rcases ht with rfl | rfl
    · cases ds with
      | nil => exact absurd rfl h0
      | cons d ds => simp [stripPlus, digitChar_plus (h1 d (by simp))]
    · simp [stripPlus]
  constructor
  · intro h
    unfold parseUnsigned at h
    split at h
    · exact absurd h (by simp)
    · rename_i hne
      split at h
      · rename_i m hm
        split at h
        · rename_i hle
          obtain rfl := Option.some.inj h
          obtain ⟨ds, h1, h2, h3⟩ := parseDigits_some hm
          refine ⟨⟨ds, ?_, h1, ?_, h3⟩, hle⟩
          · intro e; rw [e] at h2; rw [h2] at hne; exact hne rfl
          · rw [dd]
            cases s with
            | nil => exact absurd rfl hne
            | cons c cs =>
              rw [stripPlus] at h2
              split at h2
              · rename_i hc; exact Or.inr (by rw [h2, hc])
              · exact Or.inl h2
        · exact absurd h (by simp)
      · exact absurd h (by simp)
  · rintro ⟨⟨ds, h0, h1, h2, h3⟩, hle⟩
    rw [dd] at h2
    unfold parseUnsigned
    simp only [strip ds h0 h1 s h2, parseDigits_map ds h1, ← h3, hle, if_true]
    simp [h0]

theorem findLabel_some {l : Str} {fs : List (Str × Ty)} {k i : Nat} (h : findLabel l fs k = some i) :
    ∃ j t, i = k + j ∧ FirstAt l fs j t := by
  induction fs generalizing k with
  | nil => exact absurd h (by simp [findLabel])
  | cons f fs ih =>
    rw [findLabel] at h
    split at h
    · rename_i hf
      obtain rfl := Option.some.inj h
      exact ⟨0, f.2, rfl, by simp [← hf], fun j u hj => by omega⟩
    · rename_i hf
      obtain ⟨j, t, rfl, h1, h2⟩ := ih h
      refine ⟨j + 1, t, by omega, by simpa using h1, ?_⟩
      intro m u hm
      cases m with
      | zero => simp; intro e; exact absurd (by rw [e]) hf
      | succ m => simpa using h2 m u (by omega)

theorem findLabel_of_firstAt {l : Str} {fs : List (Str × Ty)} {k j : Nat} {t : Ty}
    (h : FirstAt l fs j t) : findLabel l fs k = some (k + j) := by
  induction fs generalizing k j with
  | nil => exact absurd h.1 (by simp)
  | cons f fs ih =>
    rw [findLabel]
    cases j with
    | zero =>
      have : f = (l, t) := by simpa using h.1
      simp [this]
    | succ j =>
      have hf : f.1 ≠ l := by
        intro e
        exact h.2 0 f.2 (by omega) (by simp [← e])
      rw [if_neg hf, ih (k := k + 1) (j := j) ⟨by simpa using h.1, fun m u hm => by
        simpa using h.2 (m + 1) u (by omega)⟩]
      congr 1; omega

theorem findLabel_zero_iff (l : Str) (fs : List (Str × Ty)) (i : Nat) :
    findLabel l fs 0 = some i ↔ ∃ t, FirstAt l fs i t := by
  constructor
  · intro h
    obtain ⟨j, t, rfl, h1⟩ := findLabel_some h
    exact ⟨t, by simpa using h1⟩
  · rintro ⟨t, h⟩
    simpa using findLabel_of_firstAt (k := 0) h

/-- All tuples reachable by positions in `t` have lengths that fit in a machine word. -/
def SmallTuples (t : Ty) : Prop := ∀ p cs, Child t p (.tuple cs) → cs.length < 2 ^ 64

theorem resolvePieces_iff (t : Ty) (ls : List Str) (p : Path) (hs : SmallTuples t) :
    resolvePieces t ls = some p ↔ ∃ u, Walk t ls p u := by
  induction ls generalizing t p with
  | nil =>
    rw [resolvePieces]
    constructor
    · intro h
      obtain rfl := Option.some.inj h
      exact ⟨t, .here t⟩
    · rintro ⟨u, h⟩
      cases h; rfl
  | cons l ls ih =>
    have labelled : ∀ fs : List (Str × Ty), (∀ (i : Nat) (c : Ty) (l' : Str), fs[i]? = some (l', c) → SmallTuples c) →
        ((match findLabel l fs 0 with
          | some i => match fs[i]? with
            | some c => (resolvePieces c.2 ls).map (i :: ·)
            | none => none
          | none => none) = some p ↔
        ∃ i c q u, p = i :: q ∧ FirstAt l fs i c ∧ Walk c ls q u) := by
      intro fs hfs
      constructor
      · intro h
        split at h
        · rename_i i hi
          obtain ⟨c, hc⟩ := (findLabel_zero_iff l fs i).1 hi
          rw [hc.1] at h
          obtain ⟨q, hq, rfl⟩ := Option.map_eq_some_iff.1 h
          obtain ⟨u, hu⟩ := (ih c q (hfs i c l hc.1)).1 hq
          exact ⟨i, c, q, u, rfl, hc, hu⟩
        · exact absurd h (by simp)
      · rintro ⟨i, c, q, u, rfl, h1, h2⟩
        rw [(findLabel_zero_iff l fs i).2 ⟨c, h1⟩]
        simp only [h1.1]
        rw [(ih c q (hfs i c l h1.1)).2 ⟨u, h2⟩]
        rfl
    cases t with
    | unit => simp [resolvePieces]; intro u h; cases h
    | prim q => simp [resolvePieces]; intro u h; cases h
    | string => simp [resolvePieces]; intro u h; cases h
    | enum cs =>
      rw [resolvePieces]
      refine Iff.trans (labelled cs (fun i c l' h q ds hd => hs (i :: q) ds (.case h hd))) ?_
      constructor
      · rintro ⟨i, c, q, u, rfl, h1, h2⟩; exact ⟨u, .case h1 h2⟩
      · rintro ⟨u, h⟩
        cases h with
        | case h1 h2 => exact ⟨_, _, _, u, rfl, h1, h2⟩
    | struct cs =>
      rw [resolvePieces]
      refine Iff.trans (labelled cs (fun i c l' h q ds hd => hs (i :: q) ds (.field h hd))) ?_
      constructor
      · rintro ⟨i, c, q, u, rfl, h1, h2⟩; exact ⟨u, .field h1 h2⟩
      · rintro ⟨u, h⟩
        cases h with
        | field h1 h2 => exact ⟨_, _, _, u, rfl, h1, h2⟩
    | tuple cs =>
      rw [resolvePieces]
      constructor
      · intro h
        split at h
        · rename_i i hi
          split at h
          · rename_i c hc
            obtain ⟨q, hq, rfl⟩ := Option.map_eq_some_iff.1 h
            obtain ⟨u, hu⟩ := (ih c q (fun r ds hd => hs (i :: r) ds (.component hc hd))).1 hq
            exact ⟨u, .component ((parseUnsigned_iff _ _ _).1 hi).1 hc hu⟩
          · exact absurd h (by simp)
        · exact absurd h (by simp)
      · rintro ⟨u, h⟩
        cases h with
        | component h1 h2 h3 =>
          rename_i i c q
          have hlt : i < cs.length := (List.getElem?_eq_some_iff.1 h2).1
          have hl := hs [] cs (.here _)
          rw [(parseUnsigned_iff _ _ i).2 ⟨h1, by omega⟩]
          simp only [h2]
          rw [(ih c q (fun r ds hd => hs (i :: r) ds (.component h2 hd))).2 ⟨u, h3⟩]
          rfl

theorem extract_iff (t : Ty) (p : Path) (u : Ty) : t.extract p = .ok u ↔ Child t p u := by
  induction p generalizing t with
  | nil =>
    rw [Ty.extract]
    constructor
    · intro h; cases h; exact .here _
    · intro h; cases h; rfl
  | cons i p ih =>
    rw [Ty.extract, Res.bind_eq_ok]
    constructor
    · rintro ⟨c, h1, h2⟩
      cases t <;> simp only [Ty.child] at h1
      case tuple cs =>
        split at h1
        · cases h1; rename_i hc; exact .component hc ((ih c).1 h2)
        · cases h1
      case struct cs =>
        split at h1
        · cases h1; rename_i hc; exact .field hc ((ih _).1 h2)
        · cases h1
      case enum cs =>
        split at h1
        · cases h1; rename_i hc; exact .case hc ((ih _).1 h2)
        · cases h1
      all_goals cases h1
    · intro h
      cases h with
      | case h1 h2 => exact ⟨_, by simp only [Ty.child, h1], (ih _).2 h2⟩
      | field h1 h2 => exact ⟨_, by simp only [Ty.child, h1], (ih _).2 h2⟩
      | component h1 h2 => exact ⟨_, by simp only [Ty.child, h1], (ih _).2 h2⟩

theorem extract_no_ub (t : Ty) (p : Path) : t.extract p ≠ .error .ub := by
  induction p generalizing t with
  | nil => simp [Ty.extract]
  | cons i p ih =>
    rw [Ty.extract]
    cases t <;> simp only [Ty.child, Res.bind_error]
    case tuple cs => split <;> simp [ih]
    case struct cs => split <;> simp [ih]
    case enum cs => split <;> simp [ih]
    all_goals simp

theorem Spec.Walk.child {t : Ty} {ls : List Str} {p : Path} {u : Ty} (h : Walk t ls p u) : Child t p u := by
  induction h with
  | here t => exact .here t
  | case h1 _ ih => exact .case h1.1 ih
  | field h1 _ ih => exact .field h1.1 ih
  | component _ h2 _ ih => exact .component h2 ih

theorem firstAt_of_nodup {fs : List (Str × Ty)} {i : Nat} {l : Str} {c : Ty}
    (hn : (fs.map (·.1)).Nodup) (h : fs[i]? = some (l, c)) : FirstAt l fs i c := by
  refine ⟨h, fun j u hj hu => ?_⟩
  have h1 : (fs.map (·.1))[i]? = some l := by simp [h]
  have h2 : (fs.map (·.1))[j]? = some l := by simp [hu]
  have hi := (List.getElem?_eq_some_iff.1 h1).1
  have hp := List.pairwise_iff_getElem.1 hn j i (by omega) hi hj
  rw [List.getElem?_eq_some_iff] at h1 h2
  exact hp (by rw [h1.2, h2.2])

theorem Spec.Child.walk {t : Ty} {p : Path} {u : Ty} (h : Child t p u) (hg : GoodLabels t) :
    ∃ ls, (∀ s ∈ ls, '.' ∉ s) ∧ ls.length = p.length ∧ Walk t ls p u := by
  induction h with
  | here t => exact ⟨[], by simp, rfl, .here t⟩
  | @case cs l i c p u h1 h2 ih =>
    obtain ⟨ls, a, b, w⟩ := ih (fun q v hq => hg (i :: q) v (.case h1 hq))
    obtain ⟨n1, n2⟩ := hg [] _ (.here _)
    refine ⟨l :: ls, ?_, by simp [b], .case (firstAt_of_nodup n1 h1) w⟩
    intro s hs
    rcases List.mem_cons.1 hs with rfl | hs
    · exact n2 _ (List.mem_of_getElem? h1)
    · exact a s hs
  | @field cs l i c p u h1 h2 ih =>
    obtain ⟨ls, a, b, w⟩ := ih (fun q v hq => hg (i :: q) v (.field h1 hq))
    obtain ⟨n1, n2⟩ := hg [] _ (.here _)
    refine ⟨l :: ls, ?_, by simp [b], .field (firstAt_of_nodup n1 h1) w⟩
    intro s hs
    rcases List.mem_cons.1 hs with rfl | hs
    · exact n2 _ (List.mem_of_getElem? h1)
    · exact a s hs
  | @component cs i c p u h1 h2 ih =>
    obtain ⟨ls, a, b, w⟩ := ih (fun q v hq => hg (i :: q) v (.component h1 hq))
    obtain ⟨ds, d1, d2, d3, d4⟩ := decDigits_spec i
    refine ⟨decDigits i :: ls, ?_, by simp [b], .component ⟨ds, d1, d2, Or.inl d3, d4.symm⟩ h1 w⟩
    intro s hs
    rcases List.mem_cons.1 hs with rfl | hs
    · intro hm; exact absurd (decDigits_isDigit hm) (by decide)
    · exact a s hs

theorem Spec.GoodLabels.small {t : Ty} (h : GoodLabels t) : SmallTuples t := fun p _ hc => h p _ hc

end Verif
