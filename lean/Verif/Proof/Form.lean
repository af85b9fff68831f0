import Verif.Spec.Form
import Verif.Proof.Overlay

/-! # Values of the same form are written to the same bits -/

namespace Verif

open Spec

/-- What values of the same form share in a leaf: the length of a string, the tag of an enum. -/
def leafForm : Path × Leaf → Path × Nat × Nat
  | (q, .prim _) => (q, 0, 0)
  | (q, .str bs) => (q, 1, bs.length)
  | (q, .tag i) => (q, 2, i)

theorem sameForm_leaves {v v' : Val} (h : SameForm v v') :
    (∀ p, (leaves v p).map leafForm = (leaves v' p).map leafForm) ∧
    ∀ vs vs', v = .seq vs → v' = .seq vs' → ∀ p i,
      (leavesFrom vs p i).map leafForm = (leavesFrom vs' p i).map leafForm := by
  induction h with
  | unit => exact ⟨fun _ => rfl, fun _ _ h => nomatch h⟩
  | prim v v' => exact ⟨fun _ => rfl, fun _ _ h => nomatch h⟩
  | str h => exact ⟨fun p => by simp [leaves, leafForm, h], fun _ _ h => nomatch h⟩
  | nil =>
    refine ⟨fun _ => rfl, fun vs vs' h h' p i => ?_⟩
    cases h
    cases h'
    rfl
  | cons _ _ ih ihs =>
    have key := fun p i => by
      have := ihs.2 _ _ rfl rfl p (i + 1)
      exact congr (congrArg (· ++ ·) (ih.1 (p ++ [i]))) this
    refine ⟨fun p => ?_, fun vs vs' h h' p i => ?_⟩
    · simpa [leaves, leavesFrom] using key p 0
    · cases h
      cases h'
      simpa [leavesFrom] using key p i
  | case _ ih => exact ⟨fun p => by simp [leaves, leafForm, ih.1], fun _ _ h => nomatch h⟩

theorem SameForm.symm {v v' : Val} (h : SameForm v v') : SameForm v' v := by
  induction h with
  | unit => exact .unit
  | prim v v' => exact .prim _ _
  | str h => exact .str h.symm
  | nil => exact .nil
  | cons _ _ ih ihs => exact .cons ih ihs
  | case _ ih => exact .case ih

/-- The leaf of the other value at the same path. -/
theorem sameForm_leaf {v v' : Val} (h : SameForm v v') {p q : Path} {x : Leaf} (hx : (q, x) ∈ leaves v' p) :
    ∃ y, (q, y) ∈ leaves v p ∧ leafForm (q, y) = leafForm (q, x) := by
  have h1 := List.mem_map_of_mem (f := leafForm) hx
  rw [← (sameForm_leaves h).1 p] at h1
  obtain ⟨⟨r, y⟩, hy, he⟩ := List.mem_map.1 h1
  have : r = q := by
    cases x <;> cases y <;> simp [leafForm] at he <;> first | exact he | exact he.1
  subst this
  exact ⟨y, hy, he⟩

theorem sameForm_tag {v v' : Val} (h : SameForm v v') {p q : Path} {i : Nat} (hx : (q, Leaf.tag i) ∈ leaves v' p) :
    (q, Leaf.tag i) ∈ leaves v p := by
  obtain ⟨y, hy, he⟩ := sameForm_leaf h hx
  cases y <;> simp [leafForm] at he
  rwa [he] at hy

theorem sameForm_str {v v' : Val} (h : SameForm v v') {p q : Path} {bs : Bytes}
    (hx : (q, Leaf.str bs) ∈ leaves v' p) : ∃ bs', (q, Leaf.str bs') ∈ leaves v p ∧ bs'.length = bs.length := by
  obtain ⟨y, hy, he⟩ := sameForm_leaf h hx
  cases y <;> simp [leafForm] at he
  exact ⟨_, hy, he⟩

theorem Chosen.of_tags {ls ls' : List (Path × Leaf)} (hls : ∀ q i, (q, Leaf.tag i) ∈ ls' → (q, Leaf.tag i) ∈ ls)
    {l m : Layout} (h : Chosen ls' l m) : Chosen ls l m := by
  induction h with
  | self => exact .self _
  | case h1 h2 h3 _ ih => exact .case h1 (hls _ _ h2) h3 ih

/-- The limits of the format hold for all values of the same form. -/
theorem Fits.sameForm {chk : Bool} {t : Ty} {v v' : Val} (h : Fits chk t v) (hf : SameForm v v') (ht : Typed t v') :
    Fits chk t v' where
  inhab := h.inhab
  nodes := h.nodes
  tags l hl m hm := h.tags l hl m (Chosen.of_tags (fun _ _ => sameForm_tag hf) hm)
  typed := ht
  strings q bs hq := by
    obtain ⟨bs', h1, h2⟩ := sameForm_str hf hq
    rw [← h2]; exact h.strings q bs' h1
  total := by
    have key : ∀ v, weight v = 64 + (((leaves v []).map leafForm).map fun x =>
        if x.2.1 = 1 then 64 + x.2.2 else 64).sum := by
      intro v
      rw [weight, List.map_map]
      congr 3
      funext ⟨q, x⟩
      cases x <;> simp [leafForm]
    have := h.total
    rw [key, (sameForm_leaves hf).1, ← key] at this
    exact this

/-- The answers of the second source, but the tags and lengths of the first. -/
def mixedSource (src src' : DataSource) : DataSource := { src' with tag := src.tag, length := src.length }

theorem mixed_presents {v v' : Val} (h : SameForm v v') {p : Path} {src src' : DataSource} (hs : Presents src v p)
    (hs' : Presents src' v' p) : Presents (mixedSource src src') v' p := by
  intro q x hx
  have h1 := hs' q x hx
  cases x with
  | prim v => exact h1
  | str bs =>
    obtain ⟨bs', h2, h3⟩ := sameForm_str h hx
    have h4 := (hs q _ h2).1
    exact ⟨by rw [← h3]; exact h4, h1.2⟩
  | tag i => exact hs q _ (sameForm_tag h hx)

mutual
theorem size_mixed (chk : Bool) (src src' : DataSource) : ∀ l : Layout,
    l.sizeWithSource chk (mixedSource src src') = l.sizeWithSource chk src
  | .mk _ _ _ _ vars => by rw [Layout.sizeWithSource, Layout.sizeWithSource, varsSize_mixed chk src src' vars]
theorem varsSize_mixed (chk : Bool) (src src' : DataSource) : ∀ (vs : List VarField) (o : Nat),
    varsSize chk (mixedSource src src') vs o = varsSize chk src vs o
  | [], _ => by rw [varsSize, varsSize]
  | v :: vs, o => by
    rw [varsSize, varsSize, varSize_mixed chk src src' v]
    congr 1
    funext o'
    exact varsSize_mixed chk src src' vs o'
theorem varSize_mixed (chk : Bool) (src src' : DataSource) : ∀ (v : VarField) (o : Nat),
    varSize chk (mixedSource src src') v o = varSize chk src v o
  | .string _ _, _ => by rw [varSize, varSize]; rfl
  | .enum path _ cases, o => by
    rw [varSize, varSize]
    show (src.tag path >>= _) = _
    congr 1
    funext k
    rw [caseSize_mixed chk src src' cases k]
theorem caseSize_mixed (chk : Bool) (src src' : DataSource) : ∀ (ls : List Layout) (k : Nat),
    caseSizeWithSource chk (mixedSource src src') ls k = caseSizeWithSource chk src ls k
  | [], _ => by rw [caseSizeWithSource, caseSizeWithSource]
  | l :: _, 0 => by rw [caseSizeWithSource, caseSizeWithSource, size_mixed chk src src' l]
  | _ :: ls, k + 1 => by rw [caseSizeWithSource, caseSizeWithSource, caseSize_mixed chk src src' ls k]
end

mutual
theorem written_mixed (chk : Bool) (src src' : DataSource) : ∀ (l : Layout) (i : Nat),
    l.written chk (mixedSource src src') i = l.written chk src i
  | .mk _ _ _ _ vars, i => by rw [Layout.written, Layout.written, varsWritten_mixed chk src src' vars]
theorem varsWritten_mixed (chk : Bool) (src src' : DataSource) : ∀ (vs : List VarField) (o i : Nat),
    varsWritten chk (mixedSource src src') vs o i = varsWritten chk src vs o i
  | [], _, _ => by rw [varsWritten, varsWritten]
  | v :: vs, o, i => by
    rw [varsWritten, varsWritten, varWritten_mixed chk src src' v, varSize_mixed]
    congr 1
    split
    · exact varsWritten_mixed chk src src' vs _ i
    · rfl
theorem varWritten_mixed (chk : Bool) (src src' : DataSource) : ∀ (v : VarField) (i : Nat),
    varWritten chk (mixedSource src src') v i = varWritten chk src v i
  | .string _ _, _ => by rw [varWritten, varWritten]; rfl
  | .enum path _ cases, i => by
    rw [varWritten, varWritten]
    show (match src.tag path with | .ok k => _ | .error _ => _) = _
    cases src.tag path with
    | ok k => exact caseWritten_mixed chk src src' cases k i
    | error => rfl
theorem caseWritten_mixed (chk : Bool) (src src' : DataSource) : ∀ (ls : List Layout) (k i : Nat),
    caseWritten chk (mixedSource src src') ls k i = caseWritten chk src ls k i
  | [], _, _ => by rw [caseWritten, caseWritten]
  | l :: _, 0, i => by rw [caseWritten, caseWritten, written_mixed chk src src' l]
  | _ :: ls, k + 1, i => by rw [caseWritten, caseWritten, caseWritten_mixed chk src src' ls k]
end

/-- Encoding values of the same form sets the same bits. -/
theorem sameForm_overlaid {chk : Bool} {t : Ty} {v v' : Val} (h : Fits chk t v) {l : Layout}
    (hl : Layout.new chk t = .ok l) (hf : SameForm v v') (ht : Typed t v') {src src' : DataSource}
    (hs : Presents src v []) (hs' : Presents src' v' []) :
    ∃ size place place' w w', CodedW chk v [] l size place [] ∧ Overlaid chk v [] l size w ∧
      countW w (8 * size) = valueBits v t ∧
      CodedW chk v' [] l size place' [] ∧ Overlaid chk v' [] l size w' ∧ ∀ i, (w' i).isSome = (w i).isSome := by
  obtain ⟨size, place, w, hc, ho, hn⟩ := fits_overlaid h hl
  obtain ⟨size', place', w', hc', ho', _⟩ := fits_overlaid (Fits.sameForm h hf ht) hl
  have hm := mixed_presents hf hs hs'
  have h1 := hc'.szs _ hm
  rw [size_mixed, hc.szs _ hs] at h1
  cases h1
  refine ⟨size, place, place', w, w', hc, ho, hn, hc', ho', fun i => ?_⟩
  rw [ho'.shape _ hm, written_mixed, ho.shape _ hs]

end Verif
