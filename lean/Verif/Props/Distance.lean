import Verif.Proof.Distance
import Verif.Props.Form

/-! # C144: encodings differ in as many bits as the values -/

namespace Verif.Props

open Verif Spec

/-! ## C144 -/

theorem fits_distance {chk : Bool} {t : Ty} {v v' : Val} (h : Fits chk t v) (hf : SameForm v v') (ht : Typed t v')
    {l : Layout} (hl : Layout.new chk t = .ok l) : ∃ size place place' w w',
      CodedW chk v [] l size place [] ∧ CodedW chk v' [] l size place' [] ∧
      Overlaid chk v [] l size w ∧ Overlaid chk v' [] l size w' ∧ (∀ i, (w' i).isSome = (w i).isSome) ∧
      countW (diffW w w') (8 * size) = apart v v' := by
  have h' := Fits.sameForm h hf ht
  have hw := h.total
  have hw' := h'.total
  rw [weight_eq v []] at hw
  rw [weight_eq v' []] at hw'
  exact distance chk _ t (Nat.le_refl _) h.nodes h.inhab v v' h.typed ht hf [] l hl (h.tags l hl) (h'.tags l hl)
    h.strings h'.strings (by omega) (by omega)

theorem getD_unlike {x y : Option Bool} (h : y.isSome = x.isSome) (b : Bool) :
    (x.getD b != y.getD b) = (unlike x y).isSome := by
  cases x with
  | none =>
    cases y with
    | none => simp [unlike]
    | some _ => cases h
  | some x =>
    cases y with
    | none => cases h
    | some y => cases x <;> cases y <;> rfl

theorem getD_changed {x y : Option Bool} (h : y.isSome = x.isSome) {b : Bool} (hb : ∀ z, x = some z → b = z) :
    (b != y.getD b) = (unlike x y).isSome := by
  rw [← getD_unlike h b]
  cases x with
  | none => rfl
  | some x => rw [hb x rfl]; rfl

/-- C144. The encodings of two values of the same form in the same buffer differ in as many bits as the numbers and
letters of the values. -/
theorem C144_distance (chk : Bool) (t : Ty) (v v' : Val) (h : Fits chk t v) (hf : SameForm v v') (ht : Typed t v')
    (l : Layout) (hl : Layout.new chk t = .ok l) (src src' : DataSource) (hs : Presents src v [])
    (hs' : Presents src' v' []) (size : Nat) (hsize : l.sizeWithSource chk src = .ok size) (buf : Bytes)
    (hb : size ≤ buf.length) : ∃ a b : Bytes, l.encode chk src buf = .ok (a, size) ∧
      l.encode chk src' buf = .ok (b, size) ∧ differing a b (8 * size) = apart v v' := by
  obtain ⟨size', pl, pl', w, w', hc, hc', ho, ho', hsome, hcount⟩ := fits_distance h hf ht hl
  have := hc.szs src hs
  rw [hsize] at this
  cases this
  obtain ⟨a, a1, _⟩ := hc.enc buf hb
  obtain ⟨b, b1, _⟩ := hc'.enc buf hb
  refine ⟨a, b, a1 src hs, b1 src' hs', ?_⟩
  rw [← hcount, differing, countW]
  congr 1
  funext i
  rw [bitAt_eq, bitAt_eq, ho.enc src buf _ hs hb (a1 src hs) i, ho'.enc src' buf _ hs' hb (b1 src' hs') i]
  exact getD_unlike (hsome i) _

/-- C144. Where a value is read, whoever wrote the bytes, encoding another value of the same form changes as many bits
as the values differ in, and no byte behind the encoding. -/
theorem C144_update (chk : Bool) (t : Ty) (v v' : Val) (h : Fits chk t v) (hf : SameForm v v') (ht : Typed t v')
    (l : Layout) (hl : Layout.new chk t = .ok l) (src' : DataSource) (hs' : Presents src' v' []) (data : Bytes)
    (hp : Presents (l.source chk data) v []) (size : Nat)
    (hsize : l.sizeWithSource chk (l.source chk data) = .ok size) (hd : size ≤ data.length) :
    ∃ b : Bytes, l.encode chk src' data = .ok (b, size) ∧ b.drop size = data.drop size ∧
      differing data b (8 * size) = apart v v' := by
  obtain ⟨size', pl, pl', w, w', hc, hc', ho, ho', hsome, hcount⟩ := fits_distance h hf ht hl
  have := hc.szs _ hp
  rw [hsize] at this
  cases this
  obtain ⟨b, b1, b2, b3, _⟩ := hc'.enc data hd
  refine ⟨b, b1 src' hs', ?_, ?_⟩
  · refine bytes_ext (by simp [b2]) fun i => ?_
    rw [bit_drop, bit_drop]
    exact b3 _ (by omega)
  · rw [← hcount, differing, countW]
    congr 1
    funext i
    rw [bitAt_eq, bitAt_eq, ho'.enc src' data _ hs' hd (b1 src' hs') i]
    exact getD_changed (hsome i) fun z hz => ho.seen data hd hp i z hz

/-- The samples differ in nine bits: two of the number, two in each of the three letters, and the truth value. -/
example : apart recVal redVal = 9 := by decide

example (buf : Bytes) (hb : 24 ≤ buf.length) : ∃ l a b, Layout.new true recTy = .ok l ∧
    l.encode true recSrc buf = .ok (a, 24) ∧ l.encode true redSrc buf = .ok (b, 24) ∧
    differing a b 192 = 9 := by
  obtain ⟨l, hl, hsize⟩ := rec_size
  obtain ⟨a, b, h1, h2, h3⟩ := C144_distance true recTy recVal redVal (rec_fits true) red_form red_typed l hl recSrc
    redSrc rec_presents red_presents 24 hsize buf hb
  exact ⟨l, a, b, hl, h1, h2, h3.trans (by decide)⟩

/-- C144. Two values of the same form differ in no bit if and only if they are encoded alike. -/
theorem C144_same (chk : Bool) (t : Ty) (v v' : Val) (h : Fits chk t v) (hf : SameForm v v') (ht : Typed t v')
    (l : Layout) (hl : Layout.new chk t = .ok l) (src : DataSource) (hs : Presents src v []) (src' : DataSource)
    (hs' : Presents src' v' []) (size : Nat) (hsize : l.sizeWithSource chk src = .ok size) :
    apart v v' = 0 ↔ ∀ buf : Bytes, size ≤ buf.length → l.encode chk src buf = l.encode chk src' buf := by
  constructor
  · intro h0 buf hb
    obtain ⟨size', pl, pl', w, w', hc, hc', ho, ho', hsome, hcount⟩ := fits_distance h hf ht hl
    have := hc.szs src hs
    rw [hsize] at this
    cases this
    obtain ⟨a, a1, a2, a3, _⟩ := hc.enc buf hb
    obtain ⟨b, b1, b2, b3, _⟩ := hc'.enc buf hb
    rw [a1 src hs, b1 src' hs']
    congr 2
    refine bytes_ext (by omega) fun i => ?_
    have ea := ho.enc src buf _ hs hb (a1 src hs) i
    have eb := ho'.enc src' buf _ hs' hb (b1 src' hs') i
    by_cases hi : i < 8 * size
    · rw [h0, countW, List.countP_eq_zero] at hcount
      have h1 := hcount i (List.mem_range.2 hi)
      have h2 := getD_unlike (hsome i) (bit buf i)
      simp only [diffW] at h1
      rw [Bool.eq_false_iff.2 h1] at h2
      rw [show bit a i = (w i).getD (bit buf i) from ea, show bit b i = (w' i).getD (bit buf i) from eb]
      simpa using h2
    · rw [a3 i (by omega), b3 i (by omega)]
  · intro hall
    obtain ⟨a, b, h1, h2, h3⟩ := C144_distance chk t v v' h hf ht l hl src src' hs hs' size hsize
      (List.replicate size 0) (by simp)
    rw [hall _ (by simp), h2] at h1
    cases h1
    rw [← h3, differing]
    simp

example : ∃ l, Layout.new true recTy = .ok l ∧
    ¬ ∀ buf : Bytes, 24 ≤ buf.length → l.encode true recSrc buf = l.encode true redSrc buf := by
  obtain ⟨l, hl, hsize⟩ := rec_size
  exact ⟨l, hl, fun hall => absurd ((C144_same true recTy recVal redVal (rec_fits true) red_form red_typed l hl recSrc
    rec_presents redSrc red_presents 24 hsize).2 hall) (by decide)⟩

end Verif.Props
