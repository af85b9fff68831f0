import Verif.Proof.Form
import Verif.Props.Overlay

/-! # C143: values of the same form are written to the same places -/

namespace Verif.Props

open Verif Spec

/-! ## C143 -/

theorem getD_over {x y : Option Bool} (h : y.isSome = x.isSome) (b : Bool) : y.getD b = y.getD (x.getD b) := by
  cases x <;> cases y <;> first | rfl | cases h

theorem getD_back {x y : Option Bool} (h : y.isSome = x.isSome) (b : Bool) :
    x.getD (y.getD (x.getD b)) = x.getD b := by
  cases x <;> cases y <;> first | rfl | cases h

/-- C143. All values of one form are encoded in as many bytes and written to the same bits, as many as a value has:
which bits these are does not depend on numbers and letters, nor on the buffer. -/
theorem C143_places (chk : Bool) (t : Ty) (v : Val) (h : Fits chk t v) (l : Layout)
    (hl : Layout.new chk t = .ok l) (src : DataSource) (hs : Presents src v []) :
    ∃ (size : Nat) (place : Nat → Bool), (∀ i, place i = true → i < 8 * size) ∧
      (List.range (8 * size)).countP place = valueBits v t ∧
      ∀ v', SameForm v v' → Typed t v' → ∃ bits : Nat → Bool, ∀ src', Presents src' v' [] →
        l.sizeWithSource chk src' = .ok size ∧
        ∀ buf : Bytes, size ≤ buf.length → ∃ buf' : Bytes, l.encode chk src' buf = .ok (buf', size) ∧
          buf'.length = buf.length ∧ ∀ i, bitAt buf' i = if place i then bits i else bitAt buf i := by
  obtain ⟨size, pl, w, hc, ho, hn⟩ := fits_overlaid h hl
  have hw : (fun i => (w i).isSome) = l.written chk src := funext (ho.shape src hs)
  refine ⟨size, l.written chk src, fun i hi => ho.dom i (by rw [ho.shape src hs]; exact hi), ?_, fun v' hf ht => ?_⟩
  · rw [← hw]; exact hn
  · obtain ⟨size', pl', w', hc', ho', _⟩ := fits_overlaid (Fits.sameForm h hf ht) hl
    refine ⟨fun i => (w' i).getD false, fun src' hs' => ?_⟩
    have hm := mixed_presents hf hs hs'
    have h1 := hc'.szs _ hm
    rw [size_mixed, hc.szs _ hs] at h1
    cases h1
    refine ⟨hc'.szs _ hs', fun buf hb => ?_⟩
    obtain ⟨b, h1, h2, _⟩ := hc'.enc buf hb
    refine ⟨b, h1 src' hs', h2, fun i => ?_⟩
    rw [bitAt_eq, bitAt_eq, ho'.enc src' buf _ hs' hb (h1 src' hs') i]
    have h3 := ho'.shape _ hm i
    rw [written_mixed] at h3
    rw [← h3]
    cases hwi : w' i <;> simp [hwi]

/-- C143. A value that is encoded over another one of the same form leaves nothing of that: the bytes are those of
encoding it right away.  Encoding the first value again gives back the bytes there were. -/
theorem C143_overwrite (chk : Bool) (t : Ty) (v v' : Val) (h : Fits chk t v) (hf : SameForm v v') (ht : Typed t v')
    (l : Layout) (hl : Layout.new chk t = .ok l) (src src' : DataSource) (hs : Presents src v [])
    (hs' : Presents src' v' []) (size : Nat) (hsize : l.sizeWithSource chk src = .ok size) (buf : Bytes)
    (hb : size ≤ buf.length) : ∃ a b : Bytes, l.encode chk src buf = .ok (a, size) ∧
      l.encode chk src' a = .ok (b, size) ∧ l.encode chk src' buf = .ok (b, size) ∧
      l.encode chk src b = .ok (a, size) := by
  obtain ⟨size', pl, pl', w, w', hc, ho, _, hc', ho', hww⟩ := sameForm_overlaid h hl hf ht hs hs'
  have := hc.szs src hs
  rw [hsize] at this
  cases this
  obtain ⟨a, a1, a2, _⟩ := hc.enc buf hb
  obtain ⟨b, b1, b2, _⟩ := hc'.enc a (by omega)
  obtain ⟨c, c1, c2, _⟩ := hc'.enc buf hb
  obtain ⟨d, d1, d2, _⟩ := hc.enc b (by omega)
  have ea := ho.enc src buf _ hs hb (a1 src hs)
  have eb := ho'.enc src' a _ hs' (by omega) (b1 src' hs')
  have ec := ho'.enc src' buf _ hs' hb (c1 src' hs')
  have ed := ho.enc src b _ hs (by omega) (d1 src hs)
  have hbc : c = b := bytes_ext (by omega) fun i => by
    have e1 := ea i
    have e2 := eb i
    have e3 := ec i
    have e4 := hww i
    simp only at e1 e2 e3
    rw [e3, e2, e1]
    exact getD_over e4 _
  have had : d = a := bytes_ext (by omega) fun i => by
    have e1 := ea i
    have e2 := eb i
    have e3 := ed i
    have e4 := hww i
    simp only at e1 e2 e3
    rw [e3, e2, e1]
    exact getD_back e4 _
  exact ⟨a, b, a1 src hs, b1 src' hs', hbc ▸ c1 src' hs', had ▸ d1 src hs⟩

/-- C143. Bytes in which a value is read, whoever wrote them, may be overwritten by a value of the same form and then
by the first value again: these are the bytes there were, bit for bit. -/
theorem C143_undo (chk : Bool) (t : Ty) (v v' : Val) (h : Fits chk t v) (hf : SameForm v v') (ht : Typed t v')
    (l : Layout) (hl : Layout.new chk t = .ok l) (src' : DataSource) (hs' : Presents src' v' []) (data : Bytes)
    (hp : Presents (l.source chk data) v []) (size : Nat)
    (hsize : l.sizeWithSource chk (l.source chk data) = .ok size) (hd : size ≤ data.length) :
    ∃ b : Bytes, l.encode chk src' data = .ok (b, size) ∧ Presents (l.source chk b) v' [] ∧
      ∀ src, Presents src v [] → l.encode chk src b = .ok (data, size) := by
  have he := (C121_exactly chk t v h l hl _ hp size hsize data hd).1 hp
  obtain ⟨a, b, h1, h2, _, h4⟩ :=
    C143_overwrite chk t v v' h hf ht l hl _ src' hp hs' size hsize data hd
  rw [he] at h1
  cases h1
  obtain ⟨size', pl, pl', w, w', hc, ho, _, hc', ho', _⟩ := sameForm_overlaid h hl hf ht hp hs'
  have := hc.szs _ hp
  rw [hsize] at this
  cases this
  obtain ⟨c, c1, c2, _, c4⟩ := hc'.enc data hd
  have h3 := c1 src' hs'
  rw [h2] at h3
  cases h3
  refine ⟨b, h2, ((c4 b (by omega) fun _ _ => rfl).1.1 lucky_nil).2, fun src hs => ?_⟩
  obtain ⟨d, d1, _⟩ := hc.enc b (by omega)
  have h5 := d1 _ hp
  rw [h4] at h5
  cases h5
  exact d1 src hs

/-- `{ a: 7, b: "no", c: y("B", false) }` -/
def redVal : Val :=
  .seq [.prim ⟨.u16, (7 : BitVec 16)⟩, .str [110, 111], .case 1 (.seq [.str [66], .prim ⟨.bool, false⟩])]

def redSrc : DataSource :=
  (((((IntermediateDataSource.new.addPrimitive [0] ⟨.u16, (7 : BitVec 16)⟩).addString [1] ['n', 'o']).addCaseTag
    [2] 1).addString [2, 1, 0] ['B']).addPrimitive [2, 1, 1] ⟨.bool, false⟩).source

theorem red_form : SameForm recVal redVal :=
  .cons (.prim _ _) (.cons (.str rfl) (.cons (.case (.cons (.str rfl) (.cons (.prim _ _) .nil))) .nil))

theorem red_typed : Typed recTy redVal := by
  refine .struct rfl ?_
  intro i c v hc hv
  match i, hc, hv with
  | 0, hc, hv => cases hc; cases hv; exact .prim ⟨.u16, (7 : BitVec 16)⟩
  | 1, hc, hv => cases hc; cases hv; exact .str _
  | 2, hc, hv =>
    cases hc; cases hv
    refine .enum rfl (.tuple rfl ?_)
    intro i c v hc hv
    match i, hc, hv with
    | 0, hc, hv => cases hc; cases hv; exact .str _
    | 1, hc, hv => cases hc; cases hv; exact .prim ⟨.bool, false⟩

theorem red_presents : Presents redSrc redVal [] := by
  intro q l h
  simp only [redVal, leaves, leavesFrom, List.nil_append, List.append_nil, List.cons_append, List.mem_cons,
    List.not_mem_nil, or_false, Prod.mk.injEq] at h
  rcases h with ⟨rfl, rfl⟩ | ⟨rfl, rfl⟩ | ⟨rfl, rfl⟩ | ⟨rfl, rfl⟩ | ⟨rfl, rfl⟩
  · exact show redSrc.prim .u16 [0] = .ok (7 : BitVec 16) from rfl
  · exact ⟨rfl, rfl⟩
  · exact show redSrc.tag [2] = .ok 1 from rfl
  · exact ⟨rfl, rfl⟩
  · exact show redSrc.prim .bool [2, 1, 1] = .ok false from rfl

/-- The sample is overwritten and restored. -/
example (buf : Bytes) (hb : 24 ≤ buf.length) : ∃ l a b, Layout.new true recTy = .ok l ∧
    l.encode true recSrc buf = .ok (a, 24) ∧ l.encode true redSrc a = .ok (b, 24) ∧
    l.encode true redSrc buf = .ok (b, 24) ∧ l.encode true recSrc b = .ok (a, 24) := by
  obtain ⟨l, hl, hsize⟩ := rec_size
  obtain ⟨a, b, h⟩ := C143_overwrite true recTy recVal redVal (rec_fits true) red_form red_typed l hl recSrc redSrc
    rec_presents red_presents 24 hsize buf hb
  exact ⟨l, a, b, hl, h⟩

/-- All values of the form of the sample are written to the same 114 bits. -/
example : ∃ (l : Layout) (place : Nat → Bool), Layout.new true recTy = .ok l ∧
    (List.range 192).countP place = 114 ∧ ∀ buf : Bytes, 24 ≤ buf.length → ∃ buf' : Bytes,
      l.encode true redSrc buf = .ok (buf', 24) ∧ ∀ i, place i = false → bitAt buf' i = bitAt buf i := by
  obtain ⟨l, hl, hsize⟩ := rec_size
  obtain ⟨size, place, _, h2, h3⟩ := C143_places true recTy recVal (rec_fits true) l hl recSrc rec_presents
  obtain ⟨_, h4⟩ := h3 recVal (.cons (.prim _ _) (.cons (.str rfl) (.cons (.case (.cons (.str rfl) (.cons (.prim _ _)
    .nil))) .nil))) rec_typed
  have h5 := (h4 recSrc rec_presents).1
  rw [hsize] at h5
  cases h5
  obtain ⟨bits, h6⟩ := h3 redVal red_form red_typed
  refine ⟨l, place, hl, h2.trans (by decide), fun buf hb => ?_⟩
  obtain ⟨b, h7, _, h8⟩ := (h6 redSrc red_presents).2 buf hb
  exact ⟨b, h7, fun i hi => by rw [h8 i, hi]; rfl⟩

/-- The form matters: a shorter string leaves a letter of the longer one behind. -/
example : (do
      let l ← Layout.new true .string
      let (a, _) ← l.encode true (IntermediateDataSource.new.addString [] ['h', 'i']).source (List.replicate 8 0)
      let (b, _) ← l.encode true (IntermediateDataSource.new.addString [] ['o']).source a
      let (c, _) ← l.encode true (IntermediateDataSource.new.addString [] ['o']).source (List.replicate 8 0)
      pure (b, c)) = (.ok ([1, 0, 0, 0, 111, 105, 0, 0], [1, 0, 0, 0, 111, 0, 0, 0]) : Res (Bytes × Bytes)) := by
  decide

end Verif.Props
