import Verif.Proof.Smooth
import Verif.Proof.Readable
import Verif.Props.Util

/-! # Properties C18–C30 and C104: layouts and the binary encoding (`src/core/marshaller.rs`) -/

namespace Verif.Props

open Verif Spec

/-! ## A sample used below -/

/-- `{ a: u16, b: string, c: { x: u64 | y: (string, bool) | z: () } }` -/
def recTy : Ty :=
  .struct [(['a'], .prim .u16), (['b'], .string),
    (['c'], .enum [(['x'], .prim .u64), (['y'], .tuple [.string, .prim .bool]), (['z'], .unit)])]

/-- `{ a: 515, b: "hi", c: y("A", true) }` -/
def recVal : Val :=
  .seq [.prim ⟨.u16, (515 : BitVec 16)⟩, .str [104, 105],
    .case 1 (.seq [.str [65], .prim ⟨.bool, true⟩])]

/-- A data source holding that value. -/
def recSrc : DataSource :=
  ((((((IntermediateDataSource.new.addPrimitive [0] ⟨.u16, (515 : BitVec 16)⟩).addString [1] ['h', 'i']).addCaseTag
    [2] 1).addString [2, 1, 0] ['A']).addPrimitive [2, 1, 1] ⟨.bool, true⟩).addPrimitive [2, 0]
      ⟨.u64, (9 : BitVec 64)⟩).source

theorem rec_inhab : Inhab recTy := by
  refine .struct (by simp) ?_
  simp only [List.forall_mem_cons, List.not_mem_nil, false_imp_iff, implies_true, and_true]
  refine ⟨.prim _, .string, .enum (by simp) ?_⟩
  simp only [List.forall_mem_cons, List.not_mem_nil, false_imp_iff, implies_true, and_true]
  refine ⟨.prim _, .tuple (by simp) ?_, .unit⟩
  simp only [List.forall_mem_cons, List.not_mem_nil, false_imp_iff, implies_true, and_true]
  exact ⟨.string, .prim _⟩

theorem rec_enums (chk : Bool) : AllEnums (TagFits chk) recTy := by
  refine .struct ?_
  simp only [List.forall_mem_cons, List.not_mem_nil, false_imp_iff, implies_true, and_true]
  refine ⟨.prim _, .string, .enum ⟨Or.inl (by decide), fun _ => by decide⟩ ?_⟩
  simp only [List.forall_mem_cons, List.not_mem_nil, false_imp_iff, implies_true, and_true]
  refine ⟨.prim _, .tuple ?_, .unit⟩
  simp only [List.forall_mem_cons, List.not_mem_nil, false_imp_iff, implies_true, and_true]
  exact ⟨.string, .prim _⟩

theorem rec_typed : Typed recTy recVal := by
  refine .struct rfl ?_
  intro i c v hc hv
  match i, hc, hv with
  | 0, hc, hv => cases hc; cases hv; exact .prim ⟨.u16, (515 : BitVec 16)⟩
  | 1, hc, hv => cases hc; cases hv; exact .str _
  | 2, hc, hv =>
    cases hc; cases hv
    refine .enum rfl (.tuple rfl ?_)
    intro i c v hc hv
    match i, hc, hv with
    | 0, hc, hv => cases hc; cases hv; exact .str _
    | 1, hc, hv => cases hc; cases hv; exact .prim ⟨.bool, true⟩

theorem rec_leaves : leaves recVal [] =
    [([0], .prim ⟨.u16, (515 : BitVec 16)⟩), ([1], .str [104, 105]), ([2], .tag 1),
      ([2, 1, 0], .str [65]), ([2, 1, 1], .prim ⟨.bool, true⟩)] := rfl

theorem rec_fits (chk : Bool) : Fits chk recTy recVal where
  inhab := rec_inhab
  nodes := by decide
  tags := tagFits_room rec_inhab (by decide) (rec_enums chk) _
  typed := rec_typed
  strings := by
    intro q bs h
    simp [rec_leaves] at h
    rcases h with ⟨_, rfl⟩ | ⟨_, rfl⟩ <;> decide
  total := by decide

theorem rec_presents : Presents recSrc recVal [] := by
  intro q l h
  simp only [rec_leaves, List.mem_cons, List.not_mem_nil, or_false, Prod.mk.injEq] at h
  rcases h with ⟨rfl, rfl⟩ | ⟨rfl, rfl⟩ | ⟨rfl, rfl⟩ | ⟨rfl, rfl⟩ | ⟨rfl, rfl⟩
  · exact show recSrc.prim .u16 [0] = .ok (515 : BitVec 16) from rfl
  · exact ⟨rfl, rfl⟩
  · exact show recSrc.tag [2] = .ok 1 from rfl
  · exact ⟨rfl, rfl⟩
  · exact show recSrc.prim .bool [2, 1, 1] = .ok true from rfl

/-! ## C18 -/

/-- C18. `Layout::new` returns a layout exactly for the types whose tuples, structs and enums are
non-empty. -/
theorem C18_layout_new (chk : Bool) (t : Ty) (hn : nodes t < 2 ^ 59) :
    (∃ l, Layout.new chk t = .ok l) ↔ Inhab t := by
  constructor
  · rintro ⟨l, h⟩
    rw [Layout.new, calculateLayout] at h
    obtain ⟨u, hu, _⟩ := Res.bind_eq_ok.1 h
    exact unroll_inhab chk t [] u hu
  · intro hi
    obtain ⟨_, _, l, hl, _⟩ := unroll_and_layout chk t hi hn []
    exact ⟨l, hl⟩

example (chk : Bool) : ∃ l, Layout.new chk recTy = .ok l :=
  (C18_layout_new chk recTy (by decide)).2 rec_inhab

example (chk : Bool) : ¬ ∃ l, Layout.new chk (.tuple [.string, .struct []]) = .ok l := by
  rw [C18_layout_new chk _ (by decide)]
  intro h
  cases h with
  | tuple _ h => cases h _ (by simp : Ty.struct [] ∈ _) with | struct h _ => exact h rfl

/-! ## C19 -/

theorem nested_facts' {chk : Bool} {t : Ty} (hi : Inhab t) (hn : nodes t < 2 ^ 59) {l m : Layout}
    (hl : Layout.new chk t = .ok l) (hm : Nested l m) : ∃ t' p', TyFacts chk t' p' m :=
  nested_facts chk _ t (Nat.le_refl _) hn hi [] l m hl hm

theorem field_kind {chk : Bool} {t : Ty} {p : Path} {m : Layout} (h : TyFacts chk t p m) {f : FixedField}
    (hf : f ∈ m.fixed) : (∃ q, f.kind = .prim q) ∨ f.kind = .length ∨
      ∃ q o n, f.kind = .bitfield q o n ∧ o + n ≤ 8 * q.size := by
  rcases h.kinds f hf with ⟨g, hg, _, h2⟩ | ⟨b, hb, q, o, _, h2, _, h4⟩
  · obtain ⟨⟨r, s⟩, hx, hxg⟩ := List.mem_filterMap.1 hg
    cases s with
    | prim pr => simp [Slot.fixed] at hxg; subst hxg; exact Or.inl ⟨pr, h2.symm⟩
    | str => simp [Slot.fixed] at hxg; subst hxg; exact Or.inr (Or.inl h2.symm)
    | enum cs => simp [Slot.fixed] at hxg
  · exact Or.inr (Or.inr ⟨q, o, b.numBits, h2, h4⟩)

/-- C19. In the layout of a type and in all case layouts inside it: two fixed-size fields use no common
bit; the machine words they are accessed through have no common byte unless both are tags in one
container; the bits of a field lie inside its word, and its word lies below the variable part. -/
theorem C19_no_overlap (chk : Bool) (t : Ty) (hi : Inhab t) (hn : nodes t < 2 ^ 59) (l m : Layout)
    (hl : Layout.new chk t = .ok l) (hm : Nested l m) :
    (∀ (i j : Nat) (f g : FixedField), m.fixed[i]? = some f → m.fixed[j]? = some g → i ≠ j →
      (∀ b, ¬ (UsesBit f b ∧ UsesBit g b)) ∧
      ((∀ b, ¬ (TouchesByte f b ∧ TouchesByte g b)) ∨ ShareContainer f g)) ∧
    (∀ f ∈ m.fixed, ∀ b, UsesBit f b → TouchesByte f (b / 8)) ∧
    (∀ f ∈ m.fixed, ∀ b, TouchesByte f b → b < m.varOffset) := by
  obtain ⟨t', p', hf⟩ := nested_facts' hi hn hl hm
  have hin : ∀ f ∈ m.fixed, ∀ b, UsesBit f b → f.bitStart ≤ b ∧ b < f.bitStart + f.bitCount := by
    intro f _ b h
    unfold UsesBit at h
    unfold FixedField.bitStart FixedField.bitCount FixedField.size
    cases hk : f.kind <;> simp only [hk] at h ⊢ <;> omega
  have hto : ∀ f : FixedField, ∀ b, TouchesByte f b → f.offset ≤ b ∧ b < f.offset + f.size := by
    intro f b h
    unfold TouchesByte at h
    unfold FixedField.size
    cases hk : f.kind <;> simp only [hk] at h ⊢ <;> omega
  refine ⟨?_, ?_, ?_⟩
  · intro i j f g hi hj hne
    have key : ∀ (i j : Nat) (f g : FixedField), m.fixed[i]? = some f → m.fixed[j]? = some g → i < j →
        (∀ b, ¬ (UsesBit f b ∧ UsesBit g b)) ∧
        ((∀ b, ¬ (TouchesByte f b ∧ TouchesByte g b)) ∨ ShareContainer f g) := by
      intro i j f g hi hj hlt
      obtain ⟨hi1, hi2⟩ := List.getElem?_eq_some_iff.1 hi
      obtain ⟨hj1, hj2⟩ := List.getElem?_eq_some_iff.1 hj
      have h1 := hf.disj
      have h2 := hf.bytes
      rw [List.pairwise_iff_getElem] at h1 h2
      have h1 := h1 i j hi1 hj1 hlt
      have h2 := h2 i j hi1 hj1 hlt
      rw [hi2, hj2] at h1 h2
      constructor
      · rintro b ⟨hb1, hb2⟩
        have := hin f (List.mem_of_getElem? hi) b hb1
        have := hin g (List.mem_of_getElem? hj) b hb2
        unfold BitDisjoint at h1
        omega
      · rcases h2 with h | h | h
        · left; rintro b ⟨hb1, hb2⟩
          have := hto f b hb1
          have := hto g b hb2
          omega
        · left; rintro b ⟨hb1, hb2⟩
          have := hto f b hb1
          have := hto g b hb2
          omega
        · right; exact h
    rcases Nat.lt_or_gt_of_ne hne with h | h
    · exact key i j f g hi hj h
    · obtain ⟨k1, k2⟩ := key j i g f hj hi h
      refine ⟨fun b hb => k1 b ⟨hb.2, hb.1⟩, ?_⟩
      rcases k2 with k2 | ⟨h1, p, a, u, b, v, h2, h3⟩
      · left; exact fun b hb => k2 b ⟨hb.2, hb.1⟩
      · right; exact ⟨h1.symm, p, b, v, a, u, h3, h2⟩
  · intro f hfm b hb
    rcases field_kind hf hfm with ⟨q, hk⟩ | hk | ⟨q, o, n, hk, hle⟩
    · simp only [UsesBit, TouchesByte, hk] at hb ⊢; omega
    · simp only [UsesBit, TouchesByte, hk] at hb ⊢; omega
    · simp only [UsesBit, TouchesByte, hk] at hb ⊢; omega
  · intro f hfm b hb
    have := hto f b hb
    have := hf.inside f hfm
    omega

/-- The layout of the sample: three fixed-size fields, then the enum and the string. -/
theorem rec_fixed (chk : Bool) : (Layout.new chk recTy).map (·.fixed) = .ok
    [⟨[1], .length, 0⟩, ⟨[0], .prim .u16, 4⟩, ⟨[2], .bitfield .u8 0 2, 6⟩] := by cases chk <;> decide

example (l : Layout) (hl : Layout.new true recTy = .ok l) (b : Nat) :
    ¬ (UsesBit ⟨[1], .length, 0⟩ b ∧ UsesBit ⟨[2], .bitfield .u8 0 2, 6⟩ b) := by
  have h := rec_fixed true
  rw [hl] at h
  have hf : l.fixed = _ := Except.ok.inj h
  exact ((C19_no_overlap true recTy rec_inhab (by decide) l l hl (.self _)).1 0 2 _ _
    (by rw [hf]; rfl) (by rw [hf]; rfl) (by decide)).1 b

/-! ## C20 -/

/-- C20. In the layout of a type and in all case layouts inside it: each fixed-size field is at a multiple
of the size of its machine word, the alignment of the layout is a power of two and a multiple of these
sizes, and the variable part begins at a multiple of the alignment of each enum case stored in it. -/
theorem C20_aligned (chk : Bool) (t : Ty) (hi : Inhab t) (hn : nodes t < 2 ^ 59) (l m : Layout)
    (hl : Layout.new chk t = .ok l) (hm : Nested l m) :
    (∀ f ∈ m.fixed, wordSize f ∣ f.offset ∧ wordSize f ∣ m.alignment) ∧
    (∃ k, m.alignment = 2 ^ k) ∧
    (∀ p fi cs, VarField.enum p fi cs ∈ m.vars → ∀ c ∈ cs,
      c.alignment ∣ m.varOffset ∧ c.alignment ∣ m.alignment) := by
  obtain ⟨t', p', hf⟩ := nested_facts' hi hn hl hm
  refine ⟨?_, ?_, ?_⟩
  · intro f hfm
    have h := hf.aligned f hfm
    have : wordSize f = f.size := by
      unfold wordSize FixedField.size
      cases f.kind <;> rfl
    rw [this]; exact h
  · obtain ⟨k, _, hk⟩ := hf.al.eq_pow
    exact ⟨k, hk⟩
  · intro p fi cs hv c hc
    obtain ⟨t1, p1, hcf⟩ := nested_facts' hi hn hl (nested_trans hm (.case hv hc (.self _)))
    obtain ⟨h1, h2⟩ := hf.valigned _ hv
    have h3 : SmallPow (VarField.enum p fi cs).alignment := by
      cases cs with
      | nil => exact Or.inl rfl
      | cons x xs =>
        have hall : ∀ y ∈ x :: xs, SmallPow y.alignment := by
          intro y hy
          obtain ⟨t2, p2, hyf⟩ := nested_facts' hi hn hl (nested_trans hm (.case hv hy (.self _)))
          exact hyf.al
        rw [VarField.alignment]
        exact foldl_max_pow _ _ (hall x (by simp)) (fun y hy => hall y (by simp [hy]))
    have h4 := SmallPow.dvd hcf.al h3 (enum_alignment_le c hc)
    exact ⟨Nat.dvd_trans h4 h1, Nat.dvd_trans h4 h2⟩

example (l : Layout) (hl : Layout.new false recTy = .ok l) : 4 ∣ l.alignment := by
  have h := rec_fixed false
  rw [hl] at h
  have hf : l.fixed = _ := Except.ok.inj h
  exact ((C20_aligned false recTy rec_inhab (by decide) l l hl (.self _)).1 ⟨[1], .length, 0⟩
    (by rw [hf]; simp)).2

/-! ## C21 -/

/-- `({ u64 | u8 }, { u64 | () })` -/
def crookedTy : Ty := .tuple [.enum [([], .prim .u64), ([], .prim .u8)], .enum [([], .prim .u64), ([], .unit)]]

/-- First component: case 1 with `u8` 5; second component: case 0 with `u64` 6. -/
def crookedVal : Val :=
  .seq [.case 1 (.prim ⟨.u8, (5 : BitVec 8)⟩), .case 0 (.prim ⟨.u64, (6 : BitVec 64)⟩)]

def crookedSrc : DataSource :=
  ((((IntermediateDataSource.new.addCaseTag [0] 1).addPrimitive [0, 1] ⟨.u8, (5 : BitVec 8)⟩).addCaseTag
    [1] 0).addPrimitive [1, 0] ⟨.u64, (6 : BitVec 64)⟩).source

theorem crooked_typed : Typed crookedTy crookedVal := by
  refine .tuple rfl ?_
  intro i c v hc hv
  match i, hc, hv with
  | 0, hc, hv => cases hc; cases hv; exact .enum rfl (.prim ⟨.u8, (5 : BitVec 8)⟩)
  | 1, hc, hv => cases hc; cases hv; exact .enum rfl (.prim ⟨.u64, (6 : BitVec 64)⟩)

theorem crooked_presents : Presents crookedSrc crookedVal [] := by
  intro q l h
  simp only [crookedVal, leaves, leavesFrom, List.mem_append, List.mem_cons, List.not_mem_nil, or_false,
    Prod.mk.injEq, List.nil_append, List.singleton_append] at h
  rcases h with (⟨rfl, rfl⟩ | ⟨rfl, rfl⟩) | ⟨rfl, rfl⟩ | ⟨rfl, rfl⟩
  · exact show crookedSrc.tag [0] = .ok 1 from rfl
  · exact show crookedSrc.prim .u8 [0, 1] = .ok (5 : BitVec 8) from rfl
  · exact show crookedSrc.tag [1] = .ok 0 from rfl
  · exact show crookedSrc.prim .u64 [1, 0] = .ok (6 : BitVec 64) from rfl

/-- C21 is false: in an encoded value of `({u64|u8}, {u64|()})` an eight byte integer is stored nine bytes
after the beginning, which is no multiple of eight for any aligned beginning.  `encode_with_source` and
`get_primitive` access it through a `*u64`. -/
theorem C21_nested_alignment_refuted (chk : Bool) : ∃ (t : Ty) (v : Val) (src : DataSource) (l : Layout)
    (buf data : Bytes) (n : Nat), Typed t v ∧ Presents src v [] ∧ Layout.new chk t = .ok l ∧
    buf.length = n ∧ l.encode chk src buf = .ok (data, n) ∧
    ([1, 0], Leaf.prim ⟨.u64, (6 : BitVec 64)⟩) ∈ leaves v [] ∧ placeOf chk l data [1, 0] = .ok 9 := by
  have hl : ∃ l, Layout.new chk crookedTy = .ok l ∧
      (∃ data, l.encode chk crookedSrc (List.replicate 24 0) = .ok (data, 24) ∧
        placeOf chk l data [1, 0] = .ok 9) := by
    cases chk
    · exact ⟨_, rfl, _, rfl, by decide⟩
    · exact ⟨_, rfl, _, rfl, by decide⟩
  obtain ⟨l, h1, data, h2, h3⟩ := hl
  exact ⟨crookedTy, crookedVal, crookedSrc, l, _, data, 24, crooked_typed, crooked_presents, h1,
    List.length_replicate, h2, by simp [crookedVal, leaves, leavesFrom], h3⟩

theorem all_pow {chk : Bool} {t : Ty} (hi : Inhab t) (hn : nodes t < 2 ^ 59) {l : Layout}
    (hl : Layout.new chk t = .ok l) : AllPow l := fun _ hm => (nested_facts' hi hn hl hm).choose_spec.choose_spec.al

/-- C21, the part that holds.  Full statement: for every type and value stored at an aligned address,
every fixed-size field, also one inside an enum case, is at a multiple of the size of its machine word.
Missing: types in which an enum with a case that can take a number of bytes that is no multiple of the alignment of a
case of another enum is stored before this other enum (see the refutation; that nothing else can be added is
`C111_crooked`).  Proved: for every other type, every data and every path the readers accept. -/
theorem C21_nested_alignment_partial (chk : Bool) (t : Ty) (hi : Inhab t) (hn : nodes t < 2 ^ 59) (l : Layout)
    (hl : Layout.new chk t = .ok l) (he : Smooth l) (data : Bytes) (q : Path) (w : Located) (f : FixedField)
    (hw : l.locate chk q data = .ok w) (hf : getAt w.layout.fixed w.index.fixedIdx = .ok f) :
    ∃ n, placeOf chk l data q = .ok n ∧ wordSize f ∣ n := by
  obtain ⟨h1, h2, h3⟩ := locate_field hi hn hl hw hf
  obtain ⟨_, _, _, _, k, g5, g6, g7⟩ := locate_facts chk _ t (Nat.le_refl _) hn hi [] l hl q data w hw
  have hal := (C20_aligned chk t hi hn l w.layout hl h1).1 f h2
  refine ⟨data.length - w.data.length + f.offset, ?_, ?_⟩
  · rw [placeOf, hw, Res.bind_ok, hf]; rfl
  · rw [g6, List.length_drop, show data.length - (data.length - k) = k by omega]
    exact Nat.dvd_add (Nat.dvd_trans hal.2 (g7 (Smooth.keeps he (all_pow hi hn hl)))) hal.1

/-- A condition that does not mention sizes: no case of a later enum has a larger alignment than a case of an earlier
one. -/
theorem C21_descending (chk : Bool) (t : Ty) (hi : Inhab t) (hn : nodes t < 2 ^ 59) (l : Layout)
    (hl : Layout.new chk t = .ok l) (he : Descending l) : Smooth l := Descending.smooth he (all_pow hi hn hl)

/-- An example with cases of different alignments: `({u64|u64}, {u64|u8|()}, str)`. -/
example : ∃ l, Layout.new true (.tuple [.enum [([], .prim .u64), ([], .prim .u64)],
      .enum [([], .prim .u64), ([], .prim .u8), ([], .unit)], .string]) = .ok l ∧ Descending l ∧
    ∃ w, l.locate true [1, 1] (List.replicate 32 0) = .ok w := by
  have hl : ∃ l x y u v w p1 f1 p2 f2 p3 f3, Layout.new true (.tuple [.enum [([], .prim .u64), ([], .prim .u64)],
      .enum [([], .prim .u64), ([], .prim .u8), ([], .unit)], .string]) = .ok l ∧
      l.vars = [.enum p1 f1 [x, y], .enum p2 f2 [u, v, w], .string p3 f3] ∧
      (x.alignment = 8 ∧ y.alignment = 8) ∧ (u.alignment ≤ 8 ∧ v.alignment ≤ 8 ∧ w.alignment ≤ 8) ∧
      (x.vars = [] ∧ y.vars = [] ∧ u.vars = [] ∧ v.vars = [] ∧ w.vars = []) ∧
      ∃ w, l.locate true [1, 1] (List.replicate 32 0) = .ok w :=
    ⟨_, _, _, _, _, _, _, _, _, _, _, _, rfl, rfl, by decide, by decide, ⟨rfl, rfl, rfl, rfl, rfl⟩, _, rfl⟩
  obtain ⟨l, x, y, u, v, w, p1, f1, p2, f2, p3, f3, h1, h2, ⟨h3, h4⟩, ⟨h5, h6, h7⟩, ⟨h8, h9, h10, h11, h12⟩, h13⟩ := hl
  refine ⟨l, h1, ?_, h13⟩
  intro m hm
  have key : ∀ {l m : Layout}, Nested l m → l.vars = [] → m = l := by
    intro l m h he
    cases h with
    | self => rfl
    | case hv _ _ => rw [he] at hv; simp at hv
  cases hm with
  | self =>
    rw [h2]
    simp only [List.pairwise_cons, List.mem_cons, List.not_mem_nil, or_false]
    refine ⟨?_, ?_, nofun, .nil⟩
    · rintro a (rfl | rfl) p fi cs q gi ds e1 e2 c hc d hd
      · cases e1; cases e2
        simp at hc hd
        rcases hc with rfl | rfl <;> rcases hd with rfl | rfl | rfl <;> omega
      · cases e2
    · rintro a rfl p fi cs q gi ds e1 e2
      cases e2
  | case hv' hc' hm' =>
    rw [h2] at hv'
    simp at hv'
    have : m.vars = [] := by
      rcases hv' with ⟨_, _, rfl⟩ | ⟨_, _, rfl⟩
      · simp at hc'
        rcases hc' with rfl | rfl <;> rw [key hm' (by assumption)] <;> assumption
      · simp at hc'
        rcases hc' with rfl | rfl | rfl <;> rw [key hm' (by assumption)] <;> assumption
    rw [this]
    exact .nil

/-! ## C22, C23 -/

/-- C22. For every type and value within the limits there is one number, a multiple of the alignment,
which `encoding_size_with_source` computes, `encode_with_source` returns on every sufficiently large
buffer, and `encoding_size` computes from the written bytes. -/
theorem C22_size (chk : Bool) (t : Ty) (v : Val) (hf : Fits chk t v) (l : Layout)
    (hl : Layout.new chk t = .ok l) (src : DataSource) (hs : Presents src v []) :
    ∃ n, l.sizeWithSource chk src = .ok n ∧ l.alignment ∣ n ∧
      ∀ buf : Bytes, n ≤ buf.length → ∃ data, l.encode chk src buf = .ok (data, n) ∧
        l.encodingSize chk data = .ok n ∧ l.encodingSize chk (data.take n) = .ok n := by
  obtain ⟨n, _, hc⟩ := fits_coded hf hl
  refine ⟨n, hc.szs src hs, hc.al, fun buf hb => ?_⟩
  obtain ⟨data, h1, h2, _, h4⟩ := hc.enc buf hb
  refine ⟨data, h1 src hs, ((h4 data (by omega) (fun _ _ => rfl)).1.1 lucky_nil).1,
    ((h4 (data.take n) ?_ ?_).1.1 lucky_nil).1⟩
  · rw [List.length_take]; omega
  · intro i hi; rw [bit_take, if_pos hi]

example : ∃ l, Layout.new true recTy = .ok l ∧ l.sizeWithSource true recSrc = .ok 24 := by
  exact ⟨_, rfl, by decide⟩

/-- C22 without limits: for any layout and any source, whenever encoding succeeds it returns the number
`encoding_size_with_source` computes. -/
theorem C22_size_any (chk : Bool) (l : Layout) (src : DataSource) (buf data : Bytes) (n : Nat)
    (h : l.encode chk src buf = .ok (data, n)) : l.sizeWithSource chk src = .ok n := encode_size h

/-- C23. On every buffer of at least the announced size, encoding succeeds, keeps the buffer's length and
leaves all bytes from the announced size on unchanged. -/
theorem C23_inside (chk : Bool) (t : Ty) (v : Val) (hf : Fits chk t v) (l : Layout)
    (hl : Layout.new chk t = .ok l) (src : DataSource) (hs : Presents src v []) (n : Nat)
    (hn : l.sizeWithSource chk src = .ok n) (buf : Bytes) (hb : n ≤ buf.length) :
    ∃ data, l.encode chk src buf = .ok (data, n) ∧ data.length = buf.length ∧
      data.drop n = buf.drop n := by
  obtain ⟨m, _, hc⟩ := fits_coded hf hl
  have : m = n := by have := hc.szs src hs; rw [hn] at this; exact (Except.ok.inj this).symm
  subst this
  obtain ⟨data, h1, h2, h3, _⟩ := hc.enc buf hb
  refine ⟨data, h1 src hs, h2, ?_⟩
  apply bytes_ext
  · simp [h2]
  · intro i
    rw [bit_drop, bit_drop]
    exact h3 _ (by omega)

example : ∃ l data, Layout.new true recTy = .ok l ∧
    l.encode true recSrc (List.replicate 30 255) = .ok (data, 24) ∧ data.drop 24 = List.replicate 6 255 := by
  obtain ⟨l, hl⟩ := (C18_layout_new true recTy (by decide)).2 rec_inhab
  have hsz : l.sizeWithSource true recSrc = .ok 24 := by
    have : (Layout.new true recTy >>= fun l => l.sizeWithSource true recSrc) = .ok 24 := by decide
    rw [hl] at this; exact this
  obtain ⟨data, h1, _, h3⟩ := C23_inside true recTy recVal (rec_fits true) l hl recSrc
    rec_presents 24 hsz (List.replicate 30 255) (by decide)
  exact ⟨l, data, hl, h1, h3⟩

/-! ## C24 -/

/-- C24 is false: encoding the string "hello" (announced size 12) into a buffer of four bytes writes
outside the buffer. -/
theorem C24_short_buffer_refuted (chk : Bool) : ∃ (t : Ty) (v : Val) (src : DataSource) (l : Layout) (buf : Bytes),
    Fits chk t v ∧ Presents src v [] ∧ Layout.new chk t = .ok l ∧ l.sizeWithSource chk src = .ok 12 ∧
    buf.length = 4 ∧ l.encode chk src buf = .error .ub := by
  have hl : ∃ l, Layout.new chk .string = .ok l ∧
      l.sizeWithSource chk (IntermediateDataSource.new.addString [] ['h', 'e', 'l', 'l', 'o']).source = .ok 12 ∧
      l.encode chk (IntermediateDataSource.new.addString [] ['h', 'e', 'l', 'l', 'o']).source
        (List.replicate 4 0) = .error .ub := by
    cases chk
    · exact ⟨_, rfl, by decide, by decide⟩
    · exact ⟨_, rfl, by decide, by decide⟩
  obtain ⟨l, h1, h2, h3⟩ := hl
  refine ⟨.string, .str [104, 101, 108, 108, 111], _, l, List.replicate 4 0, ?_, ?_, h1, h2, rfl, h3⟩
  · refine ⟨.string, by decide, tagFits_room .string (by decide) .string _, .str _, ?_, by decide⟩
    intro q bs h
    simp [leaves] at h
    rw [h.2]; decide
  · intro q l h
    simp [leaves] at h
    obtain ⟨rfl, rfl⟩ := h
    exact ⟨rfl, rfl⟩

/-- C24, the part that holds.  Full statement: with a buffer shorter than the announced size, encoding
panics before writing outside the buffer.  Missing: types with strings, whose bytes are copied without
looking at the end of the buffer.  Proved: a buffer shorter than the fixed part is refused by a panic for
every layout; and for every type without strings, encoding never leaves the buffer, for every buffer. -/
theorem C24_short_buffer_partial (chk : Bool) (t : Ty) (hi : Inhab t) (hn : nodes t < 2 ^ 59) (l : Layout)
    (hl : Layout.new chk t = .ok l) (src : DataSource) (buf : Bytes) :
    (buf.length < l.varOffset → l.encode chk src buf = .error .panic) ∧
    ((∀ p, t.extract p ≠ .ok .string) → Tame src → l.encode chk src buf ≠ .error .ub) := by
  constructor
  · intro h
    obtain ⟨al, vo, idx, fixed, vars⟩ := l
    rw [Layout.encode]
    simp only [Layout.varOffset] at h
    rw [show decide (buf.length ≥ vo) = false from decide_eq_false (by omega)]
    rfl
  · intro h1 h2
    exact (encode_tame h2 _ t (Nat.le_refl _) hn hi h1 [] l hl).2 buf

/-- C24, exactly when the end of the buffer is overrun.  Every string of a value has a place in the
encoding, at which all encodings into large enough buffers hold its bytes.  Encoding into a shorter buffer
writes outside it if and only if the end of the buffer lies inside one of the strings, or just before a string
which is not empty; otherwise it panics or writes within the buffer. -/
theorem C24_outside_iff (chk : Bool) (t : Ty) (v : Val) (hf : Fits chk t v) (l : Layout)
    (hl : Layout.new chk t = .ok l) (src : DataSource) (hs : Presents src v []) (n : Nat)
    (hn : l.sizeWithSource chk src = .ok n) : ∃ place : Path → Nat,
    (∀ (buf : Bytes), n ≤ buf.length → ∃ data, l.encode chk src buf = .ok (data, n) ∧
      ∀ q bs, (q, Leaf.str bs) ∈ leaves v [] → place q + bs.length ≤ n ∧ (data.drop (place q)).take bs.length = bs) ∧
    ∀ (buf : Bytes), buf.length < n → (l.encode chk src buf = .error .ub ↔
      ∃ q bs, (q, Leaf.str bs) ∈ leaves v [] ∧ place q ≤ buf.length ∧ buf.length < place q + bs.length) := by
  obtain ⟨m, place, hc⟩ := fits_coded hf hl
  have : m = n := by have := hc.szs src hs; rw [hn] at this; exact (Except.ok.inj this).symm
  subst this
  refine ⟨place, fun buf hb => ?_, fun buf hb => ?_⟩
  · obtain ⟨data, h1, h2, h3, h4⟩ := hc.enc buf hb
    exact ⟨data, h1 src hs, fun q bs h => ⟨hc.within q bs h, (h4 data (by omega) (fun _ _ => rfl)).2 q bs h⟩⟩
  · have := hc.short src hs buf hb
    simpa [Cuts] using this

/-- C24: a successful encoding, even into a buffer shorter than announced, keeps the buffer's length. -/
theorem C24_keeps_length (chk : Bool) (t : Ty) (v : Val) (hf : Fits chk t v) (l : Layout)
    (hl : Layout.new chk t = .ok l) (src : DataSource) (hs : Presents src v []) (buf data : Bytes) (n : Nat)
    (he : l.encode chk src buf = .ok (data, n)) : data.length = buf.length := by
  obtain ⟨m, place, hc⟩ := fits_coded hf hl
  exact hc.len src buf _ hs he

/-- The string "hello" is announced with 12 bytes and has its place at byte 4; buffers of 4 to 8 bytes are
overrun, a buffer of 9 bytes, which lacks only padding, is written without a panic, and one of 3 bytes is
refused. -/
example : ∃ l, Layout.new true .string = .ok l ∧
    (∀ k : Fin 12, l.encode true (IntermediateDataSource.new.addString [] ['h', 'e', 'l', 'l', 'o']).source
      (List.replicate k.1 0) = .error .ub ↔ 4 ≤ k.1 ∧ k.1 < 9) ∧
    (∃ data, l.encode true (IntermediateDataSource.new.addString [] ['h', 'e', 'l', 'l', 'o']).source
      (List.replicate 9 0) = .ok (data, 12)) ∧
    l.encode true (IntermediateDataSource.new.addString [] ['h', 'e', 'l', 'l', 'o']).source
      (List.replicate 3 0) = .error .panic := ⟨_, rfl, by decide, ⟨_, rfl⟩, by decide⟩

/-- Every intermediate data source is tame, so the second part applies to it. -/
theorem intermediate_tame (d : IntermediateDataSource) : Tame d.source := by
  constructor
  · intro p q h
    simp only [IntermediateDataSource.source] at h
    split at h
    · split at h <;> simp at h
    · simp at h
  all_goals
    intro q h
    simp only [IntermediateDataSource.source] at h
    split at h <;> simp at h

/-- The crooked type has no strings; a buffer of ten bytes is too short for the value of the example. -/
example : ∃ l, Layout.new true crookedTy = .ok l ∧ l.sizeWithSource true crookedSrc = .ok 24 ∧
    l.encode true crookedSrc (List.replicate 10 0) = .error .panic := ⟨_, rfl, by decide, by decide⟩

/-! ## C25, C27, C28 -/

/-- C25. After encoding a value, the readers return for every leaf of the value exactly what was encoded:
primitives, string lengths and bytes, and case tags. -/
theorem C25_round_trip (chk : Bool) (t : Ty) (v : Val) (hf : Fits chk t v) (l : Layout)
    (hl : Layout.new chk t = .ok l) (src : DataSource) (hs : Presents src v []) (buf data : Bytes) (n : Nat)
    (he : l.encode chk src buf = .ok (data, n)) (hb : n ≤ buf.length) :
    Presents (l.source chk data) v [] ∧ Presents (l.source chk (data.take n)) v [] := by
  obtain ⟨m, _, hc⟩ := fits_coded hf hl
  have : m = n := by
    have h1 := hc.szs src hs
    rw [encode_size he] at h1
    exact (Except.ok.inj h1).symm
  subst this
  obtain ⟨data', h1, h2, h3, h4⟩ := hc.enc buf hb
  have := h1 src hs
  rw [he] at this
  cases this
  refine ⟨((h4 data (by omega) (fun _ _ => rfl)).1.1 lucky_nil).2,
    ((h4 (data.take m) ?_ ?_).1.1 lucky_nil).2⟩
  · rw [List.length_take]; omega
  · intro i hi; rw [bit_take, if_pos hi]

/-- The sample is encoded into a buffer full of ones and read back. -/
example : ∃ l data, Layout.new false recTy = .ok l ∧
    l.encode false recSrc (List.replicate 24 255) = .ok (data, 24) ∧
    l.getBytes false data [2, 1, 0] = .ok [65] ∧ l.getCaseTag false data [2] = .ok 1 := by
  obtain ⟨l, hl⟩ := (C18_layout_new false recTy (by decide)).2 rec_inhab
  have hsz : l.sizeWithSource false recSrc = .ok 24 := by
    have : (Layout.new false recTy >>= fun l => l.sizeWithSource false recSrc) = .ok 24 := by decide
    rw [hl] at this; exact this
  obtain ⟨data, h1, _⟩ := C23_inside false recTy recVal (rec_fits false) l hl recSrc
    rec_presents 24 hsz (List.replicate 24 255) (by decide)
  have h2 := (C25_round_trip false recTy recVal (rec_fits false) l hl recSrc rec_presents _ data
    24 h1 (by decide)).1
  exact ⟨l, data, hl, h1, (h2 [2, 1, 0] (.str [65]) (by simp [rec_leaves])).2,
    h2 [2] (.tag 1) (by simp [rec_leaves])⟩

/-- C27. Encoding from the marshalled bytes of a value into the same initial buffer yields the same bytes. -/
theorem C27_reencode (chk : Bool) (t : Ty) (v : Val) (hf : Fits chk t v) (l : Layout)
    (hl : Layout.new chk t = .ok l) (src : DataSource) (hs : Presents src v []) (buf data : Bytes) (n : Nat)
    (he : l.encode chk src buf = .ok (data, n)) (hb : n ≤ buf.length) :
    l.encode chk (l.source chk data) buf = .ok (data, n) := by
  have h1 := (C25_round_trip chk t v hf l hl src hs buf data n he hb).1
  rw [← he]
  exact (encode_congr chk _ t (Nat.le_refl _) hf.nodes hf.inhab v hf.typed [] l hl _ _ h1 hs).2 buf

example : ∃ l data, Layout.new true crookedTy = .ok l ∧
    l.encode true crookedSrc (List.replicate 24 7) = .ok (data, 24) ∧
    l.encode true (l.source true data) (List.replicate 24 7) = .ok (data, 24) := by
  refine ⟨_, _, rfl, rfl, ?_⟩
  rfl

/-- C28. Two sources that present the same value of the type, whatever else they contain, give the same
size and the same encoding (or the same failure), from every buffer. -/
theorem C28_determined (chk : Bool) (t : Ty) (hi : Inhab t) (hn : nodes t < 2 ^ 59) (v : Val)
    (hv : Typed t v) (l : Layout) (hl : Layout.new chk t = .ok l) (s1 s2 : DataSource)
    (h1 : Presents s1 v []) (h2 : Presents s2 v []) :
    l.sizeWithSource chk s1 = l.sizeWithSource chk s2 ∧ ∀ buf, l.encode chk s1 buf = l.encode chk s2 buf :=
  encode_congr chk _ t (Nat.le_refl _) hn hi v hv [] l hl s1 s2 h1 h2

/-- The sample source also holds a value for the inactive case `x`; a source that panics for everything
outside the value gives the same encoding. -/
example : ∃ s2 : DataSource, Presents s2 recVal [] ∧ s2.prim .u64 [2, 0] ≠ recSrc.prim .u64 [2, 0] := by
  refine ⟨{ recSrc with prim := fun p q => if q = [2, 0] then .error .panic else recSrc.prim p q }, ?_, ?_⟩
  · intro q l h
    have h' := rec_presents q l h
    cases l with
    | prim v =>
      have hq : q ≠ [2, 0] := by
        rintro rfl
        simp [rec_leaves] at h
      simp only [Answers] at h' ⊢
      rw [if_neg hq]; exact h'
    | str bs => exact h'
    | tag i => exact h'
  · decide

/-! ## C26 -/

theorem unitCases (chk : Bool) (n : Nat) (p : Path) (i : Nat) :
    caseLayouts chk (List.replicate n ([], .unit)) p i = .ok (List.replicate n (.mk 1 0 [] [] [])) := by
  induction n generalizing i with
  | zero => rfl
  | succ n ih =>
    rw [List.replicate_succ, caseLayouts, ih]
    cases chk <;> rfl

theorem unitCases_alignment (n : Nat) :
    (List.replicate n (Layout.mk 1 0 [] [] [])).foldl (fun m l => max m l.alignment) 1 = 1 := by
  induction n with
  | zero => rfl
  | succ n ih => rw [List.replicate_succ, List.foldl_cons]; exact ih

/-- What `finishLayout` makes of one eight bit tag and one enum field of alignment 1. -/
theorem finish_wide (chk : Bool) (ls : List Layout) (h : (VarField.enum [] 0 ls).alignment = 1) :
    finishLayout chk [] [⟨[], 0, 8, 0⟩] [.enum [] 0 ls] =
      .ok (.mk 1 1 [⟨[], 0, 0⟩] [⟨[], .bitfield .u8 0 8, 0⟩] [.enum [] 0 ls]) := by
  have h1 : allocateBitfields [⟨[], 0, 8, 0⟩] = .ok ([⟨[], 0, 8, 0⟩], [⟨.u8, 0, 8⟩]) := rfl
  have h3 : sortBy (fun l r : VarField => decide (r.alignment ≤ l.alignment)) [.enum [] 0 ls] =
    [.enum [] 0 ls] := rfl
  have h4 : firstAlignment [.enum [] 0 ls] = 1 := h
  have h5 : align chk 1 1 = .ok 1 := by cases chk <;> decide
  have h6 : sortBy (fun l r : FixedField => decide (r.size ≤ l.size)) ([] ++ containerFields [⟨.u8, 0, 8⟩] 0) =
    [⟨[], .container 0 .u8, 0⟩] := rfl
  have h7 : assignOffsets chk [⟨[], .container 0 .u8, 0⟩] 0 = .ok ([⟨[], .container 0 .u8, 0⟩], 1) := by
    cases chk <;> decide
  unfold finishLayout
  rw [h1]
  simp only [Res.bind_ok]
  rw [h3, h4, h6, h7]
  simp only [Res.bind_ok]
  rw [show firstSize [⟨[], .container 0 .u8, 0⟩] = .ok 1 from rfl]
  simp only [Res.bind_ok]
  rw [h5]
  rfl

/-- The layout of an enum with 129 to 256 cases without contents: one tag of eight bits in one byte. -/
theorem wideEnum (chk : Bool) (n : Nat) (h1 : 129 ≤ n) (h2 : n ≤ 256) :
    Layout.new chk (.enum (List.replicate n ([], .unit))) =
      .ok (.mk 1 1 [⟨[], 0, 0⟩] [⟨[], .bitfield .u8 0 8, 0⟩]
        [.enum [] 0 (List.replicate n (.mk 1 0 [] [] []))]) := by
  have hb : requiredBits (n - 1) = 8 := by
    obtain ⟨a, b⟩ := C02_required_bits (n - 1) (by omega)
    have hb := b 8 (by omega)
    have ha := a (n - 1) (Nat.le_refl _)
    rcases Nat.lt_or_ge (requiredBits (n - 1)) 8 with h | h
    · have : 2 ^ requiredBits (n - 1) ≤ 2 ^ 7 := Nat.pow_le_pow_right (by decide) (by omega)
      omega
    · omega
  have hal : (VarField.enum [] 0 (List.replicate n (.mk 1 0 [] [] []))).alignment = 1 := by
    obtain ⟨k, rfl⟩ : ∃ k, n = k + 1 := ⟨n - 1, by omega⟩
    rw [List.replicate_succ, VarField.alignment]
    exact unitCases_alignment k
  rw [Layout.new, calculateLayout, unrollType, unitCases, List.length_replicate, hb]
  rw [show assert (decide (n > 0)) = .ok () by rw [decide_eq_true (show n > 0 by omega)]; rfl]
  simp only [Res.bind_ok]
  rw [show ∀ u : Unrolled, (pure u : Res Unrolled) = .ok u from fun _ => rfl, Res.bind_ok]
  exact finish_wide chk _ hal

/-- C26 is false: for every enum with 129 to 256 cases, encoding a value panics when overflow checks are
on; when they are off the tag is not stored, and the reader returns whatever byte the buffer contained. -/
theorem C26_case_counts_refuted (n : Nat) (h1 : 129 ≤ n) (h2 : n ≤ 256) (i : Nat) (hi : i < n) :
    ∃ (l : Layout) (v : Val) (src : DataSource),
      (∀ chk, Layout.new chk (.enum (List.replicate n ([], .unit))) = .ok l) ∧
      Typed (.enum (List.replicate n ([], .unit))) v ∧ Presents src v [] ∧ ([], Leaf.tag i) ∈ leaves v [] ∧
      (∀ b : UInt8, l.encode true src [b] = .error .panic) ∧
      (∀ b : UInt8, l.encode false src [b] = .ok ([b], 1) ∧ l.getCaseTag false [b] [] = .ok b.toNat) := by
  refine ⟨_, .case i .unit, (IntermediateDataSource.new.addCaseTag [] i).source,
    fun chk => wideEnum chk n h1 h2, .enum (c := ([], .unit)) (by simp [hi]) .unit, ?_, by simp [leaves], ?_, ?_⟩
  · intro q l h
    simp [leaves] at h
    obtain ⟨rfl, rfl⟩ := h
    exact show (IntermediateDataSource.new.addCaseTag [] i).source.tag [] = .ok i from rfl
  · intro b; rfl
  · intro b
    have hb : b.toNat < 256 := UInt8.toNat_lt b
    have hand : b.toNat &&& 255 = b.toNat := by
      rw [show (255 : Nat) = 2 ^ 8 - 1 from rfl, Nat.and_two_pow_sub_one_eq_mod, Nat.mod_eq_of_lt hb]
    have hval : leVal [b] = b.toNat := by simp [leVal]
    constructor
    · have hw : writeFixeds false (IntermediateDataSource.new.addCaseTag [] i).source
          [⟨[], .bitfield .u8 0 8, 0⟩] [b] = .ok [b] := by
        change (do
          let buf ← writeRaw 1 [b] 0 ((leVal [b] &&& 255) ||| ((i % 2 ^ 8 * 2 ^ 0) % 2 ^ 8 &&& 0))
          pure buf) = _
        rw [hval, hand, Nat.and_zero, Nat.or_zero]
        change Except.ok [UInt8.ofNat (b.toNat % 256)] = _
        rw [Nat.mod_eq_of_lt hb, UInt8.ofNat_toNat]
      rw [Layout.encode, hw]
      change (do
        let (buf, o) ← encodeVars false (IntermediateDataSource.new.addCaseTag [] i).source
          [.enum [] 0 (List.replicate n (.mk 1 0 [] [] []))] [b] 1
        let n ← align false o 1
        pure (buf, n)) = _
      have hg : (List.replicate n (Layout.mk 1 0 [] [] []))[i]? = some (.mk 1 0 [] [] []) := by
        rw [List.getElem?_replicate, if_pos hi]
      rw [encodeVars, encodeVar]
      rw [show (IntermediateDataSource.new.addCaseTag [] i).source.tag [] = .ok i from rfl, Res.bind_ok,
        encodeCase_eq hg, caseSizeWithSource_eq hg]
      rfl
    · change Except.ok ((leVal [b] % W64 / 2 ^ 0) &&& 255) = _
      rw [hval, Nat.pow_zero, Nat.div_one, Nat.mod_eq_of_lt (by omega), hand]

/-- An instance: case 200 of 256. -/
example : ∃ (l : Layout) (v : Val) (src : DataSource),
      (∀ chk, Layout.new chk (.enum (List.replicate 256 ([], .unit))) = .ok l) ∧
      Typed (.enum (List.replicate 256 ([], .unit))) v ∧ Presents src v [] ∧ ([], Leaf.tag 200) ∈ leaves v [] ∧
      (∀ b : UInt8, l.encode true src [b] = .error .panic) ∧
      (∀ b : UInt8, l.encode false src [b] = .ok ([b], 1) ∧ l.getCaseTag false [b] [] = .ok b.toNat) :=
  C26_case_counts_refuted 256 (by decide) (by decide) 200 (by decide)

/-- A second way C26 fails: enums with 16, 16 and 1 cases fill one byte with 4, 4 and 0 bits; the last tag
has bit offset 8, and with overflow checks encoding panics. -/
theorem C26_single_case_refuted : ∃ l : Layout,
    Layout.new true (.tuple [.enum (List.replicate 16 ([], .unit)), .enum (List.replicate 16 ([], .unit)),
      .enum [([], .unit)]]) = .ok l ∧
    l.encode true (((IntermediateDataSource.new.addCaseTag [0] 0).addCaseTag [1] 0).addCaseTag [2] 0).source
      [0] = .error .panic := by
  exact ⟨_, rfl, rfl⟩

/-- C26, the part that holds.  Full statement: the round trip holds for enums with any number of cases.
Missing: case counts that need exactly 8, 16, 32 (or 64) bits, and, with overflow checks, enums with a
single case.  Proved: the round trip for an enum with any other number of cases and arbitrary case types,
for all values, from all buffers. -/
theorem C26_case_counts_partial (chk : Bool) (cs : List (Str × Ty)) (hc : TagFits chk cs.length)
    (i : Nat) (v : Val) (hf : ∀ c ∈ cs, Inhab c.2 ∧ AllEnums (TagFits chk) c.2) (hi : i < cs.length)
    (hn : nodes (.enum cs) < 2 ^ 59) (hv : Typed (cs[i]'hi).2 v)
    (hs : ∀ q bs, (q, Leaf.str bs) ∈ leaves v [i] → bs.length < 2 ^ 32) (hw : weight (.case i v) < 2 ^ 63)
    (src : DataSource) (hp : Presents src (.case i v) []) :
    ∃ l n, Layout.new chk (.enum cs) = .ok l ∧ ∀ buf : Bytes, n ≤ buf.length → ∃ data,
      l.encode chk src buf = .ok (data, n) ∧ l.getCaseTag chk data [] = .ok i ∧
      Presents (l.source chk data) (.case i v) [] := by
  have hfit : Fits chk (.enum cs) (.case i v) := by
    have hinh : Inhab (.enum cs) := .enum (by intro e; subst e; simp at hi) (fun c h => (hf c h).1)
    refine ⟨hinh, hn, tagFits_room hinh hn (.enum hc (fun c h => (hf c h).2)) _,
      .enum (List.getElem?_eq_getElem hi) hv, ?_, hw⟩
    intro q bs h
    rw [leaves] at h
    rcases List.mem_cons.1 h with h | h
    · simp at h
    · exact hs q bs h
  obtain ⟨l, hl⟩ := (C18_layout_new chk (.enum cs) hn).2 hfit.inhab
  obtain ⟨n, h1, _, h3⟩ := C22_size chk _ _ hfit l hl src hp
  refine ⟨l, n, hl, fun buf hb => ?_⟩
  obtain ⟨data, h4, _⟩ := h3 buf hb
  have h5 := (C25_round_trip chk _ _ hfit l hl src hp buf data n h4 hb).1
  exact ⟨data, h4, h5 [] (.tag i) (by simp [leaves]), h5⟩

/-- Case counts that are covered. -/
example : TagFits true 2 ∧ TagFits true 128 ∧ TagFits true 257 ∧ TagFits true 70000 ∧ TagFits false 1 ∧
    ¬ TagFits false 129 ∧ ¬ TagFits false 256 ∧ ¬ TagFits true 1 := by
  unfold TagFits; simp

/-- C26 exactly, with overflow checks: for every type and every value within the limits of the format, the
value can be encoded into some buffer if and only if each tag that has to be written has room, and then it can
be encoded into every buffer of the announced size and read back. -/
theorem C26_checked_iff (t : Ty) (hi : Inhab t) (hn : nodes t < 2 ^ 59) (v : Val) (hv : Typed t v)
    (hs : ∀ q bs, (q, Leaf.str bs) ∈ leaves v [] → bs.length < 2 ^ 32) (hw : weight v < 2 ^ 63)
    (l : Layout) (hl : Layout.new true t = .ok l) (src : DataSource) (hp : Presents src v []) :
    ((∃ buf r, l.encode true src buf = .ok r) ↔ TagsHaveRoom true (leaves v []) l) ∧
    ((∃ n, l.sizeWithSource true src = .ok n ∧ ∀ buf : Bytes, n ≤ buf.length → ∃ data,
        l.encode true src buf = .ok (data, n) ∧ Presents (l.source true data) v []) ↔
      TagsHaveRoom true (leaves v []) l) := by
  have h1 : ∀ buf r, l.encode true src buf = .ok r → TagsHaveRoom true (leaves v []) l :=
    fun buf r h m hm => encode_room (fun q i h => hp q (.tag i) h) hm buf r h
  have h2 : TagsHaveRoom true (leaves v []) l → ∃ n, l.sizeWithSource true src = .ok n ∧ ∀ buf : Bytes,
      n ≤ buf.length → ∃ data, l.encode true src buf = .ok (data, n) ∧ Presents (l.source true data) v [] := by
    intro ht
    have hfit : Fits true t v := ⟨hi, hn, fun l' hl' => by rw [hl] at hl'; cases hl'; exact ht, hv, hs, hw⟩
    obtain ⟨n, k1, _, k3⟩ := C22_size true _ _ hfit l hl src hp
    refine ⟨n, k1, fun buf hb => ?_⟩
    obtain ⟨data, k4, _⟩ := k3 buf hb
    exact ⟨data, k4, (C25_round_trip true _ _ hfit l hl src hp buf data n k4 hb).1⟩
  refine ⟨⟨fun ⟨buf, r, h⟩ => h1 buf r h, fun h => ?_⟩, ⟨fun ⟨n, _, h⟩ => ?_, h2⟩⟩
  · obtain ⟨n, _, k⟩ := h2 h
    obtain ⟨data, k, _⟩ := k (List.replicate n 0) (by simp)
    exact ⟨_, _, k⟩
  · obtain ⟨data, k, _⟩ := h (List.replicate n 0) (by simp)
    exact h1 _ _ k

/-- An instance that needs the weaker condition: a flag beside an enum with a single case.  The tag of the
second enum has no bits, but starts inside the byte of the flag. -/
example : ∃ l : Layout, Layout.new true (.tuple [.enum [([], .unit), ([], .unit)], .enum [([], .prim .u8)]]) = .ok l ∧
    TagsHaveRoom true (leaves (.seq [.case 1 .unit, .case 0 (.prim ⟨.u8, (7 : BitVec 8)⟩)]) []) l ∧
    ¬ TagFits true 1 := by
  have he : ∃ l, Layout.new true (.tuple [.enum [([], .unit), ([], .unit)], .enum [([], .prim .u8)]]) = .ok l ∧
      l.encode true (((IntermediateDataSource.new.addCaseTag [0] 1).addCaseTag [1] 0).addPrimitive [1, 0]
        ⟨.u8, (7 : BitVec 8)⟩).source [0, 0] = .ok ([1, 7], 2) := ⟨_, rfl, rfl⟩
  obtain ⟨l, hl, he⟩ := he
  refine ⟨l, hl, fun m hm => encode_room ?_ hm _ _ he, by unfold TagFits; simp⟩
  intro q i h
  rw [show leaves (.seq [.case 1 .unit, .case 0 (.prim ⟨.u8, (7 : BitVec 8)⟩)]) [] =
    [([0], .tag 1), ([1], .tag 0), ([1, 0], .prim ⟨.u8, (7 : BitVec 8)⟩)] from rfl] at h
  simp at h
  rcases h with ⟨rfl, rfl⟩ | ⟨rfl, rfl⟩ <;> rfl

/-- C26 exactly, in the other build: without overflow checks, every value within the limits of the format can
be encoded into every buffer of the announced size, leaving the bytes behind it alone.  It can be read back
whatever was in the buffer before if and only if each of its tags has room.  If it cannot be read back, one of
its tags is wrong. -/
theorem C26_unchecked_iff (t : Ty) (hi : Inhab t) (hn : nodes t < 2 ^ 59) (v : Val) (hv : Typed t v)
    (hs : ∀ q bs, (q, Leaf.str bs) ∈ leaves v [] → bs.length < 2 ^ 32) (hw : weight v < 2 ^ 63)
    (l : Layout) (hl : Layout.new false t = .ok l) (src : DataSource) (hp : Presents src v []) :
    ∃ n, l.sizeWithSource false src = .ok n ∧
      (∀ buf : Bytes, n ≤ buf.length → ∃ data, l.encode false src buf = .ok (data, n) ∧
        data.length = buf.length ∧ data.drop n = buf.drop n ∧
        (¬ Presents (l.source false data) v [] →
          ∃ q i, (q, Leaf.tag i) ∈ leaves v [] ∧ l.getCaseTag false data q ≠ .ok i)) ∧
      ((∀ buf data : Bytes, n ≤ buf.length → l.encode false src buf = .ok (data, n) →
          Presents (l.source false data) v []) ↔ TagsHaveRoom false (leaves v []) l) := by
  rw [weight_eq v []] at hw
  obtain ⟨n, place, ns, hc, hx⟩ := codedW false _ t (Nat.le_refl _) hn hi v hv [] l hl (by simp) hs
    (by omega)
  refine ⟨n, hc.szs src hp, fun buf hb => ?_, ⟨fun h => ?_, fun h => ?_⟩⟩
  · obtain ⟨data, h1, h2, h3, h4⟩ := hc.enc buf hb
    have h4 := (h4 data (by omega) (fun _ _ => rfl)).1
    refine ⟨data, h1 src hp, h2, ?_, fun hno => ?_⟩
    · apply bytes_ext
      · simp [h2]
      · intro i
        rw [bit_drop, bit_drop]
        exact h3 _ (by omega)
    · exact h4.2 fun hlucky => hno (h4.1 hlucky).2
  · refine (hx (leaves v []) (fun _ _ _ => Iff.rfl)).1 ?_
    cases ns with
    | nil => rfl
    | cons k ns =>
      exfalso
      have hk := hc.needs k List.mem_cons_self
      have hlucky : ∀ buf : Bytes, buf.length = n → Lucky (k :: ns) buf := by
        intro buf hb
        obtain ⟨data, h1, h2, h3, h4⟩ := hc.enc buf (by omega)
        refine Classical.byContradiction fun hno => ?_
        obtain ⟨q, i, h5, h6⟩ := (h4 data (by omega) (fun _ _ => rfl)).1.2 hno
        exact h6 (h buf data (by omega) (h1 src hp) q _ h5)
      have hset : ∀ x, x < 2 ^ k.width → x = k.value := by
        intro x hx
        have := hlucky (setBits (List.replicate n 0) k.start k.width x) (by simp) k List.mem_cons_self
        rwa [getBits_setBits_same (by simp; omega) hx] at this
      have h2 := Nat.pow_le_pow_right (n := 2) (by decide) hk.2
      have h0 := hset 0 (by omega)
      have h1 := hset 1 (by omega)
      omega
  · intro buf data hb he
    have hns := (hx (leaves v []) (fun _ _ _ => Iff.rfl)).2 h
    subst hns
    obtain ⟨data', h1, h2, _, h4⟩ := hc.enc buf hb
    have := h1 src hp
    rw [he] at this
    cases this
    exact ((h4 data (by omega) (fun _ _ => rfl)).1.1 lucky_nil).2

set_option maxRecDepth 20000 in
/-- An instance in which a tag has no room: a flag beside an enum with 200 cases. -/
example : ∃ l : Layout, Layout.new false (.tuple [.enum [([], .unit), ([], .unit)],
      .enum (List.replicate 200 ([], .unit))]) = .ok l ∧
    ¬ TagsHaveRoom false (leaves (.seq [.case 1 .unit, .case 199 .unit]) []) l ∧
    (∃ data, l.encode false ((IntermediateDataSource.new.addCaseTag [0] 1).addCaseTag [1] 199).source [0, 0] =
      .ok (data, 2) ∧ l.getCaseTag false data [0] = .ok 1 ∧ l.getCaseTag false data [1] = .ok 0) := by
  refine ⟨_, rfl, fun h => ?_, _, rfl, rfl, rfl⟩
  have := h _ (.self _) _ (List.mem_cons_self) .u8 0 8 rfl
  exact absurd this.1 (by decide)

/-! ## C29 -/

/-- C29 is false: after encoding case 0 with the byte 7, reading the byte of case 1 returns 7. -/
theorem C29_inactive_refuted (chk : Bool) : ∃ (t : Ty) (v : Val) (src : DataSource) (l : Layout) (data : Bytes)
    (n : Nat), Fits chk t v ∧ Presents src v [] ∧ Layout.new chk t = .ok l ∧
    l.encode chk src [0, 0] = .ok (data, n) ∧ leaves v [] = [([], .tag 0), ([0], .prim ⟨.u8, (7 : BitVec 8)⟩)] ∧
    l.getPrimitive chk data .u8 [1] = .ok (7 : BitVec 8) := by
  have hl : ∃ l, Layout.new chk (.enum [([], .prim .u8), ([], .prim .u8)]) = .ok l ∧ ∃ data n,
      l.encode chk ((IntermediateDataSource.new.addCaseTag [] 0).addPrimitive [0]
        ⟨.u8, (7 : BitVec 8)⟩).source [0, 0] = .ok (data, n) ∧
      l.getPrimitive chk data .u8 [1] = .ok (7 : BitVec 8) := by
    cases chk
    · exact ⟨_, rfl, _, _, rfl, rfl⟩
    · exact ⟨_, rfl, _, _, rfl, rfl⟩
  obtain ⟨l, h1, data, n, h2, h3⟩ := hl
  refine ⟨_, .case 0 (.prim ⟨.u8, (7 : BitVec 8)⟩), _, l, data, n, ?_, ?_, h1, h2, rfl, h3⟩
  · have hinh : Inhab (.enum [([], .prim .u8), ([], .prim .u8)]) := .enum (by simp) (by simp; exact .prim _)
    refine ⟨hinh, by decide, tagFits_room hinh (by decide)
      (.enum ⟨Or.inl (by decide), fun _ => by decide⟩ (by simp; exact .prim _)) _,
      .enum (c := ([], .prim .u8)) rfl (.prim ⟨.u8, (7 : BitVec 8)⟩), ?_, by decide⟩
    intro q bs h
    simp [leaves] at h
  · intro q l h
    simp [leaves] at h
    rcases h with ⟨rfl, rfl⟩ | ⟨rfl, rfl⟩
    · exact show _ = Except.ok 0 from rfl
    · exact show _ = Except.ok (7 : BitVec 8) from rfl

/-- C29 is false in a worse way: an encoded value of `{ () | u64 }` with case 0 has eight bytes; reading the
integer of case 1 reads the eight bytes behind them. -/
theorem C29_outside_refuted (chk : Bool) : ∃ (t : Ty) (v : Val) (src : DataSource) (l : Layout) (data : Bytes),
    Fits chk t v ∧ Presents src v [] ∧ Layout.new chk t = .ok l ∧
    l.encode chk src (List.replicate 8 0) = .ok (data, 8) ∧ leaves v [] = [([], .tag 0)] ∧
    l.getPrimitive chk data .u64 [1] = .error .ub := by
  have hl : ∃ l, Layout.new chk (.enum [([], .unit), ([], .prim .u64)]) = .ok l ∧ ∃ data,
      l.encode chk (IntermediateDataSource.new.addCaseTag [] 0).source (List.replicate 8 0) = .ok (data, 8) ∧
      l.getPrimitive chk data .u64 [1] = .error .ub := by
    cases chk
    · exact ⟨_, rfl, _, rfl, rfl⟩
    · exact ⟨_, rfl, _, rfl, rfl⟩
  obtain ⟨l, h1, data, h2, h3⟩ := hl
  refine ⟨_, .case 0 .unit, _, l, data, ?_, ?_, h1, h2, rfl, h3⟩
  · have hinh : Inhab (.enum [([], .unit), ([], .prim .u64)]) := .enum (by simp) (by simp; exact ⟨.unit, .prim _⟩)
    refine ⟨hinh, by decide, tagFits_room hinh (by decide)
      (.enum ⟨Or.inl (by decide), fun _ => by decide⟩ (by simp; exact ⟨.unit, .prim _⟩)) _,
      .enum (c := ([], .unit)) rfl .unit, ?_, by decide⟩
    intro q bs h
    simp [leaves] at h
  · intro q l h
    simp [leaves] at h
    obtain ⟨rfl, rfl⟩ := h
    exact show _ = Except.ok 0 from rfl

/-- C29, the part that holds.  Full statement: reading a field of an enum case that is not the stored case
is refused.  Missing: the readers follow the case given by the path and never look at the stored tag.
Proved: for arbitrary data, a read succeeds only if the type has at this path a type of the kind asked for;
all other paths and kinds are refused. -/
theorem C29_inactive_partial (chk : Bool) (t : Ty) (hi : Inhab t) (hn : nodes t < 2 ^ 59) (l : Layout)
    (hl : Layout.new chk t = .ok l) (data : Bytes) (q : Path) :
    (∀ p v, l.getPrimitive chk data p q = .ok v → t.extract q = .ok (.prim p)) ∧
    (∀ n, l.getCaseTag chk data q = .ok n → ∃ cs, t.extract q = .ok (.enum cs)) ∧
    (∀ n, l.getLength chk data q = .ok n → t.extract q = .ok .string) ∧
    (∀ bs, l.getBytes chk data q = .ok bs → t.extract q = .ok .string) := by
  refine ⟨?_, ?_, ?_, ?_⟩
  · intro p v h
    unfold Layout.getPrimitive at h
    obtain ⟨w, hw, h⟩ := Res.bind_eq_ok.1 h
    obtain ⟨f, hf, h⟩ := Res.bind_eq_ok.1 h
    obtain ⟨h1, h2, h3⟩ := locate_field hi hn hl hw hf
    rcases field_type hi hn hl h1 h2 with ⟨r, k, e⟩ | ⟨k, e⟩ | ⟨_, _, _, _, k, e⟩
    · rw [k] at h
      simp only at h
      obtain ⟨_, ha, h⟩ := Res.bind_eq_ok.1 h
      have := assert_eq_ok ha
      rw [← h3, e, eq_of_beq this]
    · rw [k] at h; simp at h
    · rw [k] at h; simp at h
  · intro n h
    unfold Layout.getCaseTag at h
    obtain ⟨w, hw, h⟩ := Res.bind_eq_ok.1 h
    obtain ⟨f, hf, h⟩ := Res.bind_eq_ok.1 h
    obtain ⟨h1, h2, h3⟩ := locate_field hi hn hl hw hf
    rcases field_type hi hn hl h1 h2 with ⟨r, k, e⟩ | ⟨k, e⟩ | ⟨_, _, _, cs, k, e⟩
    · unfold readTag at h; rw [k] at h; simp at h
    · unfold readTag at h; rw [k] at h; simp at h
    · exact ⟨cs, by rw [← h3]; exact e⟩
  · intro n h
    unfold Layout.getLength at h
    obtain ⟨w, hw, h⟩ := Res.bind_eq_ok.1 h
    obtain ⟨f, hf, h⟩ := Res.bind_eq_ok.1 h
    obtain ⟨h1, h2, h3⟩ := locate_field hi hn hl hw hf
    rcases field_type hi hn hl h1 h2 with ⟨r, k, e⟩ | ⟨k, e⟩ | ⟨_, _, _, cs, k, e⟩
    · rw [k] at h; simp at h
    · rw [← h3]; exact e
    · rw [k] at h; simp at h
  · intro n h
    unfold Layout.getBytes at h
    obtain ⟨w, hw, h⟩ := Res.bind_eq_ok.1 h
    obtain ⟨f, hf, h⟩ := Res.bind_eq_ok.1 h
    obtain ⟨h1, h2, h3⟩ := locate_field hi hn hl hw hf
    obtain ⟨o, _, h⟩ := Res.bind_eq_ok.1 h
    rcases field_type hi hn hl h1 h2 with ⟨r, k, e⟩ | ⟨k, e⟩ | ⟨_, _, _, cs, k, e⟩
    · rw [k] at h; simp at h
    · rw [← h3]; exact e
    · rw [k] at h; simp at h

/-- Some reads of an encoded sample succeed, others do not. -/
example : ∃ l data, Layout.new true recTy = .ok l ∧
    l.encode true recSrc (List.replicate 24 0) = .ok (data, 24) ∧
    l.getPrimitive true data .u16 [0] = .ok (515 : BitVec 16) ∧
    l.getPrimitive true data .u8 [0] = .error .panic ∧ l.getLength true data [2] = .error .panic ∧
    l.getCaseTag true data [3] = .error .panic := by
  exact ⟨_, _, rfl, rfl, rfl, rfl, rfl, rfl⟩

/-! ## C104 -/

/-- C104 is false: the bytes `05 00 00 00` read as a string give a slice of five bytes behind the end; two
bytes read as a `u32`, and the announced size of one byte read as a string, are read beyond the end; so is the
announced size of the four bytes `00 00 00 00` read as `{ string | () }`; and the byte 2 read as a `bool` is
undefined. -/
theorem C104_damaged_refuted (chk : Bool) : ∃ ls lu le lb : Layout,
    Layout.new chk .string = .ok ls ∧ Layout.new chk (.prim .u32) = .ok lu ∧
    Layout.new chk (.enum [([], .string), ([], .unit)]) = .ok le ∧ Layout.new chk (.prim .bool) = .ok lb ∧
    ls.getBytes chk [5, 0, 0, 0] [] = .error .ub ∧ lu.getPrimitive chk [1, 2] .u32 [] = .error .ub ∧
    ls.encodingSize chk [5] = .error .ub ∧ le.encodingSize chk [0, 0, 0, 0] = .error .ub ∧
    lb.getPrimitive chk [2] .bool [] = .error .ub := by
  cases chk
  · exact ⟨_, _, _, _, rfl, rfl, rfl, rfl, by decide, rfl, by decide, by decide, rfl⟩
  · exact ⟨_, _, _, _, rfl, rfl, rfl, rfl, by decide, rfl, by decide, by decide, rfl⟩

/-- C104, the part that holds.  Full statement: reading arbitrary bytes never leaves them and never gives an
undefined value.  Missing: bytes that are too few for what they announce, fields of cases that are not stored,
and Booleans and characters stored by bytes that are none (see the refutations here and of C29).  Proved: if
`encoding_size` returns and does not exceed the number of bytes, whatever the bytes are, then every stored
string, tag and number can be read, and reading a stored Boolean or character does not panic. -/
theorem C104_damaged_partial (chk : Bool) (t : Ty) (hi : Inhab t) (hn : nodes t < 2 ^ 29) (l : Layout)
    (hl : Layout.new chk t = .ok l) (data : Bytes) (n : Nat) (hs : l.encodingSize chk data = .ok n)
    (hd : n ≤ data.length) (q : Path) (u : Ty) (hp : Part (l.source chk data) t [] q u) :
    (u ≠ .prim .bool → u ≠ .prim .char → Readable (l.source chk data) q u) ∧
    ∀ k, u = .prim k → l.getPrimitive chk data k q ≠ .error .panic := by
  have h := (legible chk _ t (Nat.le_refl _) hn hi [] l hl data n hs).2.2.2 hd q u hp
  cases u with
  | prim k =>
    obtain ⟨n, hn⟩ := h
    have hg : l.getPrimitive chk data k q = k.load n := by rw [getPrimitive_stored, hn]; rfl
    rcases load_legible k n with ⟨v, hv⟩ | ⟨hv, hk⟩
    · rw [hv] at hg
      refine ⟨fun _ _ => ⟨v, hg⟩, fun k' e => ?_⟩
      cases e
      rw [hg]
      exact fun h => nomatch h
    · rw [hv] at hg
      refine ⟨fun h1 h2 => ?_, fun k' e => ?_⟩
      · rcases hk with rfl | rfl
        · exact absurd rfl h1
        · exact absurd rfl h2
      · cases e
        rw [hg]
        exact fun h => nomatch h
  | string => exact ⟨fun _ _ => h, fun k e => nomatch e⟩
  | enum cs => exact ⟨fun _ _ => h, fun k e => nomatch e⟩
  | unit => exact ⟨fun _ _ => trivial, fun k e => nomatch e⟩
  | tuple cs => exact ⟨fun _ _ => trivial, fun k e => nomatch e⟩
  | struct fs => exact ⟨fun _ _ => trivial, fun k e => nomatch e⟩

/-- C104: bytes that pass this check, and whose stored Booleans and characters are such, hold a value of the
type. -/
theorem C104_value (chk : Bool) (t : Ty) (hi : Inhab t) (hn : nodes t < 2 ^ 29) (l : Layout)
    (hl : Layout.new chk t = .ok l) (data : Bytes) (n : Nat) (hs : l.encodingSize chk data = .ok n)
    (hd : n ≤ data.length)
    (hb : ∀ q k, Part (l.source chk data) t [] q (.prim k) → k = .bool ∨ k = .char →
      l.getPrimitive chk data k q ≠ .error .ub) :
    ∃ v, Typed t v ∧ Presents (l.source chk data) v [] := by
  apply readable_value
  intro q u hp
  have h := C104_damaged_partial chk t hi hn l hl data n hs hd q u hp
  by_cases hk : u = .prim .bool ∨ u = .prim .char
  · obtain ⟨k, rfl, hk'⟩ : ∃ k, u = .prim k ∧ (k = .bool ∨ k = .char) := by
      rcases hk with h | h
      · exact ⟨_, h, Or.inl rfl⟩
      · exact ⟨_, h, Or.inr rfl⟩
    have h1 := h.2 k rfl
    have h2 := hb q k hp hk'
    cases hv : l.getPrimitive chk data k q with
    | ok v => exact ⟨v, hv⟩
    | error e => cases e <;> simp [hv] at h1 h2
  · exact h.1 (fun e => hk (Or.inl e)) (fun e => hk (Or.inr e))

/-- Bytes nobody encoded: length 2 at the beginning, 0x1234, tag 1, then as case 1 the length 1, the byte 1,
padding, the byte 65, padding, and "hi".  They announce 24 bytes and are 24. -/
example : ∃ l, Layout.new true recTy = .ok l ∧
    l.encodingSize true [2, 0, 0, 0, 0x34, 0x12, 0xFD, 0xEE, 1, 0, 0, 0, 1, 65, 0, 0, 104, 105, 0xEE, 0, 0, 0, 0, 0] =
      .ok 24 ∧
    l.getBytes true [2, 0, 0, 0, 0x34, 0x12, 0xFD, 0xEE, 1, 0, 0, 0, 1, 65, 0, 0, 104, 105, 0xEE, 0, 0, 0, 0, 0] [1] =
      .ok [104, 105] := by
  exact ⟨_, rfl, by decide, by decide⟩

/-! ## C30 -/

/-- C30. Types that differ only in labels have the same layout. -/
theorem C30_labels (chk : Bool) (t u : Ty) (h : Relabelled t u) : Layout.new chk t = Layout.new chk u := by
  rw [Layout.new, Layout.new, calculateLayout, calculateLayout, relabelled_unroll h]

example : Relabelled (.struct [(['a'], .string), (['b'], .enum [(['x'], .unit)])])
    (.struct [(['q'], .string), (['q'], .enum [([], .unit)])]) := by
  refine .struct rfl ?_
  intro i c d hc hd
  match i, hc, hd with
  | 0, hc, hd => cases hc; cases hd; exact .string
  | 1, hc, hd =>
    cases hc; cases hd
    refine .enum rfl ?_
    intro i c d hc hd
    match i, hc, hd with
    | 0, hc, hd => cases hc; cases hd; exact .unit

end Verif.Props
