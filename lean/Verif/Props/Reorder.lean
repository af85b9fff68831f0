import Verif.Proof.Reorder
import Verif.Props.Dense

/-! # C141: the order of components does not matter to the size -/

namespace Verif.Props

open Verif Verif.Spec

/-! ## C141 -/

/-- C141. Values that differ in the order of their components, at any depth, take the same number of bytes. -/
theorem C141_size (t t' : Ty) (v v' : Val) (hr : Shuffled t v t' v') (hn : nodes t < 2 ^ 59) (hn' : nodes t' < 2 ^ 59)
    (l l' : Layout) (h : Layout.new true t = .ok l) (h' : Layout.new true t' = .ok l') (src src' : DataSource)
    (hp : Presents src v []) (hp' : Presents src' v' []) (n n' : Nat) (hs : l.sizeWithSource true src = .ok n)
    (hs' : l'.sizeWithSource true src' = .ok n') : n = n' := by
  obtain ⟨s, h1, h2⟩ := Shuffled.sizes (src := src) (src' := src') hr
  have g1 := h1.gives hn h hp hs
  have g2 := h2.gives hn' h' hp' hs'
  rw [← Shuffled.widest hr] at g2
  exact g1.unique g2

/-- What the checked build computes within the limits of the format, the other one computes, too. -/
theorem size_in_checked {chk : Bool} {t : Ty} {v : Val} (hf : Fits true t v) {l : Layout}
    (h : Layout.new chk t = .ok l) {src : DataSource} (hp : Presents src v []) {n : Nat}
    (hs : l.sizeWithSource chk src = .ok n) : Layout.new true t = .ok l ∧ l.sizeWithSource true src = .ok n := by
  obtain ⟨m, hm⟩ := (C18_layout_new true t hf.nodes).2 hf.inhab
  obtain ⟨k, hk, _⟩ := C22_size true t v hf m hm src hp
  cases chk with
  | true => exact ⟨h, hs⟩
  | false =>
    have e := Agrees.ok (layoutNew_agrees t) hm
    rw [h] at e
    cases e
    have e := Agrees.ok (sizeWithSource_agrees (SourcesAgree.refl src) l) hk
    rw [hs] at e
    cases e
    exact ⟨hm, hk⟩

/-- C141. The same for what both builds write into buffers, within the limits of the format. -/
theorem C141_encoded (chk : Bool) (t t' : Ty) (v v' : Val) (hr : Shuffled t v t' v') (hf : Fits true t v)
    (hf' : Fits true t' v') (l l' : Layout) (h : Layout.new chk t = .ok l) (h' : Layout.new chk t' = .ok l')
    (src src' : DataSource) (hp : Presents src v []) (hp' : Presents src' v' []) (buf data buf' data' : Bytes)
    (n n' : Nat) (hs : l.encode chk src buf = .ok (data, n)) (hs' : l'.encode chk src' buf' = .ok (data', n')) :
    n = n' := by
  obtain ⟨a1, a2⟩ := size_in_checked hf h hp (C22_size_any chk l src buf data n hs)
  obtain ⟨b1, b2⟩ := size_in_checked hf' h' hp' (C22_size_any chk l' src' buf' data' n' hs')
  exact C141_size t t' v v' hr hf.nodes hf'.nodes l l' a1 b1 src src' hp hp' n n' a2 b2

/-! The sample record with its fields, cases and components the other way round. -/

/-- `{ c: { z: () | y: (bool, string) | x: u64 }, b: string, a: u16 }` -/
def turnedTy : Ty :=
  .struct [(['c'], .enum [(['z'], .unit), (['y'], .tuple [.prim .bool, .string]), (['x'], .prim .u64)]),
    (['b'], .string), (['a'], .prim .u16)]

/-- `{ c: y(true, "A"), b: "hi", a: 515 }` -/
def turnedVal : Val :=
  .seq [.case 1 (.seq [.prim ⟨.bool, true⟩, .str [65]]), .str [104, 105], .prim ⟨.u16, (515 : BitVec 16)⟩]

theorem turned : Shuffled recTy recVal turnedTy turnedVal := by
  have hin : Shuffled (.tuple [.string, .prim .bool]) (.seq [.str [65], .prim ⟨.bool, true⟩])
      (.tuple [.prim .bool, .string]) (.seq [.prim ⟨.bool, true⟩, .str [65]]) := by
    have := Shuffled.tuple (zs := [⟨[], .string, .str [65], [], .string, .str [65]⟩,
        ⟨[], .prim .bool, .prim ⟨.bool, true⟩, [], .prim .bool, .prim ⟨.bool, true⟩⟩])
      (List.reverse_perm _).symm (by
        simp only [List.forall_mem_cons, List.not_mem_nil, false_imp_iff, implies_true, and_true]
        exact ⟨.str _ _ rfl, .prim ⟨.bool, true⟩ ⟨.bool, true⟩ rfl⟩)
    exact this
  have := Shuffled.struct (zs := [⟨['a'], .prim .u16, .prim ⟨.u16, (515 : BitVec 16)⟩, ['a'], .prim .u16,
        .prim ⟨.u16, (515 : BitVec 16)⟩⟩, ⟨['b'], .string, .str [104, 105], ['b'], .string, .str [104, 105]⟩,
      ⟨['c'], .enum [(['x'], .prim .u64), (['y'], .tuple [.string, .prim .bool]), (['z'], .unit)],
        .case 1 (.seq [.str [65], .prim ⟨.bool, true⟩]), ['c'],
        .enum [(['z'], .unit), (['y'], .tuple [.prim .bool, .string]), (['x'], .prim .u64)],
        .case 1 (.seq [.prim ⟨.bool, true⟩, .str [65]])⟩])
    (List.reverse_perm _).symm (by
      simp only [List.forall_mem_cons, List.not_mem_nil, false_imp_iff, implies_true, and_true]
      exact ⟨.prim ⟨.u16, (515 : BitVec 16)⟩ ⟨.u16, (515 : BitVec 16)⟩ rfl, .str _ _ rfl,
        .enum rfl rfl rfl (by decide) hin⟩)
  exact this

example (l : Layout) (h : Layout.new true turnedTy = .ok l) (n : Nat)
    (hs : l.sizeWithSource true (valSource turnedVal) = .ok n) : n = 24 := by
  obtain ⟨m, hm, hk⟩ : ∃ l, Layout.new true recTy = .ok l ∧ l.sizeWithSource true recSrc = .ok 24 := ⟨_, rfl, by decide⟩
  exact (C141_size recTy turnedTy recVal turnedVal turned (by decide) (by decide) m l hm h recSrc _ rec_presents
    (valSource_presents _) 24 n hk hs).symm

/-- There is such a size. -/
example : ∃ l, Layout.new true turnedTy = .ok l ∧ l.sizeWithSource true (valSource turnedVal) = .ok 24 :=
  ⟨_, rfl, by decide +kernel⟩

theorem turned_inhab : Inhab turnedTy := by
  refine .struct (by simp) ?_
  simp only [List.forall_mem_cons, List.not_mem_nil, false_imp_iff, implies_true, and_true]
  refine ⟨.enum (by simp) ?_, .string, .prim _⟩
  simp only [List.forall_mem_cons, List.not_mem_nil, false_imp_iff, implies_true, and_true]
  refine ⟨.unit, .tuple (by simp) ?_, .prim _⟩
  simp only [List.forall_mem_cons, List.not_mem_nil, false_imp_iff, implies_true, and_true]
  exact ⟨.prim _, .string⟩

theorem turned_typed : Typed turnedTy turnedVal := by
  refine .struct rfl fun i c v hc hv => ?_
  match i, hc, hv with
  | 0, rfl, rfl =>
    refine .enum (c := (['y'], .tuple [.prim .bool, .string])) rfl (.tuple rfl fun j d w hd hw => ?_)
    match j, hd, hw with
    | 0, rfl, rfl => exact .prim ⟨.bool, true⟩
    | 1, rfl, rfl => exact .str [65]
  | 1, rfl, rfl => exact .str [104, 105]
  | 2, rfl, rfl => exact .prim ⟨.u16, (515 : BitVec 16)⟩

theorem turned_fits : Fits true turnedTy turnedVal where
  inhab := turned_inhab
  nodes := by decide
  tags := tagFits_room turned_inhab (by decide) (by
    refine .struct ?_
    simp only [List.forall_mem_cons, List.not_mem_nil, false_imp_iff, implies_true, and_true]
    refine ⟨.enum (by unfold TagFits; decide) ?_, .string, .prim _⟩
    simp only [List.forall_mem_cons, List.not_mem_nil, false_imp_iff, implies_true, and_true]
    refine ⟨.unit, .tuple ?_, .prim _⟩
    simp only [List.forall_mem_cons, List.not_mem_nil, false_imp_iff, implies_true, and_true]
    exact ⟨.prim _, .string⟩) _
  typed := turned_typed
  strings := by
    intro q bs h
    have e : leaves turnedVal [] = [([0], .tag 1), ([0, 1, 0], .prim ⟨.bool, true⟩), ([0, 1, 1], .str [65]),
      ([1], .str [104, 105]), ([2], .prim ⟨.u16, (515 : BitVec 16)⟩)] := rfl
    simp [e] at h
    rcases h with ⟨_, rfl⟩ | ⟨_, rfl⟩ <;> decide
  total := by decide

/-- Both builds write the same number of bytes for both records. -/
example (chk : Bool) (l l' : Layout) (h : Layout.new chk recTy = .ok l) (h' : Layout.new chk turnedTy = .ok l')
    (buf data buf' data' : Bytes) (n n' : Nat) (hs : l.encode chk recSrc buf = .ok (data, n))
    (hs' : l'.encode chk (valSource turnedVal) buf' = .ok (data', n')) : n = n' :=
  C141_encoded chk recTy turnedTy recVal turnedVal turned (rec_fits true) turned_fits l l' h h' recSrc _ rec_presents
    (valSource_presents _) buf data buf' data' n n' hs hs'

end Verif.Props
