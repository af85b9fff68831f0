import Verif.Proof.Dense
import Verif.Props.Grown
import Verif.Props.Aligned
import Verif.Props.Builds

/-! # C140: how much room a value takes -/

namespace Verif.Props

open Verif Verif.Spec

/-! ## C140 -/

/-- C140. A value takes at most its contents, one machine word for the tag of every enum in it, and less than one
widest word of padding once, and twice more for every enum in it.  In both builds, for every data source. -/
theorem C140_at_most (chk : Bool) (t : Ty) (v : Val) (hn : nodes t < 2 ^ 59) (hv : Typed t v) (l : Layout)
    (h : Layout.new chk t = .ok l) (src : DataSource) (hp : Presents src v []) (n : Nat)
    (hs : l.sizeWithSource chk src = .ok n) :
    n ≤ content v + tagWords v t + (2 * enums v + 1) * (widest t - 1) := by
  have hw := widest_le t
  have h1 := ((dense_at chk src t).layout hn h hv hp (Nat.le_refl _) (by omega) hs).1
  have hpos := widest_pos t
  rw [Nat.mul_sub, Nat.mul_one]
  have : 2 * enums v + 1 ≤ (2 * enums v + 1) * widest t := Nat.le_mul_of_pos_right _ hpos
  omega

/-- C140. It takes no less than its contents. -/
theorem C140_at_least (t : Ty) (v : Val) (hn : nodes t < 2 ^ 59) (hv : Typed t v) (l : Layout)
    (h : Layout.new true t = .ok l) (src : DataSource) (hp : Presents src v []) (n : Nat)
    (hs : l.sizeWithSource true src = .ok n) : content v ≤ n :=
  ((dense_at true src t).layout hn h hv hp (Nat.le_refl _)
    (by have := widest_le t; omega) hs).2 rfl

/-- C140. The same in both builds, within the limits of the format. -/
theorem C140_at_least_builds (chk : Bool) (t : Ty) (v : Val) (hf : Fits true t v) (l : Layout)
    (h : Layout.new chk t = .ok l) (src : DataSource) (hp : Presents src v []) (n : Nat)
    (hs : l.sizeWithSource chk src = .ok n) : content v ≤ n := by
  obtain ⟨m, hm⟩ := (C18_layout_new true t hf.nodes).2 hf.inhab
  obtain ⟨k, hk, _⟩ := C22_size true t v hf m hm src hp
  have h1 := C140_at_least t v hf.nodes hf.typed m hm src hp k hk
  cases chk with
  | true =>
    rw [h] at hm
    cases hm
    rw [hs] at hk
    cases hk
    exact h1
  | false =>
    have e := Agrees.ok (layoutNew_agrees t) hm
    rw [h] at e
    cases e
    have e := Agrees.ok (sizeWithSource_agrees (SourcesAgree.refl src) l) hk
    rw [hs] at e
    cases e
    exact h1

/-- C140. A value without enums takes exactly its contents, rounded up to the next multiple of the widest word. -/
theorem C140_exact (t : Ty) (v : Val) (hi : Inhab t) (hn : nodes t < 2 ^ 59) (hv : Typed t v) (he : enums v = 0)
    (l : Layout) (h : Layout.new true t = .ok l) (src : DataSource) (hp : Presents src v []) (n : Nat)
    (hs : l.sizeWithSource true src = .ok n) :
    widest t ∣ n ∧ content v ≤ n ∧ ∀ m, widest t ∣ m → content v ≤ m → n ≤ m := by
  have h1 := C134_sizes true t hi hn l h src n hs
  have h2 := C140_at_most true t v hn hv l h src hp n hs
  rw [tagWords_none v t he, he] at h2
  refine ⟨h1, C140_at_least t v hn hv l h src hp n hs, fun m hm hc => ?_⟩
  have hpos := widest_pos t
  obtain ⟨a, rfl⟩ := h1
  obtain ⟨b, rfl⟩ := hm
  have h3 : a < b + 1 := Nat.lt_of_mul_lt_mul_left (a := widest t) (by rw [Nat.mul_add]; omega)
  exact Nat.mul_le_mul_left _ (by omega)

/-! The sample record has 14 bytes of contents, one enum with one byte for its tag, and takes 24 bytes. -/

example : content recVal = 14 ∧ tagWords recVal recTy = 1 ∧ enums recVal = 1 ∧ widest recTy = 8 := by decide

example (chk : Bool) (l : Layout) (h : Layout.new chk recTy = .ok l) (n : Nat)
    (hs : l.sizeWithSource chk recSrc = .ok n) : 14 ≤ n ∧ n ≤ 36 :=
  ⟨C140_at_least_builds chk recTy recVal (rec_fits true) l h recSrc rec_presents n hs,
    C140_at_most chk recTy recVal (by decide) rec_typed l h recSrc rec_presents n hs⟩

/-- `(u32, { x: (u64, u8) | y: () }, string)` -/
def looseTy : Ty := .tuple [.prim .u32, .enum [(['x'], .tuple [.prim .u64, .prim .u8]), (['y'], .unit)], .string]

/-- `(7, x(1, 2), "A")` -/
def looseVal : Val :=
  .seq [.prim ⟨.u32, (7 : BitVec 32)⟩, .case 0 (.seq [.prim ⟨.u64, (1 : BitVec 64)⟩, .prim ⟨.u8, (2 : BitVec 8)⟩]),
    .str [65]]

theorem loose_typed : Typed looseTy looseVal := by
  refine .tuple rfl fun i c v hc hv => ?_
  match i, hc, hv with
  | 0, rfl, rfl => exact .prim ⟨.u32, (7 : BitVec 32)⟩
  | 1, rfl, rfl =>
    refine .enum (c := (['x'], .tuple [.prim .u64, .prim .u8])) rfl (.tuple rfl fun j d w hd hw => ?_)
    match j, hd, hw with
    | 0, rfl, rfl => exact .prim ⟨.u64, (1 : BitVec 64)⟩
    | 1, rfl, rfl => exact .prim ⟨.u8, (2 : BitVec 8)⟩
  | 2, rfl, rfl => exact .str [65]

/-- The bound is reached: 18 bytes of contents, one for the tag, and three times seven bytes of padding. -/
theorem C140_reached : ∃ l, Layout.new true looseTy = .ok l ∧
    l.sizeWithSource true (valSource looseVal) = .ok 40 ∧ Typed looseTy looseVal ∧
    40 = content looseVal + tagWords looseVal looseTy + (2 * enums looseVal + 1) * (widest looseTy - 1) :=
  ⟨_, rfl, by decide +kernel, loose_typed, by decide⟩

/-- `{ a: u8, b: u64, c: string }` -/
def flatTy : Ty := .struct [(['a'], .prim .u8), (['b'], .prim .u64), (['c'], .string)]

/-- `{ a: 3, b: 4, c: "hi" }` -/
def flatVal : Val := .seq [.prim ⟨.u8, (3 : BitVec 8)⟩, .prim ⟨.u64, (4 : BitVec 64)⟩, .str [104, 105]]

theorem flat_typed : Typed flatTy flatVal := by
  refine .struct rfl fun i c v hc hv => ?_
  match i, hc, hv with
  | 0, rfl, rfl => exact .prim ⟨.u8, (3 : BitVec 8)⟩
  | 1, rfl, rfl => exact .prim ⟨.u64, (4 : BitVec 64)⟩
  | 2, rfl, rfl => exact .str [104, 105]

/-- 15 bytes of contents take 16 bytes. -/
example (l : Layout) (h : Layout.new true flatTy = .ok l) (n : Nat)
    (hs : l.sizeWithSource true (valSource flatVal) = .ok n) : n = 16 := by
  have hi : Inhab flatTy := by
    refine .struct (by simp) ?_
    simp only [List.forall_mem_cons, List.not_mem_nil, false_imp_iff, implies_true, and_true]
    exact ⟨.prim _, .prim _, .string⟩
  obtain ⟨⟨k, h1⟩, h2, h3⟩ := C140_exact flatTy flatVal hi (by decide) flat_typed (by decide) l h _
    (valSource_presents _) n hs
  have e1 : widest flatTy = 8 := by decide
  have e2 : content flatVal = 15 := by decide
  rw [e1] at h1 h3
  rw [e2] at h2 h3
  have := h3 16 ⟨2, rfl⟩ (by omega)
  omega

end Verif.Props
