import Verif.Proof.Atoms
import Verif.Props.Marshaller

/-! # Theorems about the marshaller: grouping of components

Struct members and tuple components are laid out as if all brackets outside enum cases were removed. -/

namespace Verif.Props

open Verif Verif.Spec

/-! ## C136 -/

/-- C136. If two types are made of the same words, texts and choices in the same order, however these are grouped
into tuples and structs and named, and two values of them have the same contents, then the layouts have the same
alignment, and sources of the values give the same size and the same encoding (or the same failure), from every
buffer. -/
theorem C136_grouping (chk : Bool) (t u : Ty) (hit : Inhab t) (hiu : Inhab u) (ht : nodes t < 2 ^ 59)
    (hu : nodes u < 2 ^ 59) (ha : atoms t = atoms u) (v w : Val) (hv : Typed t v) (hw : Typed u w)
    (hc : contents v = contents w) (l m : Layout) (hl : Layout.new chk t = .ok l) (hm : Layout.new chk u = .ok m)
    (src src' : DataSource) (hs : Presents src v []) (hs' : Presents src' w []) :
    l.alignment = m.alignment ∧ l.sizeWithSource chk src = m.sizeWithSource chk src' ∧
      ∀ buf, l.encode chk src buf = m.encode chk src' buf := by
  have htw := grouping hit hiu ht hu ha hl hm
  have hal := rerouted_alike (Q := Routes t [] u []) (fun h h' => h.unique h') src
  obtain ⟨h1, h2⟩ := C28_determined chk u hiu hu w hw m hm _ src' (rerouted_presents ha hv hw hc hs) hs'
  refine ⟨htw.alignment, ?_, ?_⟩
  · rw [sizeWithSource_twin hal htw, h1]
  · intro buf
    rw [encode_twin hal htw, h2]

/-- C136. What was stored as a value of the one type is read as the value of the other type with the same
contents. -/
theorem C136_read (chk : Bool) (t u : Ty) (hit : Inhab t) (ht : nodes t < 2 ^ 59) (ha : atoms t = atoms u)
    (v w : Val) (hv : Typed t v) (hf : Fits chk u w) (hc : contents v = contents w) (l m : Layout)
    (hl : Layout.new chk t = .ok l) (hm : Layout.new chk u = .ok m) (src : DataSource) (hs : Presents src v [])
    (buf data : Bytes) (n : Nat) (he : l.encode chk src buf = .ok (data, n)) (hb : n ≤ buf.length) :
    Presents (m.source chk data) w [] := by
  have hp := rerouted_presents ha hv hf.typed hc hs
  have h := (C136_grouping chk t u hit hf.inhab ht hf.nodes ha v w hv hf.typed hc l m hl hm src _ hs hp).2.2 buf
  exact (C25_round_trip chk u w hf m hm _ hp buf data n (h ▸ he) hb).1

/-- C136. Which types can be laid out depends on their grouping only through empty tuples and structs. -/
theorem C136_exists (chk : Bool) (t u : Ty) (ht : nodes t < 2 ^ 59) (hu : nodes u < 2 ^ 59)
    (ha : atoms t = atoms u) (hit : Inhab t) (hiu : Inhab u) :
    ∃ l m, Layout.new chk t = .ok l ∧ Layout.new chk u = .ok m ∧ l.alignment = m.alignment := by
  obtain ⟨l, hl⟩ := (C18_layout_new chk t ht).2 hit
  obtain ⟨m, hm⟩ := (C18_layout_new chk u hu).2 hiu
  exact ⟨l, m, hl, hm, (grouping hit hiu ht hu ha hl hm).alignment⟩

/-- `((u16, ()), { s: string }, { (u64,) | { s: string, b: (bool,) } | () })` -/
def regTy : Ty :=
  .tuple [.tuple [.prim .u16, .unit], .struct [(['s'], .string)],
    .enum [(['p'], .tuple [.prim .u64]), (['q'], .struct [(['s'], .string), (['b'], .tuple [.prim .bool])]),
      (['r'], .unit)]]

/-- `((515, ()), { s: "hi" }, q { s: "A", b: (true,) })` -/
def regVal : Val :=
  .seq [.seq [.prim ⟨.u16, (515 : BitVec 16)⟩, .unit], .seq [.str [104, 105]],
    .case 1 (.seq [.str [65], .seq [.prim ⟨.bool, true⟩]])]

/-- A data source holding that value. -/
def regSrc : DataSource :=
  (((((IntermediateDataSource.new.addPrimitive [0, 0] ⟨.u16, (515 : BitVec 16)⟩).addString [1, 0]
    ['h', 'i']).addCaseTag [2] 1).addString [2, 1, 0] ['A']).addPrimitive [2, 1, 1, 0] ⟨.bool, true⟩).source

theorem reg_inhab : Inhab regTy := by
  refine .tuple (by simp) ?_
  simp only [List.forall_mem_cons, List.not_mem_nil, false_imp_iff, implies_true, and_true]
  refine ⟨.tuple (by simp) ?_, .struct (by simp) ?_, .enum (by simp) ?_⟩ <;>
    simp only [List.forall_mem_cons, List.not_mem_nil, false_imp_iff, implies_true, and_true]
  · exact ⟨.prim _, .unit⟩
  · exact .string
  · refine ⟨.tuple (by simp) ?_, .struct (by simp) ?_, .unit⟩ <;>
      simp only [List.forall_mem_cons, List.not_mem_nil, false_imp_iff, implies_true, and_true]
    · exact .prim _
    · refine ⟨.string, .tuple (by simp) ?_⟩
      simp only [List.forall_mem_cons, List.not_mem_nil, false_imp_iff, implies_true, and_true]
      exact .prim _

theorem reg_typed : Typed regTy regVal := by
  refine .tuple rfl ?_
  intro i c v hc hv
  match i, hc, hv with
  | 0, hc, hv =>
    cases hc; cases hv
    refine .tuple rfl ?_
    intro i c v hc hv
    match i, hc, hv with
    | 0, hc, hv => cases hc; cases hv; exact .prim ⟨.u16, (515 : BitVec 16)⟩
    | 1, hc, hv => cases hc; cases hv; exact .unit
  | 1, hc, hv =>
    cases hc; cases hv
    refine .struct rfl ?_
    intro i c v hc hv
    match i, hc, hv with
    | 0, hc, hv => cases hc; cases hv; exact .str _
  | 2, hc, hv =>
    cases hc; cases hv
    refine .enum rfl (.struct rfl ?_)
    intro i c v hc hv
    match i, hc, hv with
    | 0, hc, hv => cases hc; cases hv; exact .str _
    | 1, hc, hv =>
      cases hc; cases hv
      refine .tuple rfl ?_
      intro i c v hc hv
      match i, hc, hv with
      | 0, hc, hv => cases hc; cases hv; exact .prim ⟨.bool, true⟩

theorem reg_presents : Presents regSrc regVal [] := by
  intro q l h
  have hl : leaves regVal [] = [([0, 0], .prim ⟨.u16, (515 : BitVec 16)⟩), ([1, 0], .str [104, 105]), ([2], .tag 1),
      ([2, 1, 0], .str [65]), ([2, 1, 1, 0], .prim ⟨.bool, true⟩)] := rfl
  simp only [hl, List.mem_cons, List.not_mem_nil, or_false, Prod.mk.injEq] at h
  rcases h with ⟨rfl, rfl⟩ | ⟨rfl, rfl⟩ | ⟨rfl, rfl⟩ | ⟨rfl, rfl⟩ | ⟨rfl, rfl⟩
  · exact show regSrc.prim .u16 [0, 0] = .ok (515 : BitVec 16) from rfl
  · exact ⟨rfl, rfl⟩
  · exact show regSrc.tag [2] = .ok 1 from rfl
  · exact ⟨rfl, rfl⟩
  · exact show regSrc.prim .bool [2, 1, 1, 0] = .ok true from rfl

theorem reg_atoms : atoms regTy = atoms recTy := rfl

theorem reg_contents : contents regVal = contents recVal := rfl

/-- The regrouped sample is encoded like the sample, and its data is read as the sample. -/
example (chk : Bool) : ∃ l m data, Layout.new chk regTy = .ok l ∧ Layout.new chk recTy = .ok m ∧
    l.encode chk regSrc (List.replicate 24 255) = .ok (data, 24) ∧
    m.encode chk recSrc (List.replicate 24 255) = .ok (data, 24) ∧
    Presents (m.source chk data) recVal [] := by
  obtain ⟨l, m, hl, hm, _⟩ := C136_exists chk regTy recTy (by decide) (by decide) reg_atoms reg_inhab rec_inhab
  have hsz : m.sizeWithSource chk recSrc = .ok 24 := by
    have : (Layout.new chk recTy >>= fun l => l.sizeWithSource chk recSrc) = .ok 24 := by cases chk <;> decide
    rw [hm] at this; exact this
  obtain ⟨data, h1, _⟩ := C23_inside chk recTy recVal (rec_fits chk) m hm recSrc rec_presents 24 hsz
    (List.replicate 24 255) (by decide)
  have h2 := (C136_grouping chk regTy recTy reg_inhab rec_inhab (by decide) (by decide) reg_atoms regVal recVal
    reg_typed rec_typed reg_contents l m hl hm regSrc recSrc reg_presents rec_presents).2.2 (List.replicate 24 255)
  exact ⟨l, m, data, hl, hm, h2.trans h1, h1, C136_read chk regTy recTy reg_inhab (by decide) reg_atoms regVal recVal
    reg_typed (rec_fits chk) reg_contents l m hl hm regSrc reg_presents _ data 24 (h2.trans h1) (by decide)⟩

/-- Only grouping is free: `(u8, bool)` and `(bool, u8)` are encoded differently. -/
example : (Layout.new true (.tuple [.prim .u8, .prim .bool]) >>= fun l => l.encode true
      ((IntermediateDataSource.new.addPrimitive [0] ⟨.u8, (7 : BitVec 8)⟩).addPrimitive [1] ⟨.bool, true⟩).source
      [0, 0]) = .ok ([7, 1], 2) ∧
    (Layout.new true (.tuple [.prim .bool, .prim .u8]) >>= fun l => l.encode true
      ((IntermediateDataSource.new.addPrimitive [1] ⟨.u8, (7 : BitVec 8)⟩).addPrimitive [0] ⟨.bool, true⟩).source
      [0, 0]) = .ok ([1, 7], 2) := by decide

end Verif.Props
