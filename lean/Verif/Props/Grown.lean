import Verif.Props.Json
import Verif.Proof.Grown
import Verif.Proof.GrownUnroll
import Verif.Proof.Aligned

/-! # Properties C133–C135: types that get additional enum cases
(`src/core/json/decoder.rs`, `src/core/json/encoder.rs`, `src/core/marshaller.rs`) -/

namespace Verif.Props

open Verif Spec Json

/-! ## C133 -/

/-- C133. Values stay values when enums get additional cases at their end. -/
theorem C133_values (t u : Ty) (hg : Grown t u) (v : Val) (h : Typed t v) : Typed u v := Verif.Typed.grown h hg

/-- C133. Documents accepted for a type are accepted when its enums get additional cases with new labels at their end,
and the same data is stored. -/
theorem C133_documents (env : Env) (t u : Ty) (hg : Grown t u) (input : Str) (d : IntermediateDataSource)
    (h : decode env t input = .ok d) :
    ∃ d', decode env u input = .ok d' ∧ ∀ q, mapGet Path.cmp q d' = mapGet Path.cmp q d := by
  obtain ⟨tr, v, k, s, h1, h2, h3⟩ := decode_takes h
  obtain ⟨d', h4, h5⟩ := takes_decode (env := env) h1 (Verif.Takes.grown h2 hg)
  exact ⟨d', h4, fun q => holdsExactly_unique h5 h3 q⟩

/-- C133. No document becomes acceptable by additional cases unless it holds one of them: if the value of an accepted
document is one of the type without the additional cases, the document was accepted before, and the same data is
stored. -/
theorem C133_no_others (env : Env) (t u : Ty) (hg : Grown t u)
    (ha : AllStructs (fun n => n ≠ 64 ∨ env.chk = true) u) (input : Str) (d : IntermediateDataSource)
    (h : decode env u input = .ok d) :
    ∃ v, Typed u v ∧ HoldsExactly d v ∧ (Typed t v →
      ∃ d', decode env t input = .ok d' ∧ ∀ q, mapGet Path.cmp q d' = mapGet Path.cmp q d) := by
  obtain ⟨tr, v, k, s, h1, h2, h3⟩ := decode_takes h
  refine ⟨v, (h2.denotes (ha.mono fun n h => h.imp id fun h => by rw [h]; simp)).typed, h3, fun hv => ?_⟩
  obtain ⟨d', h4, h5⟩ := takes_decode (env := env) h1 (Verif.Takes.shrink h2 hg hv)
  exact ⟨d', h4, fun q => holdsExactly_unique h5 h3 q⟩

/-- C133. Values without the additional cases are written as the same text. -/
theorem C133_written (F : FloatText) (t u : Ty) (hg : Grown t u) (v : Val) (hv : Typed t v) (src : DataSource)
    (hs : Presents src v []) : encode F u src = encode F t src :=
  emits_grown hv hg [] hs

/-- The sample type with a fourth case. -/
def recTy4 : Ty :=
  .struct [(['a'], .prim .u16), (['b'], .string),
    (['c'], .enum [(['x'], .prim .u64), (['y'], .tuple [.string, .prim .bool]), (['z'], .unit), (['w'], .string)])]

theorem rec_grown : Grown recTy recTy4 := by
  refine .struct rfl fun i f g hf hg => ?_
  match i, hf, hg with
  | 0, hf, hg => cases hf; cases hg; exact .prim _
  | 1, hf, hg => cases hf; cases hg; exact .string
  | 2, hf, hg =>
    cases hf; cases hg
    refine .enum ⟨[['w']], rfl⟩ (fun i c d hc hd => ?_) (fun i j c d hc hj hd => ?_)
    · match i, hc, hd with
      | 0, hc, hd => cases hc; cases hd; exact .prim _
      | 1, hc, hd =>
        cases hc; cases hd
        refine .tuple rfl fun i c d hc hd => ?_
        match i, hc, hd with
        | 0, hc, hd => cases hc; cases hd; exact .string
        | 1, hc, hd => cases hc; cases hd; exact .prim _
      | 2, hc, hd => cases hc; cases hd; exact .unit
    · match j, hj, hd with
      | 3, _, hd =>
        cases hd
        match i, hc with
        | 0, hc => cases hc; decide
        | 1, hc => cases hc; decide
        | 2, hc => cases hc; decide
      | j + 4, _, hd => cases hd

/-- The sample document is accepted for the type with a fourth case. -/
example (chk : Bool) : ∃ d d', decode (plainEnv chk) recTy recJson = .ok d ∧
    decode (plainEnv chk) recTy4 recJson = .ok d' ∧ ∀ q, mapGet Path.cmp q d' = mapGet Path.cmp q d := by
  obtain ⟨d, h, _⟩ := recJson_decode chk
  obtain ⟨d', h1, h2⟩ := C133_documents _ recTy recTy4 rec_grown _ d h
  exact ⟨d, d', h, h1, h2⟩

example (F : FloatText) : encode F recTy4 recSrc = encode F recTy recSrc :=
  C133_written F recTy recTy4 rec_grown recVal rec_typed recSrc rec_presents

example : Typed recTy4 recVal := C133_values recTy recTy4 rec_grown recVal rec_typed

/-- The sample document, read for the larger type. -/
example (chk : Bool) : ∃ d v, decode (plainEnv chk) recTy4 recJson = .ok d ∧ Typed recTy4 v ∧ HoldsExactly d v := by
  obtain ⟨d, h, _⟩ := recJson_decode chk
  obtain ⟨d', h1, _⟩ := C133_documents _ recTy recTy4 rec_grown _ d h
  obtain ⟨v, h2, h3, _⟩ := C133_no_others _ recTy recTy4 rec_grown (by
    refine .struct (.inl (by decide)) ?_
    simp only [List.forall_mem_cons, List.not_mem_nil, false_imp_iff, implies_true, and_true]
    refine ⟨.prim _, .string, .enum ?_⟩
    simp only [List.forall_mem_cons, List.not_mem_nil, false_imp_iff, implies_true, and_true]
    refine ⟨.prim _, .tuple ?_, .unit, .string⟩
    simp only [List.forall_mem_cons, List.not_mem_nil, false_imp_iff, implies_true, and_true]
    exact ⟨.string, .prim _⟩) _ d' h1
  exact ⟨d', v, h1, h2, h3⟩

theorem accepted_of_toBool {α : Type} {r : Parse α} (h : r.toBool = true) : ∃ d, r = .ok d := by
  cases r with
  | ok d => exact ⟨d, rfl⟩
  | error e => cases h

theorem rejected_of_toBool {α : Type} {r : Parse α} (h : r.toBool = false) (d : α) : r ≠ .ok d := by
  rintro rfl
  cases h

/-- A document with an additional case is accepted only for the type that has it. -/
example : (∃ d, decode (plainEnv true) (.enum [(['x'], .unit), (['w'], .unit)])
      "{\"kind\":\"w\",\"value\":null}".toList = .ok d) ∧
    ∀ d, decode (plainEnv true) (.enum [(['x'], .unit)]) "{\"kind\":\"w\",\"value\":null}".toList ≠ .ok d :=
  ⟨accepted_of_toBool (by decide +kernel), rejected_of_toBool (by decide +kernel)⟩

/-- C133. The labels have to be new: an additional case with the label of another one takes over its documents. -/
theorem C133_reused_label : ∃ (cs : List (Str × Ty)) (c : Str × Ty) (input : Str),
    (∃ d, decode (plainEnv true) (.enum cs) input = .ok d) ∧
    ∀ d, decode (plainEnv true) (.enum (cs ++ [c])) input ≠ .ok d :=
  ⟨[(['x'], .unit)], (['x'], .prim .bool), "{\"kind\":\"x\",\"value\":null}".toList,
    accepted_of_toBool (by decide +kernel), rejected_of_toBool (by decide +kernel)⟩

/-! ## C134 -/

/-- C134. The alignment of a layout is the size of the widest word among the numbers, string lengths and tags of the
type, in all its cases. -/
theorem C134_alignment (chk : Bool) (t : Ty) (hn : nodes t < 2 ^ 59) (l : Layout) (h : Layout.new chk t = .ok l) :
    l.alignment = widest t := calculateLayout_widest hn h

/-- C134. Every encoding takes a multiple of that many bytes. -/
theorem C134_sizes (chk : Bool) (t : Ty) (hi : Inhab t) (hn : nodes t < 2 ^ 59) (l : Layout)
    (h : Layout.new chk t = .ok l) (src : DataSource) (n : Nat) (hs : l.sizeWithSource chk src = .ok n) :
    widest t ∣ n := by
  obtain ⟨l', h1, h2⟩ := (unroll_and_layout chk t hi hn []).2.2
  have h : calculateLayout chk t [] = .ok l := h
  rw [h] at h1
  cases h1
  rw [← C134_alignment chk t hn l h]
  exact sizeWithSource_dvd h2.al hs

example : widest recTy = 8 := by decide

example (chk : Bool) (l : Layout) (h : Layout.new chk recTy = .ok l) : l.alignment = 8 :=
  C134_alignment chk recTy (by decide) l h

/-- A tag for 300 cases takes two bytes. -/
example (chk : Bool) (l : Layout) (h : Layout.new chk (.enum (List.replicate 300 (['x'], .unit))) = .ok l) :
    l.alignment = 2 :=
  (C134_alignment chk _ (by decide +kernel) l h).trans (by decide +kernel)

/-! ## C135 -/

/-- C135, the part that holds.  Full statement: cases added at the end of enums do not change how a value without them is
encoded, whatever the data source.  Missing: added cases that need more bits for the tag, or with a wider word than all
the cases before (see the refutations). -/
theorem C135_encoded_partial (chk : Bool) (t u : Ty) (hr : Roomy t u) (hn : nodes t < 2 ^ 59) (hm : nodes u < 2 ^ 59)
    (l m : Layout) (hl : Layout.new chk t = .ok l) (hu : Layout.new chk u = .ok m) (src : DataSource) :
    (∀ n, l.sizeWithSource chk src = .ok n → m.sizeWithSource chk src = .ok n) ∧
    ∀ buf r, l.encode chk src buf = .ok r → m.encode chk src buf = .ok r :=
  have h := layout_grown hr hn hm hl hu
  ⟨sizeWithSource_grown chk src h, fun buf => encode_grown chk src h buf⟩

/-- C135, the part that holds.  Full statement: whatever can be read from stored data with the old type is read alike
with the type with added cases.  Missing: as for `C135_encoded_partial`. -/
theorem C135_read_partial (chk : Bool) (t u : Ty) (hr : Roomy t u) (hn : nodes t < 2 ^ 59) (hm : nodes u < 2 ^ 59)
    (l m : Layout) (hl : Layout.new chk t = .ok l) (hu : Layout.new chk u = .ok m) (data : Bytes) :
    (∀ n, l.encodingSize chk data = .ok n → m.encodingSize chk data = .ok n) ∧
    ∀ q, (∀ p x, (l.source chk data).prim p q = .ok x → (m.source chk data).prim p q = .ok x) ∧
      (∀ i, (l.source chk data).tag q = .ok i → (m.source chk data).tag q = .ok i) ∧
      (∀ n, (l.source chk data).length q = .ok n → (m.source chk data).length q = .ok n) ∧
      ∀ bs, (l.source chk data).bytes q = .ok bs → (m.source chk data).bytes q = .ok bs :=
  have h := layout_grown hr hn hm hl hu
  ⟨encodingSize_grown chk h data, fun q => source_grown chk h data q⟩

theorem rec_roomy : Roomy recTy recTy4 := by
  refine .struct rfl fun i f g hf hg => ?_
  match i, hf, hg with
  | 0, hf, hg => cases hf; cases hg; exact .prim _
  | 1, hf, hg => cases hf; cases hg; exact .string
  | 2, hf, hg =>
    cases hf; cases hg
    refine .enum (by decide) (fun k hk => ?_) (fun i c d hc hd => ?_) (fun j d hj hd => ?_)
    · match k, hk with
      | 0, hk => simp at hk
      | 1, hk => simp at hk
      | k + 2, _ =>
        have : 1 ≤ 2 ^ k := Nat.one_le_two_pow
        simp only [Nat.pow_add, List.length_cons, List.length_nil]
        omega
    · match i, hc, hd with
      | 0, hc, hd => cases hc; cases hd; exact .prim _
      | 1, hc, hd =>
        cases hc; cases hd
        refine .tuple rfl fun i c d hc hd => ?_
        match i, hc, hd with
        | 0, hc, hd => cases hc; cases hd; exact .string
        | 1, hc, hd => cases hc; cases hd; exact .prim _
      | 2, hc, hd => cases hc; cases hd; exact .unit
    · match j, hj, hd with
      | 3, _, hd => cases hd; exact ⟨_, .head _, by decide⟩
      | j + 4, _, hd => cases hd

/-- The fourth case of the sample type changes nothing for the sample value. -/
example (chk : Bool) : ∃ l m data, Layout.new chk recTy = .ok l ∧ Layout.new chk recTy4 = .ok m ∧
    l.encode chk recSrc (List.replicate 32 0) = .ok data ∧ m.encode chk recSrc (List.replicate 32 0) = .ok data := by
  have hl : ∃ l, Layout.new chk recTy = .ok l ∧ ∃ r, l.encode chk recSrc (List.replicate 32 0) = .ok r := by
    cases chk
    · exact ⟨_, rfl, _, rfl⟩
    · exact ⟨_, rfl, _, rfl⟩
  have hm : ∃ m, Layout.new chk recTy4 = .ok m := ⟨_, rfl⟩
  obtain ⟨l, h1, r, h2⟩ := hl
  obtain ⟨m, h3⟩ := hm
  exact ⟨l, m, r, h1, h3, h2, (C135_encoded_partial chk recTy recTy4 rec_roomy (by decide) (by decide) l m h1 h3
    recSrc).2 _ r h2⟩

/-- Two bits: `a` with two or three cases, and `b` with two. -/
def flagsTy (cs : List (Str × Ty)) : Ty :=
  .struct [(['a'], .enum cs), (['b'], .enum [(['f'], .unit), (['t'], .unit)])]

/-- C135. A case that needs another bit for the tag moves the tags: the byte stored for `{ a: n, b: t }` is read as the
new case of `a` afterwards. -/
theorem C135_bits_refuted (chk : Bool) : ∃ (cs : List (Str × Ty)) (c : Str × Ty) (l m : Layout) (data : Bytes),
    Layout.new chk (flagsTy cs) = .ok l ∧ Layout.new chk (flagsTy (cs ++ [c])) = .ok m ∧
    (l.source chk data).tag [0] = .ok 0 ∧ (l.source chk data).tag [1] = .ok 1 ∧
    (m.source chk data).tag [0] = .ok 2 ∧ (m.source chk data).tag [1] = .ok 0 := by
  refine ⟨[(['n'], .unit), (['y'], .unit)], (['x'], .unit), _, _, [2], rfl, rfl, ?_⟩
  cases chk <;> decide +kernel

/-- C135. A case with a wider word changes the alignment: what is stored for `x(7)` is read as `x(0)` afterwards. -/
theorem C135_width_refuted (chk : Bool) : ∃ (cs : List (Str × Ty)) (c : Str × Ty) (l m : Layout) (data : Bytes),
    Layout.new chk (.enum cs) = .ok l ∧ Layout.new chk (.enum (cs ++ [c])) = .ok m ∧
    (l.source chk data).prim .u8 [0] = .ok (7 : BitVec 8) ∧
    (m.source chk data).prim .u8 [0] = .ok (0 : BitVec 8) := by
  refine ⟨[(['x'], .prim .u8), (['y'], .unit), (['z'], .unit)], (['w'], .prim .u64), _, _,
    0 :: 7 :: List.replicate 14 0, rfl, rfl, ?_⟩
  cases chk <;> decide +kernel

end Verif.Props
