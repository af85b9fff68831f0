import Verif.Props.Json
import Verif.Props.Unique

/-! # C146: documents tell values apart -/

namespace Verif.Props

open Verif Spec Json

/-! ## C146 -/

/-- C146 is false: an enum may have two cases of the same label and type, whose values are written alike. -/
theorem C146_documents_refuted (F : FloatText) : ∃ (t : Ty) (v v' : Val) (src src' : DataSource) (text : Bytes),
    Typed t v ∧ Typed t v' ∧ v ≠ v' ∧ Presents src v [] ∧ Presents src' v' [] ∧ encode F t src = .ok text ∧
    encode F t src' = .ok text := by
  refine ⟨.enum [(['a'], .unit), (['a'], .unit)], .case 0 .unit, .case 1 .unit,
    (IntermediateDataSource.new.addCaseTag [] 0).source, (IntermediateDataSource.new.addCaseTag [] 1).source,
    Str.utf8 "{\"kind\":\"a\",\"value\":null}".toList, .enum rfl .unit, .enum rfl .unit, ?_, ?_, ?_, ?_, ?_⟩
  · intro e
    cases e
  · intro q l h
    simp only [leaves, List.mem_singleton, Prod.mk.injEq] at h
    obtain ⟨rfl, rfl⟩ := h
    exact rfl
  · intro q l h
    simp only [leaves, List.mem_singleton, Prod.mk.injEq] at h
    obtain ⟨rfl, rfl⟩ := h
    exact rfl
  · rfl
  · rfl

theorem plain_typed {F : FloatText} {t : Ty} {v : Val} (h : Plain F t v) : Typed t v := by
  induction h with
  | unit => exact .unit
  | prim _ => exact .prim _
  | str _ => exact .str _
  | tuple h _ ih => exact .tuple h ih
  | struct _ _ _ h _ ih => exact .struct h ih
  | enum h _ _ _ ih => exact .enum h ih

/-- C146, the part that holds.  Full statement: different values of a type are written as different texts.  Missing:
the values listed in `C34_round_trip_partial`.  Proved: for all other values, from any data sources presenting them, the
texts are equal if and only if the values are. -/
theorem C146_documents_partial (env : Env) (t : Ty) (v v' : Val) (hv : Plain env.floats t v)
    (hv' : Plain env.floats t v') (src src' : DataSource) (hs : Presents src v []) (hs' : Presents src' v' []) :
    encode env.floats t src = encode env.floats t src' ↔ v = v' := by
  constructor
  · intro e
    obtain ⟨text, _, d, h1, _, _, h2, h3⟩ := C34_round_trip_partial env t v hv src hs
    obtain ⟨text', _, d', h1', _, _, h2', h3'⟩ := C34_round_trip_partial env t v' hv' src' hs'
    rw [h1, h1'] at e
    obtain rfl : text = text' := utf8_injective (by injection e)
    rw [h2] at h2'
    cases h2'
    exact presents_unique (plain_typed hv) (plain_typed hv') (presents_holds h3) (presents_holds h3')
  · rintro rfl
    obtain ⟨r, hr⟩ := emits_same (F := env.floats) (plain_typed hv)
    rw [show encode env.floats t src = _ from hr src [] hs, show encode env.floats t src' = _ from hr src' [] hs']

/-- C146. Records are written as the same document if and only if they store the same value. -/
theorem C146_records_partial (env : Env) (t : Ty) (l : Layout) (hl : Layout.new env.chk t = .ok l) (v v' : Val)
    (hv : Plain env.floats t v) (hv' : Plain env.floats t v') (row row' : Bytes) (h : StoredAs env.chk t l v row)
    (h' : StoredAs env.chk t l v' row') :
    encode env.floats t (l.source env.chk row) = encode env.floats t (l.source env.chk row') ↔ v = v' := by
  have p1 := (storedAs_reads hl h []).1
  have p2 := (storedAs_reads hl h' []).1
  rw [List.append_nil] at p1 p2
  exact C146_documents_partial env t v v' hv hv' _ _ p1 p2

/-- C146. The data of an accepted document present exactly one value of the type.  If overflow checks are off, the type
has no struct of 64 fields (C35). -/
theorem C146_one_value (env : Env) (t : Ty) (ha : AllStructs (fun n => n ≠ 64 ∨ env.chk = true) t) (input : Str)
    (d : IntermediateDataSource) (h : decode env t input = .ok d) : ∃ v, Typed t v ∧ HoldsExactly d v ∧
      ∀ v', Typed t v' → (Presents d.source v' [] ↔ v' = v) := by
  obtain ⟨tr, v, k, s, h1, h2, h3⟩ := decode_takes h
  have hden := h2.denotes (ha.mono fun n h => h.imp id fun h => by rw [h]; simp)
  refine ⟨v, hden.typed, h3, fun v' ht => ⟨fun hp => presents_unique ht hden.typed hp (presents_holds h3), ?_⟩⟩
  rintro rfl
  exact presents_holds h3

theorem red_plain (F : FloatText) : Plain F recTy redVal := by
  refine .struct (by decide) (by decide) (by unfold Writable; decide) rfl ?_
  intro i f v hf hv
  match i, hf, hv with
  | 0, hf, hv => cases hf; cases hv; exact .prim (v := ⟨.u16, (7 : BitVec 16)⟩) trivial
  | 1, hf, hv => cases hf; cases hv; exact .str (s := ['n', 'o']) (by unfold Writable; decide)
  | 2, hf, hv =>
    cases hf; cases hv
    refine .enum (l := ['y']) (c := .tuple [.string, .prim .bool]) rfl ?_ (by unfold Writable; decide) (.tuple rfl ?_)
    · intro j d hj hd
      match j, hj, hd with
      | 2, _, hd => cases hd; decide
    · intro i c v hc hv
      match i, hc, hv with
      | 0, hc, hv => cases hc; cases hv; exact .str (s := ['B']) (by unfold Writable; decide)
      | 1, hc, hv => cases hc; cases hv; exact .prim (v := ⟨.bool, false⟩) trivial

/-- The samples are written as different documents, from data sources and from the records. -/
example (env : Env) : encode env.floats recTy recSrc ≠ encode env.floats recTy redSrc := fun e =>
  absurd (congrArg (apart recVal) ((C146_documents_partial env recTy recVal redVal (rec_plain _) (red_plain _) recSrc
    redSrc rec_presents red_presents).1 e)) (by decide)

example (env : Env) (hc : env.chk = true) (buf : Bytes) (hb : 24 ≤ buf.length) : ∃ l a b,
    Layout.new true recTy = .ok l ∧ l.encode true recSrc buf = .ok (a, 24) ∧ l.encode true redSrc buf = .ok (b, 24) ∧
    encode env.floats recTy (l.source true (a.take 24)) ≠ encode env.floats recTy (l.source true (b.take 24)) := by
  obtain ⟨l, hl, hsize⟩ := rec_size
  obtain ⟨a, b, h1, h2, _⟩ := C144_distance true recTy recVal redVal (rec_fits true) red_form red_typed l hl recSrc
    redSrc rec_presents red_presents 24 hsize buf hb
  refine ⟨l, a, b, hl, h1, h2, fun e => ?_⟩
  have := (C146_records_partial env recTy l (hc ▸ hl) recVal redVal (rec_plain _) (red_plain _) (a.take 24) (b.take 24)
    (by rw [hc]; exact ⟨rec_fits true, recSrc, buf, a, 24, rec_presents, hb, h1, rfl⟩)
    (by rw [hc]; exact ⟨Fits.sameForm (rec_fits true) red_form red_typed, redSrc, buf, b, 24, red_presents, hb, h2,
      rfl⟩)).1 (by rw [hc]; exact e)
  exact absurd (congrArg (apart recVal) this) (by decide)

/-- The document of the sample has one value, the sample. -/
example (env : Env) (hc : env.chk = true) : ∃ text d, decode env recTy text = .ok d ∧
    ∀ v', Typed recTy v' → (Presents d.source v' [] ↔ v' = recVal) := by
  obtain ⟨text, _, d, _, _, _, h2, h3⟩ := C34_round_trip_partial env recTy recVal (rec_plain _) recSrc rec_presents
  obtain ⟨v, ht, hv, hall⟩ := C146_one_value env recTy (allStructs_of (fun _ => .inr hc) recTy) text d h2
  refine ⟨text, d, h2, ?_⟩
  rw [(hall recVal (rec_fits true).typed).1 (presents_holds h3)]
  exact hall

end Verif.Props
