import Verif.Proof.JsonWriter
import Verif.Props.JsonText
import Verif.Props.Marshaller

/-! # Properties C108, C109: the JSON encoder with an arbitrary writer (`src/core/json/encoder.rs`) -/

namespace Verif.Props

open Verif Spec Json

/-- A data source holding one string. -/
def textSrc (s : Str) : DataSource := (IntermediateDataSource.new.addString [] s).source

/-- Numbers in one piece. -/
def onePiece : Pieces := ⟨fun s => [s], fun s => by simp⟩

/-- The document of the sample record. -/
def sampleText : Str := "{\"a\":515,\"b\":\"hi\",\"c\":{\"kind\":\"y\",\"value\":[\"A\",true]}}".toList

/-! ## C108 -/

/-- C108 is false: with a writer that takes one byte at a time, the string of a backslash and an `n` is written
as the document of a newline, and `encode` returns `Ok`. -/
theorem C108_whole_refuted (F : FloatText) (P : Pieces) : ∃ (s s' : Str) (doc : Bytes) (io : Io), s ≠ s' ∧
    (∀ a ∈ io.script, a = .took 1) ∧ io.received = [] ∧ encode F .string (textSrc s') = .ok doc ∧
    encodeTo F P .string (textSrc s) io = (.done, ⟨[], doc⟩) := by
  refine ⟨['\\', 'n'], ['\n'], Str.utf8 ['"', '\\', 'n', '"'], ⟨List.replicate 4 (.took 1), []⟩, by decide,
    by simp, rfl, ?_, ?_⟩
  · simp only [encode, emitterFor]
    decide
  · simp only [encodeTo, emitterTo]
    decide

/-- C108 is false: a writer that is interrupted once and takes everything when asked again makes `encode`
return an error, if it is interrupted within a string. -/
theorem C108_interrupted_refuted (F : FloatText) (P : Pieces) : ∃ (s : Str) (io : Io),
    (∀ a ∈ io.script, a = .took 100 ∨ a = .interrupted) ∧ io.received = [] ∧
    (∃ doc, encode F .string (textSrc s) = .ok doc ∧ doc.length ≤ 100) ∧
    (encodeTo F P .string (textSrc s) io).1 = .ioErr := by
  refine ⟨['a'], ⟨[.took 100, .interrupted, .took 100, .took 100], []⟩, by simp, rfl,
    ⟨Str.utf8 ['"', 'a', '"'], ?_, by decide⟩, ?_⟩
  · simp only [encode, emitterFor]
    decide
  · simp only [encodeTo, emitterTo]
    decide

/-- C108, the part that holds for every document.  Full statement: whatever the writer, when `encode` returns
`Ok` the writer has taken the document.  Missing: writers that sometimes take fewer than six bytes of a longer
slice.  Proved: if each call of `write` that returns `Ok` takes six bytes or all that it is offered, the writer
has taken the document. -/
theorem C108_six_bytes_partial (F : FloatText) (P : Pieces) (t : Ty) (src : DataSource) (io io' : Io)
    (h : ∀ n, Answer.took n ∈ io.script → 6 ≤ n) (hr : encodeTo F P t src io = (.done, io')) :
    ∃ doc, encode F t src = .ok doc ∧ io'.received = io.received ++ doc := by
  rcases asks_to F P src [] t with ⟨rs, e, hs, hn, ho, hf⟩
  rw [encodeTo, hs] at hr
  have he := (drive_end rs e io).1 (by rw [hr])
  cases hd : encode F t src with
  | error f => rw [hf f hd] at he; cases he
  | ok doc =>
    refine ⟨doc, rfl, ?_⟩
    rcases drive_prefix rs e io (fun bs r n hb hm hrr => by
      have h6 := (hn _ hb).2.2
      have := h n hm
      rw [hrr, List.take_of_length_le (by omega)]) with ⟨got, g1, _, g3⟩
    rw [hr] at g1 g3
    rw [g1, g3 rfl, (ho doc hd).2]

/-- The hypothesis can be met: a writer that takes six bytes at a time and gets the sample document. -/
example : ∃ doc, encode noFloats recTy recSrc = .ok doc ∧ ∃ io io' : Io, (∀ n, Answer.took n ∈ io.script → 6 ≤ n) ∧
    encodeTo noFloats onePiece recTy recSrc io = (.done, io') ∧ io'.received = io.received ++ doc ∧
    50 ≤ doc.length := by
  refine ⟨Str.utf8 sampleText, by decide +kernel,
    ⟨List.replicate 36 (.took 6), []⟩, ⟨[], Str.utf8 sampleText⟩, ?_, by decide +kernel, by decide +kernel,
    by decide +kernel⟩
  intro n h
  have := List.eq_of_mem_replicate h
  cases this
  decide

/-- C108, the part that holds for slow writers: a document is taken as a whole by every writer that takes at
least one byte in each call that returns `Ok`, exactly if it has neither an escape nor a character outside of
ASCII. -/
theorem C108_slow_iff (F : FloatText) (hF : SlimFloats F) (P : Pieces) (t : Ty) (src : DataSource) (doc : Bytes)
    (hd : encode F t src = .ok doc) :
    (∀ io io' : Io, Answer.took 0 ∉ io.script → encodeTo F P t src io = (.done, io') →
      io'.received = io.received ++ doc) ↔ Slim doc := by
  rcases asks_to F P src [] t with ⟨rs, e, hs, hn, ho, hf⟩
  rcases ho doc hd with ⟨rfl, hb⟩
  constructor
  · intro h
    rcases drive_single rs hn with ⟨k, got, hk⟩
    have h1 : encodeTo F P t src ⟨List.replicate k (.took 1) ++ [], []⟩ = (.done, ⟨[], [] ++ got⟩) := by
      rw [encodeTo, hs]
      exact (hk .done [] []).1
    have h2 := h _ _ (by simp) h1
    have h3 : got = doc := by simpa using h2
    intro b hbd
    rw [← hb] at hbd
    rcases List.mem_flatMap.1 hbd with ⟨q, hq, hbq⟩
    have hq' := hn q hq
    cases q with
    | all bs => exact hq' hF b hbq
    | once bs =>
      refine hq'.2.1.1 ?_ b hbq
      apply Classical.byContradiction
      intro hl
      have := (hk .done [] []).2.2 ⟨bs, hq, hl⟩
      rw [h3, hb] at this
      omega
  · intro hsl io io' h0 hr
    rw [encodeTo, hs] at hr
    rcases drive_prefix rs .done io (fun bs r n hbm hm hrr => by
      have h1 : bs.length = 1 := (hn _ hbm).2.1.2 (fun b hbb => hsl b (by
        rw [← hb]
        exact List.mem_flatMap.2 ⟨_, hbm, hbb⟩))
      have hn0 : n ≠ 0 := fun hz => h0 (hz ▸ hm)
      rw [hrr, List.take_of_length_le (by omega)]) with ⟨got, g1, _, g3⟩
    rw [hr] at g1 g3
    rw [g1, g3 rfl, hb]

/-- The sample document has no escapes, so a writer that takes a byte at a time gets all of it. -/
example : ∃ doc, encode noFloats recTy recSrc = .ok doc ∧ Slim doc ∧ SlimFloats noFloats := by
  refine ⟨Str.utf8 sampleText, by decide +kernel, ?_, ?_⟩
  · unfold Slim; decide +kernel
  · exact ⟨fun v c h => (by cases h), fun v c h => (by cases h)⟩

/-- C108, the part that holds for every writer: what it has taken, at any time, are bytes of the document in
their order. -/
theorem C108_subsequence (F : FloatText) (P : Pieces) (t : Ty) (src : DataSource) (doc : Bytes)
    (hd : encode F t src = .ok doc) (io : Io) :
    ∃ got, (encodeTo F P t src io).2.received = io.received ++ got ∧ got.Sublist doc := by
  rcases asks_to F P src [] t with ⟨rs, e, hs, hn, ho, hf⟩
  rw [encodeTo, hs, ← (ho doc hd).2]
  exact drive_sublist rs e io

/-- A document that is cut. -/
example : encode noFloats .string (textSrc ['é']) = .ok (Str.utf8 ['"', 'é', '"']) ∧
    (encodeTo noFloats onePiece .string (textSrc ['é']) ⟨List.replicate 3 (.took 1), []⟩) =
      (.done, ⟨[], [34, 0xc3, 34]⟩) := by
  constructor <;> decide +kernel

/-! ## C109 -/

/-- C109. `encode` returns `Ok` only if all fields could be read, and panics only if reading a field does; and
it does return when the writer answers: for each byte of the document at most one call returns, apart from those
that are interrupted. -/
theorem C109_returns (F : FloatText) (P : Pieces) (t : Ty) (src : DataSource) (io : Io) :
    ((encodeTo F P t src io).1 = .done → ∃ doc, encode F t src = .ok doc) ∧
    (∀ f, (encodeTo F P t src io).1 = .fault f → encode F t src = .error f) ∧
    (∀ doc, encode F t src = .ok doc →
      doc.length ≤ (io.script.filter (· != .interrupted)).length →
      (encodeTo F P t src io).1 = .done ∨ (encodeTo F P t src io).1 = .ioErr) := by
  rcases asks_to F P src [] t with ⟨rs, e, hs, hn, ho, hf⟩
  rw [encodeTo, hs]
  refine ⟨fun h => ?_, fun f h => ?_, fun doc hd hl => ?_⟩
  · have he := (drive_end rs e io).1 h
    cases hd : encode F t src with
    | error f => rw [hf f hd] at he; cases he
    | ok doc => exact ⟨doc, rfl⟩
  · have he := (drive_end rs e io).2 f h
    cases hd : encode F t src with
    | error g => rw [hf g hd] at he; cases he; rfl
    | ok doc => rw [(ho doc hd).1] at he; cases he
  · rcases ho doc hd with ⟨rfl, hb⟩
    rcases hq : (drive rs .done io).1 with _ | _ | _ | f
    · exact .inl rfl
    · exact .inr rfl
    · have := drive_answers rs .done io hn (by decide) hq
      rw [hb] at this
      omega
    · have := (drive_end rs .done io).2 f hq
      cases this

/-- C109. Also if reading a field panics, the number of calls that return without being interrupted is bounded. -/
theorem C109_ends (F : FloatText) (P : Pieces) (t : Ty) (src : DataSource) : ∃ M, ∀ io : Io,
    M ≤ (io.script.filter (· != .interrupted)).length → (encodeTo F P t src io).1 ≠ .waiting := by
  rcases asks_to F P src [] t with ⟨rs, e, hs, hn, ho, hf⟩
  refine ⟨(reqBytes rs).length, fun io hl h => ?_⟩
  rw [encodeTo, hs] at h
  have he : e ≠ .waiting := by
    cases hd : encode F t src with
    | error f => rw [hf f hd]; simp
    | ok doc => rw [(ho doc hd).1]; simp
  have := drive_answers rs e io hn he h
  omega

/-- C109. If each call of `write` that returns `Ok` takes six bytes or all that it is offered, what the writer
has taken at any time is a beginning of the document, also when `encode` returns an error. -/
theorem C109_prefix (F : FloatText) (P : Pieces) (t : Ty) (src : DataSource) (doc : Bytes)
    (hd : encode F t src = .ok doc) (io : Io) (h : ∀ n, Answer.took n ∈ io.script → 6 ≤ n) :
    ∃ got, (encodeTo F P t src io).2.received = io.received ++ got ∧ got <+: doc := by
  rcases asks_to F P src [] t with ⟨rs, e, hs, hn, ho, hf⟩
  rw [encodeTo, hs, ← (ho doc hd).2]
  rcases drive_prefix rs e io (fun bs r n hb hm hrr => by
    have h6 := (hn _ hb).2.2
    have := h n hm
    rw [hrr, List.take_of_length_le (by omega)]) with ⟨got, g1, g2, _⟩
  exact ⟨got, g1, g2⟩

/-- C109. A `Vec<u8>`, which takes everything at once, gets what `Json.encode` says; and if reading a field
panics, so does `encode`. -/
theorem C109_vec (F : FloatText) (P : Pieces) (t : Ty) (src : DataSource) :
    (∀ doc, encode F t src = .ok doc → ∃ k, ∀ (N : Nat) (s : List Answer) (r : Bytes), doc.length ≤ N →
      encodeTo F P t src ⟨List.replicate k (.took N) ++ s, r⟩ = (.done, ⟨s, r ++ doc⟩)) ∧
    (∀ f, encode F t src = .error f → ∃ k M, ∃ got : Bytes, ∀ (N : Nat) (s : List Answer) (r : Bytes), M ≤ N →
      encodeTo F P t src ⟨List.replicate k (.took N) ++ s, r⟩ = (.fault f, ⟨s, r ++ got⟩)) := by
  rcases asks_to F P src [] t with ⟨rs, e, hs, hn, ho, hf⟩
  rcases drive_whole rs hn with ⟨k, hk⟩
  refine ⟨fun doc hd => ⟨k, fun N s r hN => ?_⟩,
    fun f hd => ⟨k, (reqBytes rs).length, reqBytes rs, fun N s r hN => ?_⟩⟩
  · rcases ho doc hd with ⟨rfl, hb⟩
    rw [encodeTo, hs, hk .done N s r (by rw [hb]; exact hN), hb]
  · rw [encodeTo, hs, hf f hd, hk (.fault f) N s r hN]

/-- An interruption between the parts of a number is ignored, an error within a string is not, and a field that
is not there panics after the beginning is written. -/
example :
    encodeTo noFloats onePiece (.tuple [.prim .u16]) ((IntermediateDataSource.new.addPrimitive [0]
        ⟨.u16, (515 : BitVec 16)⟩).source) ⟨[.took 1, .took 1, .interrupted, .took 9, .took 9], []⟩ =
      (.done, ⟨[], Str.utf8 ['[', '5', '1', '5', ']']⟩) ∧
    encodeTo noFloats onePiece .string (textSrc ['a', 'b']) ⟨[.took 9, .took 9, .failed, .took 9], []⟩ =
      (.ioErr, ⟨[.took 9], Str.utf8 ['"', 'a']⟩) ∧
    encodeTo noFloats onePiece (.tuple [.prim .u16]) IntermediateDataSource.new.source ⟨[.took 9, .took 9], []⟩ =
      (.fault .panic, ⟨[.took 9], Str.utf8 ['[']⟩) := by
  refine ⟨by decide +kernel, by decide +kernel, by decide +kernel⟩

end Verif.Props
