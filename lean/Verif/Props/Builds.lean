import Verif.Proof.Builds
import Verif.Props.Page
import Verif.Props.Json
import Verif.Props.BufferPool

/-! # Property C105: what overflow checks change

The debug and the release build of every function of the model, `Verif.Spec.Agrees`. -/

namespace Verif.Props

open Verif Verif.Spec Verif.Nsm Verif.Storage Verif.Json

/-- C105, where the builds can differ: the arithmetic of machine words.  Without checks the result is that of bit
vectors.  With checks it is the same if the result of the numbers fits, or the shift is below the width, and a panic
otherwise. -/
theorem C105_arithmetic (w : Nat) (x y : BitVec w) (s : Nat) :
    addN false w x.toNat y.toNat = .ok (x + y).toNat ∧
    subN false w x.toNat y.toNat = .ok (x - y).toNat ∧
    shlW false w x.toNat s = .ok (x <<< (s % w)).toNat ∧
    shrW false w x.toNat s = .ok (x >>> (s % w)).toNat ∧
    (addN true w x.toNat y.toNat = if x.toNat + y.toNat < 2 ^ w then .ok (x.toNat + y.toNat) else .error .panic) ∧
    (subN true w x.toNat y.toNat = if y.toNat ≤ x.toNat then .ok (x.toNat - y.toNat) else .error .panic) ∧
    (shlW true w x.toNat s = if s < w then .ok (x <<< s).toNat else .error .panic) ∧
    (shrW true w x.toNat s = if s < w then .ok (x >>> s).toNat else .error .panic) := by
  have hx := x.isLt
  have hy := y.isLt
  refine ⟨?_, ?_, ?_, ?_, ?_, ?_, ?_, ?_⟩
  · unfold addN
    rw [BitVec.toNat_add]
    split
    · rw [Nat.mod_eq_of_lt ‹_›]
    · rfl
  · unfold subN
    rw [BitVec.toNat_sub]
    split
    · rw [show 2 ^ w - y.toNat + x.toNat = (x.toNat - y.toNat) + 2 ^ w by omega, Nat.add_mod_right,
        Nat.mod_eq_of_lt (by omega)]
    · rw [Nat.mod_eq_of_lt (by omega)]
      simp only [Bool.false_eq_true, if_false]
      congr 1; omega
  · unfold shlW
    rw [BitVec.toNat_shiftLeft, Nat.shiftLeft_eq]
    split
    · rw [Nat.mod_eq_of_lt (a := s) ‹_›]
    · rfl
  · unfold shrW
    rw [BitVec.toNat_ushiftRight, Nat.shiftRight_eq_div_pow]
    split
    · rw [Nat.mod_eq_of_lt (a := s) ‹_›]
    · rfl
  · rfl
  · rfl
  · unfold shlW
    rw [BitVec.toNat_shiftLeft, Nat.shiftLeft_eq]; rfl
  · unfold shrW
    rw [BitVec.toNat_ushiftRight, Nat.shiftRight_eq_div_pow]; rfl

/-- C105, the same for `usize` and `u64`. -/
theorem C105_arithmetic_64 (x y : BitVec 64) (s : Nat) :
    addW false x.toNat y.toNat = .ok (x + y).toNat ∧
    subW false x.toNat y.toNat = .ok (x - y).toNat ∧
    mulW false x.toNat y.toNat = .ok (x * y).toNat ∧
    shl1 false s = .ok (1#64 <<< (s % 64)).toNat ∧
    (addW true x.toNat y.toNat = if x.toNat + y.toNat < 2 ^ 64 then .ok (x.toNat + y.toNat) else .error .panic) ∧
    (subW true x.toNat y.toNat = if y.toNat ≤ x.toNat then .ok (x.toNat - y.toNat) else .error .panic) ∧
    (mulW true x.toNat y.toNat = if x.toNat * y.toNat < 2 ^ 64 then .ok (x.toNat * y.toNat) else .error .panic) ∧
    (shl1 true s = if s < 64 then .ok (2 ^ s) else .error .panic) := by
  have h := C105_arithmetic 64 x y s
  refine ⟨h.1, h.2.1, ?_, ?_, h.2.2.2.2.1, h.2.2.2.2.2.1, rfl, rfl⟩
  · unfold mulW
    rw [BitVec.toNat_mul]
    split
    · rw [Nat.mod_eq_of_lt ‹_›]
    · rfl
  · have hs : s % 64 < 64 := Nat.mod_lt _ (by decide)
    have : 2 ^ (s % 64) < 2 ^ 64 := Nat.pow_lt_pow_right (by decide) hs
    unfold shl1
    rw [BitVec.toNat_shiftLeft, Nat.shiftLeft_eq, BitVec.toNat_ofNat, Nat.mod_eq_of_lt (a := 1) (by decide), Nat.one_mul,
      Nat.mod_eq_of_lt this]
    split
    · rw [Nat.mod_eq_of_lt (a := s) ‹_›]
    · rfl
/-- A sum that fits and one that does not. -/
example : addN true 8 (200#8).toNat (50#8).toNat = .ok 250 ∧ addN true 8 (200#8).toNat (60#8).toNat = .error .panic ∧
    addN false 8 (200#8).toNat (60#8).toNat = .ok 4 ∧ shlW false 8 (3#8).toNat 9 = .ok 6 := by decide

/-- C105 for pages: every page, sound or damaged, and every history of calls. -/
theorem C105_pages (a : Nat) (page : Bytes) :
    Agrees .panic (initializePage true a page) (initializePage false a page) ∧
    (∀ ops, Agrees .panic (pageRun true a ops page) (pageRun false a ops page)) ∧
    (∀ i, Agrees .panic (getRow true a page i) (getRow false a page i)) ∧
    Agrees .panic (maxInsertRowSize true a page) (maxInsertRowSize false a page) := by
  refine ⟨initializePage_agrees a page, fun ops => ?_, getRow_agrees a page, maxInsertRowSize_agrees a page⟩
  induction ops generalizing page with
  | nil => exact Agrees.refl _
  | cons op ops ih =>
    refine Agrees.bind ?_ ih
    cases op with
    | append r => exact appendRow_agrees a page r
    | insert i r => exact insertRow_agrees a page i r
    | remove i => exact removeRow_agrees a page i

/-- The builds do the same with the history of C05.  With a damaged page, in which row 1 starts behind row 0, the
checked build panics when row 1 is removed and the other one removes it. -/
example :
    (∃ p, pageRun true 4 exOps (List.replicate 64 0) = .ok p ∧ pageRun false 4 exOps (List.replicate 64 0) = .ok p) ∧
    removeRow true 1 ([3, 0, 0, 0, 28, 0, 0, 0, 30, 0, 0, 0, 29, 0, 0, 0] ++ List.replicate 16 7) 1
      = .error .panic ∧
    removeRow false 1 ([3, 0, 0, 0, 28, 0, 0, 0, 30, 0, 0, 0, 29, 0, 0, 0] ++ List.replicate 16 7) 1
      = .ok ([2, 0, 0, 0, 28, 0, 0, 0, 27, 0, 0, 0, 29, 0, 0, 0] ++ List.replicate 16 7) := by
  refine ⟨?_, by decide +kernel, by decide +kernel⟩
  have h : (pageRun true 4 exOps (List.replicate 64 0)).isOk = true := by decide +kernel
  cases hr : pageRun true 4 exOps (List.replicate 64 0) with
  | ok p => exact ⟨p, rfl, Agrees.ok ((C105_pages 4 _).2.1 exOps) hr⟩
  | error e => rw [hr] at h; cases h

/-- C105 for the marshaller: layouts of every type, and reading and writing every buffer with every layout, from data
sources that agree. -/
theorem C105_marshaller (t : Ty) (l : Layout) (data : Bytes) :
    Agrees .panic (Layout.new true t) (Layout.new false t) ∧
    Agrees .panic (l.encodingSize true data) (l.encodingSize false data) ∧
    SourcesAgree (l.source true data) (l.source false data) ∧
    ∀ s s', SourcesAgree s s' →
      Agrees .panic (l.sizeWithSource true s) (l.sizeWithSource false s') ∧
      Agrees .panic (l.encode true s data) (l.encode false s' data) :=
  ⟨layoutNew_agrees t, encodingSize_agrees l data, source_agrees l data,
    fun _ _ h => ⟨sizeWithSource_agrees h l, encode_agrees h l data⟩⟩

/-- C105 for JSON: reading every text for every type, and writing from data sources that agree. -/
theorem C105_json (env : Env) (t : Ty) (input : Str) (F : FloatText) :
    Agrees (Stop.fault .panic) (decode { env with chk := true } t input) (decode { env with chk := false } t input) ∧
    ∀ s s', SourcesAgree s s' → Agrees .panic (encode F t s) (encode F t s') :=
  ⟨decode_agrees env t input, fun _ _ h => emitterFor_agrees h F t []⟩

/-- C105 for the way from a text to the text of its binary form: what the checked build computes, the other one
computes as well. -/
theorem C105_json_binary_json (env : Env) (t : Ty) (input : Str) (F : FloatText) (d : IntermediateDataSource)
    (l : Layout) (buf data text : Bytes) (n : Nat)
    (h1 : decode { env with chk := true } t input = .ok d) (h2 : Layout.new true t = .ok l)
    (h3 : l.encode true d.source buf = .ok (data, n)) (h4 : encode F t (l.source true data) = .ok text) :
    decode { env with chk := false } t input = .ok d ∧ Layout.new false t = .ok l ∧
    l.encode false d.source buf = .ok (data, n) ∧ encode F t (l.source false data) = .ok text :=
  ⟨Agrees.ok (decode_agrees env t input) h1, Agrees.ok (layoutNew_agrees t) h2,
    Agrees.ok (encode_agrees (SourcesAgree.refl _) l buf) h3,
    Agrees.ok ((C105_json env t input F).2 _ _ (source_agrees l data)) h4⟩

example : ∃ d l buf data n text, decode (plainEnv true) recTy recJson = .ok d ∧ Layout.new true recTy = .ok l ∧
    l.encode true d.source buf = .ok (data, n) ∧ encode noFloats recTy (l.source true data) = .ok text := by
  obtain ⟨d, h, _⟩ := recJson_decode true
  obtain ⟨l, hl⟩ := (C18_layout_new true recTy (by decide)).2 rec_inhab
  obtain ⟨n, text, h1, _, h2⟩ := C43_json_binary_json_partial (plainEnv true) recTy rec_inhab (by decide) l hl
    (fun _ hm => tags_room true _ recTy (Nat.le_refl _) (by decide) rec_inhab
      (AllEnums_imp (fun _ => tagFits_ok) (rec_enums true)) [] l _ hl hm)
    (rec_structs (.inl (by decide))) recJson (by decide) d h noFloats
  obtain ⟨data, h3, h4, _⟩ := h2 (List.replicate n 0) (by simp)
  exact ⟨d, l, _, data, n, text, h, hl, h3, h4⟩

/-- C105 for volumes. -/
theorem C105_volumes (p : Params) :
    Agrees .panic (regions true p) (regions false p) ∧ Agrees .panic (bitmap true p) (bitmap false p) ∧
    (∀ i, Agrees .panic (nextVolume true i) (nextVolume false i)) ∧
    (∀ w v a, Agrees .panic (alignN true w v a) (alignN false w v a)) ∧
    (∀ v a, Agrees .panic (align true v a) (align false v a)) ∧
    (∀ a b, Agrees .panic (calcFileBlocks true a b) (calcFileBlocks false a b)) ∧
    (∀ base i, Agrees .panic (headerPosition true p base i) (headerPosition false p base i)) ∧
    (∀ volume base i size clock header access,
      Agrees .panic (initFileHeader true p volume base i size clock header access)
        (initFileHeader false p volume base i size clock header access)) ∧
    ∀ opened next volumes access header rest,
      Agrees .panic (create true p opened next volumes access header rest)
        (create false p opened next volumes access header rest) :=
  ⟨regions_agrees p, bitmap_agrees p, nextVolume_agrees, alignN_agrees, align_agrees, calcFileBlocks_agrees,
    headerPosition_agrees p, initFileHeader_agrees p, create_agrees p⟩

/-- C105 for the buffer pool: its construction, the memory of its buffers, and every schedule. -/
theorem C105_buffer_pool :
    (∀ size n mapOk, Agrees .panic (Pool.new true size n mapOk) (Pool.new false size n mapOk)) ∧
    (∀ size n, Agrees .panic (mappedSize true size n) (mappedSize false size n)) ∧
    (∀ size mapped i, Agrees .panic (bufferSlice true size mapped i) (bufferSlice false size mapped i)) ∧
    ∀ fetch s acts, Agrees .panic (Storage.run true fetch s acts) (Storage.run false fetch s acts) := by
  refine ⟨poolNew_agrees, mappedSize_agrees, bufferSlice_agrees, fun fetch s acts => ?_⟩
  induction acts generalizing s with
  | nil => exact Agrees.refl _
  | cons a acts ih =>
    unfold Storage.run
    rcases step_agrees fetch s a with h | h
    · rw [h]; exact Or.inl rfl
    · rw [h]
      split
      · exact ih _
      · exact Agrees.refl _
      · exact Agrees.refl _

/-- Each case occurs: both builds give the same result, the same panic, and the same undefined behaviour; and the
checked build panics where the other one gives a wrong result. -/
example :
    (alignN true 8 250 4 = .ok 252 ∧ alignN false 8 250 4 = .ok 252) ∧
    (nextVolume true 255 = .error .panic ∧ nextVolume false 255 = .ok (none, 255)) ∧
    (bufferSlice true 4096 8192 2 = .error .ub ∧ bufferSlice false 4096 8192 2 = .error .ub) ∧
    (Pool.new true 4096 2 true = .error .panic ∧ ∃ p, Pool.new false 4096 2 true = .ok (some p)) ∧
    (alignN true 8 254 4 = .error .panic ∧ alignN false 8 254 4 = .ok 0) :=
  ⟨⟨by decide, by decide⟩, ⟨by decide, by decide⟩, ⟨by decide, by decide⟩, ⟨by decide, _, rfl⟩,
    ⟨by decide, by decide⟩⟩

end Verif.Props
