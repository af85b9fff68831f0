import Verif.Spec.Builds
import Verif.Model.Nsm
import Verif.Model.Marshaller
import Verif.Model.JsonDecoder
import Verif.Model.JsonEncoder
import Verif.Model.BufferPool
import Verif.Model.BufferMemory

/-!
# With and without overflow checks
-/

namespace Verif

open Verif.Spec

section
variable {ε : Type} {p : ε}

theorem Agrees.refl {α : Type} (a : Except ε α) : Agrees p a a := Or.inr rfl

theorem Agrees.panic {α : Type} (b : Except ε α) : Agrees p (.error p) b := Or.inl rfl

theorem Agrees.bind {α β : Type} {a b : Except ε α} {f g : α → Except ε β} (h : Agrees p a b)
    (hf : ∀ x, Agrees p (f x) (g x)) : Agrees p (a >>= f) (b >>= g) := by
  rcases h with rfl | rfl
  · exact Or.inl rfl
  · cases a with
    | error e => exact Or.inr rfl
    | ok x => exact hf x

theorem Agrees.bind_ok {α β : Type} {x y : α} {f g : α → Except ε β} (h : Agrees p (f x) (g y)) :
    Agrees p (.ok x >>= f) (.ok y >>= g) := h

theorem Agrees.ite {α : Type} {c : Prop} [Decidable c] {a b a' b' : Except ε α} (h : c → Agrees p a a')
    (h' : ¬ c → Agrees p b b') : Agrees p (if c then a else b) (if c then a' else b') := by
  split
  · exact h ‹_›
  · exact h' ‹_›

theorem Agrees.ok {α : Type} {a b : Except ε α} (h : Agrees p a b) {x : α} (ha : a = .ok x) : b = .ok x := by
  rcases h with rfl | rfl
  · cases ha
  · exact ha

end

/-- One step of such a proof. -/
macro "agree_step" : tactic => `(tactic| first
  | with_reducible exact Agrees.refl _
  | with_reducible exact Agrees.panic _
  | (with_reducible refine Agrees.bind ?_ (fun _ => ?_))
  | (with_reducible refine Agrees.ite (fun _ => ?_) (fun _ => ?_))
  | split)

theorem addW_agrees (a b : Nat) : Agrees .panic (addW true a b) (addW false a b) := by
  unfold addW; split <;> simp [Agrees]

theorem subW_agrees (a b : Nat) : Agrees .panic (subW true a b) (subW false a b) := by
  unfold subW; split <;> simp [Agrees]

theorem shlW_agrees (w a s : Nat) : Agrees .panic (shlW true w a s) (shlW false w a s) := by
  unfold shlW; split <;> simp [Agrees]

theorem shrW_agrees (w a s : Nat) : Agrees .panic (shrW true w a s) (shrW false w a s) := by
  unfold shrW; split <;> simp [Agrees]

theorem align_agrees (v a : Nat) : Agrees .panic (align true v a) (align false v a) := by
  unfold align
  repeat first | with_reducible exact addW_agrees _ _ | with_reducible exact subW_agrees _ _ | agree_step

/-! ## Pages -/

namespace Nsm

theorem alignmentMask_agrees (a : Nat) : Agrees .panic (alignmentMask true a) (alignmentMask false a) := by
  unfold alignmentMask
  repeat first | with_reducible exact subW_agrees _ _ | agree_step

theorem alignedRowOffset_agrees (a : Nat) (page : Bytes) (i : Nat) :
    Agrees .panic (alignedRowOffset true a page i) (alignedRowOffset false a page i) := by
  unfold alignedRowOffset
  repeat first | with_reducible exact alignmentMask_agrees _ | agree_step

theorem rowOffsetPadding_agrees (a : Nat) (page : Bytes) (i : Nat) :
    Agrees .panic (rowOffsetPadding true a page i) (rowOffsetPadding false a page i) := by
  unfold rowOffsetPadding
  repeat first | with_reducible exact alignmentMask_agrees _ | agree_step

theorem upperBound_agrees (a : Nat) (page : Bytes) (i : Nat) :
    Agrees .panic (upperBound true a page i) (upperBound false a page i) := by
  unfold upperBound
  repeat first | with_reducible exact alignedRowOffset_agrees _ _ _ | agree_step

theorem initializePage_agrees (a : Nat) (page : Bytes) :
    Agrees .panic (initializePage true a page) (initializePage false a page) := by
  unfold initializePage
  repeat first | with_reducible exact align_agrees _ _ | agree_step

theorem getRow_agrees (a : Nat) (page : Bytes) (i : Nat) :
    Agrees .panic (getRow true a page i) (getRow false a page i) := by
  unfold getRow
  repeat first | with_reducible exact rowOffsetPadding_agrees _ _ _ | with_reducible exact upperBound_agrees _ _ _ | with_reducible exact subW_agrees _ _ | agree_step

theorem maxInsertRowSize_agrees (a : Nat) (page : Bytes) :
    Agrees .panic (maxInsertRowSize true a page) (maxInsertRowSize false a page) := by
  unfold maxInsertRowSize
  repeat first | with_reducible exact align_agrees _ _ | with_reducible exact upperBound_agrees _ _ _ | agree_step

theorem appendRow_agrees (a : Nat) (page row : Bytes) :
    Agrees .panic (appendRow true a page row) (appendRow false a page row) := by
  unfold appendRow
  repeat first
    | with_reducible exact maxInsertRowSize_agrees _ _
    | with_reducible exact align_agrees _ _
    | with_reducible exact upperBound_agrees _ _ _
    | with_reducible exact subW_agrees _ _
    | agree_step

theorem shiftUp_agrees (d i : Nat) : ∀ (n : Nat) (page : Bytes),
    Agrees .panic (shiftUp true d i n page) (shiftUp false d i n page)
  | 0, _ => Agrees.refl _
  | n + 1, page => by
    unfold shiftUp
    repeat first | with_reducible exact subW_agrees _ _ | with_reducible exact shiftUp_agrees d i n _ | agree_step

theorem insertRow_agrees (a : Nat) (page : Bytes) (i : Nat) (row : Bytes) :
    Agrees .panic (insertRow true a page i row) (insertRow false a page i row) := by
  unfold insertRow
  repeat first
    | with_reducible exact maxInsertRowSize_agrees _ _
    | with_reducible exact align_agrees _ _
    | with_reducible exact upperBound_agrees _ _ _
    | with_reducible exact alignedRowOffset_agrees _ _ _
    | with_reducible exact subW_agrees _ _
    | with_reducible exact appendRow_agrees _ _ _
    | with_reducible exact shiftUp_agrees _ _ _ _
    | agree_step

theorem removeShift_agrees (a : Nat) (page : Bytes) (i n : Nat) :
    Agrees .panic (removeShift true a page i n) (removeShift false a page i n) := by
  unfold removeShift
  repeat first
    | with_reducible exact upperBound_agrees _ _ _
    | with_reducible exact alignedRowOffset_agrees _ _ _
    | with_reducible exact subW_agrees _ _
    | with_reducible exact addW_agrees _ _
    | agree_step

theorem removeRow_agrees (a : Nat) (page : Bytes) (i : Nat) :
    Agrees .panic (removeRow true a page i) (removeRow false a page i) := by
  unfold removeRow
  repeat first | with_reducible exact removeShift_agrees _ _ _ _ | agree_step

end Nsm

/-! ## Layouts -/

theorem assignOffsets_agrees : ∀ (fs : List FixedField) (n : Nat),
    Agrees .panic (assignOffsets true fs n) (assignOffsets false fs n)
  | [], _ => Agrees.refl _
  | f :: fs, n => by
    unfold assignOffsets
    repeat first | with_reducible exact addW_agrees _ _ | with_reducible exact assignOffsets_agrees fs _ | agree_step

theorem finishLayout_agrees (fixed : List FixedField) (bits : List Bitfield) (vars : List VarField) :
    Agrees .panic (finishLayout true fixed bits vars) (finishLayout false fixed bits vars) := by
  unfold finishLayout
  repeat first | with_reducible exact align_agrees _ _ | with_reducible exact assignOffsets_agrees _ _ | agree_step

mutual
theorem unrollType_agrees : ∀ (t : Ty) (q : Path), Agrees .panic (unrollType true t q) (unrollType false t q)
  | .unit, _ => by simp only [unrollType]; exact Agrees.refl _
  | .prim _, _ => by simp only [unrollType]; exact Agrees.refl _
  | .string, _ => by simp only [unrollType]; exact Agrees.refl _
  | .tuple cs, q => by
    rw [unrollType, unrollType]
    repeat first | with_reducible exact unrollTuple_agrees cs q 0 | agree_step
  | .struct fs, q => by
    rw [unrollType, unrollType]
    repeat first | with_reducible exact unrollStruct_agrees fs q 0 | agree_step
  | .enum cs, q => by
    rw [unrollType, unrollType]
    repeat first | with_reducible exact caseLayouts_agrees cs q 0 | agree_step
theorem unrollTuple_agrees : ∀ (cs : List Ty) (q : Path) (i : Nat),
    Agrees .panic (unrollTuple true cs q i) (unrollTuple false cs q i)
  | [], _, _ => by simp only [unrollTuple]; exact Agrees.refl _
  | c :: cs, q, i => by
    rw [unrollTuple, unrollTuple]
    repeat first | with_reducible exact unrollType_agrees c _ | with_reducible exact unrollTuple_agrees cs _ _ | agree_step
theorem unrollStruct_agrees : ∀ (fs : List (Str × Ty)) (q : Path) (i : Nat),
    Agrees .panic (unrollStruct true fs q i) (unrollStruct false fs q i)
  | [], _, _ => by simp only [unrollStruct]; exact Agrees.refl _
  | f :: fs, q, i => by
    rw [unrollStruct, unrollStruct]
    repeat first | with_reducible exact unrollField_agrees f _ | with_reducible exact unrollStruct_agrees fs _ _ | agree_step
theorem unrollField_agrees : ∀ (f : Str × Ty) (q : Path),
    Agrees .panic (unrollField true f q) (unrollField false f q)
  | (_, t), q => by rw [unrollField, unrollField]; exact unrollType_agrees t q
theorem caseLayouts_agrees : ∀ (cs : List (Str × Ty)) (q : Path) (i : Nat),
    Agrees .panic (caseLayouts true cs q i) (caseLayouts false cs q i)
  | [], _, _ => by simp only [caseLayouts]; exact Agrees.refl _
  | c :: cs, q, i => by
    rw [caseLayouts, caseLayouts]
    repeat first | with_reducible exact caseLayout_agrees c _ | with_reducible exact caseLayouts_agrees cs _ _ | agree_step
theorem caseLayout_agrees : ∀ (c : Str × Ty) (q : Path),
    Agrees .panic (caseLayout true c q) (caseLayout false c q)
  | (_, t), q => by
    rw [caseLayout, caseLayout]
    repeat first | with_reducible exact unrollType_agrees t _ | with_reducible exact finishLayout_agrees _ _ _ | agree_step
end

theorem layoutNew_agrees (t : Ty) : Agrees .panic (Layout.new true t) (Layout.new false t) := by
  unfold Layout.new calculateLayout
  repeat first | with_reducible exact unrollType_agrees t _ | with_reducible exact finishLayout_agrees _ _ _ | agree_step

/-! ## Reading -/

theorem readTag_agrees (f : FixedField) (data : Bytes) :
    Agrees .panic (readTag true f data) (readTag false f data) := by
  unfold readTag
  repeat first | with_reducible exact shlW_agrees _ _ _ | with_reducible exact shrW_agrees _ _ _ | with_reducible exact subW_agrees _ _ | agree_step

mutual
theorem encodingSize_agrees : ∀ (l : Layout) (data : Bytes),
    Agrees .panic (l.encodingSize true data) (l.encodingSize false data)
  | .mk al vo idx fixed vars, data => by
    rw [Layout.encodingSize, Layout.encodingSize]
    repeat first | with_reducible exact varsEnd_agrees fixed data vars _ | with_reducible exact align_agrees _ _ | agree_step
theorem varsEnd_agrees (fixed : List FixedField) (data : Bytes) : ∀ (vs : List VarField) (o : Nat),
    Agrees .panic (varsEnd true fixed data vs o) (varsEnd false fixed data vs o)
  | [], _ => by simp only [varsEnd]; exact Agrees.refl _
  | v :: vs, o => by
    rw [varsEnd, varsEnd]
    repeat first | with_reducible exact varEnd_agrees fixed data v _ | with_reducible exact varsEnd_agrees fixed data vs _ | agree_step
theorem varEnd_agrees (fixed : List FixedField) (data : Bytes) : ∀ (v : VarField) (o : Nat),
    Agrees .panic (varEnd true fixed data v o) (varEnd false fixed data v o)
  | .string _ _, o => by
    rw [varEnd, varEnd]
    repeat first | with_reducible exact addW_agrees _ _ | agree_step
  | .enum _ _ cs, o => by
    rw [varEnd, varEnd]
    repeat first | with_reducible exact addW_agrees _ _ | with_reducible exact readTag_agrees _ _ | with_reducible exact caseSize_agrees cs _ _ | agree_step
theorem caseSize_agrees : ∀ (ls : List Layout) (i : Nat) (data : Bytes),
    Agrees .panic (caseSize true ls i data) (caseSize false ls i data)
  | [], _, _ => by simp only [caseSize]; exact Agrees.refl _
  | l :: _, 0, data => by rw [caseSize, caseSize]; exact encodingSize_agrees l data
  | _ :: ls, i + 1, data => by rw [caseSize, caseSize]; exact caseSize_agrees ls i data
end

theorem variableFieldOffset_agrees (l : Layout) (i : Nat) (data : Bytes) :
    Agrees .panic (l.variableFieldOffset true i data) (l.variableFieldOffset false i data) := by
  unfold Layout.variableFieldOffset
  repeat first | with_reducible exact varsEnd_agrees _ _ _ _ | agree_step

mutual
theorem locate_agrees (q : Path) : ∀ (l : Layout) (data : Bytes),
    Agrees .panic (l.locate true q data) (l.locate false q data)
  | .mk al vo idx fixed vars, data => by
    rw [Layout.locate, Layout.locate]
    repeat first
      | with_reducible exact variableFieldOffset_agrees _ _ _
      | with_reducible exact locateVars_agrees q vars _ _ _
      | agree_step
theorem locateVars_agrees (q : Path) : ∀ (vs : List VarField) (i tag : Nat) (data : Bytes),
    Agrees .panic (locateVars true q vs i tag data) (locateVars false q vs i tag data)
  | [], _, _, _ => by simp only [locateVars]; exact Agrees.refl _
  | v :: _, 0, tag, data => by rw [locateVars, locateVars]; exact locateVar_agrees q v tag data
  | _ :: vs, i + 1, tag, data => by rw [locateVars, locateVars]; exact locateVars_agrees q vs i tag data
theorem locateVar_agrees (q : Path) : ∀ (v : VarField) (tag : Nat) (data : Bytes),
    Agrees .panic (locateVar true q v tag data) (locateVar false q v tag data)
  | .string _ _, _, _ => by simp only [locateVar]; exact Agrees.refl _
  | .enum _ _ cs, tag, data => by rw [locateVar, locateVar]; exact locateCase_agrees q cs tag data
theorem locateCase_agrees (q : Path) : ∀ (ls : List Layout) (i : Nat) (data : Bytes),
    Agrees .panic (locateCase true q ls i data) (locateCase false q ls i data)
  | [], _, _ => by simp only [locateCase]; exact Agrees.refl _
  | l :: _, 0, data => by rw [locateCase, locateCase]; exact locate_agrees q l data
  | _ :: ls, i + 1, data => by rw [locateCase, locateCase]; exact locateCase_agrees q ls i data
end

theorem source_agrees (l : Layout) (data : Bytes) : SourcesAgree (l.source true data) (l.source false data) := by
  constructor
  · intro p q
    simp only [Layout.source, Layout.getPrimitive]
    repeat first | with_reducible exact locate_agrees _ _ _ | agree_step
  · intro q
    simp only [Layout.source, Layout.getCaseTag]
    repeat first | with_reducible exact locate_agrees _ _ _ | with_reducible exact readTag_agrees _ _ | agree_step
  · intro q
    simp only [Layout.source, Layout.getLength]
    repeat first | with_reducible exact locate_agrees _ _ _ | agree_step
  · intro q
    simp only [Layout.source, Layout.getBytes]
    repeat first | with_reducible exact locate_agrees _ _ _ | with_reducible exact variableFieldOffset_agrees _ _ _ | agree_step

/-! ## Encoding -/

theorem SourcesAgree.refl (s : DataSource) : SourcesAgree s s :=
  ⟨fun _ _ => Agrees.refl _, fun _ => Agrees.refl _, fun _ => Agrees.refl _, fun _ => Agrees.refl _⟩

section
set_option linter.unusedSectionVars false
variable {s s' : DataSource} (h : SourcesAgree s s')
include h

mutual
theorem sizeWithSource_agrees : ∀ (l : Layout), Agrees .panic (l.sizeWithSource true s) (l.sizeWithSource false s')
  | .mk al vo idx fixed vars => by
    rw [Layout.sizeWithSource, Layout.sizeWithSource]
    repeat first | with_reducible exact varsSize_agrees vars _ | with_reducible exact align_agrees _ _ | agree_step
theorem varsSize_agrees : ∀ (vs : List VarField) (o : Nat), Agrees .panic (varsSize true s vs o) (varsSize false s' vs o)
  | [], _ => by simp only [varsSize]; exact Agrees.refl _
  | v :: vs, o => by
    rw [varsSize, varsSize]
    repeat first | with_reducible exact varSize_agrees v _ | with_reducible exact varsSize_agrees vs _ | agree_step
theorem varSize_agrees : ∀ (v : VarField) (o : Nat), Agrees .panic (varSize true s v o) (varSize false s' v o)
  | .string _ _, o => by
    rw [varSize, varSize]
    repeat first | with_reducible exact addW_agrees _ _ | with_reducible exact h.length _ | agree_step
  | .enum _ _ cs, o => by
    rw [varSize, varSize]
    repeat first | with_reducible exact addW_agrees _ _ | with_reducible exact h.tag _ | with_reducible exact caseSizeWithSource_agrees cs _ | agree_step
theorem caseSizeWithSource_agrees : ∀ (ls : List Layout) (i : Nat),
    Agrees .panic (caseSizeWithSource true s ls i) (caseSizeWithSource false s' ls i)
  | [], _ => by simp only [caseSizeWithSource]; exact Agrees.refl _
  | l :: _, 0 => by rw [caseSizeWithSource, caseSizeWithSource]; exact sizeWithSource_agrees l
  | _ :: ls, i + 1 => by rw [caseSizeWithSource, caseSizeWithSource]; exact caseSizeWithSource_agrees ls i
end

omit h in
theorem tagMask_agrees (w o n : Nat) : Agrees .panic (tagMask true w o n) (tagMask false w o n) := by
  unfold tagMask
  repeat first | with_reducible exact shlW_agrees _ _ _ | agree_step

theorem writeFixed_agrees (f : FixedField) (buf : Bytes) :
    Agrees .panic (writeFixed true s f buf) (writeFixed false s' f buf) := by
  unfold writeFixed
  repeat first
    | with_reducible exact h.length _
    | with_reducible exact h.tag _
    | with_reducible exact h.prim _ _
    | with_reducible exact tagMask_agrees _ _ _
    | with_reducible exact shlW_agrees _ _ _
    | agree_step

theorem writeFixeds_agrees : ∀ (fs : List FixedField) (buf : Bytes),
    Agrees .panic (writeFixeds true s fs buf) (writeFixeds false s' fs buf)
  | [], _ => Agrees.refl _
  | f :: fs, buf => by
    rw [writeFixeds, writeFixeds]
    repeat first | with_reducible exact writeFixed_agrees h f _ | with_reducible exact writeFixeds_agrees fs _ | agree_step

theorem copyBytes_agrees (buf : Bytes) (o : Nat) (q : Path) (n : Nat) :
    Agrees .panic (copyBytes s buf o q n) (copyBytes s' buf o q n) := by
  unfold copyBytes
  repeat first | with_reducible exact h.bytes _ | agree_step

mutual
theorem encode_agrees : ∀ (l : Layout) (buf : Bytes), Agrees .panic (l.encode true s buf) (l.encode false s' buf)
  | .mk al vo idx fixed vars, buf => by
    rw [Layout.encode, Layout.encode]
    repeat first
      | with_reducible exact writeFixeds_agrees h _ _
      | with_reducible exact encodeVars_agrees vars _ _
      | with_reducible exact align_agrees _ _
      | agree_step
theorem encodeVars_agrees : ∀ (vs : List VarField) (buf : Bytes) (o : Nat),
    Agrees .panic (encodeVars true s vs buf o) (encodeVars false s' vs buf o)
  | [], _, _ => by simp only [encodeVars]; exact Agrees.refl _
  | v :: vs, buf, o => by
    rw [encodeVars, encodeVars]
    repeat first | with_reducible exact encodeVar_agrees v _ _ | with_reducible exact encodeVars_agrees vs _ _ | agree_step
theorem encodeVar_agrees : ∀ (v : VarField) (buf : Bytes) (o : Nat),
    Agrees .panic (encodeVar true s v buf o) (encodeVar false s' v buf o)
  | .string _ _, buf, o => by
    rw [encodeVar, encodeVar]
    repeat first | with_reducible exact addW_agrees _ _ | with_reducible exact h.length _ | with_reducible exact copyBytes_agrees h _ _ _ _ | agree_step
  | .enum _ _ cs, buf, o => by
    rw [encodeVar, encodeVar]
    repeat first
      | with_reducible exact addW_agrees _ _
      | with_reducible exact h.tag _
      | with_reducible exact caseSizeWithSource_agrees h cs _
      | with_reducible exact encodeCase_agrees cs _ _
      | agree_step
theorem encodeCase_agrees : ∀ (ls : List Layout) (i : Nat) (buf : Bytes),
    Agrees .panic (encodeCase true s ls i buf) (encodeCase false s' ls i buf)
  | [], _, _ => by simp only [encodeCase]; exact Agrees.refl _
  | l :: _, 0, buf => by rw [encodeCase, encodeCase]; exact encode_agrees l buf
  | _ :: ls, i + 1, buf => by rw [encodeCase, encodeCase]; exact encodeCase_agrees ls i buf
end

end

/-! ## Volumes and the buffer pool -/

namespace Storage

theorem mulW_agrees (a b : Nat) : Agrees .panic (mulW true a b) (mulW false a b) := by
  unfold mulW; split <;> simp [Agrees]

theorem shl1_agrees (n : Nat) : Agrees .panic (shl1 true n) (shl1 false n) := by
  unfold shl1; split <;> simp [Agrees]

theorem addN_agrees (w a b : Nat) : Agrees .panic (addN true w a b) (addN false w a b) := by
  unfold addN; split <;> simp [Agrees]

theorem subN_agrees (w a b : Nat) : Agrees .panic (subN true w a b) (subN false w a b) := by
  unfold subN; split <;> simp [Agrees]

/-- The arithmetic of this file. -/
macro "agree_num" : tactic => `(tactic| first
  | with_reducible exact addW_agrees _ _
  | with_reducible exact subW_agrees _ _
  | with_reducible exact mulW_agrees _ _
  | with_reducible exact shl1_agrees _
  | with_reducible exact addN_agrees _ _ _
  | with_reducible exact subN_agrees _ _ _
  | agree_step)

theorem calcFileBlocks_agrees (a b : Nat) :
    Agrees .panic (calcFileBlocks true a b) (calcFileBlocks false a b) := by
  unfold calcFileBlocks; repeat agree_num

theorem alignN_agrees (w a b : Nat) : Agrees .panic (alignN true w a b) (alignN false w a b) := by
  unfold alignN; repeat agree_num

theorem nextVolume_agrees (i : Nat) : Agrees .panic (nextVolume true i) (nextVolume false i) := by
  unfold nextVolume; repeat agree_num

theorem regions_agrees (p : Params) : Agrees .panic (regions true p) (regions false p) := by
  unfold regions
  repeat first
    | with_reducible exact alignN_agrees _ _ _
    | with_reducible exact calcFileBlocks_agrees _ _
    | agree_num

theorem bitmapWords_agrees (total bits : Nat) : ∀ (n i : Nat),
    Agrees .panic (bitmapWords true total bits n i) (bitmapWords false total bits n i)
  | 0, _ => Agrees.refl _
  | n + 1, i => by
    unfold bitmapWords
    repeat first | with_reducible exact bitmapWords_agrees total bits n _ | agree_num

theorem bitmapBlocks_agrees (total bits words : Nat) : ∀ (n i : Nat),
    Agrees .panic (bitmapBlocks true total bits words n i) (bitmapBlocks false total bits words n i)
  | 0, _ => Agrees.refl _
  | n + 1, i => by
    unfold bitmapBlocks
    repeat first
      | with_reducible exact bitmapBlocks_agrees total bits words n _
      | with_reducible exact bitmapWords_agrees _ _ _ _
      | agree_num

theorem bitmap_agrees (p : Params) : Agrees .panic (bitmap true p) (bitmap false p) := by
  unfold bitmap
  repeat first
    | with_reducible exact bitmapBlocks_agrees _ _ _ _ _
    | with_reducible exact regions_agrees _
    | agree_num

theorem blockUse_agrees (a b : Nat) : Agrees .panic (blockUse true a b) (blockUse false a b) := by
  unfold blockUse; repeat agree_num

theorem headerPosition_agrees (p : Params) (a b : Nat) :
    Agrees .panic (headerPosition true p a b) (headerPosition false p a b) := by
  unfold headerPosition; repeat agree_num

theorem initFileHeader_agrees (p : Params) (volume base index size : Nat) (clock : Nat × Nat)
    (header : Nat → Nat × Nat → Bytes) (access : Nat → Res Bytes) :
    Agrees .panic (initFileHeader true p volume base index size clock header access)
      (initFileHeader false p volume base index size clock header access) := by
  unfold initFileHeader
  repeat first
    | with_reducible exact headerPosition_agrees _ _ _
    | with_reducible exact blockUse_agrees _ _
    | agree_num

theorem create_agrees (p : Params) (opened : Bool) (next volumes : Nat) (access : Nat → Res Bytes)
    (header : Bytes) (rest : Nat → Res Unit) :
    Agrees .panic (create true p opened next volumes access header rest)
      (create false p opened next volumes access header rest) := by
  unfold create
  repeat first
    | with_reducible exact regions_agrees _
    | with_reducible exact nextVolume_agrees _
    | agree_num

theorem chainLink_agrees (i : Nat) : Agrees .panic (chainLink true i) (chainLink false i) := by
  unfold chainLink; repeat agree_num

theorem chain_agrees : ∀ (n i : Nat), Agrees .panic (chain true i n) (chain false i n)
  | 0, _ => by unfold chain; exact Agrees.refl _
  | n + 1, i => by
    unfold chain
    repeat first | with_reducible exact chainLink_agrees _ | with_reducible exact chain_agrees n _ | agree_num

theorem poolNew_agrees (size n : Nat) (mapOk : Bool) :
    Agrees .panic (Pool.new true size n mapOk) (Pool.new false size n mapOk) := by
  unfold Pool.new
  repeat first | with_reducible exact chain_agrees _ _ | agree_num

theorem access_agrees (p : Pool) (held : Nat → Bool) (location : Nat) :
    Agrees .panic (p.access true held location) (p.access false held location) := by
  unfold Pool.access Pool.accessMapped; repeat agree_num

theorem step_agrees (fetch : Nat → Res Bytes) (s : Sys) (a : Act) :
    Agrees .panic (step true fetch s a) (step false fetch s a) := by
  cases a <;> unfold step <;>
    repeat first | with_reducible exact access_agrees _ _ _ | agree_num

theorem mappedSize_agrees (a b : Nat) : Agrees .panic (mappedSize true a b) (mappedSize false a b) :=
  mulW_agrees a b

theorem bufferSlice_agrees (a b c : Nat) : Agrees .panic (bufferSlice true a b c) (bufferSlice false a b c) := by
  unfold bufferSlice; repeat agree_num

end Storage

/-! ## JSON -/

namespace Json

/-- The environment with overflow checks on or off. -/
abbrev Env.build (env : Env) (b : Bool) : Env := { env with chk := b }

/-- Two parsers that agree on every state. -/
abbrev ParsersAgree (a b : Parser) : Prop := ∀ st, Agrees (Stop.fault .panic) (a st) (b st)

theorem newWithElements_agrees (n : Nat) :
    Agrees (Stop.fault .panic) (newWithElements true n) (newWithElements false n) := by
  unfold newWithElements panic
  refine Agrees.ite (fun _ => Agrees.refl _) (fun _ => ?_)
  exact Agrees.ite (fun _ => Or.inl rfl) (fun _ => Agrees.refl _)

/-- Two lists of parsers that agree one by one. -/
inductive ListsAgree : List Parser → List Parser → Prop
  | nil : ListsAgree [] []
  | cons {a b : Parser} {as bs : List Parser} : ParsersAgree a b → ListsAgree as bs → ListsAgree (a :: as) (b :: bs)

/-- Two lists of cases that agree one by one. -/
inductive CasesAgree : List (Str × (Nat × Parser)) → List (Str × (Nat × Parser)) → Prop
  | nil : CasesAgree [] []
  | cons {l : Str} {i : Nat} {a b : Parser} {as bs : List (Str × (Nat × Parser))} : ParsersAgree a b →
      CasesAgree as bs → CasesAgree ((l, (i, a)) :: as) ((l, (i, b)) :: bs)

theorem ListsAgree.length {as bs : List Parser} (h : ListsAgree as bs) : as.length = bs.length := by
  induction h with
  | nil => rfl
  | cons _ _ ih => simp [ih]

theorem ListsAgree.get {as bs : List Parser} (h : ListsAgree as bs) :
    ∀ i, ParsersAgree (fieldParser as i) (fieldParser bs i) := by
  induction h with
  | nil => intro i st; exact Agrees.refl _
  | cons ha _ ih => intro i; cases i with
    | zero => exact ha
    | succ i => exact ih i

theorem CasesAgree.lastEntry {as bs : List (Str × (Nat × Parser))} (h : CasesAgree as bs) (l : Str) :
    (lastEntry l as = none ∧ lastEntry l bs = none) ∨
      ∃ i a b, lastEntry l as = some (i, a) ∧ lastEntry l bs = some (i, b) ∧ ParsersAgree a b := by
  induction h with
  | nil => exact Or.inl ⟨rfl, rfl⟩
  | @cons l' i a b as bs ha _ ih =>
    simp only [Json.lastEntry]
    rcases ih with ⟨h₁, h₂⟩ | ⟨j, a', b', h₁, h₂, h₃⟩
    · rw [h₁, h₂]
      by_cases hl : l' = l
      · exact Or.inr ⟨i, a, b, by simp [hl], by simp [hl], ha⟩
      · exact Or.inl ⟨by simp [hl], by simp [hl]⟩
    · rw [h₁, h₂]; exact Or.inr ⟨j, a', b', rfl, rfl, h₃⟩

variable (env : Env)

theorem structLoop_agrees (ix : List (Str × Nat)) {as bs : List Parser} (h : ListsAgree as bs) :
    ∀ (n v : Nat) (first : Bool) (st : St), Agrees (Stop.fault .panic)
      (structLoop (env.build true) ix as n v first st) (structLoop (env.build false) ix bs n v first st)
  | 0, v, first, st => Agrees.refl _
  | n + 1, v, first, st => by
    unfold structLoop
    refine Agrees.ite (fun _ => Agrees.refl _) (fun _ => ?_)
    refine Agrees.bind (Agrees.refl (separator env first st)) (fun st => ?_)
    refine Agrees.bind (Agrees.refl _) (fun i => ?_)
    refine Agrees.ite (fun _ => ?_) (fun _ => Agrees.refl _)
    refine Agrees.bind (Agrees.refl (advance env st)) (fun st => ?_)
    refine Agrees.bind (Agrees.refl (mustBe env .colon st)) (fun st => ?_)
    exact Agrees.bind (h.get i st) (fun st => structLoop_agrees ix h n _ _ st)

theorem structParser_agrees (ix : List (Str × Nat)) {as bs : List Parser} (h : ListsAgree as bs) :
    ParsersAgree (structParser (env.build true) ix as) (structParser (env.build false) ix bs) := by
  intro st
  unfold structParser
  rw [h.length]
  refine Agrees.bind (Agrees.refl (mustBe env .beginObject st)) (fun st => ?_)
  refine Agrees.bind (newWithElements_agrees _) (fun v => ?_)
  exact Agrees.bind (structLoop_agrees env ix h _ _ _ st) (fun st => Agrees.refl (mustBe env .endObject st))

theorem tupleLoop_agrees {as bs : List Parser} (h : ListsAgree as bs) : ∀ (first : Bool),
    ParsersAgree (tupleLoop (env.build true) as first) (tupleLoop (env.build false) bs first) := by
  induction h with
  | nil => intro _ st; exact Agrees.refl _
  | cons ha _ ih =>
    intro first st
    unfold tupleLoop
    refine Agrees.bind (Agrees.refl (separator env first st)) (fun st => ?_)
    exact Agrees.bind (ha st) (fun st => ih false st)

theorem tupleParser_agrees {as bs : List Parser} (h : ListsAgree as bs) :
    ParsersAgree (tupleParser (env.build true) as) (tupleParser (env.build false) bs) := by
  intro st
  unfold tupleParser
  refine Agrees.bind (Agrees.refl (mustBe env .beginArray st)) (fun st => ?_)
  exact Agrees.bind (tupleLoop_agrees env h true st) (fun st => Agrees.refl (mustBe env .endArray st))

theorem enumParser_agrees (q : Path) {as bs : List (Str × (Nat × Parser))} (h : CasesAgree as bs) :
    ParsersAgree (enumParser (env.build true) q as) (enumParser (env.build false) q bs) := by
  intro st
  unfold enumParser
  refine Agrees.bind (Agrees.refl (mustBe env .beginObject st)) (fun st => ?_)
  refine Agrees.bind (Agrees.refl (mustBe env (.string ['k', 'i', 'n', 'd']) st)) (fun st => ?_)
  refine Agrees.bind (Agrees.refl (mustBe env .colon st)) (fun st => ?_)
  cases ht : st.tok with
  | string l =>
    rcases h.lastEntry l with ⟨h₁, h₂⟩ | ⟨i, a, b, h₁, h₂, h₃⟩
    · simp only [findCase, h₁, h₂]; exact Agrees.refl _
    · simp only [findCase, h₁, h₂]
      refine Agrees.bind_ok ?_
      refine Agrees.bind (Agrees.refl (advance env { st with out := st.out.addCaseTag q i })) (fun st => ?_)
      refine Agrees.bind (Agrees.refl (mustBe env .comma st)) (fun st => ?_)
      refine Agrees.bind (Agrees.refl (mustBe env (.string ['v', 'a', 'l', 'u', 'e']) st)) (fun st => ?_)
      refine Agrees.bind (Agrees.refl (mustBe env .colon st)) (fun st => ?_)
      exact Agrees.bind (h₃ st) (fun st => Agrees.refl (mustBe env .endObject st))
  | _ => exact Agrees.refl _

mutual
theorem parserFor_agrees : ∀ (t : Ty) (q : Path),
    ParsersAgree (parserFor (env.build true) q t) (parserFor (env.build false) q t)
  | .unit, _ => fun _ => by simp only [parserFor]; exact Agrees.refl _
  | .prim p, q => fun st => by
    simp only [parserFor]
    exact Agrees.refl (primitiveParser env p q st)
  | .string, _ => fun _ => by simp only [parserFor]; exact Agrees.refl _
  | .tuple cs, q => by simp only [parserFor]; exact tupleParser_agrees env (parsersL_agrees cs q 0)
  | .struct fs, q => by simp only [parserFor]; exact structParser_agrees env _ (parsersF_agrees fs q 0)
  | .enum cs, q => by simp only [parserFor]; exact enumParser_agrees env q (parsersE_agrees cs q 0)
theorem parsersL_agrees : ∀ (cs : List Ty) (q : Path) (i : Nat),
    ListsAgree (parsersL (env.build true) q cs i) (parsersL (env.build false) q cs i)
  | [], _, _ => by simp only [parsersL]; exact .nil
  | c :: cs, q, i => by simp only [parsersL]; exact .cons (parserFor_agrees c _) (parsersL_agrees cs q _)
theorem parsersF_agrees : ∀ (fs : List (Str × Ty)) (q : Path) (i : Nat),
    ListsAgree (parsersF (env.build true) q fs i) (parsersF (env.build false) q fs i)
  | [], _, _ => by simp only [parsersF]; exact .nil
  | f :: fs, q, i => by simp only [parsersF]; exact .cons (parserP_agrees f _) (parsersF_agrees fs q _)
theorem parsersE_agrees : ∀ (cs : List (Str × Ty)) (q : Path) (i : Nat),
    CasesAgree (parsersE (env.build true) q cs i) (parsersE (env.build false) q cs i)
  | [], _, _ => by simp only [parsersE]; exact .nil
  | c :: cs, q, i => by simp only [parsersE]; exact .cons (parserP_agrees c _) (parsersE_agrees cs q _)
theorem parserP_agrees : ∀ (f : Str × Ty) (q : Path),
    ParsersAgree (parserP (env.build true) q f) (parserP (env.build false) q f)
  | (_, t), q => by simp only [parserP]; exact parserFor_agrees t q
end

theorem decode_agrees (t : Ty) (input : Str) :
    Agrees (Stop.fault .panic) (decode (env.build true) t input) (decode (env.build false) t input) := by
  unfold decode
  refine Agrees.bind (Agrees.refl (next env.alnum input)) (fun r => ?_)
  exact Agrees.bind (parserFor_agrees env t [] _) (fun st => Agrees.refl _)

/-! ### Writing -/

/-- An emitter that agrees on sources that agree. -/
abbrev EmitterAgrees {s s' : DataSource} (_ : SourcesAgree s s') (e : Emitter) : Prop := Agrees .panic (e s) (e s')

section
variable {s s' : DataSource} (h : SourcesAgree s s')
include h

theorem emitAll_agrees : ∀ (es : List Emitter) (first : Bool), (∀ e ∈ es, EmitterAgrees h e) →
    EmitterAgrees h (emitAll es first)
  | [], _, _ => Agrees.refl _
  | e :: es, _, he => by
    unfold EmitterAgrees emitAll
    refine Agrees.bind (he e (List.mem_cons_self ..)) (fun _ => ?_)
    exact Agrees.bind (emitAll_agrees es _ fun x hx => he x (List.mem_cons_of_mem _ hx)) fun _ => Agrees.refl _

theorem emitFields_agrees : ∀ (es : List (Str × Emitter)) (first : Bool), (∀ e ∈ es, EmitterAgrees h e.2) →
    EmitterAgrees h (emitFields es first)
  | [], _, _ => Agrees.refl _
  | (n, e) :: es, _, he => by
    unfold EmitterAgrees emitFields
    refine Agrees.bind (he (n, e) (List.mem_cons_self ..)) (fun _ => ?_)
    exact Agrees.bind (emitFields_agrees es _ fun x hx => he x (List.mem_cons_of_mem _ hx)) fun _ => Agrees.refl _

theorem emitPrim_agrees (F : FloatText) (p : Prim) (q : Path) : EmitterAgrees h (emitPrim F p q) := by
  unfold EmitterAgrees emitPrim
  cases p <;> exact Agrees.bind (h.prim _ q) (fun _ => Agrees.refl _)

mutual
theorem emitterFor_agrees (F : FloatText) : ∀ (t : Ty) (q : Path), EmitterAgrees h (emitterFor F q t)
  | .unit, _ => by unfold emitterFor; exact Agrees.refl _
  | .prim p, q => by unfold emitterFor; exact emitPrim_agrees h F p q
  | .string, q => by
    unfold emitterFor emitStr EmitterAgrees
    exact Agrees.bind (h.bytes q) (fun _ => Agrees.refl _)
  | .tuple cs, q => by
    unfold emitterFor emitTuple EmitterAgrees
    exact Agrees.bind (emitAll_agrees h _ _ (emittersL_agrees F cs q 0)) (fun _ => Agrees.refl _)
  | .struct fs, q => by
    unfold emitterFor emitStruct EmitterAgrees
    exact Agrees.bind (emitFields_agrees h _ _ (emittersF_agrees F fs q 0)) (fun _ => Agrees.refl _)
  | .enum cs, q => by
    unfold emitterFor emitEnum EmitterAgrees
    refine Agrees.bind (h.tag q) (fun i => ?_)
    cases hc : (emittersF F q cs 0)[i]? with
    | none => exact Agrees.refl _
    | some c =>
      exact Agrees.bind (emittersF_agrees F cs q 0 c (List.mem_of_getElem? hc)) (fun _ => Agrees.refl _)
theorem emittersL_agrees (F : FloatText) : ∀ (cs : List Ty) (q : Path) (i : Nat),
    ∀ e ∈ emittersL F q cs i, EmitterAgrees h e
  | [], _, _ => by unfold emittersL; exact fun _ h => (List.not_mem_nil h).elim
  | c :: cs, q, i => by
    unfold emittersL
    intro e he
    rcases List.mem_cons.mp he with rfl | he
    · exact emitterFor_agrees F c _
    · exact emittersL_agrees F cs q _ e he
theorem emittersF_agrees (F : FloatText) : ∀ (cs : List (Str × Ty)) (q : Path) (i : Nat),
    ∀ e ∈ emittersF F q cs i, EmitterAgrees h e.2
  | [], _, _ => by unfold emittersF; exact fun _ h => (List.not_mem_nil h).elim
  | c :: cs, q, i => by
    unfold emittersF
    intro e he
    rcases List.mem_cons.mp he with rfl | he
    · exact emitterP_agrees F c _
    · exact emittersF_agrees F cs q _ e he
theorem emitterP_agrees (F : FloatText) : ∀ (c : Str × Ty) (q : Path), EmitterAgrees h (emitterP F q c).2
  | (_, t), q => by unfold emitterP; exact emitterFor_agrees F t q
end

end

end Json

end Verif
