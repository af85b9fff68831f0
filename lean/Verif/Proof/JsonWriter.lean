import Verif.Model.JsonWriter
import Verif.Spec.JsonWriter
import Verif.Proof.JsonEncoder

/-!
# The encoder with an arbitrary writer

Every emitter amounts to a list of requests to the writer and a way to end, both of which depend on the data
source only (`Asks`); what a writer makes of a list of requests is then a matter of induction on the list.
-/

namespace Verif
open Verif.Json Verif.Spec

/-- A request to the writer: `write` or `write_all`. -/
inductive Req where
  | once (bs : Bytes)
  | all (bs : Bytes)

def Req.bytes : Req → Bytes
  | .once bs => bs
  | .all bs => bs

/-- The requests in turn, then the end. -/
def drive : List Req → Out → Step
  | [], e => fun io => (e, io)
  | .once bs :: rs, e => (writeOnce bs).andThen (drive rs e)
  | .all bs :: rs, e => (writeAll bs).andThen (drive rs e)

def reqBytes (rs : List Req) : Bytes := rs.flatMap Req.bytes

/-- `write` is used for characters: for one byte exactly if the character is written as it is; `D` is a
condition under which the other texts are slim. -/
def Neat (D : Prop) : Req → Prop
  | .once bs => bs ≠ [] ∧ (bs.length = 1 ↔ Slim bs) ∧ bs.length ≤ 6
  | .all bs => D → Slim bs

theorem Step.andThen_assoc (a b c : Step) : (a.andThen b).andThen c = a.andThen (b.andThen c) := by
  funext io
  simp only [Step.andThen]
  rcases h : a io with ⟨o, io'⟩
  cases o <;> rfl

theorem Step.andThen_skip (a : Step) : a.andThen Step.skip = a := by
  funext io
  simp only [Step.andThen, Step.skip]
  rcases h : a io with ⟨o, io'⟩
  cases o <;> rfl

theorem drive_append (rs rs' : List Req) (e : Out) :
    drive (rs ++ rs') e = (drive rs .done).andThen (drive rs' e) := by
  induction rs with
  | nil => rfl
  | cons q rs ih =>
    cases q <;> simp only [List.cons_append, drive, ih, Step.andThen_assoc]

theorem drive_fault (rs : List Req) (f : Fault) (s : Step) :
    (drive rs (.fault f)).andThen s = drive rs (.fault f) := by
  induction rs with
  | nil => rfl
  | cons q rs ih => cases q <;> simp only [drive, Step.andThen_assoc, ih]

/-- The step is a list of neat requests and ends as the result says. -/
def Asks (D : Prop) (s : Step) (r : Res Bytes) : Prop :=
  ∃ rs e, s = drive rs e ∧ (∀ q ∈ rs, Neat D q) ∧
    (∀ b, r = .ok b → e = .done ∧ reqBytes rs = b) ∧ (∀ f, r = .error f → e = .fault f)

theorem Asks.skip {D : Prop} : Asks D Step.skip (.ok []) :=
  ⟨[], .done, rfl, by simp, fun b h => ⟨rfl, by cases h; rfl⟩, fun f h => by cases h⟩

theorem Asks.all {D : Prop} {bs : Bytes} (h : D → Slim bs) : Asks D (writeAll bs) (.ok bs) := by
  refine ⟨[.all bs], .done, ?_, ?_, fun b h => ⟨rfl, ?_⟩, fun f h => by cases h⟩
  · show _ = (writeAll bs).andThen Step.skip
    rw [Step.andThen_skip]
  · intro q hq
    rcases List.mem_singleton.1 hq with rfl
    exact h
  · cases h; simp [reqBytes, Req.bytes]

theorem Asks.once {D : Prop} {bs : Bytes} (h : Neat D (.once bs)) : Asks D (writeOnce bs) (.ok bs) := by
  refine ⟨[.once bs], .done, ?_, ?_, fun b h => ⟨rfl, ?_⟩, fun f h => by cases h⟩
  · show _ = (writeOnce bs).andThen Step.skip
    rw [Step.andThen_skip]
  · intro q hq
    rcases List.mem_singleton.1 hq with rfl
    exact h
  · cases h; simp [reqBytes, Req.bytes]

theorem Asks.fault {D : Prop} (f : Fault) : Asks D (fun io => (.fault f, io)) (.error f) :=
  ⟨[], .fault f, rfl, by simp, fun b h => (by cases h), fun g h => (by cases h; rfl)⟩

/-- The results of two steps in turn. -/
def resAppend (a b : Res Bytes) : Res Bytes := do
  let x ← a
  let y ← b
  pure (x ++ y)

theorem Asks.andThen {D : Prop} {s s' : Step} {r r' : Res Bytes} (h : Asks D s r) (h' : Asks D s' r') :
    Asks D (s.andThen s') (resAppend r r') := by
  rcases h with ⟨rs, e, rfl, hn, ho, hf⟩
  rcases h' with ⟨rs', e', rfl, hn', ho', hf'⟩
  rcases r with f | b
  · rcases hf f rfl with rfl
    rw [drive_fault]
    exact ⟨rs, _, rfl, hn, fun b h => (by cases h), fun g h => (by cases h; rfl)⟩
  · rcases ho b rfl with ⟨rfl, hb⟩
    rw [← drive_append]
    refine ⟨rs ++ rs', e', rfl, ?_, ?_, ?_⟩
    · intro q hq
      rcases List.mem_append.1 hq with hq | hq
      · exact hn q hq
      · exact hn' q hq
    · intro c hc
      rcases r' with f | b'
      · cases hc
      · rcases ho' b' rfl with ⟨he, hb'⟩
        cases hc
        exact ⟨he, by rw [← hb, ← hb']; simp [reqBytes]⟩
    · intro f hc
      rcases r' with g | b'
      · cases hc
        exact hf' _ rfl
      · cases hc

theorem Asks.reading {D : Prop} {α : Type} {r : Res α} {k : α → Step} {k' : α → Res Bytes}
    (h : ∀ a, r = .ok a → Asks D (k a) (k' a)) : Asks D (Step.reading r k) (r >>= k') := by
  cases r with
  | error f => exact Asks.fault f
  | ok a => exact h a rfl

theorem Asks.congr {D : Prop} {s : Step} {r r' : Res Bytes} (h : Asks D s r) (e : r = r') : Asks D s r' :=
  e ▸ h

theorem slim_utf8 {s : Str} (h : ∀ c ∈ s, c.toNat < 128 ∧ c.toNat ≠ 92) : Slim (Str.utf8 s) := by
  intro b hb
  rcases List.mem_flatMap.1 hb with ⟨c, hc, hb⟩
  rcases h c hc with ⟨h1, h2⟩
  have : String.utf8EncodeChar c = [UInt8.ofNat c.toNat] := by
    have h1' : c.val.toNat ≤ 127 := by have : c.toNat = c.val.toNat := rfl; omega
    rw [String.utf8EncodeChar]
    simp only [h1', if_true]
    rfl
  rw [this] at hb
  rcases List.mem_singleton.1 hb with rfl
  constructor
  · show _ < (UInt8.ofNat 128)
    rw [UInt8.lt_iff_toNat_lt]
    simp
    omega
  · intro he
    have := congrArg UInt8.toNat he
    simp at this
    omega

theorem not_slim {bs : Bytes} {b : UInt8} (hb : b ∈ bs) (h : 128 ≤ b.toNat ∨ b = 92) : ¬ Slim bs := by
  intro hs
  rcases hs b hb with ⟨h1, h2⟩
  rw [UInt8.lt_iff_toNat_lt] at h1
  rcases h with h | h
  · have : (128 : UInt8).toNat = 128 := rfl
    omega
  · exact h2 h

theorem not_short {D : Prop} {bs : Bytes} (h : 2 ≤ bs.length) (h6 : bs.length ≤ 6) (hs : ¬ Slim bs) :
    Neat D (.once bs) := by
  refine ⟨?_, ?_, h6⟩
  · intro e; rw [e] at h; simp at h
  · constructor
    · intro h'; omega
    · intro h'; exact absurd h' hs

theorem neat_ite {D : Prop} {p : Prop} [Decidable p] {a b : Bytes} (h1 : p → Neat D (.once a))
    (h2 : ¬ p → Neat D (.once b)) : Neat D (.once (if p then a else b)) := by
  split
  · exact h1 ‹_›
  · exact h2 ‹_›

theorem writeCh_neat {D : Prop} (c : Char) : Neat D (.once (writeCh c)) := by
  have esc : ∀ (l : List UInt8) (x : UInt8), l.length ≤ 4 → Neat D (.once (92 :: x :: l)) := fun l x h =>
    not_short (by simp) (by simp; omega) (not_slim (b := 92) (by simp) (.inr rfl))
  unfold writeCh
  simp only
  refine neat_ite (fun _ => esc _ _ (by simp)) fun h0 => ?_
  refine neat_ite (fun _ => esc _ _ (by simp)) fun h1 => ?_
  refine neat_ite (fun _ => esc _ _ (by simp)) fun h2 => ?_
  refine neat_ite (fun _ => esc _ _ (by simp)) fun h3 => ?_
  refine neat_ite (fun _ => esc _ _ (by simp)) fun h4 => ?_
  refine neat_ite (fun _ => esc _ _ (by simp)) fun h5 => ?_
  refine neat_ite (fun _ => esc _ _ (by simp)) fun h6 => ?_
  refine neat_ite (fun _ => esc _ _ (by simp)) fun h7 => ?_
  refine neat_ite (fun _ => esc _ _ (by simp)) fun h8 => ?_
  refine neat_ite (fun _ => esc _ _ (by simp)) fun h9 => ?_
  refine neat_ite (fun h10 => ?_) fun h10 => ?_
  · refine ⟨by simp, ⟨fun _ => ?_, fun _ => rfl⟩, by simp⟩
    intro b hb
    rcases List.mem_singleton.1 hb with rfl
    have h92 : c.toNat ≠ 92 := by
      intro he
      apply h1
      rw [← Char.ofNat_toNat c, he]
    constructor
    · rw [UInt8.lt_iff_toNat_lt]
      have : (128 : UInt8).toNat = 128 := rfl
      simp only [asU8, UInt8.toNat_ofNat', this]
      omega
    · intro he
      have := congrArg UInt8.toNat he
      simp [asU8] at this
      omega
  refine neat_ite (fun h11 => ?_) fun h11 => ?_
  · refine not_short (by simp) (by simp) (not_slim List.mem_cons_self (.inl ?_))
    rw [byte_five]
    simp; omega
  refine neat_ite (fun h12 => ?_) fun h12 => ?_
  · refine not_short (by simp) (by simp) (not_slim List.mem_cons_self (.inl ?_))
    rw [byte_four]
    simp; omega
  · refine not_short (by simp) (by simp) (not_slim List.mem_cons_self (.inl ?_))
    rw [byte_three]
    simp; omega

theorem asks_chars {D : Prop} : ∀ s : Str, Asks D (writeChars s) (.ok (s.flatMap writeCh))
  | [] => Asks.skip
  | c :: s => ((Asks.once (writeCh_neat c)).andThen (asks_chars s)).congr rfl

theorem ascii_lit {D : Prop} (s : Str) (h : ∀ c ∈ s, c.toNat < 128 ∧ c.toNat ≠ 92) :
    Asks D (writeAll (Str.utf8 s)) (.ok (Str.utf8 s)) := Asks.all fun _ => slim_utf8 h

theorem asks_string {D : Prop} (s : Str) : Asks D (emitStringTo s) (.ok (emitString s)) :=
  (((ascii_lit _ (by decide)).andThen (asks_chars s)).andThen (ascii_lit _ (by decide))).congr rfl

theorem asks_pieces {D : Prop} : ∀ ss : List Str, (D → Slim (Str.utf8 ss.flatten)) →
    Asks D (writePieces ss) (.ok (Str.utf8 ss.flatten))
  | [], _ => Asks.skip
  | s :: ss, h => by
    have hb : Str.utf8 (s :: ss).flatten = Str.utf8 s ++ Str.utf8 ss.flatten := by
      simp [Str.utf8]
    refine Asks.congr (Asks.andThen (Asks.all fun d b hm => ?_) (asks_pieces ss fun d b hm => ?_)) ?_
    · exact h d b (by rw [hb]; exact List.mem_append_left _ hm)
    · exact h d b (by rw [hb]; exact List.mem_append_right _ hm)
    · rw [hb]; rfl

theorem decDigitsAux_slim : ∀ (fuel n : Nat), ∀ c ∈ decDigitsAux fuel n, c.toNat < 128 ∧ c.toNat ≠ 92
  | 0, _ => by simp [decDigitsAux]
  | fuel + 1, n => by
    have hd : ∀ d, d < 10 → (digitChar d).toNat < 128 ∧ (digitChar d).toNat ≠ 92 := by decide
    intro c hc
    unfold decDigitsAux at hc
    split at hc
    · rcases List.mem_singleton.1 hc with rfl
      exact hd _ ‹_›
    · rcases List.mem_append.1 hc with hc | hc
      · exact decDigitsAux_slim fuel _ c hc
      · rcases List.mem_singleton.1 hc with rfl
        exact hd _ (Nat.mod_lt _ (by omega))

theorem decInt_slim (i : Int) : ∀ c ∈ decInt i, c.toNat < 128 ∧ c.toNat ≠ 92 := by
  intro c hc
  unfold decInt at hc
  split at hc
  · rcases List.mem_cons.1 hc with rfl | hc
    · decide
    · exact decDigitsAux_slim _ _ c hc
  · exact decDigitsAux_slim _ _ c hc

theorem display_slim {F : FloatText} (h : SlimFloats F) : ∀ (p : Prim), p ≠ .char → ∀ v : p.Val,
    Slim (Str.utf8 (display F p v)) := by
  intro p hp v
  apply slim_utf8
  cases p with
  | bool => revert v; intro (v : Bool); cases v <;> simp [display]
  | char => exact absurd rfl hp
  | u8 => exact decDigitsAux_slim _ _
  | u16 => exact decDigitsAux_slim _ _
  | u32 => exact decDigitsAux_slim _ _
  | u64 => exact decDigitsAux_slim _ _
  | u128 => exact decDigitsAux_slim _ _
  | i8 => exact decInt_slim _
  | i16 => exact decInt_slim _
  | i32 => exact decInt_slim _
  | i64 => exact decInt_slim _
  | i128 => exact decInt_slim _
  | f32 => exact h.1 v
  | f64 => exact h.2 v

theorem asks_prim (F : FloatText) (P : Pieces) (p : Prim) (path : Path) (src : DataSource) :
    Asks (SlimFloats F) (emitPrimTo F P p path src) (emitPrim F p path src) := by
  have num : ∀ p : Prim, p ≠ .char → Asks (SlimFloats F)
      (Step.reading (src.prim p path) fun v => writePieces (P.split (display F p v)))
      (src.prim p path >>= fun v => pure (display F p v).utf8) := fun p hp =>
    Asks.reading fun v _ => by
      have := asks_pieces (P.split (display F p v)) (D := SlimFloats F)
        (by rw [P.whole]; exact fun d => display_slim d p hp v)
      rw [P.whole] at this
      exact this
  cases p with
  | bool =>
    exact Asks.reading fun v _ => Asks.all fun d => display_slim d .bool (by decide) v
  | char =>
    refine Asks.congr (((ascii_lit _ (by decide)).andThen
      (Asks.reading fun c _ => Asks.once (writeCh_neat c))).andThen (ascii_lit _ (by decide))) ?_
    simp only [emitPrim]
    cases src.prim .char path <;> rfl
  | u8 => exact num .u8 (by decide)
  | u16 => exact num .u16 (by decide)
  | u32 => exact num .u32 (by decide)
  | u64 => exact num .u64 (by decide)
  | u128 => exact num .u128 (by decide)
  | i8 => exact num .i8 (by decide)
  | i16 => exact num .i16 (by decide)
  | i32 => exact num .i32 (by decide)
  | i64 => exact num .i64 (by decide)
  | i128 => exact num .i128 (by decide)
  | f32 => exact num .f32 (by decide)
  | f64 => exact num .f64 (by decide)

theorem asks_str {D : Prop} (path : Path) (src : DataSource) :
    Asks D (emitStrTo path src) (emitStr path src) := by
  refine Asks.reading (k' := fun bs => match fromUtf8 bs with
    | some s => pure (emitString s)
    | none => .error .panic) fun bs _ => ?_
  cases h : fromUtf8 bs with
  | none => exact Asks.fault _
  | some s => exact asks_string s

theorem asks_comma {D : Prop} (first : Bool) : Asks D (commaTo first) (.ok (comma first)) := by
  cases first
  · exact ascii_lit _ (by decide)
  · exact Asks.skip

theorem resAppend_assoc (a b c : Res Bytes) : resAppend (resAppend a b) c = resAppend a (resAppend b c) := by
  rcases a with f | a
  · rfl
  rcases b with f | b
  · rfl
  rcases c with f | c
  · rfl
  show Except.ok _ = Except.ok _
  rw [List.append_assoc]

/-- The emitters of the two models for the components. -/
inductive AsksL (D : Prop) (src : DataSource) : List EmitterTo → List Emitter → Prop
  | nil : AsksL D src [] []
  | cons {e e' es es'} : Asks D (e src) (e' src) → AsksL D src es es' → AsksL D src (e :: es) (e' :: es')

/-- The emitters of the two models for the fields. -/
inductive AsksF (D : Prop) (src : DataSource) : List (Str × EmitterTo) → List (Str × Emitter) → Prop
  | nil : AsksF D src [] []
  | cons {l e e' es es'} : Asks D (e src) (e' src) → AsksF D src es es' →
      AsksF D src ((l, e) :: es) ((l, e') :: es')

theorem asks_all {D : Prop} {src : DataSource} {es : List EmitterTo} {es' : List Emitter}
    (h : AsksL D src es es') : ∀ first, Asks D (emitAllTo es first src) (emitAll es' first src) := by
  induction h with
  | nil => intro first; exact Asks.skip
  | cons h _ ih =>
    rename_i e e' es es' hes
    intro first
    refine Asks.congr (((asks_comma first).andThen h).andThen (ih false)) ?_
    simp only [emitAll]
    rcases e' src with f | b
    · rfl
    rcases emitAll es' false src with f | c <;> rfl

theorem asks_fields {D : Prop} {src : DataSource} {es : List (Str × EmitterTo)}
    {es' : List (Str × Emitter)} (h : AsksF D src es es') :
    ∀ first, Asks D (emitFieldsTo es first src) (emitFields es' first src) := by
  induction h with
  | nil => intro first; exact Asks.skip
  | cons h _ ih =>
    rename_i l e e' es es' hes
    intro first
    refine Asks.congr (((((asks_comma first).andThen (asks_string l)).andThen
      (ascii_lit _ (by decide))).andThen h).andThen (ih false)) ?_
    simp only [emitFields]
    rcases e' src with f | b
    · rfl
    rcases emitFields es' false src with f | c <;> rfl

theorem asksF_get {D : Prop} {src : DataSource} {es : List (Str × EmitterTo)}
    {es' : List (Str × Emitter)} (h : AsksF D src es es') : ∀ i : Nat,
    (es[i]? = none ∧ es'[i]? = none) ∨
      ∃ (l : Str) (e : EmitterTo) (e' : Emitter), es[i]? = some (l, e) ∧ es'[i]? = some (l, e') ∧ Asks D (e src) (e' src) := by
  induction h with
  | nil => intro i; exact .inl ⟨rfl, rfl⟩
  | cons h _ ih =>
    intro i
    cases i with
    | zero => exact .inr ⟨_, _, _, rfl, rfl, h⟩
    | succ i => exact ih i

theorem asks_enum {D : Prop} {src : DataSource} {path : Path} {es : List (Str × EmitterTo)}
    {es' : List (Str × Emitter)} (h : AsksF D src es es') :
    Asks D (emitEnumTo path es src) (emitEnum path es' src) := by
  refine Asks.congr ((ascii_lit _ (by decide)).andThen (Asks.reading (k' := fun tag =>
    match es'[tag]? with
    | some c => resAppend (resAppend (resAppend (.ok (emitString c.1)) (.ok (Str.utf8 [',', '"', 'v', 'a', 'l', 'u', 'e', '"', ':'])))
        (c.2 src)) (.ok (Str.utf8 ['}']))
    | none => .error .panic) fun tag _ => ?_)) ?_
  · rcases asksF_get h tag with ⟨h1, h2⟩ | ⟨l, e, e', h1, h2, he⟩
    · simp only [emitCaseTo, h1, h2]
      exact Asks.fault _
    · simp only [emitCaseTo, h1, h2]
      exact (((asks_string l).andThen (ascii_lit _ (by decide))).andThen he).andThen (ascii_lit _ (by decide))
  · simp only [emitEnum]
    rcases src.tag path with f | tag
    · rfl
    simp only [resAppend, bind, Except.bind, pure, Except.pure]
    rcases es'[tag]? with _ | ⟨l, e'⟩
    · rfl
    simp only
    rcases e' src with f | b
    · rfl
    simp only [List.append_assoc]

mutual
theorem asks_to (F : FloatText) (P : Pieces) (src : DataSource) : (p : Path) → (t : Ty) →
    Asks (SlimFloats F) (emitterTo F P p t src) (emitterFor F p t src)
  | _, .unit => by
    simp only [emitterTo, emitterFor]
    exact ascii_lit _ (by decide)
  | p, .prim q => by
    simp only [emitterTo, emitterFor]
    exact asks_prim F P q p src
  | p, .string => by
    simp only [emitterTo, emitterFor]
    exact asks_str p src
  | p, .tuple cs => by
    simp only [emitterTo, emitterFor, emitTupleTo, emitTuple]
    refine Asks.congr (((ascii_lit _ (by decide)).andThen (asks_all (asks_toL F P src p cs 0) true)).andThen
      (ascii_lit _ (by decide))) ?_
    rcases emitAll (emittersL F p cs 0) true src with f | b <;> rfl
  | p, .struct fs => by
    simp only [emitterTo, emitterFor, emitStructTo, emitStruct]
    refine Asks.congr (((ascii_lit _ (by decide)).andThen (asks_fields (asks_toF F P src p fs 0) true)).andThen
      (ascii_lit _ (by decide))) ?_
    rcases emitFields (emittersF F p fs 0) true src with f | b <;> rfl
  | p, .enum cs => by
    simp only [emitterTo, emitterFor]
    exact asks_enum (asks_toF F P src p cs 0)
theorem asks_toL (F : FloatText) (P : Pieces) (src : DataSource) : (p : Path) → (cs : List Ty) → (i : Nat) →
    AsksL (SlimFloats F) src (emittersToL F P p cs i) (emittersL F p cs i)
  | _, [], _ => by simp only [emittersToL, emittersL]; exact .nil
  | p, c :: cs, i => by
    simp only [emittersToL, emittersL]
    exact .cons (asks_to F P src _ c) (asks_toL F P src p cs (i + 1))
theorem asks_toF (F : FloatText) (P : Pieces) (src : DataSource) : (p : Path) → (fs : List (Str × Ty)) →
    (i : Nat) → AsksF (SlimFloats F) src (emittersToF F P p fs i) (emittersF F p fs i)
  | _, [], _ => by simp only [emittersToF, emittersF]; exact .nil
  | p, (l, t) :: fs, i => by
    simp only [emittersToF, emittersF, emitterToP, emitterP]
    exact .cons (asks_to F P src _ t) (asks_toF F P src p fs (i + 1))
end

/-! ## What a writer makes of the requests -/

theorem reqBytes_cons (q : Req) (rs : List Req) : reqBytes (q :: rs) = q.bytes ++ reqBytes rs := rfl

/-- `write_all` hands over a prefix, and all of it if it returns. -/
theorem writeAllLoop_got : ∀ (s : List Answer) (r bs : Bytes), ∃ got,
    (writeAllLoop s r bs).2.received = r ++ got ∧ got <+: bs ∧
      ((writeAllLoop s r bs).1 = .done → got = bs) ∧ (∀ f, (writeAllLoop s r bs).1 ≠ .fault f) ∧
      (writeAllLoop s r bs).2.script <:+ s
  | s, r, [] => ⟨[], by simp [writeAllLoop]⟩
  | [], r, b :: bs => ⟨[], by simp [writeAllLoop]⟩
  | .took 0 :: s, r, b :: bs => ⟨[], by simp [writeAllLoop]⟩
  | .failed :: s, r, b :: bs => ⟨[], by simp [writeAllLoop]⟩
  | .interrupted :: s, r, b :: bs => by
    rcases writeAllLoop_got s r (b :: bs) with ⟨got, h1, h2, h3, h4, h5⟩
    exact ⟨got, h1, h2, h3, h4, h5.trans (List.suffix_cons _ _)⟩
  | .took (n + 1) :: s, r, b :: bs => by
    rcases writeAllLoop_got s (r ++ b :: bs.take n) (bs.drop n) with ⟨got, h1, h2, h3, h4, h5⟩
    refine ⟨b :: bs.take n ++ got, ?_, ?_, ?_, h4, h5.trans (List.suffix_cons _ _)⟩
    · show (writeAllLoop s (r ++ b :: bs.take n) (bs.drop n)).2.received = _
      rw [h1, List.append_assoc]
    · rcases h2 with ⟨t, ht⟩
      refine ⟨t, ?_⟩
      rw [List.append_assoc, ht, List.cons_append, List.take_append_drop]
    · intro h
      rw [h3 h, List.cons_append, List.take_append_drop]

/-- `write` hands over the beginning. -/
theorem writeOnce_got (bs : Bytes) (io : Io) : ∃ got,
    (writeOnce bs io).2.received = io.received ++ got ∧ got <+: bs ∧
      (∀ f, (writeOnce bs io).1 ≠ .fault f) ∧ (writeOnce bs io).2.script <:+ io.script := by
  rcases io with ⟨_ | ⟨_ | _ | _, s⟩, r⟩
  · exact ⟨[], by simp [writeOnce]⟩
  · rename_i n
    exact ⟨bs.take n, by simp [writeOnce, List.take_prefix]⟩
  · exact ⟨[], by simp [writeOnce]⟩
  · exact ⟨[], by simp [writeOnce]⟩

theorem andThen_cases (a b : Step) (io : Io) :
    ((a io).1 = .done ∧ a.andThen b io = b (a io).2) ∨ ((a io).1 ≠ .done ∧ a.andThen b io = a io) := by
  simp only [Step.andThen]
  rcases a io with ⟨o, io'⟩
  cases o <;> simp

/-- Whatever the writer does, it has taken some of the bytes in their order. -/
theorem drive_sublist : ∀ (rs : List Req) (e : Out) (io : Io), ∃ got,
    (drive rs e io).2.received = io.received ++ got ∧ got.Sublist (reqBytes rs)
  | [], _, _ => ⟨[], by simp [drive]⟩
  | .once bs :: rs, e, io => by
    rcases writeOnce_got bs io with ⟨got, h1, h2, _, _⟩
    rcases andThen_cases (writeOnce bs) (drive rs e) io with ⟨_, hq⟩ | ⟨_, hq⟩
    · rcases drive_sublist rs e (writeOnce bs io).2 with ⟨got', h1', h2'⟩
      refine ⟨got ++ got', ?_, ?_⟩
      · rw [drive, hq, h1', h1, List.append_assoc]
      · exact List.Sublist.append h2.sublist h2'
    · exact ⟨got, by rw [drive, hq, h1], h2.sublist.trans (List.sublist_append_left _ _)⟩
  | .all bs :: rs, e, io => by
    rcases writeAllLoop_got io.script io.received bs with ⟨got, h1, h2, _, _, _⟩
    rcases andThen_cases (writeAll bs) (drive rs e) io with ⟨_, hq⟩ | ⟨_, hq⟩
    · rcases drive_sublist rs e (writeAll bs io).2 with ⟨got', h1', h2'⟩
      refine ⟨got ++ got', ?_, ?_⟩
      · rw [drive, hq, h1', ← List.append_assoc]; exact congrArg (· ++ got') h1
      · exact List.Sublist.append h2.sublist h2'
    · exact ⟨got, by rw [drive, hq]; exact h1, h2.sublist.trans (List.sublist_append_left _ _)⟩

/-- The requests do not panic and return `Ok` only when all are through. -/
theorem drive_end : ∀ (rs : List Req) (e : Out) (io : Io),
    ((drive rs e io).1 = .done → e = .done) ∧ (∀ f, (drive rs e io).1 = .fault f → e = .fault f)
  | [], e, io => ⟨fun h => h, fun f h => h⟩
  | .once bs :: rs, e, io => by
    rcases writeOnce_got bs io with ⟨got, _, _, hf, _⟩
    rcases andThen_cases (writeOnce bs) (drive rs e) io with ⟨_, hq⟩ | ⟨hd, hq⟩
    · rw [drive, hq]; exact drive_end rs e _
    · rw [drive, hq]; exact ⟨fun h => absurd h hd, fun f h => absurd h (hf f)⟩
  | .all bs :: rs, e, io => by
    rcases writeAllLoop_got io.script io.received bs with ⟨got, _, _, _, hf, _⟩
    rcases andThen_cases (writeAll bs) (drive rs e) io with ⟨_, hq⟩ | ⟨hd, hq⟩
    · rw [drive, hq]; exact drive_end rs e _
    · rw [drive, hq]; exact ⟨fun h => absurd h hd, fun f h => absurd h (hf f)⟩

/-- Nothing is lost if every call of `write` that returns `Ok` takes all it is offered. -/
theorem drive_prefix : ∀ (rs : List Req) (e : Out) (io : Io),
    (∀ bs r n, Req.once bs ∈ rs → Answer.took n ∈ io.script → r = bs.take n → r = bs) → ∃ got,
    (drive rs e io).2.received = io.received ++ got ∧ got <+: reqBytes rs ∧
      ((drive rs e io).1 = .done → got = reqBytes rs)
  | [], _, _, _ => ⟨[], by simp [drive, reqBytes]⟩
  | .once bs :: rs, e, io, hw => by
    have hs : (writeOnce bs io).2.script <:+ io.script := (writeOnce_got bs io).choose_spec.2.2.2
    have hd : ((writeOnce bs io).1 = .done ∧ (writeOnce bs io).2.received = io.received ++ bs) ∨
        ((writeOnce bs io).1 ≠ .done ∧ (writeOnce bs io).2.received = io.received) := by
      rcases io with ⟨_ | ⟨_ | _ | _, s⟩, r⟩
      · exact .inr ⟨by simp [writeOnce], rfl⟩
      · rename_i n
        refine .inl ⟨rfl, ?_⟩
        show r ++ bs.take n = r ++ bs
        rw [hw bs _ n (by simp) (by simp) rfl]
      · exact .inr ⟨by simp [writeOnce], rfl⟩
      · exact .inr ⟨by simp [writeOnce], rfl⟩
    rcases andThen_cases (writeOnce bs) (drive rs e) io with ⟨h0, hq⟩ | ⟨h0, hq⟩
    · rcases hd with ⟨_, h1⟩ | ⟨h, _⟩
      · rcases drive_prefix rs e (writeOnce bs io).2
          (fun b r n hb hn => hw b r n (List.mem_cons_of_mem _ hb) (hs.subset hn)) with ⟨got, g1, g2, g3⟩
        refine ⟨bs ++ got, ?_, ?_, ?_⟩
        · rw [drive, hq, g1, h1, List.append_assoc]
        · exact (List.prefix_append_right_inj bs).2 g2
        · intro h
          rw [drive, hq] at h
          rw [g3 h]; rfl
      · exact absurd h0 h
    · rcases hd with ⟨h, _⟩ | ⟨_, h1⟩
      · exact absurd h h0
      · exact ⟨[], by rw [drive, hq, h1]; simp, List.nil_prefix, fun h => absurd (by rw [drive, hq] at h; exact h) h0⟩
  | .all bs :: rs, e, io, hw => by
    rcases writeAllLoop_got io.script io.received bs with ⟨got, h1, h2, h3, _, hs⟩
    rcases andThen_cases (writeAll bs) (drive rs e) io with ⟨h0, hq⟩ | ⟨h0, hq⟩
    · rcases drive_prefix rs e (writeAll bs io).2
        (fun b r n hb hn => hw b r n (List.mem_cons_of_mem _ hb) (hs.subset hn)) with ⟨got', g1, g2, g3⟩
      have hg := h3 h0
      subst hg
      refine ⟨got ++ got', ?_, ?_, ?_⟩
      · rw [drive, hq, g1, ← List.append_assoc]; exact congrArg (· ++ got') h1
      · exact (List.prefix_append_right_inj got).2 g2
      · intro h
        rw [drive, hq] at h
        rw [g3 h]; rfl
    · refine ⟨got, by rw [drive, hq]; exact h1, h2.trans (List.prefix_append _ _), fun h => ?_⟩
      rw [drive, hq] at h
      exact absurd h h0

theorem filter_took (n : Nat) (s : List Answer) :
    (Answer.took n :: s).filter (· != .interrupted) = .took n :: s.filter (· != .interrupted) := by
  simp

/-- A call of `write_all` needs at most one answer for each byte, apart from interruptions. -/
theorem writeAllLoop_answers : ∀ (s : List Answer) (r bs : Bytes),
    (writeAllLoop s r bs).1 = .waiting → (s.filter (· != .interrupted)).length < bs.length
  | s, r, [] => by simp [writeAllLoop]
  | [], r, b :: bs => by simp [writeAllLoop]
  | .took 0 :: s, r, b :: bs => by simp [writeAllLoop]
  | .failed :: s, r, b :: bs => by simp [writeAllLoop]
  | .interrupted :: s, r, b :: bs => fun h => by
    have := writeAllLoop_answers s r (b :: bs) h
    simpa using this
  | .took (n + 1) :: s, r, b :: bs => fun h => by
    have := writeAllLoop_answers s _ _ h
    rw [filter_took]
    simp only [List.length_cons, List.length_drop] at *
    omega

theorem writeAllLoop_spent : ∀ (s : List Answer) (r bs : Bytes), (writeAllLoop s r bs).1 = .done →
    (s.filter (· != .interrupted)).length ≤
      ((writeAllLoop s r bs).2.script.filter (· != .interrupted)).length + bs.length
  | s, r, [] => by simp [writeAllLoop]
  | [], r, b :: bs => by simp [writeAllLoop]
  | .took 0 :: s, r, b :: bs => by simp [writeAllLoop]
  | .failed :: s, r, b :: bs => by simp [writeAllLoop]
  | .interrupted :: s, r, b :: bs => fun h => by
    have := writeAllLoop_spent s r (b :: bs) h
    simpa [writeAllLoop] using this
  | .took (n + 1) :: s, r, b :: bs => fun h => by
    have := writeAllLoop_spent s _ _ h
    rw [filter_took]
    simp only [List.length_cons, List.length_drop, writeAllLoop] at *
    omega

/-- The calls are answered one by one for each byte at most, apart from interruptions. -/
theorem drive_answers {D : Prop} : ∀ (rs : List Req) (e : Out) (io : Io), (∀ q ∈ rs, Neat D q) → e ≠ .waiting →
    (drive rs e io).1 = .waiting → (io.script.filter (· != .interrupted)).length < (reqBytes rs).length
  | [], e, io, _, he => fun h => absurd h he
  | .once bs :: rs, e, io, hn, he => fun h => by
    have hb : 0 < bs.length := by
      have := (hn (.once bs) List.mem_cons_self).1
      exact List.length_pos_iff.2 this
    rw [reqBytes_cons, List.length_append]
    rcases andThen_cases (writeOnce bs) (drive rs e) io with ⟨h0, hq⟩ | ⟨h0, hq⟩
    · rw [drive, hq] at h
      have := drive_answers rs e _ (fun q hm => hn q (List.mem_cons_of_mem _ hm)) he h
      rcases io with ⟨_ | ⟨_ | _ | _, s⟩, r⟩
      · simp [writeOnce] at h0
      · rename_i n
        have hf := filter_took n s
        simp only [writeOnce, Req.bytes] at *
        rw [hf, List.length_cons]
        omega
      · simp [writeOnce] at h0
      · simp [writeOnce] at h0
    · rw [drive, hq] at h
      rcases io with ⟨_ | ⟨_ | _ | _, s⟩, r⟩
      · simp [Req.bytes]; omega
      · simp [writeOnce] at h
      · simp [writeOnce] at h
      · simp [writeOnce] at h
  | .all bs :: rs, e, io, hn, he => fun h => by
    rw [reqBytes_cons, List.length_append]
    rcases andThen_cases (writeAll bs) (drive rs e) io with ⟨h0, hq⟩ | ⟨h0, hq⟩
    · rw [drive, hq] at h
      have := drive_answers rs e _ (fun q hm => hn q (List.mem_cons_of_mem _ hm)) he h
      have := writeAllLoop_spent _ _ _ h0
      simp only [writeAll, Req.bytes] at *
      omega
    · rw [drive, hq] at h
      have := writeAllLoop_answers _ _ _ h
      simp only [Req.bytes]
      omega

/-- A writer that takes everything at once. -/
theorem drive_whole {D : Prop} : ∀ (rs : List Req), (∀ q ∈ rs, Neat D q) → ∃ k, ∀ (e : Out) (N : Nat) (s : List Answer)
    (r : Bytes), (reqBytes rs).length ≤ N →
    drive rs e ⟨List.replicate k (.took N) ++ s, r⟩ = (e, ⟨s, r ++ reqBytes rs⟩)
  | [], _ => ⟨0, fun e N s r _ => by simp [drive, reqBytes]⟩
  | .once bs :: rs, hn => by
    rcases drive_whole rs (fun q hm => hn q (List.mem_cons_of_mem _ hm)) with ⟨k, hk⟩
    refine ⟨k + 1, fun e N s r hN => ?_⟩
    rw [reqBytes_cons, List.length_append] at hN
    simp only [List.replicate_succ, List.cons_append, drive, Step.andThen, writeOnce]
    have hb : bs.length ≤ N := by simp only [Req.bytes] at hN; omega
    rw [hk e N s _ (by omega), List.take_of_length_le hb, reqBytes_cons, List.append_assoc]
    rfl
  | .all [] :: rs, hn => by
    rcases drive_whole rs (fun q hm => hn q (List.mem_cons_of_mem _ hm)) with ⟨k, hk⟩
    refine ⟨k, fun e N s r hN => ?_⟩
    have : (writeAll []) ⟨List.replicate k (.took N) ++ s, r⟩ = (.done, ⟨List.replicate k (.took N) ++ s, r⟩) := by
      simp [writeAll, writeAllLoop]
    simp only [drive, Step.andThen, this]
    exact hk e N s r hN
  | .all (b :: bs) :: rs, hn => by
    rcases drive_whole rs (fun q hm => hn q (List.mem_cons_of_mem _ hm)) with ⟨k, hk⟩
    refine ⟨k + 1, fun e N s r hN => ?_⟩
    rw [reqBytes_cons, List.length_append] at hN
    simp only [Req.bytes, List.length_cons] at hN
    obtain ⟨M, rfl⟩ : ∃ M, N = M + 1 := ⟨N - 1, by omega⟩
    have h1 : (writeAll (b :: bs)) ⟨List.replicate (k + 1) (.took (M + 1)) ++ s, r⟩ =
        (.done, ⟨List.replicate k (.took (M + 1)) ++ s, r ++ b :: bs⟩) := by
      have hb : bs.length ≤ M := by omega
      simp only [writeAll, List.replicate_succ, List.cons_append, writeAllLoop, List.take_of_length_le hb,
        List.drop_of_length_le hb]
    simp only [drive, Step.andThen, h1]
    rw [hk e (M + 1) s _ (by omega), reqBytes_cons, List.append_assoc]
    rfl

/-- A writer that takes one byte at a time. -/
theorem writeAllLoop_single (s : List Answer) : ∀ (bs r : Bytes),
    writeAllLoop (List.replicate bs.length (.took 1) ++ s) r bs = (.done, ⟨s, r ++ bs⟩)
  | [], r => by simp [writeAllLoop]
  | b :: bs, r => by
    have := writeAllLoop_single s bs (r ++ [b])
    simp only [List.length_cons, List.replicate_succ, List.cons_append, writeAllLoop, List.take_zero,
      List.drop_zero, this, List.append_assoc]
    rfl

theorem drive_single {D : Prop} : ∀ (rs : List Req), (∀ q ∈ rs, Neat D q) → ∃ k got, ∀ (e : Out) (s : List Answer) (r : Bytes),
    drive rs e ⟨List.replicate k (.took 1) ++ s, r⟩ = (e, ⟨s, r ++ got⟩) ∧ got.length ≤ (reqBytes rs).length ∧
      ((∃ bs, Req.once bs ∈ rs ∧ bs.length ≠ 1) → got.length < (reqBytes rs).length)
  | [], _ => ⟨0, [], fun e s r => by simp [drive]⟩
  | .once bs :: rs, hn => by
    rcases drive_single rs (fun q hm => hn q (List.mem_cons_of_mem _ hm)) with ⟨k, got, hk⟩
    refine ⟨k + 1, bs.take 1 ++ got, fun e s r => ?_⟩
    rcases hk e s (r ++ bs.take 1) with ⟨h1, h2, h3⟩
    have hb : 0 < bs.length := List.length_pos_iff.2 (hn (.once bs) List.mem_cons_self).1
    rw [reqBytes_cons]
    refine ⟨?_, ?_, ?_⟩
    · simp only [List.replicate_succ, List.cons_append, drive, Step.andThen, writeOnce, h1, List.append_assoc]
    · simp only [List.length_append, List.length_take, Req.bytes]
      omega
    · rintro ⟨b, hb', hl⟩
      simp only [List.length_append, List.length_take, Req.bytes]
      rcases List.mem_cons.1 hb' with hq | hq
      · cases hq
        omega
      · have := h3 ⟨b, hq, hl⟩
        omega
  | .all bs :: rs, hn => by
    rcases drive_single rs (fun q hm => hn q (List.mem_cons_of_mem _ hm)) with ⟨k, got, hk⟩
    refine ⟨bs.length + k, bs ++ got, fun e s r => ?_⟩
    rcases hk e s (r ++ bs) with ⟨h1, h2, h3⟩
    rw [reqBytes_cons]
    refine ⟨?_, ?_, ?_⟩
    · have := writeAllLoop_single (List.replicate k (.took 1) ++ s) bs r
      rw [← List.append_assoc, List.replicate_append_replicate] at this
      simp only [drive, Step.andThen, writeAll, this, h1, List.append_assoc]
    · simp only [List.length_append, Req.bytes]
      omega
    · rintro ⟨b, hb', hl⟩
      simp only [List.length_append, Req.bytes]
      rcases List.mem_cons.1 hb' with hq | hq
      · cases hq
      · have := h3 ⟨b, hq, hl⟩
        omega

end Verif
