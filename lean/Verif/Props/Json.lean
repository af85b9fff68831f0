import Verif.Props.JsonText
import Verif.Props.Marshaller
import Verif.Proof.JsonExact
import Verif.Proof.JsonPanic

/-! # Properties C34–C39 and C43: JSON documents
(`src/core/json/decoder.rs`, `src/core/json/encoder.rs`) -/

namespace Verif.Props

open Verif Spec Json

/-! ## Samples -/

/-- A struct of `n` bytes. -/
def bytesTy (n : Nat) : Ty := .struct ((List.range n).map fun i => ([Char.ofNat (65 + i)], .prim .u8))

/-- A text for the sample value, with the fields in another order and with white space. -/
def recJson : Str := " {\"b\" : \"hi\", \"c\":{\"kind\":\"y\",\"value\":[\"\\u0041\",true]},\n\"a\":515}".toList

/-- The document. -/
def recTree : Tree :=
  .obj [(['b'], .str ['h', 'i']),
    (['c'], .obj [("kind".toList, .str ['y']), ("value".toList, .arr [.str ['A'], .bool true])]),
    (['a'], .num ['5', '1', '5'])]

theorem recTree_toks : recTree.toks =
    [.beginObject, .string ['b'], .colon, .string ['h', 'i'], .comma, .string ['c'], .colon, .beginObject,
      .string ['k', 'i', 'n', 'd'], .colon, .string ['y'], .comma, .string ['v', 'a', 'l', 'u', 'e'], .colon,
      .beginArray, .string ['A'], .comma, .true, .endArray, .endObject, .comma, .string ['a'], .colon,
      .number ['5', '1', '5'], .endObject] := by
  simp [recTree, Tree.toks, toksM, toksL, memberToks, sepBy]

theorem recJson_reads (u : Char → Bool) : StartsWith u recJson recTree.toks .eof [] := by
  rw [recTree_toks]
  exact ⟨_, _, rfl, .cons rfl (.cons rfl (.cons rfl (.cons rfl (.cons rfl (.cons rfl (.cons rfl (.cons rfl
    (.cons rfl (.cons rfl (.cons rfl (.cons rfl (.cons rfl (.cons rfl (.cons rfl (.cons rfl (.cons rfl (.cons rfl
    (.cons rfl (.cons rfl (.cons rfl (.cons rfl (.cons rfl (.cons rfl (.cons rfl .nil))))))))))))))))))))))))⟩

theorem recTree_takes (F : FloatText) (lax : Prop) : Takes F lax recTy recTree recVal := by
  refine .struct (by decide) (by decide) (by decide) rfl ?_
  intro i f t v hf ht hv
  match i, hf, hv with
  | 0, hf, hv =>
    cases hf; cases hv
    have : t = .num ['5', '1', '5'] := by simpa using ht
    subst this
    exact .num (v := ⟨.u16, (515 : BitVec 16)⟩) rfl ⟨[5, 1, 5], by decide, by decide, .inl rfl, rfl⟩
  | 1, hf, hv =>
    cases hf; cases hv
    have : t = .str ['h', 'i'] := by simpa using ht
    subst this
    exact .string ['h', 'i']
  | 2, hf, hv =>
    cases hf; cases hv
    have : t = .obj [("kind".toList, .str ['y']), ("value".toList, .arr [.str ['A'], .bool true])] := by
      simpa using ht
    subst this
    refine .enum (l := ['y']) (c := .tuple [.string, .prim .bool]) rfl ?_ (.tuple rfl rfl ?_)
    · intro j d hj hd
      match j, hj, hd with
      | 2, _, hd => cases hd; decide
    · intro i c t v hc ht hv
      match i, hc, ht, hv with
      | 0, hc, ht, hv => cases hc; cases ht; cases hv; exact .string ['A']
      | 1, hc, ht, hv => cases hc; cases ht; cases hv; exact .bool true

theorem recJson_decode (chk : Bool) :
    ∃ d, decode (plainEnv chk) recTy recJson = .ok d ∧ HoldsExactly d recVal :=
  takes_decode (recJson_reads _) (recTree_takes _ _)

theorem rec_structs {P : Nat → Prop} (h : P 3) : AllStructs P recTy := by
  refine .struct h ?_
  simp only [List.forall_mem_cons, List.not_mem_nil, false_imp_iff, implies_true, and_true]
  refine ⟨.prim _, .string, .enum ?_⟩
  simp only [List.forall_mem_cons, List.not_mem_nil, false_imp_iff, implies_true, and_true]
  refine ⟨.prim _, .tuple ?_, .unit⟩
  simp only [List.forall_mem_cons, List.not_mem_nil, false_imp_iff, implies_true, and_true]
  exact ⟨.string, .prim _⟩

/-! ## C34 -/

/-- C34 is false: the string of one NUL character is written as a text the decoder rejects. -/
theorem C34_round_trip_refuted (env : Env) : ∃ (src : DataSource) (text : Str),
    Presents src (.str [0]) [] ∧ encode env.floats .string src = .ok text.utf8 ∧
    decode env .string text = .error .err := by
  refine ⟨(IntermediateDataSource.new.addString [] [Char.ofNat 0]).source, "\"\\0\"".toList, ?_, rfl, rfl⟩
  intro q l h
  simp only [leaves, List.mem_singleton, Prod.mk.injEq] at h
  obtain ⟨rfl, rfl⟩ := h
  exact ⟨rfl, rfl⟩

/-- C34, the part that holds.  Full statement: for every type and value, encoding and then decoding succeeds
and yields the value.  Missing: values with strings, characters or labels that are not `Writable` (C32), with
floating point numbers whose text is not a JSON number or does not parse back (infinities, NaN), with structs
with equal labels or with 64 or more fields, and enum cases whose label is used again later.  Proved: for all
other types and values, from any source presenting the value, the encoder writes a JSON text, and the decoder
accepts this text and yields exactly the leaves of the value. -/
theorem C34_round_trip_partial (env : Env) (t : Ty) (v : Val) (hv : Plain env.floats t v) (src : DataSource)
    (hs : Presents src v []) :
    ∃ text tr d, encode env.floats t src = .ok text.utf8 ∧ Laid (Tree.toks tr) text ∧ Denotes env.floats t tr v ∧
      decode env t text = .ok d ∧ HoldsExactly d v := by
  obtain ⟨tr, text, h1, h2, h3⟩ := emits_plain hv
  have h4 := h3 [] [] (by intro c hc; cases hc) (.nil (by intro c hc; cases hc))
  rw [List.append_nil, List.append_nil] at h4
  obtain ⟨d, h5, h6⟩ := takes_decode (laid_reads h4) (h2 _)
  exact ⟨text, tr, d, h1 src [] hs, h4, (h2 False).denotes (allStructs_of (fun _ => .inr id) t), h5, h6⟩

/-- C34, exactly: if infinities and NaN are written as usual and all other floating point numbers as JSON
numbers, then a value of the type is encoded to a text that is decoded to the same value if and only if it is
`Plain`.  So nothing but the values listed in `C34_round_trip_partial` as missing is lost. -/
theorem C34_exactly (env : Env) (hF : OrdinaryFloats env.floats) (t : Ty) (v : Val) (hv : Typed t v)
    (src : DataSource) (hs : Presents src v []) :
    (∃ text d, encode env.floats t src = .ok (Str.utf8 text) ∧ decode env t text = .ok d ∧ HoldsExactly d v) ↔
      Plain env.floats t v := by
  constructor
  · rintro ⟨text, d, h1, h2, h3⟩
    exact plain_of_round_trip hF hv hs h1 h2 h3
  · intro h
    obtain ⟨text, _, d, h1, _, _, h2, h3⟩ := C34_round_trip_partial env t v h src hs
    exact ⟨text, d, h1, h2, h3⟩

theorem rec_plain (F : FloatText) : Plain F recTy recVal := by
  refine .struct (by decide) (by decide) (by unfold Writable; decide) rfl ?_
  intro i f v hf hv
  match i, hf, hv with
  | 0, hf, hv => cases hf; cases hv; exact .prim (v := ⟨.u16, (515 : BitVec 16)⟩) trivial
  | 1, hf, hv => cases hf; cases hv; exact .str (s := ['h', 'i']) (by unfold Writable; decide)
  | 2, hf, hv =>
    cases hf; cases hv
    refine .enum (l := ['y']) (c := .tuple [.string, .prim .bool]) rfl ?_ (by unfold Writable; decide) (.tuple rfl ?_)
    · intro j d hj hd
      match j, hj, hd with
      | 2, _, hd => cases hd; decide
    · intro i c v hc hv
      match i, hc, hv with
      | 0, hc, hv => cases hc; cases hv; exact .str (s := ['A']) (by unfold Writable; decide)
      | 1, hc, hv => cases hc; cases hv; exact .prim (v := ⟨.bool, true⟩) trivial

example (env : Env) : ∃ text tr d, encode env.floats recTy recSrc = .ok (Str.utf8 text) ∧ Laid (Tree.toks tr) text ∧
    Denotes env.floats recTy tr recVal ∧ decode env recTy text = .ok d ∧ HoldsExactly d recVal :=
  C34_round_trip_partial env recTy recVal (rec_plain _) recSrc rec_presents

/-- Floating point text as in Rust for zero and NaN. -/
def someFloats : FloatText where
  parse32 := fun s => if s = ['0'] then some 0 else none
  parse64 := fun s => if s = ['0'] then some 0 else none
  show32 := fun v => if v = 0 then ['0'] else "NaN".toList
  show64 := fun v => if v = 0 then ['0'] else "NaN".toList

theorem someFloats_ordinary : OrdinaryFloats someFloats := by
  have h0 : NumberText ['0'] := ⟨[], ['0'], [], [], rfl, .inl rfl, .inl rfl, .inl rfl, .inl rfl⟩
  constructor <;>
  · intro v
    unfold someFloats
    by_cases h : v = 0
    · simp only [h, if_true]; exact .inl h0
    · simp only [h, if_false]; exact .inr (by decide)

example (u : Char → Bool) (chk : Bool) :
    (∃ text d, encode someFloats recTy recSrc = .ok (Str.utf8 text) ∧
      decode ⟨u, someFloats, chk⟩ recTy text = .ok d ∧ HoldsExactly d recVal) ∧
    ¬ ∃ text d, encode someFloats .string (IntermediateDataSource.new.addString [] [Char.ofNat 27]).source =
        .ok (Str.utf8 text) ∧ decode ⟨u, someFloats, chk⟩ .string text = .ok d ∧ HoldsExactly d (.str [27]) := by
  constructor
  · exact (C34_exactly ⟨u, someFloats, chk⟩ someFloats_ordinary recTy recVal rec_typed recSrc rec_presents).2
      (rec_plain _)
  · rw [C34_exactly ⟨u, someFloats, chk⟩ someFloats_ordinary .string (.str [27]) (.str _)]
    · intro h
      generalize hb : ([27] : Bytes) = b at h
      cases h with
      | @str s h =>
        have : s = [Char.ofNat 27] := utf8_injective (hb ▸ rfl)
        subst this
        exact absurd (h _ (.head _)) (by unfold Writable; decide)
    · intro q l h
      simp only [leaves, List.mem_singleton, Prod.mk.injEq] at h
      obtain ⟨rfl, rfl⟩ := h
      exact ⟨rfl, rfl⟩

/-! ## C35 -/

/-- C35 is false: without overflow checks, a struct with 64 fields accepts `{}` and yields no data. -/
theorem C35_conforms_refuted : ∃ (env : Env) (t : Ty) (input : Str) (d : IntermediateDataSource),
    decode env t input = .ok d ∧ ¬ ∃ v, Typed t v ∧ HoldsExactly d v := by
  refine ⟨plainEnv false, bytesTy 64, "{}".toList, [], rfl, ?_⟩
  rintro ⟨v, hv, hd⟩
  cases hv with
  | @struct _ vs hl ht =>
    cases vs with
    | nil => cases hl
    | cons w vs =>
      have h1 := ht 0 (['A'], .prim .u8) w rfl rfl
      generalize hk : Ty.prim .u8 = t at h1
      cases h1 with
      | prim v =>
        have h2 := (hd [0] (.prim v)).2 (by
          rw [leaves, leavesFrom, leaves]; exact .head _)
        cases h2
      | _ => cases hk

/-- C35, the part that holds.  Full statement: if the decoder accepts, it yields exactly the leaves of a value
of the type.  Missing: types containing a struct with exactly 64 fields, if overflow checks are off. -/
theorem C35_conforms_partial (env : Env) (t : Ty) (ha : AllStructs (fun n => n ≠ 64 ∨ env.chk = true) t)
    (input : Str) (d : IntermediateDataSource) (h : decode env t input = .ok d) :
    ∃ v, Typed t v ∧ HoldsExactly d v := by
  obtain ⟨tr, v, k, s, _, h2, h3⟩ := decode_sound ha h
  exact ⟨v, h2.typed, h3⟩

/-- C35. What the decoder does, for all types and texts: it accepts exactly the texts that begin with a
document it takes, followed by anything that can be tokenized; and then it yields exactly the leaves of the
value denoted. -/
theorem C35_accepted (env : Env) (t : Ty) (input : Str) :
    (∀ d, decode env t input = .ok d → ∃ tr v k s, StartsWith env.alnum input (Tree.toks tr) k s ∧
      Takes env.floats (env.chk = false) t tr v ∧ HoldsExactly d v) ∧
    (∀ tr v k s, StartsWith env.alnum input (Tree.toks tr) k s → Takes env.floats (env.chk = false) t tr v →
      ∃ d, decode env t input = .ok d ∧ HoldsExactly d v) :=
  ⟨fun _ h => decode_takes h, fun _ _ _ _ h hd => takes_decode h hd⟩

example : ∃ d v, decode (plainEnv true) recTy recJson = .ok d ∧ Typed recTy v ∧ HoldsExactly d v := by
  obtain ⟨d, h, _⟩ := recJson_decode true
  obtain ⟨v, h1, h2⟩ := C35_conforms_partial (plainEnv true) recTy (rec_structs (.inl (by decide))) recJson d h
  exact ⟨d, v, h, h1, h2⟩

/-! ## C36 -/

/-- C36. Two texts of documents that differ only in the order of the members of structs, in white space and
in the spelling of strings are accepted alike, and the same data is stored. -/
theorem C36_order_and_space (env : Env) (t : Ty) (tr tr' : Tree) (hr : Reordered t tr tr') (s s' : Str)
    (hs : Laid tr.toks s) (hs' : Laid tr'.toks s') (d : IntermediateDataSource) (h : decode env t s = .ok d) :
    ∃ d', decode env t s' = .ok d' ∧ ∀ q, mapGet Path.cmp q d' = mapGet Path.cmp q d := by
  obtain ⟨v, h1, h2⟩ := decode_document (laid_reads hs) h
  obtain ⟨d', h3, h4⟩ := takes_decode (env := env) (laid_reads hs') (takes_reordered hr h1)
  exact ⟨d', h3, fun q => holdsExactly_unique h4 h2 q⟩

/-- The sample document with the fields in the order of the type. -/
example : Reordered recTy recTree
    (.obj [(['a'], .num ['5', '1', '5']), (['b'], .str ['h', 'i']),
      (['c'], .obj [("kind".toList, .str ['y']), ("value".toList, .arr [.str ['A'], .bool true])])]) := by
  refine .struct (by decide) ?_
  intro f t t' hf h h'
  have : t = t' := by
    simp only [List.mem_cons, List.not_mem_nil, or_false, Prod.mk.injEq] at hf h h'
    rcases hf with rfl | rfl | rfl <;>
      (simp at h h'; rw [h, h'])
  rw [this]
  exact .refl

/-! ## C37 -/

/-- C37 is false: without overflow checks, a struct with 64 fields accepts the document without members. -/
theorem C37_fields_refuted : ∃ (env : Env) (fs : List (Str × Ty)) (input : Str) (d : IntermediateDataSource),
    decode env (.struct fs) input = .ok d ∧ Laid (Tree.obj []).toks input ∧ fs.length = 64 := by
  refine ⟨plainEnv false, (List.range 64).map fun i => ([Char.ofNat (65 + i)], .prim .u8), "{}".toList, [], rfl, ?_,
    by simp⟩
  have e : (Tree.obj []).toks = [.beginObject, .endObject] := by simp [Tree.toks, toksM, sepBy]
  rw [e]
  exact laid_tok (p := ['{']) .beginObject trivial (laid_tok (p := ['}']) (s := []) .endObject trivial
    (.nil (by intro c hc; cases hc)))

/-- C37, the part that holds.  Full statement: a document is accepted for a struct type only if its member
names are the field names, each once.  Missing: structs with exactly 64 fields, if overflow checks are off
(C37_fields_refuted).  This holds for the struct at the top and for each struct inside (`Denotes`). -/
theorem C37_fields_partial (env : Env) (fs : List (Str × Ty)) (hn : fs.length ≠ 64 ∨ env.chk = true)
    (input : Str) (d : IntermediateDataSource) (h : decode env (.struct fs) input = .ok d) :
    ∃ ms r, Begins (fun _ => True) (fun n => n ≤ 4) (Tree.obj ms).toks input r ∧
      (ms.map (·.1)).Nodup ∧ (ms.map (·.1)).Perm (fs.map (·.1)) := by
  obtain ⟨tr, v, k, s, h1, h2, _⟩ := decode_takes h
  obtain ⟨r, h4, _⟩ := startsWith_iff.1 h1
  cases h2 with
  | struct _ h5 h6 _ _ =>
    exact ⟨_, r, toks_begins h4 (toks_ne_eof _), h6.nodup_iff.2 h5, h6⟩
  | gap h5 h6 =>
    rcases hn with hn | hn
    · exact absurd h6 hn
    · rw [hn] at h5; cases h5

example (chk : Bool) : ∃ ms r, Begins (fun _ => True) (fun n => n ≤ 4) (Tree.obj ms).toks recJson r ∧
    (ms.map (·.1)).Nodup ∧ (ms.map (·.1)).Perm [['a'], ['b'], ['c']] := by
  obtain ⟨d, h, _⟩ := recJson_decode chk
  exact C37_fields_partial _ _ (.inl (by decide)) _ d h

/-- C37 for structs anywhere in the document. -/
theorem C37_nested_partial (env : Env) (t : Ty) (ha : AllStructs (fun n => n ≠ 64 ∨ env.chk = true) t)
    (tr : Tree) (input : Str) (hs : Laid tr.toks input) (d : IntermediateDataSource) (h : decode env t input = .ok d) :
    ∃ v, Denotes env.floats t tr v := by
  obtain ⟨v, h1, _⟩ := decode_document (laid_reads hs) h
  exact ⟨v, h1.denotes (ha.mono fun n h => h.imp id fun h => by rw [h]; simp)⟩

/-- The decoder returns `Err`. -/
def rejects (env : Env) (t : Ty) (input : Str) : Bool :=
  match decode env t input with
  | .error .err => true
  | _ => false

/-- Accepted with the fields in another order; rejected if a field is missing, repeated or unknown. -/
example : (∃ d, decode (plainEnv true) recTy recJson = .ok d) ∧
    rejects (plainEnv true) (.struct [(['a'], .unit), (['b'], .unit)]) "{\"a\":null}".toList ∧
    rejects (plainEnv true) (.struct [(['a'], .unit), (['b'], .unit)]) "{\"a\":null,\"a\":null}".toList ∧
    rejects (plainEnv true) (.struct [(['a'], .unit), (['b'], .unit)]) "{\"a\":null,\"x\":null}".toList ∧
    rejects (plainEnv true) (.struct [(['a'], .unit), (['b'], .unit)]) "{\"b\":null,\"a\":null,\"c\":null}".toList := by
  refine ⟨?_, by decide +kernel, by decide +kernel, by decide +kernel, by decide +kernel⟩
  obtain ⟨d, h, _⟩ := recJson_decode true
  exact ⟨d, h⟩

/-! ## C38 -/

/-- C38 is false: a surrogate in an escape sequence makes the tokenizer panic, and so the decoder for any type. -/
theorem C38_surrogate_refuted (env : Env) (t : Ty) :
    decode env t "\"\\uD800\"".toList = .error (.fault .panic) := rfl

/-- C38, for the tokenizer, exactly: the next token is a panic if and only if the text begins, after white space,
with a string that has an escape sequence of four hexadecimal digits for a surrogate. -/
theorem C38_tokenizer (u : Char → Bool) (s : Str) (f : Fault) :
    next u s = .error (.fault f) ↔
      f = .panic ∧ ∃ ws r, s = ws ++ r ∧ (∀ c ∈ ws, isSpace c = true) ∧ BadString r := next_fault

/-- The escape sequence comes after others; and it is not one after an escaped backslash. -/
example (u : Char → Bool) : next u " \"a\\n\\u41\\udead\"".toList = .error (.fault .panic) ∧
    ¬ ∃ f, next u "\"\\\\ud800\"".toList = .error (.fault f) := by
  constructor
  · refine (C38_tokenizer u _ _).2 ⟨rfl, [' '], _, rfl, by decide, "a\\n\\u41".toList, "a\nA".toList, "dead".toList,
      ['"'], 0xdead, rfl, ?_, rfl, ?_, by decide, by decide⟩
    · refine .plain (by decide) (by decide) (by decide) (.escape .n ?_)
      exact .code (hs := ['4', '1']) (raw := []) (c := 'A') (by decide)
        (.cons (d := 4) (.inl (by decide)) (.cons (d := 1) (.inl (by decide)) .nil)) (fun _ => .nil) .nil
    · exact .cons (d := 13) (.inr (by decide)) (.cons (d := 14) (.inr (by decide)) (.cons (d := 10) (.inr (by decide))
        (.cons (d := 13) (.inr (by decide)) .nil)))
  · rintro ⟨f, h⟩
    cases h

/-- C38 is false: a struct with 64 fields makes the decoder panic if overflow checks are on, and a struct with
more fields always. -/
theorem C38_fields_refuted (env : Env) (fs : List (Str × Ty))
    (hn : 64 < fs.length ∨ fs.length = 64 ∧ env.chk = true) :
    decode env (.struct fs) "{}".toList = .error (.fault .panic) := by
  have h : newWithElements env.chk fs.length = .error (.fault .panic) := by
    unfold newWithElements
    rcases hn with hn | ⟨hn, hc⟩
    · rw [if_pos hn]; rfl
    · rw [if_neg (by omega), if_pos hn, hc]; rfl
  have e1 : next env.alnum "{}".toList = .ok (.beginObject, ['}']) := rfl
  have e2 : next env.alnum ['}'] = .ok (.endObject, []) := rfl
  unfold decode
  rw [e1, Parse.bind_ok]
  simp only [parserFor, structParser, mustBe, advance]
  rw [if_neg (by simp), e2]
  simp only [Parse.bind_ok]
  rw [parsersF_length, h]
  rfl

example : decode (plainEnv false) (bytesTy 65) "{}".toList = .error (.fault .panic) :=
  C38_fields_refuted _ _ (.inl (by simp))

/-- C38, exactly: the decoder panics if and only if the text begins with a string with an escape sequence for a
surrogate, or such a string comes where the decoder, having used the tokens before it, asks for another; or, having
read the opening brace of a struct with too many fields, it gets another token. -/
theorem C38_exactly (env : Env) (t : Ty) (input : Str) (f : Fault) :
    decode env t input = .error (.fault f) ↔ f = .panic ∧ (BadNext input ∨
      ∃ ks r, Toks env.alnum input ks r ∧
        ((Asks env.floats (env.chk = false) true (.doc t) ks ∧ BadNext r) ∨
          (Asks env.floats (env.chk = false) false (.doc t) ks ∧ ∃ x, next env.alnum r = .ok x))) :=
  decode_fault

/-- A string too long for a character is used before it is found to be wrong; the second component of an array. -/
example (env : Env) : decode env (.tuple [.unit, .prim .char]) "[null, \"ab\" \"\\uD800".toList =
    .error (.fault .panic) := by
  refine (C38_exactly env _ _ _).2 ⟨rfl, .inr ⟨[.beginArray, .null, .comma, .string ['a', 'b']],
    " \"\\uD800".toList, .cons rfl (.cons rfl (.cons rfl (.cons rfl .nil))), .inl ⟨?_, [' '], _, rfl, by decide,
    [], [], "D800".toList, [], 0xd800, rfl, .nil, rfl, ?_, by decide, by decide⟩⟩⟩
  · exact .elems (.elemDone (t := .null) .unit (.elem (.char _)))
  · exact .cons (d := 13) (.inr (by decide)) (.cons (d := 8) (.inl (by decide)) (.cons (d := 0) (.inl (by decide))
      (.cons (d := 0) (.inl (by decide)) .nil)))

/-- The value of the case is a struct with 65 fields; what follows its brace is no field at all. -/
example (env : Env) : decode env (.enum [("A".toList, .unit), ("B".toList, bytesTy 65)])
    "{\"kind\": \"B\", \"value\": { 7".toList = .error (.fault .panic) := by
  refine (C38_exactly env _ _ _).2 ⟨rfl, .inr ⟨caseToks "B".toList ++ [.beginObject], " 7".toList, ?_,
    .inr ⟨.value (l := "B".toList) (c := bytesTy 65) ⟨1, rfl, ?_⟩ (.wide (.inl (by simp))), _, rfl⟩⟩⟩
  · exact .cons rfl (.cons rfl (.cons rfl (.cons rfl (.cons rfl (.cons rfl (.cons rfl (.cons rfl .nil)))))))
  · intro j g hj hg
    have := (List.getElem?_eq_some_iff.1 hg).1
    simp at this
    omega

/-- No panic: the decoder stops at the token before, or before the second token is asked for. -/
example (env : Env) (fs : List (Str × Ty)) : decode env (.prim .bool) "null \"\\uD800\"".toList = .error .err ∧
    decode env (.struct fs) "[{".toList = .error .err := by
  have e1 : next env.alnum "null \"\\uD800\"".toList = .ok (.null, " \"\\uD800\"".toList) := rfl
  have e2 : next env.alnum "[{".toList = .ok (.beginArray, ['{']) := rfl
  constructor
  · unfold decode
    rw [e1, Parse.bind_ok]
    simp only [parserFor, primitiveParser]
    rfl
  · unfold decode
    rw [e2, Parse.bind_ok]
    simp only [parserFor, structParser, mustBe]
    rw [if_pos (by simp)]
    rfl

/-- C38, the part that holds.  Full statement: for every type and text the decoder returns `Ok` or `Err`.
Missing: texts in which, after some tokens, comes a string with an escape sequence for a surrogate; types
containing structs with more than 64 fields, and with 64 fields if overflow checks are on. -/
theorem C38_no_panic_partial (env : Env) (t : Ty)
    (ha : AllStructs (fun n => n ≤ 63 ∨ (n = 64 ∧ env.chk = false)) t) (input : Str)
    (hs : ∀ ks r ws z, Toks env.alnum input ks r → r = ws ++ z → (∀ c ∈ ws, isSpace c = true) → ¬ BadString z) :
    (∃ d, decode env t input = .ok d) ∨ decode env t input = .error .err := by
  have := decode_safe (env := env) ha (smooth_of hs)
  cases h : decode env t input with
  | ok d => exact .inl ⟨d, rfl⟩
  | error e =>
    cases e with
    | err => exact .inr rfl
    | fault f => exact absurd h (this f)

/-- In particular for texts in which no `\u` is followed by the four digits of a surrogate. -/
theorem C38_no_surrogates (u : Char → Bool) (input : Str) (h : NoSurrogates input) (ks : List Json.Tok)
    (r ws z : Str) (hr : Toks u input ks r) (e : r = ws ++ z) (hw : ∀ c ∈ ws, isSpace c = true) :
    ¬ BadString z := fun hz =>
  noSurrogates_smooth h ks r hr .panic (next_fault.2 ⟨rfl, ws, z, e, hw, hz⟩)

/-- A text that has no escape sequences at all, for the sample type. -/
example (input : Str) (h : '\\' ∉ input) :
    (∃ d, decode (plainEnv true) recTy input = .ok d) ∨ decode (plainEnv true) recTy input = .error .err := by
  refine C38_no_panic_partial (plainEnv true) recTy (rec_structs (.inl (by decide))) input
    (C38_no_surrogates _ input ?_)
  intro a hs b n e _ _
  exact absurd (by rw [e]; simp) h

/-! ## C39 -/

/-- C39 is false: text after the document is ignored. -/
theorem C39_complete_refuted (env : Env) :
    ∃ d, decode env .unit ['n', 'u', 'l', 'l', ' ', ']'] = .ok d ∧
      ¬ Laid (Tree.toks .null) ['n', 'u', 'l', 'l', ' ', ']'] := by
  refine ⟨_, rfl, ?_⟩
  intro h
  obtain ⟨k, s, h1, h2⟩ := laid_reads (u := env.alnum) h
  rw [Tree.toks] at h2
  cases h2 with
  | cons h3 h4 =>
    cases h4
    cases h1
    cases h3

/-- C39, the part that holds.  Full statement: an accepted text is a document with white space around it.
Missing: after the document, the decoder reads one more token of any kind and ignores it and the rest.
Proved: an accepted text begins with a complete document for the type; what follows must begin with a token or
be blank; and the rest is indeed ignored. -/
theorem C39_complete_partial (env : Env) (t : Ty) (input : Str) :
    (∃ d, decode env t input = .ok d) ↔
      ∃ tr v r k s, Toks env.alnum input (Tree.toks tr) r ∧ Takes env.floats (env.chk = false) t tr v ∧
        next env.alnum r = .ok (k, s) := by
  constructor
  · rintro ⟨d, h⟩
    obtain ⟨tr, v, k, s, h1, h2, _⟩ := decode_takes h
    obtain ⟨r, h3, h4⟩ := startsWith_iff.1 h1
    exact ⟨tr, v, r, k, s, h3, h2, h4⟩
  · rintro ⟨tr, v, r, k, s, h1, h2, h3⟩
    obtain ⟨d, h, _⟩ := takes_decode (startsWith_iff.2 ⟨r, h1, h3⟩) h2
    exact ⟨d, h⟩

/-- Accepted: garbage after the next token; rejected: a broken next token. -/
example : (∃ d, decode (plainEnv true) .unit "null}]#".toList = .ok d) ∧
    ¬ ∃ d, decode (plainEnv true) .unit "null#".toList = .ok d :=
  ⟨⟨_, rfl⟩, by rintro ⟨d, h⟩; cases h⟩

/-! ## C43 -/

/-- The document is accepted, and marshalling its data into one byte panics. -/
def marshalPanics (t : Ty) (input : Str) : Bool :=
  match decode (plainEnv true) t input, Layout.new true t with
  | .ok d, .ok l => match l.encode true d.source [0] with
    | .error .panic => true
    | _ => false
  | _, _ => false

/-- C43 is false: there is an accepted document whose data cannot be marshalled. -/
theorem C43_refuted : ∃ (t : Ty) (input : Str) (d : IntermediateDataSource) (l : Layout),
    decode (plainEnv true) t input = .ok d ∧ Layout.new true t = .ok l ∧
    l.encode true d.source [0] = .error .panic := by
  have h : marshalPanics
      (.tuple [.enum (List.replicate 16 ([], .unit)), .enum (List.replicate 16 ([], .unit)), .enum [([], .unit)]])
      "[{\"kind\":\"\",\"value\":null},{\"kind\":\"\",\"value\":null},{\"kind\":\"\",\"value\":null}]".toList
        = true := by decide +kernel
  generalize Ty.tuple _ = t at h
  generalize String.toList _ = input at h
  unfold marshalPanics at h
  split at h
  · split at h
    · exact ⟨_, _, _, _, ‹_›, ‹_›, ‹_›⟩
    · cases h
  · cases h

/-- C43, the part that holds.  Full statement: for every type and accepted document, emitting JSON from the
marshalled data gives the same text as emitting it from the decoded data.  Missing: types with empty tuples,
structs or enums (C18), with tags that fill their machine word (C26), or with 64 field structs if
overflow checks are off (C35); texts of 2^26 or more characters.  Proved: for all other types and documents,
marshalling into any buffer that is large enough succeeds, emitting from the buffer succeeds, and both texts
are equal. -/
theorem C43_json_binary_json_partial (env : Env) (t : Ty) (hi : Inhab t) (hn : nodes t < 2 ^ 59)
    (l : Layout) (hl : Layout.new env.chk t = .ok l)
    (ht : ∀ m, Nested l m → ∀ f ∈ m.fixed, HasRoom env.chk f)
    (ha : AllStructs (fun n => n ≠ 64 ∨ env.chk = true) t)
    (input : Str) (hlen : input.length < 2 ^ 26) (d : IntermediateDataSource) (h : decode env t input = .ok d)
    (F : FloatText) :
    ∃ (n : Nat) (text : Bytes), encode F t d.source = .ok text ∧ l.sizeWithSource env.chk d.source = .ok n ∧
      ∀ buf : Bytes, n ≤ buf.length → ∃ data, l.encode env.chk d.source buf = .ok (data, n) ∧
        encode F t (l.source env.chk data) = .ok text ∧ encode F t (l.source env.chk (data.take n)) = .ok text := by
  obtain ⟨tr, v, k, s, h1, h2, h3⟩ := decode_takes h
  obtain ⟨hw, hstr⟩ := decoded_weight h1 h2
  have hden := h2.denotes (ha.mono fun n h => h.imp id fun h => by rw [h]; simp)
  have hfit : Fits env.chk t v := ⟨hi, hn, fun l' hl' m hm => ht m (by rw [hl] at hl'; cases hl'; exact hm.nested), hden.typed, fun q bs hm => by have := hstr q bs hm; omega, by omega⟩
  have hp := presents_holds h3
  obtain ⟨n, k1, _, k3⟩ := C22_size env.chk t v hfit l hl d.source hp
  obtain ⟨r, hr⟩ := emits_same (F := F) hden.typed
  obtain ⟨text, htext⟩ := emits_ok (F' := F) hden [] hp
  have e := hr d.source [] hp
  rw [htext] at e
  refine ⟨n, text, htext, k1, fun buf hb => ?_⟩
  obtain ⟨data, k4, _⟩ := k3 buf hb
  obtain ⟨p1, p2⟩ := C25_round_trip env.chk t v hfit l hl d.source hp buf data n k4 hb
  exact ⟨data, k4, (hr _ [] p1).trans e.symm, (hr _ [] p2).trans e.symm⟩

/-- C43, exactly, for a build with overflow checks: the decoded data of an accepted document hold a value, and the
document survives marshalling if and only if every tag of this value has room in its machine word; if not, the data
cannot be marshalled into any buffer. -/
theorem C43_checked_iff (env : Env) (hc : env.chk = true) (t : Ty) (hi : Inhab t) (hn : nodes t < 2 ^ 59)
    (l : Layout) (hl : Layout.new true t = .ok l) (input : Str) (hlen : input.length < 2 ^ 26)
    (d : IntermediateDataSource) (h : decode env t input = .ok d) (F : FloatText) :
    ∃ v, Typed t v ∧ HoldsExactly d v ∧
      ((∃ (n : Nat) (text : Bytes), encode F t d.source = .ok text ∧ l.sizeWithSource true d.source = .ok n ∧
        ∀ buf : Bytes, n ≤ buf.length → ∃ data, l.encode true d.source buf = .ok (data, n) ∧
          encode F t (l.source true data) = .ok text) ↔ TagsHaveRoom true (leaves v []) l) ∧
      ((∃ buf r, l.encode true d.source buf = .ok r) ↔ TagsHaveRoom true (leaves v []) l) := by
  obtain ⟨tr, v, k, s, h1, h2, h3⟩ := decode_takes h
  obtain ⟨hw, hstr⟩ := decoded_weight h1 h2
  have hden := h2.denotes (allStructs_of (fun _ => .inr (by rw [hc]; simp)) t)
  have hp := presents_holds h3
  obtain ⟨k1, k2⟩ := C26_checked_iff t hi hn v hden.typed (fun q bs hm => by have := hstr q bs hm; omega) (by omega)
    l hl d.source hp
  refine ⟨v, hden.typed, h3, ⟨?_, fun hr => ?_⟩, k1⟩
  · rintro ⟨n, text, _, _, hb⟩
    obtain ⟨data, he, _⟩ := hb (List.replicate n 0) (by simp)
    exact k1.1 ⟨_, _, he⟩
  · obtain ⟨n, e1, e2⟩ := k2.2 hr
    obtain ⟨r, hr⟩ := emits_same (F := F) hden.typed
    obtain ⟨text, htext⟩ := emits_ok (F' := F) hden [] hp
    have e := hr d.source [] hp
    rw [htext] at e
    refine ⟨n, text, htext, e1, fun buf hb => ?_⟩
    obtain ⟨data, e3, e4⟩ := e2 buf hb
    exact ⟨data, e3, (hr _ [] e4).trans e.symm⟩

/-- Both sides occur: `recJson` is accepted and survives; the document of `C43_refuted` is accepted and does not. -/
example (F : FloatText) : ∃ d l n text, decode (plainEnv true) recTy recJson = .ok d ∧
    Layout.new true recTy = .ok l ∧ encode F recTy d.source = .ok text ∧
    ∀ buf : Bytes, n ≤ buf.length → ∃ data, l.encode true d.source buf = .ok (data, n) ∧
      encode F recTy (l.source true data) = .ok text := by
  obtain ⟨d, h, _⟩ := recJson_decode true
  obtain ⟨l, hl⟩ := (C18_layout_new true recTy (by decide)).2 rec_inhab
  obtain ⟨v, _, _, hv, _⟩ := C43_checked_iff (plainEnv true) rfl recTy rec_inhab (by decide) l hl recJson (by decide) d h F
  obtain ⟨n, text, h1, _, h2⟩ := hv.2 fun m hm => tags_room true _ recTy (Nat.le_refl _) (by decide) rec_inhab
    (AllEnums_imp (fun _ => tagFits_ok) (rec_enums true)) [] l _ hl hm.nested
  exact ⟨d, l, n, text, h, hl, h1, h2⟩

example (chk : Bool) : ∃ d l n text, decode (plainEnv chk) recTy recJson = .ok d ∧ Layout.new chk recTy = .ok l ∧
    encode noFloats recTy d.source = .ok text ∧ ∀ buf : Bytes, n ≤ buf.length →
      ∃ data, l.encode chk d.source buf = .ok (data, n) ∧ encode noFloats recTy (l.source chk data) = .ok text := by
  obtain ⟨d, h, _⟩ := recJson_decode chk
  obtain ⟨l, hl⟩ := (C18_layout_new chk recTy (by decide)).2 rec_inhab
  obtain ⟨n, text, h1, _, h2⟩ := C43_json_binary_json_partial (plainEnv chk) recTy rec_inhab (by decide) l hl
    (fun _ hm => tags_room chk _ recTy (Nat.le_refl _) (by decide) rec_inhab
      (AllEnums_imp (fun _ => tagFits_ok) (rec_enums chk)) [] l _ hl hm)
    (rec_structs (.inl (by decide))) recJson (by decide) d h noFloats
  refine ⟨d, l, n, text, h, hl, h1, fun buf hb => ?_⟩
  obtain ⟨data, h3, h4, _⟩ := h2 buf hb
  exact ⟨data, h3, h4⟩

end Verif.Props
