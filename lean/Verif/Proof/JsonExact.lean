import Verif.Proof.JsonDocument

/-! # When a text written by the encoder is read back as the value -/

namespace Verif

open Spec Json

/-! ## Tokens -/

theorem Spec.Toks.split {u : Char → Bool} {a b : List Json.Tok} : ∀ {s r : Str}, Toks u s (a ++ b) r →
    ∃ m, Toks u s a m ∧ Toks u m b r := by
  induction a with
  | nil => intro s r h; exact ⟨s, .nil, h⟩
  | cons k a ih =>
    intro s r h
    cases h with
    | cons hn h =>
      obtain ⟨m, h1, h2⟩ := ih h
      exact ⟨m, .cons hn h1, h2⟩

theorem Spec.Toks.first {u : Char → Bool} {s r z : Str} {k k' : Json.Tok} {ks : List Json.Tok}
    (h : Toks u s (k :: ks) r) (hn : next u s = .ok (k', z)) : k = k' ∧ Toks u z ks r := by
  cases h with
  | cons h1 h2 =>
    rw [hn] at h1
    cases h1
    exact ⟨rfl, h2⟩

theorem Spec.Toks.done {u : Char → Bool} {s r : Str} (h : Toks u s [] r) : r = s := by
  cases h; rfl

theorem tree_null {u : Char → Bool} {s r z : Str} {tr : Tree} (h : Toks u s tr.toks r)
    (hn : next u s = .ok (.null, z)) : tr = .null ∧ r = z := by
  cases tr with
  | null => rw [Tree.toks] at h; exact ⟨rfl, (h.first hn).2.done⟩
  | bool b => rw [Tree.toks] at h; have := (h.first hn).1; cases b <;> cases this
  | str s => rw [Tree.toks] at h; cases (h.first hn).1
  | num s => rw [Tree.toks] at h; cases (h.first hn).1
  | arr ts => rw [Tree.toks] at h; cases (h.first hn).1
  | obj ms => rw [Tree.toks] at h; cases (h.first hn).1

theorem tree_bool {u : Char → Bool} {s r z : Str} {tr : Tree} {b : Bool} (h : Toks u s tr.toks r)
    (hn : next u s = .ok (if b then .true else .false, z)) : tr = .bool b ∧ r = z := by
  cases tr with
  | null => rw [Tree.toks] at h; have := (h.first hn).1; cases b <;> cases this
  | bool b' =>
    rw [Tree.toks] at h
    have := (h.first hn).1
    cases b <;> cases b' <;> first | exact ⟨rfl, (h.first hn).2.done⟩ | cases this
  | str s => rw [Tree.toks] at h; have := (h.first hn).1; cases b <;> cases this
  | num s => rw [Tree.toks] at h; have := (h.first hn).1; cases b <;> cases this
  | arr ts => rw [Tree.toks] at h; have := (h.first hn).1; cases b <;> cases this
  | obj ms => rw [Tree.toks] at h; have := (h.first hn).1; cases b <;> cases this

theorem tree_str {u : Char → Bool} {s r z x : Str} {tr : Tree} (h : Toks u s tr.toks r)
    (hn : next u s = .ok (.string x, z)) : tr = .str x ∧ r = z := by
  cases tr with
  | null => rw [Tree.toks] at h; cases (h.first hn).1
  | bool b => rw [Tree.toks] at h; have := (h.first hn).1; cases b <;> cases this
  | str s => rw [Tree.toks] at h; obtain ⟨e, h'⟩ := h.first hn; cases e; exact ⟨rfl, h'.done⟩
  | num s => rw [Tree.toks] at h; cases (h.first hn).1
  | arr ts => rw [Tree.toks] at h; cases (h.first hn).1
  | obj ms => rw [Tree.toks] at h; cases (h.first hn).1

theorem tree_num {u : Char → Bool} {s r z x : Str} {tr : Tree} (h : Toks u s tr.toks r)
    (hn : next u s = .ok (.number x, z)) : tr = .num x ∧ r = z := by
  cases tr with
  | null => rw [Tree.toks] at h; cases (h.first hn).1
  | bool b => rw [Tree.toks] at h; have := (h.first hn).1; cases b <;> cases this
  | str s => rw [Tree.toks] at h; cases (h.first hn).1
  | num s => rw [Tree.toks] at h; obtain ⟨e, h'⟩ := h.first hn; cases e; exact ⟨rfl, h'.done⟩
  | arr ts => rw [Tree.toks] at h; cases (h.first hn).1
  | obj ms => rw [Tree.toks] at h; cases (h.first hn).1

theorem tree_arr {u : Char → Bool} {s r z : Str} {tr : Tree} (h : Toks u s tr.toks r)
    (hn : next u s = .ok (.beginArray, z)) :
    ∃ ts, tr = .arr ts ∧ Toks u z (sepToks .comma true (toksL ts) ++ [.endArray]) r := by
  cases tr with
  | null => rw [Tree.toks] at h; cases (h.first hn).1
  | bool b => rw [Tree.toks] at h; have := (h.first hn).1; cases b <;> cases this
  | str s => rw [Tree.toks] at h; cases (h.first hn).1
  | num s => rw [Tree.toks] at h; cases (h.first hn).1
  | arr ts =>
    have e := arr_toks ts []
    rw [List.append_nil] at e
    rw [e] at h
    exact ⟨ts, rfl, (h.first hn).2⟩
  | obj ms => rw [Tree.toks] at h; cases (h.first hn).1

theorem tree_obj {u : Char → Bool} {s r z : Str} {tr : Tree} (h : Toks u s tr.toks r)
    (hn : next u s = .ok (.beginObject, z)) :
    ∃ ms, tr = .obj ms ∧ Toks u z (sepToks .comma true (toksM ms) ++ [.endObject]) r := by
  cases tr with
  | null => rw [Tree.toks] at h; cases (h.first hn).1
  | bool b => rw [Tree.toks] at h; have := (h.first hn).1; cases b <;> cases this
  | str s => rw [Tree.toks] at h; cases (h.first hn).1
  | num s => rw [Tree.toks] at h; cases (h.first hn).1
  | arr ts => rw [Tree.toks] at h; cases (h.first hn).1
  | obj ms =>
    have e := obj_toks ms []
    rw [List.append_nil] at e
    rw [e] at h
    exact ⟨ms, rfl, (h.first hn).2⟩

/-! ## What the text of a value is read as -/

/-- The document read from the text of a value. -/
inductive Shape (F : FloatText) : Ty → Val → Tree → Prop
  | unit : Shape F .unit .unit .null
  | bool (b : Bool) : Shape F (.prim .bool) (.prim ⟨.bool, b⟩) (.bool b)
  | char {c : Char} {s : Str} : ReadAs [c] s → Shape F (.prim .char) (.prim ⟨.char, c⟩) (.str s)
  | num {v : PrimVal} : v.kind ≠ .bool → v.kind ≠ .char → NumberText (display F v.kind v.val) →
      Shape F (.prim v.kind) (.prim v) (.num (display F v.kind v.val))
  | str {s s' : Str} : ReadAs s s' → Shape F .string (.str s.utf8) (.str s')
  | tuple {cs : List Ty} {vs : List Val} {ts : List Tree} : ts.length = cs.length → vs.length = cs.length →
      (∀ (i : Nat) (c : Ty) (t : Tree) (v : Val), cs[i]? = some c → ts[i]? = some t → vs[i]? = some v →
        Shape F c v t) → Shape F (.tuple cs) (.seq vs) (.arr ts)
  | struct {fs : List (Str × Ty)} {vs : List Val} {ms : List (Str × Tree)} : ms.length = fs.length →
      vs.length = fs.length →
      (∀ (i : Nat) (f : Str × Ty) (m : Str × Tree), fs[i]? = some f → ms[i]? = some m → ReadAs f.1 m.1) →
      (∀ (i : Nat) (f : Str × Ty) (m : Str × Tree) (v : Val), fs[i]? = some f → ms[i]? = some m →
        vs[i]? = some v → Shape F f.2 v m.2) → Shape F (.struct fs) (.seq vs) (.obj ms)
  | enum {cs : List (Str × Ty)} {i : Nat} {c : Str × Ty} {v : Val} {l : Str} {t : Tree} : cs[i]? = some c →
      ReadAs c.1 l → Shape F c.2 v t →
      Shape F (.enum cs) (.case i v) (.obj [("kind".toList, .str l), ("value".toList, t)])

/-- What follows is not part of a literal or number. -/
def Ended (rest : Bytes) : Prop := ∀ z : Str, z.utf8 = rest → Rest z

theorem ended_nil : Ended [] := by
  intro z hz
  cases z with
  | nil => exact .nil
  | cons c z =>
    rw [utf8_cons] at hz
    exact absurd (List.append_eq_nil_iff.1 hz).1 (utf8_ne_nil c)

theorem ended_char {c : Char} (hc : c = ',' ∨ c = ']' ∨ c = '}') (rest : Bytes) :
    Ended (Str.utf8 [c] ++ rest) := by
  intro z hz
  obtain ⟨z', rfl, _⟩ := utf8_cancel _ _ _ hz
  refine .cons ?_
  rcases hc with rfl | rfl | rfl <;> simp

/-- The first token of the text. -/
theorem next_spelled {u : Char → Bool} {k : Json.Tok} {p text : Str} {rest : Bytes} (hk : Spelling k p)
    (h : text.utf8 = p.utf8 ++ rest) (hr : Ended rest) : ∃ z, next u text = .ok (k, z) ∧ z.utf8 = rest := by
  obtain ⟨z, rfl, hz⟩ := utf8_cancel _ _ _ h
  exact ⟨z, next_append (ws := []) (fun n h => by omega) (by intro c hc; cases hc) hk (ends_stops (hr z hz).ends), hz⟩

/-- A token that ends by itself. -/
theorem next_mark {u : Char → Bool} {k : Json.Tok} {p text : Str} {rest : Bytes} (hk : Spelling k p)
    (he : ∀ z, Ends k z) (h : text.utf8 = p.utf8 ++ rest) : ∃ z, next u text = .ok (k, z) ∧ z.utf8 = rest := by
  obtain ⟨z, rfl, hz⟩ := utf8_cancel _ _ _ h
  exact ⟨z, next_append (ws := []) (fun n h => by omega) (by intro c hc; cases hc) hk (ends_stops (he z)), hz⟩

/-- Numbers. -/
theorem display_cases {F : FloatText} (hF : OrdinaryFloats F) : ∀ {v : PrimVal}, v.kind ≠ .bool → v.kind ≠ .char →
    NumberText (display F v.kind v.val) ∨ display F v.kind v.val ∈ ["inf".toList, "-inf".toList, "NaN".toList]
  | ⟨.bool, _⟩, h, _ => absurd rfl h
  | ⟨.char, _⟩, _, h => absurd rfl h
  | ⟨.u8, _⟩, _, _ => .inl (decDigits_number _)
  | ⟨.u16, _⟩, _, _ => .inl (decDigits_number _)
  | ⟨.u32, _⟩, _, _ => .inl (decDigits_number _)
  | ⟨.u64, _⟩, _, _ => .inl (decDigits_number _)
  | ⟨.u128, _⟩, _, _ => .inl (decDigits_number _)
  | ⟨.i8, _⟩, _, _ => .inl (decInt_number _)
  | ⟨.i16, _⟩, _, _ => .inl (decInt_number _)
  | ⟨.i32, _⟩, _, _ => .inl (decInt_number _)
  | ⟨.i64, _⟩, _, _ => .inl (decInt_number _)
  | ⟨.i128, _⟩, _, _ => .inl (decInt_number _)
  | ⟨.f32, v⟩, _, _ => hF.1 v
  | ⟨.f64, v⟩, _, _ => hF.2 v

theorem next_special {u : Char → Bool} {s text z : Str} {rest : Bytes} {k : Json.Tok}
    (hs : s ∈ ["inf".toList, "-inf".toList, "NaN".toList]) (h : text.utf8 = s.utf8 ++ rest)
    (hn : next u text = .ok (k, z)) : False := by
  obtain ⟨z, rfl, _⟩ := utf8_cancel _ _ _ h
  simp only [List.mem_cons, List.not_mem_nil, or_false] at hs
  rcases hs with rfl | rfl | rfl <;> cases hn

/-- What is written for a primitive value, and the token read from it. -/
theorem prim_written {F : FloatText} (hF : OrdinaryFloats F) {u : Char → Bool} {v : PrimVal} {src : DataSource}
    {p : Path} {bs rest : Bytes} {text : Str} (hs : Presents src (.prim v) p)
    (he : emitterFor F p (.prim v.kind) src = .ok bs) (ht : text.utf8 = bs ++ rest) (hr : Ended rest)
    {k : Json.Tok} {z : Str} (hn : next u text = .ok (k, z)) :
    z.utf8 = rest ∧ closing k = false ∧
      ∀ (tr : Tree) r, Toks u text tr.toks r → r = z ∧ Shape F (.prim v.kind) (.prim v) tr := by
  have hp : src.prim v.kind p = .ok v.val := hs p (.prim v) (by rw [leaves]; exact .head _)
  by_cases hb : v.kind = .bool
  · rcases v with ⟨vk, b⟩
    simp only at hb
    subst hb
    revert b
    intro (b : Bool) hs he hp
    simp only at hp he
    rw [emitterFor, emitPrim] at he
    · simp only [hp] at he
      have he := Except.ok.inj he
      subst he
      have : ∃ z, next u text = .ok (if b then .true else .false, z) ∧ z.utf8 = rest := by
        cases b
        · exact next_spelled .false ht hr
        · exact next_spelled .true ht hr
      obtain ⟨z', h1, h2⟩ := this
      rw [h1] at hn
      cases hn
      refine ⟨h2, by cases b <;> rfl, ?_⟩
      intro tr r h
      obtain ⟨rfl, rfl⟩ := tree_bool h h1
      exact ⟨rfl, .bool b⟩
    · exact fun h => nomatch h
  by_cases hc : v.kind = .char
  · rcases v with ⟨vk, c⟩
    simp only at hc
    subst hc
    simp only at hp he
    rw [emitterFor, emitPrim] at he
    simp only [hp, Res.bind_ok] at he
    have he := Except.ok.inj (he.symm.trans (emitString_single c))
    subst he
    obtain ⟨h1, s', rfl, h2⟩ := next_written ht hn
    refine ⟨h1, rfl, ?_⟩
    intro tr r h
    obtain ⟨rfl, rfl⟩ := tree_str h hn
    exact ⟨rfl, .char h2⟩
  rw [emitterFor, emitPrim] at he
  · simp only [hp, Res.bind_ok] at he
    have he := Except.ok.inj he
    subst he
    rcases display_cases hF hb hc with h | h
    · obtain ⟨z', h1, h2⟩ := next_spelled (u := u) (.number h) ht hr
      rw [h1] at hn
      cases hn
      refine ⟨h2, rfl, ?_⟩
      intro tr r ht
      obtain ⟨rfl, rfl⟩ := tree_num ht h1
      exact ⟨rfl, .num hb hc h⟩
    · exact absurd hn fun hn => next_special h ht hn
  · exact hc

/-- The text of a value does not begin with a closing token. -/
theorem first_open {F : FloatText} (hF : OrdinaryFloats F) {u : Char → Bool} {t : Ty} {v : Val} (hv : Typed t v)
    {src : DataSource} {p : Path} {bs rest : Bytes} {text : Str} (hs : Presents src v p)
    (he : emitterFor F p t src = .ok bs) (ht : text.utf8 = bs ++ rest) (hr : Ended rest)
    {k : Json.Tok} {z : Str} (hn : next u text = .ok (k, z)) : closing k = false := by
  cases hv with
  | unit =>
    have he := Except.ok.inj he
    subst he
    obtain ⟨z', h1, _⟩ := next_spelled (u := u) .null ht hr
    rw [h1] at hn
    cases hn
    rfl
  | prim v => exact (prim_written hF hs he ht hr hn).2.1
  | str b =>
    rw [emitterFor, emitStr, Res.bind_eq_ok] at he
    obtain ⟨_, _, he⟩ := he
    split at he
    · have he := Except.ok.inj he
      subst he
      obtain ⟨_, _, rfl, _⟩ := next_written ht hn
      rfl
    · cases he
  | tuple =>
    rw [emitterFor, emitTuple, Res.bind_eq_ok] at he
    obtain ⟨_, _, he⟩ := he
    have he := Except.ok.inj he
    subst he
    rw [List.append_assoc, List.append_assoc] at ht
    obtain ⟨z', h1, _⟩ := next_mark (u := u) .beginArray (fun _ => trivial) ht
    rw [h1] at hn
    cases hn
    rfl
  | struct =>
    rw [emitterFor, emitStruct, Res.bind_eq_ok] at he
    obtain ⟨_, _, he⟩ := he
    have he := Except.ok.inj he
    subst he
    rw [List.append_assoc, List.append_assoc] at ht
    obtain ⟨z', h1, _⟩ := next_mark (u := u) .beginObject (fun _ => trivial) ht
    rw [h1] at hn
    cases hn
    rfl
  | enum =>
    rw [emitterFor, emitEnum, Res.bind_eq_ok] at he
    obtain ⟨_, _, he⟩ := he
    split at he
    · rw [Res.bind_eq_ok] at he
      obtain ⟨_, _, he⟩ := he
      have he := Except.ok.inj he
      subst he
      simp only [List.append_assoc] at ht
      rw [utf8_cons, ← utf8_single, List.append_assoc] at ht
      obtain ⟨z', h1, _⟩ := next_mark (u := u) .beginObject (fun _ => trivial) ht
      rw [h1] at hn
      cases hn
      rfl
    · cases he

/-- The text of a value is read as a document of its shape, up to the end of the text. -/
def Walks (F : FloatText) (u : Char → Bool) (t : Ty) (v : Val) : Prop :=
  ∀ ⦃src : DataSource⦄ ⦃p : Path⦄ ⦃bs rest : Bytes⦄ ⦃text r : Str⦄ ⦃tr : Tree⦄, Presents src v p →
    emitterFor F p t src = .ok bs → text.utf8 = bs ++ rest → Ended rest → Toks u text tr.toks r →
    Shape F t v tr ∧ r.utf8 = rest

theorem emitAll_comma {es : List Emitter} {src : DataSource} {bs : Bytes} (h : emitAll es false src = .ok bs) :
    bs = [] ∨ ∃ x, bs = Str.utf8 [','] ++ x := by
  cases es with
  | nil => exact .inl (Except.ok.inj h).symm
  | cons e es =>
    rw [emitAll, Res.bind_eq_ok] at h
    obtain ⟨b, _, h⟩ := h
    rw [Res.bind_eq_ok] at h
    obtain ⟨bs', _, h⟩ := h
    have h := Except.ok.inj h
    subst h
    exact .inr ⟨b ++ bs', by rw [utf8_comma, List.append_assoc]; rfl⟩

theorem emitFields_comma {es : List (Str × Emitter)} {src : DataSource} {bs : Bytes}
    (h : emitFields es false src = .ok bs) : bs = [] ∨ ∃ x, bs = Str.utf8 [','] ++ x := by
  cases es with
  | nil => exact .inl (Except.ok.inj h).symm
  | cons e es =>
    rw [emitFields, Res.bind_eq_ok] at h
    obtain ⟨b, _, h⟩ := h
    rw [Res.bind_eq_ok] at h
    obtain ⟨bs', _, h⟩ := h
    have h := Except.ok.inj h
    subst h
    refine .inr ⟨emitString e.1 ++ (Str.utf8 [':'] ++ (b ++ bs')), ?_⟩
    rw [utf8_comma]
    simp only [List.append_assoc, cond_false]

theorem ended_comma {bs rest : Bytes} {c : Char} (hc : c = ',' ∨ c = ']' ∨ c = '}')
    (h : bs = [] ∨ ∃ x, bs = Str.utf8 [','] ++ x) : Ended (bs ++ (Str.utf8 [c] ++ rest)) := by
  rcases h with rfl | ⟨x, rfl⟩
  · exact ended_char hc rest
  · rw [List.append_assoc]; exact ended_char (.inl rfl) _

theorem emitAll_walks {F : FloatText} (hF : OrdinaryFloats F) {u : Char → Bool} {src : DataSource} {p : Path} :
    ∀ (cs : List Ty) (vs : List Val), vs.length = cs.length →
    (∀ (i : Nat) (c : Ty) (v : Val), cs[i]? = some c → vs[i]? = some v → Typed c v ∧ Walks F u c v) →
    ∀ (k : Nat) (first : Bool) (bs rest : Bytes) (text r : Str) (ts : List Tree),
    (∀ q l, (q, l) ∈ leavesFrom vs p k → Answers src q l) →
    emitAll (emittersL F p cs k) first src = .ok bs → text.utf8 = bs ++ (Str.utf8 [']'] ++ rest) →
    Toks u text (sepToks .comma first (toksL ts) ++ [.endArray]) r →
    ts.length = cs.length ∧ r.utf8 = rest ∧
      ∀ (i : Nat) (c : Ty) (t : Tree) (v : Val), cs[i]? = some c → ts[i]? = some t → vs[i]? = some v →
        Shape F c v t
  | [], vs, hl, _, k, first, bs, rest, text, r, ts, _, he, ht, hk => by
    have he := Except.ok.inj he
    subst he
    obtain ⟨z, h1, h2⟩ := next_mark (u := u) .endArray (fun _ => trivial) ht
    cases ts with
    | nil =>
      have hk : Toks u text [.endArray] r := by cases first <;> exact hk
      refine ⟨rfl, ?_, by simp⟩
      rw [(hk.first h1).2.done, h2]
    | cons t ts =>
      exfalso
      rw [toksL, sepToks_cons] at hk
      cases first with
      | false => cases (hk.first h1).1
      | true =>
        obtain ⟨k', ks, e, hc⟩ := toks_start t
        rw [e] at hk
        have := (Toks.first (k := k') (by simpa using hk) h1).1
        subst this
        cases hc
  | c :: cs, [], hl, _, _, _, _, _, _, _, _, _, _, _, _ => by simp at hl
  | c :: cs, v :: vs, hl, hw, k, first, bs, rest, text, r, ts, hs, he, ht, hk => by
    rw [emittersL, emitAll, Res.bind_eq_ok] at he
    obtain ⟨b, e1, he⟩ := he
    rw [Res.bind_eq_ok] at he
    obtain ⟨bs', e2, he⟩ := he
    have he := Except.ok.inj he
    subst he
    obtain ⟨hty, hwalk⟩ := hw 0 c v rfl rfl
    have hp : Presents src v (p ++ [k]) := presents_seq (i := 0) hs rfl
    have hend : Ended (bs' ++ (Str.utf8 [']'] ++ rest)) := ended_comma (by simp) (emitAll_comma e2)
    rw [utf8_comma] at ht
    simp only [List.append_assoc] at ht
    obtain ⟨t, ts', z, rfl, hz, hk⟩ : ∃ t ts' z, ts = t :: ts' ∧
        Str.utf8 z = b ++ (bs' ++ (Str.utf8 [']'] ++ rest)) ∧
        Toks u z (t.toks ++ (sepToks .comma false (toksL ts') ++ [.endArray])) r := by
      cases first with
      | false =>
        obtain ⟨z, h1, h2⟩ := next_mark (u := u) .comma (fun _ => trivial) ht
        cases ts with
        | nil => cases (Toks.first (k := .endArray) hk h1).1
        | cons t ts =>
          rw [toksL, sepToks_cons] at hk
          refine ⟨t, ts, z, rfl, h2, ?_⟩
          have := (Toks.first (k := .comma) hk h1).2
          simpa using this
      | true =>
        have ht : text.utf8 = b ++ (bs' ++ (Str.utf8 [']'] ++ rest)) := ht
        cases ts with
        | nil =>
          exfalso
          cases hk with
          | cons hn _ => cases first_open hF hty hp e1 ht hend hn
        | cons t ts =>
          rw [toksL, sepToks_cons] at hk
          exact ⟨t, ts, text, rfl, ht, by simpa using hk⟩
    obtain ⟨m, k1, k2⟩ := hk.split
    obtain ⟨s1, hm⟩ := hwalk hp e1 hz hend k1
    obtain ⟨l2, r2, s2⟩ := emitAll_walks hF cs vs (by simpa using hl)
      (fun i c v hc hv => hw (i + 1) c v (by simpa using hc) (by simpa using hv)) (k + 1) false bs' rest m r ts'
      (fun q l hm => hs q l (by rw [leavesFrom]; exact List.mem_append.2 (.inr hm))) e2 hm k2
    refine ⟨by simp [l2], r2, ?_⟩
    intro i c' t' v' hc ht hv
    cases i with
    | zero => simp at hc ht hv; subst hc ht hv; exact s1
    | succ i => exact s2 i c' t' v' (by simpa using hc) (by simpa using ht) (by simpa using hv)

theorem emitFields_walks {F : FloatText} {u : Char → Bool} {src : DataSource} {p : Path} :
    ∀ (fs : List (Str × Ty)) (vs : List Val), vs.length = fs.length →
    (∀ (i : Nat) (f : Str × Ty) (v : Val), fs[i]? = some f → vs[i]? = some v → Walks F u f.2 v) →
    ∀ (k : Nat) (first : Bool) (bs rest : Bytes) (text r : Str) (ms : List (Str × Tree)),
    (∀ q l, (q, l) ∈ leavesFrom vs p k → Answers src q l) →
    emitFields (emittersF F p fs k) first src = .ok bs → text.utf8 = bs ++ (Str.utf8 ['}'] ++ rest) →
    Toks u text (sepToks .comma first (toksM ms) ++ [.endObject]) r →
    ms.length = fs.length ∧ r.utf8 = rest ∧
      ∀ (i : Nat) (f : Str × Ty) (m : Str × Tree) (v : Val), fs[i]? = some f → ms[i]? = some m →
        vs[i]? = some v → ReadAs f.1 m.1 ∧ Shape F f.2 v m.2
  | [], vs, hl, _, k, first, bs, rest, text, r, ms, _, he, ht, hk => by
    have he := Except.ok.inj he
    subst he
    obtain ⟨z, h1, h2⟩ := next_mark (u := u) .endObject (fun _ => trivial) ht
    cases ms with
    | nil =>
      have hk : Toks u text [.endObject] r := by cases first <;> exact hk
      refine ⟨rfl, ?_, by simp⟩
      rw [(hk.first h1).2.done, h2]
    | cons m ms =>
      exfalso
      rw [toksM, sepToks_cons] at hk
      cases first with
      | false => cases (hk.first h1).1
      | true =>
        rw [memberToks] at hk
        cases (Toks.first (k := .string m.1) hk h1).1
  | f :: fs, [], hl, _, _, _, _, _, _, _, _, _, _, _, _ => by simp at hl
  | f :: fs, v :: vs, hl, hw, k, first, bs, rest, text, r, ms, hs, he, ht, hk => by
    rw [emittersF, emitterP, emitFields, Res.bind_eq_ok] at he
    obtain ⟨b, e1, he⟩ := he
    rw [Res.bind_eq_ok] at he
    obtain ⟨bs', e2, he⟩ := he
    have he := Except.ok.inj he
    subst he
    have hwalk := hw 0 f v rfl rfl
    have hp : Presents src v (p ++ [k]) := presents_seq (i := 0) hs rfl
    have hend : Ended (bs' ++ (Str.utf8 ['}'] ++ rest)) := ended_comma (by simp) (emitFields_comma e2)
    rw [utf8_comma] at ht
    simp only [List.append_assoc] at ht
    obtain ⟨m, ms', z, rfl, hz, hk⟩ : ∃ m ms' z, ms = m :: ms' ∧
        Str.utf8 z = emitString f.1 ++ (Str.utf8 [':'] ++ (b ++ (bs' ++ (Str.utf8 ['}'] ++ rest)))) ∧
        Toks u z (.string m.1 :: .colon :: (m.2.toks ++ (sepToks .comma false (toksM ms') ++ [.endObject]))) r := by
      cases first with
      | false =>
        obtain ⟨z, h1, h2⟩ := next_mark (u := u) .comma (fun _ => trivial) ht
        cases ms with
        | nil => cases (Toks.first (k := .endObject) hk h1).1
        | cons m ms =>
          rw [toksM, sepToks_cons, memberToks] at hk
          refine ⟨m, ms, z, rfl, h2, ?_⟩
          have := (Toks.first (k := .comma) hk h1).2
          simpa using this
      | true =>
        refine (fun ht : text.utf8 = emitString f.1 ++ (Str.utf8 [':'] ++ (b ++ (bs' ++ (Str.utf8 ['}'] ++ rest)))) =>
          ?_) ht
        cases ms with
        | nil =>
          exfalso
          cases hk with
          | cons hn _ =>
            obtain ⟨_, _, e, _⟩ := next_written ht hn
            cases e
        | cons m ms =>
          rw [toksM, sepToks_cons, memberToks] at hk
          exact ⟨m, ms, text, rfl, ht, by simpa using hk⟩
    cases hk with
    | cons hn hk =>
      obtain ⟨hz1, l', e, hl1⟩ := next_written hz hn
      cases e
      obtain ⟨z2, h1, hz2⟩ := next_mark (u := u) .colon (fun _ => trivial) hz1
      obtain ⟨m', k1, k2⟩ := (hk.first h1).2.split
      obtain ⟨s1, hm⟩ := hwalk hp e1 hz2 hend k1
      obtain ⟨l2, r2, s2⟩ := emitFields_walks fs vs (by simpa using hl)
        (fun i c v hc hv => hw (i + 1) c v (by simpa using hc) (by simpa using hv)) (k + 1) false bs' rest m' r ms'
        (fun q l hm => hs q l (by rw [leavesFrom]; exact List.mem_append.2 (.inr hm))) e2 hm k2
      refine ⟨by simp [l2], r2, ?_⟩
      intro i c' t' v' hc ht hv
      cases i with
      | zero => simp at hc ht hv; subst hc ht hv; exact ⟨hl1, s1⟩
      | succ i => exact s2 i c' t' v' (by simpa using hc) (by simpa using ht) (by simpa using hv)

theorem walks {F : FloatText} (hF : OrdinaryFloats F) {u : Char → Bool} {t : Ty} {v : Val} (hv : Typed t v) :
    Walks F u t v := by
  induction hv with
  | unit =>
    intro src p bs rest text r tr hs he ht hr hk
    have he := Except.ok.inj he
    subst he
    obtain ⟨z', h1, h2⟩ := next_spelled (u := u) .null ht hr
    obtain ⟨rfl, rfl⟩ := tree_null hk h1
    exact ⟨.unit, h2⟩
  | prim v =>
    intro src p bs rest text r tr hs he ht hr hk
    obtain ⟨k, ks, e, _⟩ := toks_start tr
    have hk' := hk
    rw [e] at hk'
    cases hk' with
    | cons hn _ =>
      obtain ⟨h1, _, h2⟩ := prim_written hF hs he ht hr hn
      obtain ⟨rfl, h3⟩ := h2 tr r hk
      exact ⟨h3, h1⟩
  | str b =>
    intro src p bs rest text r tr hs he ht hr hk
    have hp : src.bytes p = .ok b := (hs p (.str b) (by rw [leaves]; exact .head _)).2
    rw [emitterFor, emitStr, hp, Res.bind_ok] at he
    cases hb : fromUtf8 b with
    | none => rw [hb] at he; cases he
    | some s =>
      rw [hb] at he
      have he := Except.ok.inj he
      subst he
      have := (fromUtf8_iff _ _).1 hb
      subst this
      obtain ⟨k, ks, e, _⟩ := toks_start tr
      have hk' := hk
      rw [e] at hk'
      cases hk' with
      | cons hn _ =>
        obtain ⟨h1, s', rfl, h2⟩ := next_written ht hn
        obtain ⟨rfl, rfl⟩ := tree_str hk hn
        exact ⟨.str h2, h1⟩
  | @tuple cs vs hl hty ih =>
    intro src p bs rest text r tr hs he ht hr hk
    rw [emitterFor, emitTuple, Res.bind_eq_ok] at he
    obtain ⟨bs', e1, he⟩ := he
    have he := Except.ok.inj he
    subst he
    rw [List.append_assoc, List.append_assoc] at ht
    obtain ⟨z, h1, h2⟩ := next_mark (u := u) .beginArray (fun _ => trivial) ht
    obtain ⟨ts, rfl, hk'⟩ := tree_arr hk h1
    obtain ⟨a, b, c⟩ := emitAll_walks hF cs vs hl (fun i c v hc hv => ⟨hty i c v hc hv, ih i c v hc hv⟩) 0 true
      bs' rest z r ts (fun q l hm => hs q l (by rw [leaves]; exact hm)) e1 h2 hk'
    exact ⟨.tuple a hl c, b⟩
  | @struct fs vs hl hty ih =>
    intro src p bs rest text r tr hs he ht hr hk
    rw [emitterFor, emitStruct, Res.bind_eq_ok] at he
    obtain ⟨bs', e1, he⟩ := he
    have he := Except.ok.inj he
    subst he
    rw [List.append_assoc, List.append_assoc] at ht
    obtain ⟨z, h1, h2⟩ := next_mark (u := u) .beginObject (fun _ => trivial) ht
    obtain ⟨ms, rfl, hk'⟩ := tree_obj hk h1
    obtain ⟨a, b, c⟩ := emitFields_walks fs vs hl ih 0 true bs' rest z r ms
      (fun q l hm => hs q l (by rw [leaves]; exact hm)) e1 h2 hk'
    refine ⟨.struct a hl ?_ fun i f m v hf hm hv => (c i f m v hf hm hv).2, b⟩
    intro i f m hf hm
    have hi : i < vs.length := by rw [hl]; exact (List.getElem?_eq_some_iff.1 hf).1
    exact (c i f m _ hf hm (List.getElem?_eq_getElem hi)).1
  | @enum cs i c v hc hty ih =>
    intro src p bs rest text r tr hs he ht hr hk
    obtain ⟨h1, h2⟩ := presents_case hs
    have hg : (emittersF F p cs 0)[i]? = some (c.1, emitterFor F (p ++ [i]) c.2) := by
      rw [emittersF_get, hc]; simp
    rw [emitterFor, emitEnum, h1, Res.bind_ok] at he
    simp only [hg] at he
    rw [Res.bind_eq_ok] at he
    obtain ⟨b, e1, he⟩ := he
    have he := Except.ok.inj he
    subst he
    have hwk : ∀ c ∈ "kind".toList, Writable c := by unfold Writable; decide
    have hwv : ∀ c ∈ "value".toList, Writable c := by unfold Writable; decide
    have a1 : ['{', '"', 'k', 'i', 'n', 'd', '"', ':'] = ['{'] ++ (strText "kind".toList ++ [':']) := by decide
    have a2 : [',', '"', 'v', 'a', 'l', 'u', 'e', '"', ':'] = [','] ++ (strText "value".toList ++ [':']) := by
      decide
    rw [a1, a2] at ht
    simp only [utf8_append, List.append_assoc] at ht
    obtain ⟨z1, n1, t1⟩ := next_mark (u := u) .beginObject (fun _ => trivial) ht
    obtain ⟨ms, rfl, q1⟩ := tree_obj hk n1
    obtain ⟨z2, n2, t2⟩ := next_mark (u := u) (strText_spelling hwk) (fun _ => trivial) t1
    obtain ⟨z3, n3, t3⟩ := next_mark (u := u) .colon (fun _ => trivial) t2
    cases ms with
    | nil => cases (Toks.first (k := .endObject) q1 n2).1
    | cons m ms =>
    obtain ⟨l1, tr1⟩ := m
    rw [toksM, sepToks_cons, memberToks] at q1
    simp only [cond_true, List.nil_append, List.cons_append] at q1
    obtain ⟨e, q2⟩ := Toks.first (k := .string l1) q1 n2
    cases e
    obtain ⟨_, q3⟩ := Toks.first (k := .colon) q2 n3
    rw [List.append_assoc] at q3
    obtain ⟨z4, k4, q4⟩ := Toks.split q3
    obtain ⟨k, ks, e, _⟩ := toks_start tr1
    have k4' := k4
    rw [e] at k4'
    cases k4' with
    | cons hn _ =>
    obtain ⟨t4, l', rfl, hl'⟩ := next_written t3 hn
    obtain ⟨rfl, rfl⟩ := tree_str k4 hn
    obtain ⟨z5, n5, t5⟩ := next_mark (u := u) .comma (fun _ => trivial) t4
    obtain ⟨z6, n6, t6⟩ := next_mark (u := u) (strText_spelling hwv) (fun _ => trivial) t5
    obtain ⟨z7, n7, t7⟩ := next_mark (u := u) .colon (fun _ => trivial) t6
    cases ms with
    | nil => cases (Toks.first (k := .endObject) q4 n5).1
    | cons m ms =>
    obtain ⟨l2, tr2⟩ := m
    rw [toksM, sepToks_cons, memberToks] at q4
    simp only [cond_false, List.nil_append, List.cons_append] at q4
    obtain ⟨_, q5⟩ := Toks.first (k := .comma) q4 n5
    obtain ⟨e, q6⟩ := Toks.first (k := .string l2) q5 n6
    cases e
    obtain ⟨_, q7⟩ := Toks.first (k := .colon) q6 n7
    rw [List.append_assoc] at q7
    obtain ⟨z8, k8, q8⟩ := Toks.split q7
    obtain ⟨s8, t8⟩ := ih h2 e1 t7 (ended_char (by simp) _) k8
    obtain ⟨z9, n9, t9⟩ := next_mark (u := u) .endObject (fun _ => trivial) t8
    cases ms with
    | nil =>
      have := (Toks.first (k := .endObject) q8 n9).2.done
      subst this
      exact ⟨.enum hc hl' s8, t9⟩
    | cons m ms =>
      rw [toksM, sepToks_cons] at q8
      cases (Toks.first (k := .comma) q8 n9).1

/-! ## When the tokenizer panics -/

theorem Parse.bind_eq_fault {α β : Type} {m : Parse α} {f : α → Parse β} {e : Fault} :
    (m >>= f) = .error (.fault e) ↔ m = .error (.fault e) ∨ ∃ a, m = .ok a ∧ f a = .error (.fault e) := by
  cases m with
  | ok a => simp
  | error x => simp

theorem hexText4_lt {hs : Str} {n : Nat} (hl : hs.length = 4) (h : HexText hs 0 n) : n < 65536 := by
  have := hexText_lt h
  rw [hl] at this
  simpa using this

theorem surrogate_iff {n : Nat} (h : n < 65536) : ¬ n.isValidChar ↔ 0xd800 ≤ n ∧ n ≤ 0xdfff := by
  unfold Nat.isValidChar
  omega

theorem stringControlChar_fault {s : Str} {f : Fault} (h : stringControlChar s = .error (.fault f)) :
    f = .panic ∧ ∃ hs z n, s = 'u' :: (hs ++ z) ∧ hs.length = 4 ∧ HexText hs 0 n ∧ 0xd800 ≤ n ∧ n ≤ 0xdfff := by
  cases s with
  | nil => cases h
  | cons e s =>
    simp only [stringControlChar] at h
    by_cases h9 : e = 'u'
    · subst h9
      simp only [Char.reduceEq, if_false, if_true] at h
      rw [Parse.bind_eq_fault] at h
      rcases h with h | ⟨⟨code, r⟩, h1, h⟩
      · exact absurd h (hexLoop_safe _ _ _ _)
      · simp only at h
        rw [Parse.bind_eq_fault] at h
        rcases h with h | ⟨ch, _, h⟩
        · obtain ⟨hs, e1, e2, e3, _⟩ := hexLoop_ok _ _ _ _ _ h1
          unfold fromU32 at h
          split at h
          · cases h
          · next hv =>
            cases h
            have hl : hs.length = 4 := by
              apply Classical.byContradiction
              intro hl
              have h3 := hexText_lt e3
              have h4 : 16 ^ hs.length ≤ 16 ^ 3 := Nat.pow_le_pow_right (by omega) (by omega)
              exact hv (.inl (by omega))
            exact ⟨rfl, hs, r, code, by rw [e1], hl, e3, (surrogate_iff (hexText4_lt hl e3)).1 hv⟩
        · cases h
    · exfalso
      repeat' split at h
      all_goals first | cases h | contradiction

theorem stringLoop_fault : ∀ (n : Nat) (buf s : Str) (f : Fault), stringLoop n buf s = .error (.fault f) →
    f = .panic ∧ BadString ('"' :: s)
  | 0, buf, s, f, h => by cases s <;> cases h
  | n + 1, buf, [], f, h => by cases h
  | n + 1, buf, c :: s, f, h => by
    rw [stringLoop] at h
    split at h
    · cases h
    · next hq =>
      split at h
      · next hc =>
        subst hc
        rw [Parse.bind_eq_fault] at h
        rcases h with h | ⟨⟨ch, s'⟩, h1, h2⟩
        · obtain ⟨rfl, hs, z, n, rfl, h1, h2, h3⟩ := stringControlChar_fault h
          exact ⟨rfl, [], [], hs, z, n, rfl, .nil, h1, h2, h3⟩
        · obtain ⟨rfl, raw, t, hs', z, m, e1, e2, e3⟩ := stringLoop_fault n _ _ _ h2
          have e1 := (List.cons.inj e1).2
          rcases stringControlChar_ok h1 with ⟨e, h3, h4⟩ | ⟨hs, h3, h4, h5, h6⟩
          · exact ⟨rfl, '\\' :: e :: raw, ch :: t, hs', z, m, by rw [h3, e1]; rfl, .escape h4 e2, e3⟩
          · refine ⟨rfl, '\\' :: 'u' :: (hs ++ raw), ch :: t, hs', z, m, by rw [h3, e1]; simp,
              .code h4 h5 ?_ e2, e3⟩
            intro hl
            obtain ⟨_, h7⟩ := h6 hl
            rw [e1] at h7
            cases raw with
            | nil => exact .nil
            | cons x raw => exact h7
      · next hb =>
        split at h
        · cases h
        · next hctl =>
          obtain ⟨rfl, raw, t, hs', z, m, e1, e2, e3⟩ := stringLoop_fault n _ _ _ h
          have e1 := (List.cons.inj e1).2
          exact ⟨rfl, c :: raw, c :: t, hs', z, m, by rw [e1]; rfl, .plain hq hb (by omega) e2, e3⟩

theorem stringLoop_bad {hs z : Str} {m : Nat} (hl : hs.length = 4) (hh : HexText hs 0 m)
    (hm : 0xd800 ≤ m ∧ m ≤ 0xdfff) {raw t : Str} (h : Body (fun n => n ≤ 4) raw t) :
    ∀ (n : Nat) (buf : Str), raw.length < n →
      stringLoop n buf (raw ++ '\\' :: 'u' :: (hs ++ z)) = .error (.fault .panic) := by
  induction h with
  | nil =>
    intro n buf hn
    cases n with
    | zero => simp at hn
    | succ n =>
      rw [List.nil_append, stringLoop, if_neg (by decide), if_pos rfl]
      have : stringControlChar ('u' :: (hs ++ z)) = .error (.fault .panic) := by
        have h1 := hexLoop_append 4 (r := z) hh (by omega) (fun h => by omega)
        simp only [stringControlChar]
        simp only [Char.reduceEq, if_false, if_true, h1, Parse.bind_ok]
        unfold fromU32
        rw [dif_neg ((surrogate_iff (hexText4_lt hl hh)).2 hm)]
        rfl
      rw [this]
      rfl
  | @plain c raw s h1 h2 h3 _ ih =>
    intro n buf hn
    cases n with
    | zero => simp at hn
    | succ n =>
      rw [List.cons_append, stringLoop, if_neg h1, if_neg h2, if_neg (by omega), ih n _ (by simpa using hn)]
  | @escape e c raw s h1 _ ih =>
    intro n buf hn
    cases n with
    | zero => simp at hn
    | succ n =>
      rw [List.cons_append, List.cons_append, stringLoop, if_neg (by decide), if_pos rfl, escape_ok h1]
      rw [Parse.bind_ok]
      simp only
      exact ih n _ (by simp at hn; omega)
  | @code hs' raw s c h1 h2 h3 _ ih =>
    intro n buf hn
    cases n with
    | zero => simp at hn
    | succ n =>
      generalize hr : raw ++ '\\' :: 'u' :: (hs ++ z) = r at ih
      have hctl : stringControlChar ('u' :: (hs' ++ r)) = .ok (c, r) := by
        have hl := hexLoop_append 4 (r := r) h2 h1 (fun hl => by
          rw [← hr]
          exact ⟨by simp, (h3 hl).append (.cons (hexDigit_none.1 (by decide)))⟩)
        simp only [stringControlChar]
        simp only [Char.reduceEq, if_false, if_true, hl, Parse.bind_ok, fromU32_ok.2 rfl]
      have e : '\\' :: 'u' :: (hs' ++ raw) ++ '\\' :: 'u' :: (hs ++ z) = '\\' :: ('u' :: (hs' ++ r)) := by
        rw [← hr]; simp
      rw [e, stringLoop, if_neg (by decide), if_pos rfl, hctl, Parse.bind_ok]
      simp only
      exact ih n _ (by simp at hn; omega)

theorem isSpace_quote {s : Str} (h : BadString s) : NotStart (fun c => isSpace c = true) s := by
  obtain ⟨raw, t, hs, z, n, rfl, _⟩ := h
  exact .cons (by decide)

/-- The tokenizer panics exactly at strings with an escape sequence for a surrogate. -/
theorem next_fault {u : Char → Bool} {s : Str} {f : Fault} :
    next u s = .error (.fault f) ↔ f = .panic ∧ ∃ ws r, s = ws ++ r ∧ (∀ c ∈ ws, isSpace c = true) ∧ BadString r := by
  constructor
  · intro h
    obtain ⟨ws, e, hw⟩ := skip_split s
    unfold next at h
    generalize hs : skipWhitespace s = r at h e
    cases r with
    | nil => cases h
    | cons c r =>
      by_cases hc : c = '"'
      · subst hc
        have h : matchString r = .error (.fault f) := h
        unfold matchString at h
        rw [Parse.bind_eq_fault] at h
        rcases h with h | ⟨_, _, h⟩
        · obtain ⟨h1, h2⟩ := stringLoop_fault _ _ _ _ h
          exact ⟨h1, ws, _, e, hw, h2⟩
        · cases h
      · exfalso
        have : Safe (nextToken u (c :: r)) := by
          rw [nextToken]
          refine .ite (fun _ => .ok _) fun _ => ?_
          refine .ite (fun _ => .ok _) fun _ => ?_
          refine .ite (fun _ => .ok _) fun _ => ?_
          refine .ite (fun _ => .ok _) fun _ => ?_
          refine .ite (fun _ => .ok _) fun _ => ?_
          refine .ite (fun _ => .ok _) fun _ => ?_
          refine .ite (fun _ => matchKeyword_safe) fun _ => ?_
          refine .ite (fun _ => matchKeyword_safe) fun _ => ?_
          refine .ite (fun _ => matchKeyword_safe) fun _ => ?_
          refine .ite (fun h => absurd h hc) fun _ => ?_
          refine .ite (fun _ => matchNumber_safe _) fun _ => ?_
          exact .ite (fun _ => matchNumber_safe _) fun _ => .fail
        exact this f h
  · rintro ⟨rfl, ws, r, rfl, hw, hr⟩
    unfold next
    rw [skip_append hw (isSpace_quote hr)]
    obtain ⟨raw, t, hs, z, n, rfl, h1, h2, h3, h4⟩ := hr
    show matchString _ = _
    unfold matchString
    rw [stringLoop_bad h2 h3 h4 h1 _ _ (by simp; omega)]
    rfl

/-- The tokenizer does not panic if no string with an escape sequence for a surrogate is reached. -/
theorem smooth_of {u : Char → Bool} {s : Str} (h : ∀ ks r ws z, Toks u s ks r → r = ws ++ z →
    (∀ c ∈ ws, isSpace c = true) → ¬ BadString z) : Smooth u s := by
  intro ks r hr f hf
  obtain ⟨_, ws, z, e, hw, hz⟩ := next_fault.1 hf
  exact h ks r ws z hr e hw hz

theorem toks_suffix {u : Char → Bool} {s r : Str} {ks : List Json.Tok} (h : Toks u s ks r) : ∃ a, s = a ++ r := by
  induction h with
  | nil => exact ⟨[], rfl⟩
  | cons hn _ ih =>
    obtain ⟨a, e⟩ := next_suffix hn
    obtain ⟨b, e'⟩ := ih
    exact ⟨a ++ b, by rw [e, e', List.append_assoc]⟩

theorem noSurrogates_smooth {u : Char → Bool} {s : Str} (h : NoSurrogates s) : Smooth u s := by
  refine smooth_of ?_
  rintro ks r ws z hr rfl _ ⟨raw, t, hs, z', n, rfl, _, h1, h2, h3⟩
  obtain ⟨a, e⟩ := toks_suffix hr
  refine absurd (h (a ++ ws ++ '"' :: raw) hs z' n (by rw [e]; simp) h1 h2) ?_
  exact (surrogate_iff (hexText4_lt h1 h2)).2 h3

/-! ## When the value comes back -/

/-- Two values with the same leaves. -/
def SameLeaves (p : Path) (v w : Val) : Prop := ∀ q l, (q, l) ∈ leaves v p ↔ (q, l) ∈ leaves w p

theorem SameLeaves.symm {p : Path} {v w : Val} (h : SameLeaves p v w) : SameLeaves p w v :=
  fun q l => (h q l).symm

theorem sameLeaves_seq_one {p : Path} {vs ws : List Val} (h : SameLeaves p (.seq vs) (.seq ws))
    {i : Nat} {v w : Val} (hv : vs[i]? = some v) (hw : ws[i]? = some w) {q : Path} {l : Leaf}
    (hm : (q, l) ∈ leaves v (p ++ [i])) : (q, l) ∈ leaves w (p ++ [i]) := by
  have h1 : (q, l) ∈ leavesFrom vs p 0 := (leavesFrom_mem p _ vs 0).2 ⟨i, v, hv, by rwa [Nat.zero_add]⟩
  have h2 : (q, l) ∈ leavesFrom ws p 0 := by
    have := (h q l).1 (by rw [leaves]; exact h1)
    rwa [leaves] at this
  obtain ⟨j, w', hj, h3⟩ := (leavesFrom_mem p _ ws 0).1 h2
  rw [Nat.zero_add] at h3
  have : i = j := prefix_last_unique (leaves_under _ _ _ hm) (leaves_under _ _ _ h3)
  subst this
  rw [hw] at hj
  cases hj
  exact h3

theorem sameLeaves_seq {p : Path} {vs ws : List Val} (h : SameLeaves p (.seq vs) (.seq ws))
    {i : Nat} {v w : Val} (hv : vs[i]? = some v) (hw : ws[i]? = some w) : SameLeaves (p ++ [i]) v w :=
  fun _ _ => ⟨sameLeaves_seq_one h hv hw, sameLeaves_seq_one h.symm hw hv⟩

theorem sameLeaves_case {p : Path} {i j : Nat} {v w : Val} (h : SameLeaves p (.case i v) (.case j w)) :
    i = j ∧ SameLeaves (p ++ [i]) v w := by
  have hij : i = j := by
    have h1 : (p, Leaf.tag i) ∈ leaves (.case i v) p := by rw [leaves]; exact .head _
    have h2 := (h _ _).1 h1
    rw [leaves] at h2
    rcases List.mem_cons.1 h2 with h2 | h2
    · cases h2; rfl
    · have := (leaves_under _ _ _ h2).length_le
      simp at this
      omega
  subst hij
  refine ⟨rfl, ?_⟩
  have key : ∀ {v w : Val}, SameLeaves p (.case i v) (.case i w) → ∀ q l, (q, l) ∈ leaves v (p ++ [i]) →
      (q, l) ∈ leaves w (p ++ [i]) := by
    intro v w h q l hm
    have h2 := (h q l).1 (by rw [leaves]; exact .tail _ hm)
    rw [leaves] at h2
    rcases List.mem_cons.1 h2 with h2 | h2
    · cases h2
      have := (leaves_under _ _ _ hm).length_le
      simp at this
      omega
    · exact h2
  exact fun q l => ⟨key h q l, key h.symm q l⟩

theorem perm_sum : ∀ {a b : List Str}, a.Perm b → (a.map List.length).sum = (b.map List.length).sum :=
  fun h => (h.map _).sum_nat

theorem sum_le_exact : ∀ (a b : List Str), a.length = b.length →
    (∀ (i : Nat) (x y : Str), a[i]? = some x → b[i]? = some y → ReadAs x y) →
    (b.map List.length).sum ≤ (a.map List.length).sum → b = a ∧ ∀ x ∈ a, ∀ c ∈ x, Writable c
  | [], [], _, _, _ => ⟨rfl, by intro x hx; cases hx⟩
  | [], y :: b, h, _, _ => by simp at h
  | x :: a, [], h, _, _ => by simp at h
  | x :: a, y :: b, hl, h, hs => by
    have h0 := h 0 x y rfl rfl
    have hle : ∀ (a b : List Str), a.length = b.length →
        (∀ (i : Nat) (x y : Str), a[i]? = some x → b[i]? = some y → ReadAs x y) →
        (a.map List.length).sum ≤ (b.map List.length).sum := by
      intro a
      induction a with
      | nil => intro b _ _; simp
      | cons x a ih =>
        intro b hl h
        cases b with
        | nil => simp at hl
        | cons y b =>
          have h1 := (h 0 x y rfl rfl).length
          have h2 := ih b (by simpa using hl) (fun i x y hx hy => h (i + 1) x y (by simpa using hx) (by simpa using hy))
          simp only [List.map_cons, List.sum_cons]
          omega
    have hrest := fun (i : Nat) (x' y' : Str) (hx : a[i]? = some x') (hy : b[i]? = some y') =>
      h (i + 1) x' y' (by simpa using hx) (by simpa using hy)
    have h1 := hle a b (by simpa using hl) hrest
    have h2 := h0.length
    simp only [List.map_cons, List.sum_cons] at hs
    obtain ⟨rfl, h3⟩ := sum_le_exact a b (by simpa using hl) hrest (by omega)
    obtain ⟨rfl, h4⟩ := h0.of_length (by omega)
    refine ⟨rfl, ?_⟩
    intro z hz
    rcases List.mem_cons.1 hz with rfl | hz
    · exact h4
    · exact h3 z hz

theorem takes_num {F : FloatText} {lax : Prop} {t : Ty} {tr : Tree} {w : Val} {s : Str} (h : Takes F lax t tr w)
    (e : tr = .num s) : ∃ v, w = .prim v ∧ NumText F s v := by
  cases h with
  | num h1 h2 => cases e; exact ⟨_, rfl, h2⟩
  | _ => cases e

theorem shape_prim {F : FloatText} {v : PrimVal} (hb : v.kind ≠ .bool) (hc : v.kind ≠ .char)
    (hn : NumberText (display F v.kind v.val)) (ht : NumText F (display F v.kind v.val) v) : PrimOk F v := by
  rcases v with ⟨vk, v⟩
  cases vk <;> first | exact trivial | exact absurd rfl hb | exact absurd rfl hc | exact ⟨hn, ht⟩

theorem shape_plain {F : FloatText} {lax : Prop} {t : Ty} {v : Val} {tr : Tree} (h : Shape F t v tr) :
    ∀ {p : Path} {w : Val}, Takes F lax t tr w → SameLeaves p v w → Plain F t v := by
  induction h with
  | unit => intro p w _ _; exact .unit
  | bool b => intro p w _ _; exact .prim (v := ⟨.bool, b⟩) trivial
  | @char c s hr =>
    intro p w ht hs
    have : s.length = 1 := by
      cases ht with
      | char c => rfl
      | @numStr _ _ v' hk hn =>
        rcases v' with ⟨vk, v'⟩
        simp only at hk
        subst hk
        cases hn
    exact .prim (v := ⟨.char, c⟩) ((hr.of_length (by simp [this])).2 c (.head _))
  | @num v hb hc hn =>
    intro p w ht hs
    obtain ⟨v', rfl, hn'⟩ := takes_num ht rfl
    have := (hs p (.prim v)).1 (by rw [leaves]; exact .head _)
    rw [leaves, List.mem_singleton, Prod.mk.injEq] at this
    have := Leaf.prim.inj this.2
    subst this
    exact .prim (shape_prim hb hc hn hn')
  | @str s s' hr =>
    intro p w ht hs
    cases ht with
    | string s'' =>
      have := (hs p (.str s.utf8)).1 (by rw [leaves]; exact .head _)
      rw [leaves, List.mem_singleton, Prod.mk.injEq] at this
      have := utf8_injective (Leaf.str.inj this.2)
      subst this
      exact .str (hr.of_length (Nat.le_refl _)).2
  | tuple hl1 hl2 _ ih =>
    intro p w ht hs
    cases ht with
    | @tuple _ _ ws h1 h2 h3 =>
      refine .tuple hl2 ?_
      intro i c v hc hv
      have hi : i < _ := (List.getElem?_eq_some_iff.1 hc).1
      have ht := List.getElem?_eq_getElem (hl1 ▸ hi)
      have hw := List.getElem?_eq_getElem (h2 ▸ hi)
      exact ih i c _ v hc ht hv (h3 i c _ _ hc ht hw) (sameLeaves_seq hs hv hw)
  | @struct fs vs ms hl1 hl2 hlab _ ih =>
    intro p w ht hs
    cases ht with
    | gap _ h64 => simp at hl1; omega
    | @struct _ _ ws h63 hnd hperm hlw h3 =>
      obtain ⟨he, hw⟩ := sum_le_exact (fs.map (·.1)) (ms.map (·.1)) (by simp [hl1]) (by
        intro i x y hx hy
        rw [List.getElem?_map, Option.map_eq_some_iff] at hx hy
        obtain ⟨f, hf, rfl⟩ := hx
        obtain ⟨m, hm, rfl⟩ := hy
        exact hlab i f m hf hm) (by rw [perm_sum hperm]; exact Nat.le_refl _)
      refine .struct h63 hnd (fun f hf => hw f.1 (List.mem_map_of_mem hf)) hl2 ?_
      intro i f v hf hv
      have hi : i < _ := (List.getElem?_eq_some_iff.1 hf).1
      have hm := List.getElem?_eq_getElem (hl1 ▸ hi)
      have hw := List.getElem?_eq_getElem (hlw ▸ hi)
      have hfm : (ms[i]'(hl1 ▸ hi)).1 = f.1 := by
        have := congrArg (fun l : List Str => l[i]?) he
        simp only [List.getElem?_map, hm, hf, Option.map_some, Option.some.injEq] at this
        exact this
      refine ih i f _ v hf hm hv (h3 i f _ _ hf ?_ hw) (sameLeaves_seq hs hv hw)
      rw [← hfm]
      exact List.mem_of_getElem? hm
  | @enum cs i c v l t hc hr _ ih =>
    intro p w ht hs
    generalize hk : "kind".toList = kk at ht
    generalize hv : "value".toList = vv at ht
    cases ht with
    | @enum _ j l' c' _ w hj hlast ht =>
      obtain ⟨rfl, hs'⟩ := sameLeaves_case hs
      rw [hc] at hj
      cases hj
      exact .enum hc hlast (hr.of_length (Nat.le_refl _)).2 (ih ht hs')

theorem same_of_holds {d : IntermediateDataSource} {v w : Val} (h1 : HoldsExactly d v) (h2 : HoldsExactly d w) :
    SameLeaves [] v w := fun q l => by rw [← h1 q l, ← h2 q l]

/-- If the text written for a value is decoded to the value, then the value is plain. -/
theorem plain_of_round_trip {env : Env} (hF : OrdinaryFloats env.floats) {t : Ty} {v : Val} (hv : Typed t v)
    {src : DataSource} (hs : Presents src v []) {text : Str} {d : IntermediateDataSource}
    (he : encode env.floats t src = .ok text.utf8) (hd : decode env t text = .ok d) (hh : HoldsExactly d v) :
    Plain env.floats t v := by
  obtain ⟨tr, w, k, s, h1, h2, h3⟩ := decode_takes hd
  obtain ⟨r, h4, _⟩ := startsWith_iff.1 h1
  obtain ⟨h5, _⟩ := walks hF hv hs he (rest := []) (by rw [List.append_nil]) ended_nil h4
  exact shape_plain h5 h2 (same_of_holds hh h3)

end Verif
