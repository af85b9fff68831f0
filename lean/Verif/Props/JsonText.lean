import Verif.Proof.JsonSize

/-! # Properties C32, C33, C40–C42: strings, numbers and tokens of JSON texts
(`src/core/json/tokenizer.rs`, `src/core/json/encoder.rs`) -/

namespace Verif.Props

open Verif Spec Json

/-- Floating point text is not used in the samples. -/
def noFloats : FloatText := ⟨fun _ => none, fun _ => none, fun _ => [], fun _ => []⟩

/-- The environment of the samples. -/
def plainEnv (chk : Bool) : Env := ⟨fun _ => false, noFloats, chk⟩

/-! ## C32 -/

/-- C32 is false: NUL is written as `\0`, which the tokenizer rejects. -/
theorem C32_nul_refuted (u : Char → Bool) : ∃ s : Str,
    ¬ ∃ text r, Str.utf8 text = emitString s ∧ next u text = .ok (.string s, r) := by
  refine ⟨[Char.ofNat 0], ?_⟩
  rintro ⟨text, r, h1, h2⟩
  exact (readable_writable h1 h2 _ (.head _)).1 rfl

/-- C32 is false: what is written for U+8000 is not UTF-8. -/
theorem C32_utf8_refuted : ∃ s : Str, ¬ ∃ text, Str.utf8 text = emitString s := by
  refine ⟨[Char.ofNat 0x8000], ?_⟩
  rintro ⟨text, h⟩
  have h1 := (fromUtf8_iff _ _).2 h
  have h2 : fromUtf8 (emitString [Char.ofNat 0x8000]) = none := by decide
  rw [h2] at h1
  cases h1

/-- C32, the part that holds.  Full statement: for every string, what is written is UTF-8 text that is read
back as the string.  Missing: strings with NUL, with a control character whose code has a hexadecimal digit
above 9, or with a character from U+8000 to U+FFFF.  Proved: the round trip succeeds for exactly the other
strings. -/
theorem C32_strings_round_trip_partial (u : Char → Bool) (s : Str) :
    (∃ text, Str.utf8 text = emitString s ∧ next u text = .ok (.string s, [])) ↔ ∀ c ∈ s, Writable c := by
  constructor
  · rintro ⟨text, h1, h2⟩
    exact readable_writable h1 h2
  · intro h
    refine ⟨strText s, (emitString_text h).symm, ?_⟩
    have := next_append (u := u) (ws := []) (r := []) (fun n h => Nat.le_of_eq h) (by simp)
      (strText_spelling h) trivial
    rwa [List.nil_append, List.append_nil] at this

/-- A string with escapes, a control character, and characters of one to four bytes. -/
example : ∃ text, Str.utf8 text = emitString ['"', '\n', Char.ofNat 1, 'é', '☃', '🐠'] ∧
    next (fun _ => false) text = .ok (.string ['"', '\n', Char.ofNat 1, 'é', '☃', '🐠'], []) :=
  (C32_strings_round_trip_partial _ _).2 (by unfold Writable; decide)

/-! ## C33 -/

/-- C33. Every value of an integer type is written as a JSON number that denotes it (zero without a sign); the
tokenizer reads this number, and the decoder yields the value. -/
theorem C33_integers (env : Env) (v : PrimVal) (hb : v.kind ≠ .bool) (hc : v.kind ≠ .char) (h32 : v.kind ≠ .f32)
    (h64 : v.kind ≠ .f64) (src : DataSource) (hs : src.prim v.kind [] = .ok v.val) :
    ∃ text, encode env.floats (.prim v.kind) src = .ok text.utf8 ∧ NumberText text ∧
      NumText env.floats text v ∧ text ≠ ['-', '0'] ∧ next env.alnum text = .ok (.number text, []) ∧
      ∃ d, decode env (.prim v.kind) text = .ok d ∧ HoldsExactly d (.prim v) := by
  have hok : PrimOk env.floats v := by
    rcases v with ⟨k, v⟩
    cases k <;> first | trivial | exact absurd rfl hc | exact absurd rfl h32 | exact absurd rfl h64
  obtain ⟨h1, h2⟩ := display_number hok hb hc
  have hn : next env.alnum (display env.floats v.kind v.val) = .ok (.number (display env.floats v.kind v.val), []) := by
    have := next_append (u := env.alnum) (ws := []) (r := []) (m := fun n => n = 4) (fun n h => Nat.le_of_eq h)
      (by simp) (.number h1) (by intro c hc; cases hc)
    rwa [List.nil_append, List.append_nil] at this
  refine ⟨display env.floats v.kind v.val, ?_, h1, h2, display_zero hc h32 h64, hn, ?_⟩
  · unfold encode
    rw [emitterFor]
    rcases v with ⟨k, v⟩
    simp only at hs hb hc
    cases k <;> first | exact absurd rfl hb | exact absurd rfl hc | (simp only [emitPrim, hs, Res.bind_ok]; rfl)
  · exact takes_decode (tr := .num _) (k := .eof) (s := []) ⟨_, _, hn, .cons rfl .nil⟩ (.num rfl h2)

/-- The smallest 8 bit number. -/
example : encode noFloats (.prim .i8) (IntermediateDataSource.new.addPrimitive [] ⟨.i8, (128 : BitVec 8)⟩).source
    = .ok (Str.utf8 "-128".toList) ∧
    decode (plainEnv true) (.prim .i8) "-128".toList = .ok (IntermediateDataSource.new.addPrimitive [] ⟨.i8, (128 : BitVec 8)⟩) :=
  ⟨rfl, rfl⟩

/-! ## C40 -/

/-- C40 is false: `"\u12"` is accepted. -/
theorem C40_escapes_refuted (u : Char → Bool) : ∃ s r x : Str,
    next u ('"' :: '\\' :: 'u' :: s) = .ok (.string x, r) ∧
    ¬ ∃ hs b n, s = hs ++ b ∧ hs.length = 4 ∧ HexText hs 0 n := by
  refine ⟨"12\"".toList, [], [Char.ofNat 0x12], rfl, ?_⟩
  rintro ⟨hs, b, n, h1, h2, -⟩
  have := congrArg List.length h1
  rw [List.length_append, h2] at this
  have h3 : "12\"".toList.length = 3 := rfl
  omega

/-- C40, the part that holds.  Full statement: in an accepted string, `\u` is followed by four hexadecimal
digits.  Missing: fewer digits are also accepted, if no digit follows them.  Proved: the strings accepted are
exactly those where each backslash starts an escape sequence of one letter or `\u` with at most four digits,
control characters are escaped, and a quotation mark ends the string. -/
theorem C40_escapes_partial (u : Char → Bool) (s x r : Str) :
    next u ('"' :: s) = .ok (.string x, r) ↔ ∃ raw, s = raw ++ '"' :: r ∧ Body (fun n => n ≤ 4) raw x := by
  have e : next u ('"' :: s) = matchString s := rfl
  rw [e]
  constructor
  · intro h
    obtain ⟨raw, t, h1, h2, h3⟩ := matchString_ok h
    cases h1
    exact ⟨raw, h2, h3⟩
  · rintro ⟨raw, rfl, h⟩
    exact matchString_append (fun _ h => h) h r

/-- Accepted: two digits; rejected: an unknown letter. -/
example : Body (fun n => n ≤ 4) "a\\u4eg".toList ['a', 'N', 'g'] ∧
    ¬ ∃ x r, next (fun _ => false) "\"\\x41\"".toList = .ok (.string x, r) := by
  constructor
  · refine .plain (by decide) (by decide) (by decide) (.code (hs := ['4', 'e']) (c := 'N') (by decide) ?_ ?_
      (.plain (by decide) (by decide) (by decide) .nil))
    · exact .cons (d := 4) (.inl ⟨by decide, rfl⟩) (.cons (d := 14) (.inr ⟨by decide, by decide, .inl rfl⟩) .nil)
    · intro _ c hc
      cases hc
      exact hexDigit_none.1 rfl
  · rintro ⟨x, r, h⟩
    cases h

/-! ## C41 -/

/-- C41. Each call to `next` returns an error, or takes at least one character off the front of the input, or
reports the end; the end is reported if and only if only white space is left. -/
theorem C41_progress (u : Char → Bool) (s : Str) :
    (∃ e, next u s = .error e) ∨
    (∃ k a r, next u s = .ok (k, r) ∧ k ≠ .eof ∧ a ≠ [] ∧ s = a ++ r) ∨
    (next u s = .ok (.eof, []) ∧ ∀ c ∈ s, isSpace c = true) := by
  cases h : next u s with
  | error e => exact .inl ⟨e, rfl⟩
  | ok kr =>
    obtain ⟨k, r⟩ := kr
    obtain ⟨ws, hw, ⟨rfl, rfl, rfl⟩ | ⟨p, rfl, hp, hk⟩⟩ := next_ok h
    · exact .inr (.inr ⟨rfl, hw⟩)
    · refine .inr (.inl ⟨k, ws ++ p, r, rfl, ?_, by simp [hp], rfl⟩)
      rintro rfl
      cases hk

/-- C41. Tokenizing ends on every input: after finitely many tokens, not more than there are characters, the
tokenizer reports the end or an error. -/
theorem C41_terminates (u : Char → Bool) (s : Str) : ∃ ks r, Toks u s ks r ∧ ks.length ≤ s.length ∧
    (next u r = .ok (.eof, []) ∨ ∃ e, next u r = .error e) := by
  generalize hn : s.length = n
  induction n using Nat.strongRecOn generalizing s with
  | ind n ih =>
    rcases C41_progress u s with h | ⟨k, a, r, h1, _, h3, rfl⟩ | ⟨h, _⟩
    · exact ⟨[], s, .nil, by simp, .inr h⟩
    · have := List.length_pos_iff.2 h3
      rw [List.length_append] at hn
      obtain ⟨ks, r', k1, k2, k3⟩ := ih r.length (by omega) r rfl
      exact ⟨k :: ks, r', .cons h1 k1, by rw [List.length_cons]; omega, k3⟩
    · exact ⟨[], s, .nil, by simp, .inl h⟩

/-- C41. The loop that reads a string ends within as many rounds as there are characters: allowing more
rounds changes nothing. -/
theorem C41_string_loop (m : Nat) (buf s : Str) (h : s.length + 1 ≤ m) :
    stringLoop m buf s = stringLoop (s.length + 1) buf s :=
  stringLoop_fuel _ _ _ _ (by omega) h

/-- Three tokens, then an error. -/
example : ∃ ks r, Toks (fun _ => false) " [ 12, nul".toList ks r ∧ ks = [.beginArray, .number ['1', '2'], .comma] ∧
    next (fun _ => false) r = .error .err :=
  ⟨_, _, .cons rfl (.cons rfl (.cons rfl .nil)), rfl, rfl⟩

/-! ## C42 -/

/-- C42 is false: `1.` is read as a number. -/
theorem C42_numbers_refuted (u : Char → Bool) : ∃ s : Str, next u s = .ok (.number s, []) ∧ ¬ NumberText s := by
  refine ⟨"1.".toList, rfl, ?_⟩
  rintro ⟨sg, i, f, e, h, h1, h2, h3, h4⟩
  have hl := congrArg List.getLast? h
  have hd : ("1.".toList).getLast? = some '.' := rfl
  rw [hd] at hl
  have key : ∀ {a : Str}, Digits a → '.' ∉ a := fun ha hm => absurd (ha _ hm) (by decide)
  have hm : ∀ {a b : Str}, b ≠ [] → some '.' = (a ++ b).getLast? → '.' ∈ b := by
    intro a b hb hg
    rw [List.getLast?_append] at hg
    cases hb' : b.getLast? with
    | none => exact absurd (List.getLast?_eq_none_iff.1 hb') hb
    | some y =>
      rw [hb', Option.some_or] at hg
      cases hg
      exact List.mem_of_getLast? hb'
  rcases h4 with rfl | ⟨e', sg', ds, rfl, he, hsg, hne, hds⟩
  · rw [List.append_nil] at hl
    rcases h3 with rfl | ⟨ds, rfl, hpos, hds⟩
    · rw [List.append_nil] at hl
      rcases h2 with rfl | ⟨d, ds, rfl, hd1, _, hds⟩
      · have := hm (b := ['0']) (by simp) hl
        simp at this
      · have := hm (b := d :: ds) (by simp) hl
        rcases List.mem_cons.1 this with rfl | h'
        · exact absurd hd1 (by decide)
        · exact key hds h'
    · have hne : ds ≠ [] := List.length_pos_iff.1 hpos
      have h5 : (sg ++ i ++ '.' :: ds) = (sg ++ i ++ ['.']) ++ ds := by simp
      rw [h5] at hl
      exact key hds (hm hne hl)
  · rw [← List.append_assoc] at hl
    exact key hds (hm hne hl)

/-- C42, the part that holds.  Full statement: every number token is a JSON number.  Missing: a decimal point
without digits after it is also accepted.  Proved: this is the only exception; and every JSON number is
read completely, if neither a digit, a point nor the letter of an exponent follows. -/
theorem C42_numbers_partial (u : Char → Bool) :
    (∀ s p r, next u s = .ok (.number p, r) →
      ∃ sg i f e, p = sg ++ i ++ f ++ e ∧ (sg = [] ∨ sg = ['-']) ∧ IntText i ∧
        (f = [] ∨ ∃ ds, f = '.' :: ds ∧ Digits ds) ∧ ExpText e) ∧
    (∀ p r, NumberText p → NotStart (fun c => isDigit c = true ∨ c = '.' ∨ c = 'e' ∨ c = 'E') r →
      next u (p ++ r) = .ok (.number p, r)) := by
  constructor
  · intro s p r h
    obtain ⟨ws, _, ⟨_, _, h⟩ | ⟨q, _, _, h⟩⟩ := next_ok h
    · cases h
    · cases h with
      | number h =>
        obtain ⟨sg, i, f, e, h1, h2, h3, h4, h5⟩ := h
        refine ⟨sg, i, f, e, h1, h2, h3, ?_, h5⟩
        rcases h4 with h4 | ⟨ds, h4, _, h6⟩
        · exact .inl h4
        · exact .inr ⟨ds, h4, h6⟩
  · intro p r hp hr
    exact next_append (ws := []) (m := fun n => n = 4) (fun n h => Nat.le_of_eq h) (by simp) (.number hp) hr

/-- A number with all parts. -/
example : NumberText "-10.25e+3".toList :=
  ⟨['-'], ['1', '0'], ['.', '2', '5'], ['e', '+', '3'], rfl, .inr rfl, .inr ⟨'1', ['0'], rfl, rfl, by decide, by unfold Digits; decide⟩,
    .inr ⟨['2', '5'], rfl, by decide, by unfold Digits; decide⟩,
    .inr ⟨'e', ['+'], ['3'], rfl, .inl rfl, .inr (.inl rfl), by simp, by unfold Digits; decide⟩⟩

end Verif.Props
