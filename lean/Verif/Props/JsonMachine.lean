import Verif.Proof.JsonMachine
import Verif.Props.JsonText

/-!
# The state of the JSON tokenizer (C112, C113)
-/

namespace Verif.Props

open Spec Json

/-- ASCII letters and digits only. -/
private def ascii : Char → Bool := fun _ => false

/-! ## C112 -/

/-- C112. `value` never panics, whatever calls of `next` came before and whether they returned `Ok` or `Err`; except
after a string it returns a part of the input. -/
theorem C112_value (u : Char → Bool) (input : Str) (m : Machine) (h : Reached u input m) :
    ∃ v, m.value = some v ∧ (m.token ≠ .string → ∃ a b, input = a ++ v ++ b) := by
  obtain ⟨h1, _, a, v, b, k1, k2, k3⟩ := Machine.reached_kept h
  unfold Machine.value
  split
  · next ht => exact ⟨_, rfl, fun hn => absurd ht hn⟩
  · exact ⟨v, by rw [k1, k2, k3, getRange_append], fun _ => ⟨a, b, by rw [← h1, k1]⟩⟩

/-- C112. The tokenizer with its state does what the function on the text that is left says: the same outcome, the
same kind of token, the same text left; `value` returns the text of a string or number.  What is left is always the
end of the input. -/
theorem C112_refines (u : Char → Bool) (input : Str) (m : Machine) (h : Reached u input m) :
    (∃ before, input = before ++ m.rest) ∧
    (∀ k r, Json.next u m.rest = .ok (k, r) → ∃ m', m.next u = (.ok, m') ∧ m'.rest = r ∧ HasKind k m'.token ∧
      ∀ v, HasText k v → m'.value = some v) ∧
    (Json.next u m.rest = .error .err → ∃ m', m.next u = (.err, m')) ∧
    (∀ f, Json.next u m.rest = .error (.fault f) → (m.next u).1 = .panic) := by
  obtain ⟨h1, h2, h3⟩ := Machine.reached_kept h
  obtain ⟨_, _, h4⟩ := Machine.next_outcome u h2 h3
  refine ⟨?_, ?_, ?_, ?_⟩
  · obtain ⟨b, k1, _⟩ := h2
    exact ⟨b, by rw [← h1, k1]⟩
  · intro k r hx
    rw [hx] at h4
    obtain ⟨m', k1, k2⟩ := h4
    exact ⟨m', k1, k2.rest, k2.kind, k2.text⟩
  · intro hx
    rw [hx] at h4
    obtain ⟨m', k1, _⟩ := h4
    exact ⟨m', k1⟩
  · intro f hx
    rw [hx] at h4
    exact h4

/-- C112. The same for `new`, with the whole input left. -/
theorem C112_new (u : Char → Bool) (input : Str) :
    (∀ k r, Json.next u input = .ok (k, r) → ∃ m, Machine.new u input = (.ok, m) ∧ m.rest = r ∧ HasKind k m.token ∧
      ∀ v, HasText k v → m.value = some v) ∧
    (Json.next u input = .error .err → (Machine.new u input).1 = .err) ∧
    (∀ f, Json.next u input = .error (.fault f) → (Machine.new u input).1 = .panic) := by
  obtain ⟨_, _, h4⟩ := Machine.next_outcome u (Machine.placed_fresh input) (Machine.ranged_fresh input)
  refine ⟨?_, ?_, ?_⟩
  · intro k r hx
    rw [show (Machine.fresh input).rest = input from rfl, hx] at h4
    obtain ⟨m', k1, k2⟩ := h4
    exact ⟨m', k1, k2.rest, k2.kind, k2.text⟩
  · intro hx
    rw [show (Machine.fresh input).rest = input from rfl, hx] at h4
    obtain ⟨m', k1, _⟩ := h4
    rw [Machine.new, k1]
  · intro f hx
    rw [show (Machine.fresh input).rest = input from rfl, hx] at h4
    exact h4

/-- Two bytes for the letter before it; the number is still found. -/
example : ∃ m m', Machine.new ascii "\"é\" 12.5e3,".toList = (.ok, m) ∧ m.value = some ['é'] ∧
    m.next ascii = (.ok, m') ∧ m'.token = .number ∧ m'.start = 5 ∧ m'.stop = 11 ∧
    m'.value = some "12.5e3".toList ∧ Reached ascii "\"é\" 12.5e3,".toList m' :=
  ⟨_, _, rfl, rfl, rfl, rfl, rfl, rfl, rfl, .next (.new rfl) rfl (by decide)⟩

/-- After an error `value` still returns. -/
example : ∃ m m', Machine.new ascii "12 nul".toList = (.ok, m) ∧ m.next ascii = (.err, m') ∧
    m'.value = some "12".toList ∧ Reached ascii "12 nul".toList m' :=
  ⟨_, _, rfl, rfl, rfl, .next (.new rfl) rfl (by decide)⟩

/-! ## C113 -/

/-- C113 as stated is false of the token: after `Err` it can still be the token of the call before, here a string,
and `value` then returns the part of the bad string before the error. -/
theorem C113_token_refuted (u : Char → Bool) : ∃ input m m', Reached u input m ∧ m.next u = (.err, m') ∧
    m'.token = .string ∧ m.value = some "ab".toList ∧ m'.value = some "c".toList :=
  ⟨"\"ab\" \"c\\q\"".toList, _, _, .new rfl, rfl, rfl, rfl, rfl⟩

/-- C113 as stated is false of the text: after `Err` with the token `Error`, `value` can return the text of the token
before. -/
theorem C113_value_refuted (u : Char → Bool) : ∃ input m m', Reached u input m ∧ m.next u = (.err, m') ∧
    m'.token = .error ∧ m'.value = some "12".toList ∧ m.rest = " nul".toList :=
  ⟨"12 nul".toList, _, _, .new rfl, rfl, rfl, rfl, rfl⟩

/-- C113. The token after `Err` is `Error` exactly if the text there is not like a number and no string with a
malformed escape sequence; otherwise it is the token of the call before. -/
theorem C113_token_partial (u : Char → Bool) (input : Str) (m m' : Machine) (h : Reached u input m)
    (hn : m.next u = (.err, m')) (ws s : Str) (hs : m.rest = ws ++ s) (hw : ∀ c ∈ ws, isSpace c = true)
    (hc : NotStart (fun c => isSpace c = true) s) :
    (NumberLike s ∨ BadEscape s → m'.token = m.token) ∧ (¬ (NumberLike s ∨ BadEscape s) → m'.token = .error) := by
  have hf := Machine.reached_failed h hn
  have e := Machine.skipped hs hw hc
  have h1 := hf.same
  have h2 := hf.error
  rw [e] at h1 h2
  exact ⟨h1, h2⟩

/-- An exponent without digits leaves the token, a misspelt literal does not. -/
example : (∃ m m', Machine.new ascii "[ 1e+]".toList = (.ok, m) ∧ m.next ascii = (.err, m') ∧
      NumberLike "1e+]".toList ∧ m'.token = .beginArray) ∧
    (∃ m m', Machine.new ascii "[ nil]".toList = (.ok, m) ∧ m.next ascii = (.err, m') ∧ m'.token = .error) :=
  ⟨⟨_, _, rfl, rfl, ⟨_, _, rfl, .inr rfl⟩, rfl⟩, ⟨_, _, rfl, rfl, rfl⟩⟩

/-- A malformed escape sequence. -/
example : BadEscape "\"a\\q\"".toList :=
  ⟨['a'], ['a'], ['q', '"'], rfl, .plain (by decide) (by decide) (by decide) .nil,
    .inr (.inl ⟨'q', ['"'], rfl, by decide, by rintro ⟨x, hx⟩; cases hx⟩)⟩

/-- C113. If a string is not closed and has no malformed escape sequence, `value` then returns what was read of it,
with the quotation mark. -/
theorem C113_value_partial (u : Char → Bool) (input : Str) (m m' : Machine) (h : Reached u input m)
    (hn : m.next u = (.err, m')) (ws s : Str) (hs : m.rest = ws ++ '"' :: s) (hw : ∀ c ∈ ws, isSpace c = true)
    (hb : ¬ BadEscape ('"' :: s)) : ∃ a, '"' :: s = a ++ m'.rest ∧ m'.value = some a := by
  have hf := Machine.reached_failed h hn
  have e := Machine.skipped hs hw (.cons (by decide))
  have h1 := hf.quoted
  rw [e] at h1
  exact h1 s rfl hb

/-- The string ends at the line feed. -/
example : ∃ m m', Machine.new ascii ": \"ab\ncd\"".toList = (.ok, m) ∧ m.next ascii = (.err, m') ∧
    m'.token = .error ∧ m'.value = some "\"ab".toList ∧ m'.rest = "\ncd\"".toList :=
  ⟨_, _, rfl, rfl, rfl, rfl, rfl⟩

/-- C113. A call that returns `Err` at a character with which no token begins leaves the tokenizer such that all
further calls return `Err` and change nothing; at other characters it takes at least one off. -/
theorem C113_stuck (u : Char → Bool) (input : Str) (m m' : Machine) (h : Reached u input m)
    (hn : m.next u = (.err, m')) (ws : Str) (c : Char) (s : Str) (hs : m.rest = ws ++ c :: s)
    (hw : ∀ c ∈ ws, isSpace c = true) (hc : isSpace c = false) :
    (¬ Opens c → ∀ n m'', Calls u n m' m'' → m'' = m' ∧ m''.next u = (.err, m'')) ∧
    (Opens c → m'.rest.length ≤ s.length) := by
  have hf := Machine.reached_failed h hn
  have e := Machine.skipped hs hw (.cons (by simp [hc]))
  constructor
  · intro ho n m'' hm
    have h1 := hf.stuck c s e ho
    have hr : m'.rest = c :: s := by rw [h1]; exact e
    have ht : m'.token = .error := by rw [h1]
    have := Machine.calls_unopened hm hr hc ho ht
    subst this
    exact ⟨rfl, Machine.next_unopened hr hc ho ht⟩
  · intro ho
    have h1 := hf.taken c s e ho
    rw [e, List.length_cons] at h1
    omega

/-- After `nil` the rest can be read; after `'` nothing can. -/
example : (∃ m m' m'', Machine.new ascii "[ nil".toList = (.ok, m) ∧ m.next ascii = (.err, m') ∧
      m'.rest = "il".toList ∧ m'.next ascii = (.err, m'')) ∧
    (∃ m m', Machine.new ascii "[ 'a'".toList = (.ok, m) ∧ m.next ascii = (.err, m') ∧ m'.next ascii = (.err, m')) :=
  ⟨⟨_, _, _, rfl, rfl, rfl, rfl⟩, ⟨_, _, rfl, rfl, rfl⟩⟩

/-- C113. Calling `next` until it reports the end, going on after `Err`, does not come to the end of every text. -/
theorem C113_end_refuted (u : Char → Bool) : ∃ input m, Reached u input m ∧
    ∀ n m', Calls u (n + 1) m m' → m'.token = .error := by
  refine ⟨"1 #".toList, _, .new rfl, ?_⟩
  intro n m' h
  cases h with
  | more h1 h2 h3 =>
    cases h1
    have := Machine.calls_unopened (c := '#') (s := []) h3 rfl (by decide) (by unfold Opens; decide) rfl
    rw [this]

/-- C113. After as many calls as there are characters left, or fewer, `next` reports the end of the input, or panics,
or is at a character with which no token begins. -/
theorem C113_end_partial (u : Char → Bool) (input : Str) (m : Machine) (h : Reached u input m) :
    ∃ n m', n ≤ m.rest.length ∧ Calls u n m m' ∧
      ((∃ m'', m'.next u = (.ok, m'') ∧ m''.token = .eof) ∨ (m'.next u).1 = .panic ∨
        ∃ ws c s, m'.rest = ws ++ c :: s ∧ (∀ c ∈ ws, isSpace c = true) ∧ isSpace c = false ∧ ¬ Opens c) := by
  generalize hl : m.rest.length = l
  induction l using Nat.strongRecOn generalizing m with
  | ind l ih =>
    obtain ⟨_, hp, hr⟩ := Machine.reached_kept h
    obtain ⟨_, hmv, h3⟩ := Machine.next_outcome u hp hr
    obtain ⟨_, ws, hws, _⟩ := hmv
    have step : ∀ (r : Ret) (m1 : Machine), m.next u = (r, m1) → r ≠ .panic → m1.rest.length < l →
        ∃ n m', n ≤ l ∧ Calls u n m m' ∧ ((∃ m'', m'.next u = (.ok, m'') ∧ m''.token = .eof) ∨ (m'.next u).1 = .panic ∨
        ∃ ws c s, m'.rest = ws ++ c :: s ∧ (∀ c ∈ ws, isSpace c = true) ∧ isSpace c = false ∧ ¬ Opens c) := by
      intro r m1 k1 k2 k3
      obtain ⟨n, m', e1, e2, e3⟩ := ih m1.rest.length k3 m1 (.next h k1 k2) rfl
      exact ⟨n + 1, m', by omega, .more k1 k2 e2, e3⟩
    rcases C41_progress u m.rest with ⟨e, hx⟩ | ⟨k, a, r, hx, h5, h6, h7⟩ | ⟨hx, _⟩
    · rw [hx] at h3
      cases e with
      | fault f => exact ⟨0, m, by omega, .none, .inr (.inl h3)⟩
      | err =>
        obtain ⟨m1, k1, k2⟩ := h3
        obtain ⟨ws', e1, e2⟩ := skip_split m.rest
        have e3 : m.skipWhitespace.rest = Json.skipWhitespace m.rest := by rw [Machine.skipWhitespace_eq]; rfl
        cases hr : Json.skipWhitespace m.rest with
        | nil =>
          exfalso
          unfold Json.next at hx
          rw [hr] at hx
          cases hx
        | cons c s =>
          rw [hr] at e1 e3
          by_cases ho : Opens c
          · refine step .err m1 k1 (by decide) ?_
            have := k2.taken c s e3 ho
            rw [e3] at this
            rw [← hl, e1, List.length_append]
            omega
          · have hsp : isSpace c = false := by
              have := List.head?_dropWhile_not isSpace m.rest
              unfold Json.skipWhitespace at hr
              rw [hr] at this
              simpa using this
            exact ⟨0, m, by omega, .none, .inr (.inr ⟨ws', c, s, e1, e2, hsp, ho⟩)⟩
    · rw [hx] at h3
      obtain ⟨m1, k1, k2⟩ := h3
      refine step .ok m1 k1 (by decide) ?_
      rw [k2.rest, ← hl, h7, List.length_append]
      have := List.length_pos_iff.2 h6
      omega
    · rw [hx] at h3
      obtain ⟨m1, k1, k2⟩ := h3
      refine ⟨0, m, by omega, .none, .inl ⟨m1, k1, ?_⟩⟩
      have := k2.kind
      generalize m1.token = t at this
      cases this
      rfl

/-- Four calls for the text `, -}` with an error on the way. -/
example : ∃ m m', Machine.new ascii "1, -}".toList = (.ok, m) ∧ Calls ascii 3 m m' ∧
    ∃ m'', m'.next ascii = (.ok, m'') ∧ m''.token = .eof :=
  ⟨_, _, rfl, .more (r := .ok) rfl (by decide) (.more (r := .err) rfl (by decide) (.more (r := .ok) rfl (by decide) .none)), _, rfl, rfl⟩

end Verif.Props
