import Verif.Proof.JsonLexical
import Verif.Proof.JsonExact

/-! # C117: the tokens of a JSON text, exactly -/

namespace Verif.Props

open Verif Verif.Spec Verif.Json

/-- C117. The tokenizer returns the token `k` and leaves `r` if and only if the text is white space, a text of the
token `k`, and `r`, where `r` does not begin with a letter or digit if the token is `null`, `true` or `false`, and not
with a character that could continue the number if it is a number; or the text is white space and `k` is the end. -/
theorem C117_tokens (u : Char → Bool) (s : Str) (k : Json.Tok) (r : Str) :
    next u s = .ok (k, r) ↔ Reading u s k r := next_iff

/-- C117. So each text has at most one first token, and the tokenizer returns an error if it has none, unless it
panics at a surrogate. -/
theorem C117_errors (u : Char → Bool) (s : Str) :
    (∀ k k' r r', Reading u s k r → Reading u s k' r' → k = k' ∧ r = r') ∧
    (next u s = .error .err ↔ (¬ ∃ k r, Reading u s k r) ∧
      ¬ ∃ ws z, s = ws ++ z ∧ (∀ c ∈ ws, isSpace c = true) ∧ BadString z) := by
  constructor
  · intro k k' r r' h h'
    have := (next_iff.2 h).symm.trans (next_iff.2 h')
    cases this
    exact ⟨rfl, rfl⟩
  · constructor
    · intro h
      constructor
      · rintro ⟨k, r, hr⟩
        rw [next_iff.2 hr] at h; cases h
      · intro hb
        rw [next_fault.2 ⟨rfl, hb⟩] at h; cases h
    · rintro ⟨h1, h2⟩
      cases hn : next u s with
      | ok x => exact absurd ⟨x.1, x.2, next_iff.1 hn⟩ h1
      | error e =>
        cases e with
        | err => rfl
        | fault f => exact absurd (next_fault.1 hn).2 h2

/-- A keyword may be followed by anything but a letter or digit, also by a quotation mark or an underscore; a number
without digits after the point is taken; after a zero comes another number; an exponent without digits is an error. -/
example (u : Char → Bool) :
    next u "null\"".toList = .ok (.null, ['"']) ∧ next u "true_".toList = .ok (.true, ['_']) ∧
    next u "falseZ".toList = .error .err ∧ next u " null0".toList = .error .err ∧
    next u "1.e5,".toList = .ok (.number "1.e5".toList, [',']) ∧
    next u "012".toList = .ok (.number ['0'], ['1', '2']) ∧ next u "12e".toList = .error .err ∧
    next u "-".toList = .error .err := by
  refine ⟨rfl, rfl, rfl, rfl, rfl, rfl, rfl, rfl⟩

/-- Whether a letter outside ASCII may follow is what Unicode says. -/
example (u : Char → Bool) : next u "nullß".toList = if u 'ß' then .error .err else .ok (.null, ['ß']) := rfl

/-- The reading of a text with white space before the token. -/
example (u : Char → Bool) : Reading u " \n12.5]".toList (.number "12.5".toList) [']'] :=
  (C117_tokens u _ _ _).1 rfl

/-- The number 1 has no reading in front of an exponent. -/
example (u : Char → Bool) : ¬ ∃ k r, Reading u "1e".toList k r :=
  ((C117_errors u "1e".toList).2.1 rfl).1

end Verif.Props
