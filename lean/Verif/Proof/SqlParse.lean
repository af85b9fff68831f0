import Verif.Proof.SqlLrViable
import Verif.Proof.SqlWords
/-!
# From texts to statements
-/

namespace Verif.Sql.Parser
open Grammar Lexing

theorem lexeme_wordOf {t : Token} (h : t.index < 83) : lexeme t = wordOf t := by
  have : ∀ i, i < 83 → Kind.ofNat (tokenTerminals[i]?.getD 0) = ((Lexing.patterns.map (·.1))[i]?.bind id).getD .ne := by
    decide +kernel
  simp only [lexeme, wordOf, tokenToInteger, this _ h, List.getElem?_map]
  cases Lexing.patterns[t.index]? <;> rfl

theorem patterns_string : ∀ i r, Lexing.patterns[i]? = some (some .STRING_LIT, r) → i = 0 := by
  intro i r h
  have : ∀ i, i < 84 → (Lexing.patterns.map (·.1))[i]? = some (some .STRING_LIT) → i = 0 := by decide +kernel
  refine this i ?_ (by rw [List.getElem?_map, h]; rfl)
  have := (List.getElem?_eq_some_iff.mp h).1
  rwa [show Lexing.patterns.length = 84 from rfl] at this

/-- The words of a text are good tokens. -/
theorem tokens_good {off s toks inv} (h : Tokens off s toks inv) : ∀ t ∈ toks, Good t := by
  induction h with
  | done => intro t ht; cases ht
  | skip _ _ _ _ ih => exact ih
  | stuck _ => intro t ht; cases ht
  | @token off t r i k re toks inv hw hk _ ih =>
    refine List.forall_mem_cons.mpr ⟨?_, ih⟩
    have hi : i < 83 := by
      have := hw.lt
      have : i ≠ 83 := fun he => by rw [he, kind_none] at hk; cases hk
      omega
    refine ⟨hi, fun hq => ?_⟩
    rw [lexeme_wordOf hi] at hq ⊢
    simp only [wordOf, hk, Option.bind_some, Option.getD_some] at hq ⊢
    subst hq
    have h0 := patterns_string i re hk
    subst h0
    obtain ⟨k', r', h1, h2⟩ := hw.isWord
    rw [show Lexing.patterns[0]? = some (some .STRING_LIT, string) from rfl] at h1
    cases h1
    obtain ⟨b, rfl, _⟩ := matches_string.mp h2
    exact ⟨b, rfl⟩

theorem map_wordOf {off s toks inv} (h : Tokens off s toks inv) : toks.map lexeme = toks.map wordOf :=
  List.map_congr_left fun t ht => lexeme_wordOf (tokens_good h t ht).index

end Verif.Sql.Parser
