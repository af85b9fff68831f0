import Verif.Spec.SqlGrammar
import Verif.Spec.SqlSpelling
/-!
# Words that are spelt differently

Two words mean the same up to a replacement `f` of identifiers if they are of the same kind, and: numbers and strings
have the same text, identifiers are replaced by the same thing.  Nothing is asked of the text of keywords.
-/

namespace Verif.Sql.Grammar

def SameWord {K : Type} (f : Name → K) (a b : Lexeme) : Prop :=
  a.1 = b.1 ∧ (a.1 ∈ [.HEX_LIT, .NUMERIC_LIT_1, .NUMERIC_LIT_2, .STRING_LIT] → a.2 = b.2) ∧
    (a.1 = .ID → f ⟨a.2⟩ = f ⟨b.2⟩)

/-- The same number of words, and in every place words that mean the same. -/
inductive Respelt {K : Type} (f : Name → K) : List Lexeme → List Lexeme → Prop where
  | nil : Respelt f [] []
  | cons {a b v w} : SameWord f a b → Respelt f v w → Respelt f (a :: v) (b :: w)

/-- No `(` directly before `)`, and no THEN directly before `(` or `+`. -/
def Calm (w : List Lexeme) : Prop :=
  ∀ a k t k' t' b, w = a ++ (k, t) :: (k', t') :: b → ¬ (k = .lpar ∧ k' = .rpar) ∧ ¬ (k = .THEN ∧ (k' = .lpar ∨ k' = .plus))

end Verif.Sql.Grammar
