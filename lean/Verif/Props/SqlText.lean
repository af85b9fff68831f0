import Verif.Proof.SqlLayout
import Verif.Proof.SqlMapId
import Verif.Proof.SqlRespelt
import Verif.Proof.SqlWordsSafe
import Verif.Props.SqlParser
import Verif.Props.SqlSpelling

/-! # C93, C94: what may be changed in the text of a statement; panics, from the text to the types -/

namespace Verif.Props

open Verif Sql Parser Grammar Lexing

/-- Texts with words that mean the same, up to a replacement of identifiers. -/
def SameText {K : Type} (f : Name → K) (s s' : Str) : Prop :=
  ∃ toks toks', Tokens 0 s toks none ∧ Tokens 0 s' toks' none ∧ Respelt f (toks.map wordOf) (toks'.map wordOf)

theorem respelt_symm {K : Type} {f : Name → K} {w w' : List Lexeme} (h : Respelt f w w') : Respelt f w' w := by
  induction h with
  | nil => exact .nil
  | cons h _ ih => exact .cons ⟨h.1.symm, fun hm => (h.2.1 (h.1 ▸ hm)).symm, fun hm => (h.2.2 (h.1.trans hm)).symm⟩ ih

theorem sameText_symm {K : Type} {f : Name → K} {s s' : Str} (h : SameText f s s') : SameText f s' s := by
  obtain ⟨t, t', h1, h2, h3⟩ := h
  exact ⟨t', t, h2, h1, respelt_symm h3⟩

theorem sameText_parse {K : Type} {f : Name → K} {s s' : Str} (h : SameText f s s') {x : SqlStatement Name}
    (hx : parse s = some (.ok (.ok x))) : ∃ x', parse s' = some (.ok (.ok x')) ∧ x.map f = x'.map f := by
  obtain ⟨t, t', h1, h2, h3⟩ := h
  obtain ⟨u, h4, h5⟩ := (C88_accepts_grammar s x).mp hx
  obtain ⟨rfl, _⟩ := h1.unique h4
  obtain ⟨x', h6, h7⟩ := gr_respell h5 h3
  exact ⟨x', (C88_accepts_grammar s' x').mpr ⟨t', h2, h6⟩, h7⟩

/-! ## C93 -/

/-- The spelling of keywords does not matter: texts with the same numbers, strings and identifiers and the same kinds of
words in between are the same statement, or both none. -/
theorem C93_keywords (s s' : Str) (h : SameText id s s') (x : SqlStatement Name) :
    parse s = some (.ok (.ok x)) ↔ parse s' = some (.ok (.ok x)) := by
  have key {s s' : Str} (h : SameText id s s') (hx : parse s = some (.ok (.ok x))) :
      parse s' = some (.ok (.ok x)) := by
    obtain ⟨x', h1, h2⟩ := sameText_parse h hx
    rw [SqlStatement.map_id, SqlStatement.map_id] at h2
    rw [h1, h2]
  exact ⟨key h, key (sameText_symm h)⟩

/-- Words written with white space around and between them are the words of the text. -/
theorem C93_layout_words (ws : List Lexeme) (s : Str) (h : Laid ws s) : (lex s).1.map wordOf = ws ∧ (lex s).2 = none := by
  obtain ⟨toks, h1, h2⟩ := laid_tokens h [] 0 (by simp)
  obtain ⟨e1, e2⟩ := (lex_tokens s).unique h1
  rw [e1, e2]
  exact ⟨h2, rfl⟩

/-- Nor does it matter which white space is between the words, before and after them. -/
theorem C93_layout (ws ws' : List Lexeme) (s s' : Str) (h : Laid ws s) (h' : Laid ws' s') (hr : Respelt id ws ws')
    (x : SqlStatement Name) : parse s = some (.ok (.ok x)) ↔ parse s' = some (.ok (.ok x)) := by
  refine C93_keywords s s' ?_ x
  obtain ⟨toks, h1, h2⟩ := laid_tokens h [] 0 (by simp)
  obtain ⟨toks', h3, h4⟩ := laid_tokens h' [] 0 (by simp)
  exact ⟨toks, toks', h1, h3, by rw [h2, h4]; exact hr⟩

/-- Identifiers in other upper and lower case: the text is a statement as well, and validation has the same outcome for
both, in contexts that differ only so. -/
theorem C93_identifiers (up : Char → List Char) (s s' : Str) (h : SameText (Name.upper up) s s')
    (ctx ctx' : SetContext Name) (hc : ctx.map (Name.upper up) = ctx'.map (Name.upper up)) (x : SqlStatement Name)
    (hx : parse s = some (.ok (.ok x))) : ∃ x', parse s' = some (.ok (.ok x')) ∧
      x.validateType (nameOps up) ctx = x'.validateType (nameOps up) ctx' := by
  obtain ⟨x', h1, h2⟩ := sameText_parse h hx
  exact ⟨x', h1, C70_statement up ctx ctx' x x' hc h2⟩

/-- The case of the letters of a number matters.  `SELECT 1E5` is one column,
the number; `SELECT 1e5` is the number 1 called `e5`.  `0x1F` is a number, `0X1F` is the number 0 called `X1F`. -/
theorem C93_number_letters :
    (lex "SELECT 1E5".toList).1.map wordOf = [(.SELECT, "SELECT".toList), (.NUMERIC_LIT_1, "1E5".toList)] ∧
    (lex "SELECT 1e5".toList).1.map wordOf =
      [(.SELECT, "SELECT".toList), (.NUMERIC_LIT_1, "1".toList), (.ID, "e5".toList)] ∧
    (lex "SELECT 0x1F".toList).1.map wordOf = [(.SELECT, "SELECT".toList), (.HEX_LIT, "0x1F".toList)] ∧
    (lex "SELECT 0X1F".toList).1.map wordOf =
      [(.SELECT, "SELECT".toList), (.NUMERIC_LIT_1, "0".toList), (.ID, "X1F".toList)] ∧
    (∃ x, parse "SELECT 1E5".toList = some (.ok (.ok x))) ∧ (∃ x, parse "SELECT 1e5".toList = some (.ok (.ok x))) ∧
    (∃ x, parse "SELECT 0x1F".toList = some (.ok (.ok x))) ∧ ∃ x, parse "SELECT 0X1F".toList = some (.ok (.ok x)) := by
  refine ⟨by decide +kernel, by decide +kernel, by decide +kernel, by decide +kernel, ?_, ?_, ?_, ?_⟩
  all_goals
    set_option maxRecDepth 100000 in
    exact ⟨_, rfl⟩

theorem isWord_select : IsWord (.SELECT, "select".toList) := isWord_lex (i := 55) (m := 0) (n := 6) (by decide +kernel) rfl

theorem isWord_text : IsWord (.STRING_LIT, "'a  b'".toList) := isWord_lex (i := 0) (m := 0) (n := 6) (by decide +kernel) rfl

theorem isWord_as : IsWord (.AS, "as".toList) := isWord_lex (i := 7) (m := 0) (n := 2) (by decide +kernel) rfl

theorem isWord_x : IsWord (.ID, "x".toList) := isWord_lex (i := 3) (m := 0) (n := 1) (by decide +kernel) rfl

theorem blank_line : Blank "\t\n ".toList := blank_iff.mpr (by decide)

theorem blank_space : Blank " ".toList := blank_iff.mpr (by decide)

/-- The words of `select 'a  b' as x`. -/
def selectWords : List Lexeme :=
  [(.SELECT, "select".toList), (.STRING_LIT, "'a  b'".toList), (.AS, "as".toList), (.ID, "x".toList)]

theorem select_laid : Laid selectWords "select 'a  b' as x".toList :=
  .more (g := []) .nil isWord_select blank_space
    (.more (g := []) .nil isWord_text blank_space
      (.more (g := []) .nil isWord_as blank_space (.last (g := []) (g' := []) .nil isWord_x .nil)))

theorem select_laid' : Laid selectWords "\t\n select\n\t\n 'a  b'\tas x\t\n ".toList :=
  .more (g := "\t\n ".toList) blank_line isWord_select (blank_iff.mpr (by decide))
    (.more (g := "\t\n ".toList) blank_line isWord_text (blank_iff.mpr (by decide))
      (.more (g := []) .nil isWord_as blank_space
        (.last (g := []) (g' := "\t\n ".toList) .nil isWord_x blank_line)))

theorem select_refl : Respelt id selectWords selectWords := by
  refine .cons ?_ (.cons ?_ (.cons ?_ (.cons ?_ .nil))) <;> exact ⟨rfl, fun _ => rfl, fun _ => rfl⟩

/-- Both texts are statements, the same one. -/
example : ∃ x, parse "select 'a  b' as x".toList = some (.ok (.ok x)) ∧
    parse "\t\n select\n\t\n 'a  b'\tas x\t\n ".toList = some (.ok (.ok x)) := by
  have h : ∃ x, parse "select 'a  b' as x".toList = some (.ok (.ok x)) := by
    set_option maxRecDepth 100000 in
    exact ⟨_, rfl⟩
  obtain ⟨x, hx⟩ := h
  exact ⟨x, hx, (C93_layout _ _ _ _ select_laid select_laid' select_refl x).mp hx⟩

theorem sameText_lex {K : Type} {f : Name → K} {s s' : Str} (h : (lex s).2 = none) (h' : (lex s').2 = none)
    (hr : Respelt f ((lex s).1.map wordOf) ((lex s').1.map wordOf)) : SameText f s s' := by
  have h1 := lex_tokens s
  have h2 := lex_tokens s'
  rw [h] at h1
  rw [h'] at h2
  exact ⟨_, _, h1, h2, hr⟩

/-- The keyword may even have the letter `ſ`. -/
theorem long_s_same : SameText id "SELECT a<b".toList "ſelecT a < b".toList := by
  have h1 : (lex "SELECT a<b".toList).1.map wordOf =
      [(.SELECT, "SELECT".toList), (.ID, "a".toList), (.lt, "<".toList), (.ID, "b".toList)] := by decide +kernel
  have h2 : (lex "ſelecT a < b".toList).1.map wordOf =
      [(.SELECT, "ſelecT".toList), (.ID, "a".toList), (.lt, "<".toList), (.ID, "b".toList)] := by decide +kernel
  refine sameText_lex (by decide +kernel) (by decide +kernel) ?_
  rw [h1, h2]
  refine .cons ?_ (.cons ?_ (.cons ?_ (.cons ?_ .nil)))
  · exact ⟨rfl, fun h => by simp at h, fun h => by cases h⟩
  all_goals exact ⟨rfl, fun _ => rfl, fun _ => rfl⟩

example (x : SqlStatement Name) : parse "SELECT a<b".toList = some (.ok (.ok x)) ↔
    parse "ſelecT a < b".toList = some (.ok (.ok x)) := C93_keywords _ _ long_s_same x

theorem upper_same : SameText (Name.upper asciiUp) "delete from Users where ID=1".toList
    "DELETE FROM users WHERE id = 1".toList := by
  have h1 : (lex "delete from Users where ID=1".toList).1.map wordOf = [(.DELETE, "delete".toList),
      (.FROM, "from".toList), (.ID, "Users".toList), (.WHERE, "where".toList), (.ID, "ID".toList), (.eq, "=".toList),
      (.NUMERIC_LIT_1, "1".toList)] := by decide +kernel
  have h2 : (lex "DELETE FROM users WHERE id = 1".toList).1.map wordOf = [(.DELETE, "DELETE".toList),
      (.FROM, "FROM".toList), (.ID, "users".toList), (.WHERE, "WHERE".toList), (.ID, "id".toList), (.eq, "=".toList),
      (.NUMERIC_LIT_1, "1".toList)] := by decide +kernel
  refine sameText_lex (by decide +kernel) (by decide +kernel) ?_
  rw [h1, h2]
  refine .cons ?_ (.cons ?_ (.cons ?_ (.cons ?_ (.cons ?_ (.cons ?_ (.cons ?_ .nil))))))
  · exact ⟨rfl, fun h => by simp at h, fun h => by cases h⟩
  · exact ⟨rfl, fun h => by simp at h, fun h => by cases h⟩
  · exact ⟨rfl, fun h => by simp at h, fun _ => by decide⟩
  · exact ⟨rfl, fun h => by simp at h, fun h => by cases h⟩
  · exact ⟨rfl, fun h => by simp at h, fun _ => by decide⟩
  · exact ⟨rfl, fun h => by simp at h, fun h => by cases h⟩
  · exact ⟨rfl, fun _ => rfl, fun h => by cases h⟩

example : ∃ x x', parse "delete from Users where ID=1".toList = some (.ok (.ok x)) ∧
    parse "DELETE FROM users WHERE id = 1".toList = some (.ok (.ok x')) ∧
    x.validateType (nameOps asciiUp) sampleCtx = x'.validateType (nameOps asciiUp) respelledCtx := by
  have h : ∃ x, parse "delete from Users where ID=1".toList = some (.ok (.ok x)) := by
    set_option maxRecDepth 100000 in
    exact ⟨_, rfl⟩
  obtain ⟨x, hx⟩ := h
  obtain ⟨x', h1, h2⟩ := C93_identifiers asciiUp _ _ upper_same sampleCtx respelledCtx respelledCtx_same x hx
  exact ⟨x, x', hx, h1, h2⟩

/-! ## C94 -/

/-- `SELECT e` -/
def selectOne (e : Expr Name) : SqlStatement Name :=
  .statement (.select (.mk [] (.query .all (.list [.expr e none]) [] none none) [] none))

set_option maxRecDepth 100000 in
theorem parse_in_empty : parse "SELECT 1 IN ()".toList = some (.ok (.ok (selectOne (.inSet sqlOne (.list []))))) := rfl

set_option maxRecDepth 100000 in
theorem parse_case_tuple : parse "SELECT CASE WHEN 1 THEN (1, 1) END".toList =
    some (.ok (.ok (selectOne (.case none [.mk sqlOne (.tuple [sqlOne, sqlOne])] none)))) := rfl

set_option maxRecDepth 100000 in
theorem parse_case_plus : parse "SELECT CASE WHEN 1 THEN + (1, 1) END".toList =
    some (.ok (.ok (selectOne (.case none [.mk sqlOne (.tuple [sqlOne, sqlOne])] none)))) := rfl

/-- C94, refuted: these texts are statements, and validating them panics. -/
theorem C94_text_panics_refuted :
    (∃ x, parse "SELECT 1 IN ()".toList = some (.ok (.ok x)) ∧ x.validateType (nameOps asciiUp) sampleCtx = panics) ∧
    (∃ x, parse "SELECT CASE WHEN 1 THEN (1, 1) END".toList = some (.ok (.ok x)) ∧
      x.validateType (nameOps asciiUp) sampleCtx = panics) ∧
    ∃ x, parse "SELECT CASE WHEN 1 THEN + (1, 1) END".toList = some (.ok (.ok x)) ∧
      x.validateType (nameOps asciiUp) sampleCtx = panics :=
  ⟨⟨_, parse_in_empty, rfl⟩, ⟨_, parse_case_tuple, rfl⟩, ⟨_, parse_case_plus, rfl⟩⟩

/-- C94: for texts in which no `(` is followed by `)` and no THEN by `(` or `+`, and contexts with a default schema,
neither the parser nor the validation of the statement panics.  Missing: the texts of `C94_text_panics_refuted`, where
it is false, and harmless ones with these words next to each other. -/
theorem C94_text_panics_partial (up : Char → List Char) (ctx : SetContext Name) (hd : ctx.HasDefault up) (s : Str)
    (hs : Calm ((lex s).1.map wordOf)) :
    ∃ o, parse s = some (.ok o) ∧ ∀ x, o = .ok x → x.validateType (nameOps up) ctx ≠ .error .panic := by
  obtain ⟨o, ho⟩ := C87_returns s
  refine ⟨o, ho, ?_⟩
  rintro x rfl
  obtain ⟨toks, h1, h2⟩ := (C88_accepts_grammar s x).mp ho
  obtain ⟨e, _⟩ := (lex_tokens s).unique h1
  rw [e] at hs
  exact C64_no_panic_partial up ctx hd x (gr_safe h2 hs)

/-- `Calm`, by looking at neighbouring words. -/
theorem calm_of_pairs : ∀ {w : List Lexeme}, (∀ p ∈ w.zip w.tail, ¬ (p.1.1 = .lpar ∧ p.2.1 = .rpar) ∧
    ¬ (p.1.1 = .THEN ∧ (p.2.1 = .lpar ∨ p.2.1 = .plus))) → Calm w := by
  intro w h a k t k' t' b e
  refine h ((k, t), (k', t')) ?_
  subst e
  clear h
  induction a with
  | nil => simp
  | cons x a ih =>
    cases a with
    | nil => simp
    | cons y a =>
      simp only [List.cons_append, List.tail_cons, List.zip_cons_cons, List.mem_cons] at ih ⊢
      exact .inr ih

theorem calm_sample : Calm ((lex "SELECT CASE WHEN (id IN (1)) THEN 'a' END FROM users".toList).1.map wordOf) := by
  have h : (lex "SELECT CASE WHEN (id IN (1)) THEN 'a' END FROM users".toList).1.map wordOf = [(.SELECT, "SELECT".toList),
      (.CASE, "CASE".toList), (.WHEN, "WHEN".toList), (.lpar, "(".toList), (.ID, "id".toList), (.IN, "IN".toList),
      (.lpar, "(".toList), (.NUMERIC_LIT_1, "1".toList), (.rpar, ")".toList), (.rpar, ")".toList),
      (.THEN, "THEN".toList), (.STRING_LIT, "'a'".toList), (.END, "END".toList), (.FROM, "FROM".toList),
      (.ID, "users".toList)] := by decide +kernel
  rw [h]
  exact calm_of_pairs (by decide)

example : ∃ o, parse "SELECT CASE WHEN (id IN (1)) THEN 'a' END FROM users".toList = some (.ok o) ∧
    ∀ x, o = .ok x → x.validateType (nameOps asciiUp) sampleCtx ≠ .error .panic :=
  C94_text_panics_partial asciiUp sampleCtx sampleCtx_default _ calm_sample

end Verif.Props
