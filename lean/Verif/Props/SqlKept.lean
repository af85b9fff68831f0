import Verif.Proof.SqlLeaves
import Verif.Proof.SqlSynonyms
import Verif.Props.SqlWriting
import Verif.Props.SqlParser

/-! # Which words of a text are in its statement -/

namespace Verif.Props

open Verif Sql Parser Grammar Lexing Writing

/-! ## C100 -/

/-- The statement is an INSERT, a DELETE or an UPDATE. -/
def Changes : Statement Name → Prop
  | .select _ => False
  | _ => True

/-- So is the statement that is executed or explained. -/
def ChangesSql : SqlStatement Name → Prop
  | .statement s | .explainQueryPlan s => Changes s
  | _ => False

theorem leaves_where_opt {w : List Lexeme} {p : Option (Expr Name)} (h : Gr (.opt .whereClause) w p) :
    leaves w = p.toList.flatMap fun e => leaves (expr e) := by
  rw [gr_leaves h rfl, leavesOf_where]

theorem leaves_statement {w : List Lexeme} {x : Statement Name} (h : Gr .statement w x) :
    ∃ u v, w = u ++ v ∧ leaves v = leaves (statement x) ∧
      (u = [] ∨ (∃ c, Gr .tableExpressions u c) ∧ Changes x) := by
  have opt : ∀ {u : List Lexeme} {c : Option (List (Cte Name))} {x : Statement Name}, Changes x →
      Gr (.opt .tableExpressions) u c → u = [] ∨ (∃ c, Gr .tableExpressions u c) ∧ Changes x := by
    intro u c x hx h
    cases h with
    | optNone => exact .inl rfl
    | optSome h => exact .inr ⟨⟨_, h⟩, hx⟩
  cases h with
  | statement_1 h => exact ⟨[], w, rfl, by rw [gr_leaves h rfl]; rfl, .inl rfl⟩
  | statement_2 h =>
    cases h with
    | insertStatement_1 h0 h1 h2 h3 =>
      refine ⟨_, _, rfl, ?_, opt trivial h0⟩
      simp only [leaves_cons, leaves_append, gr_leaves h1 rfl, gr_leaves h2 rfl, gr_leaves h3 rfl, statement, Writing.kw,
        leaves_columnNames, leavesOf_names, leaves_qualified, isLeaf]
      simp [LeavesOf, leaves_names]
  | statement_3 h =>
    cases h with
    | deleteStatement_1 h0 h1 h2 =>
      refine ⟨_, _, rfl, ?_, opt trivial h0⟩
      simp only [leaves_cons, leaves_append, gr_leaves h1 rfl, leaves_where_opt h2, statement, Writing.kw, leaves_where,
        leaves_qualified, isLeaf]
      simp [LeavesOf, leaves_names]
  | statement_4 h =>
    cases h with
    | updateStatement_1 h0 h1 h2 h3 =>
      refine ⟨_, _, rfl, ?_, opt trivial h0⟩
      simp only [leaves_cons, leaves_append, gr_leaves h1 rfl, gr_leaves h2 rfl, leaves_where_opt h3, statement, Writing.kw,
        leaves_where, leaves_qualified, leaves_assignments, isLeaf]
      simp [LeavesOf, leaves_names]

/-- C100. The names, numbers and strings of a text, in their order, are those of its statement, as they are written
in the text of the statement; only a WITH clause before INSERT, DELETE or UPDATE is not in the statement.

Full statement: nothing is left out; `C100_with_refuted` shows that it is false. -/
theorem C100_kept_partial (s : Str) (x : SqlStatement Name) (toks) (h : parse s = some (.ok (.ok x)))
    (ht : Tokens 0 s toks none) :
    ∃ a u b, toks.map wordOf = a ++ (u ++ b) ∧ leaves (a ++ b) = leaves (words x) ∧
      (u = [] ∨ (∃ c, Gr .tableExpressions u c) ∧ ChangesSql x) := by
  obtain ⟨toks', h1, h2⟩ := (C88_accepts_grammar _ _).mp h
  obtain ⟨rfl, _⟩ := Tokens.unique h1 ht
  clear h
  generalize toks'.map wordOf = w at h2
  cases h2 with
  | sqlStatement_1 h =>
    obtain ⟨u, v, rfl, e, hu⟩ := leaves_statement h
    exact ⟨[], u, v, rfl, e, hu⟩
  | sqlStatement_2 h =>
    obtain ⟨u, v, rfl, e, hu⟩ := leaves_statement h
    refine ⟨[_], u, v, rfl, ?_, hu⟩
    simp only [List.singleton_append, leaves_cons, words, Writing.kw, isLeaf, e]
    simp
  | sqlStatement_3 h =>
    obtain ⟨u, v, rfl, e, hu⟩ := leaves_statement h
    refine ⟨[_, _, _], u, v, rfl, ?_, hu⟩
    simp only [List.cons_append, List.nil_append, leaves_cons, words, Writing.kw, isLeaf, e]
    simp
  | sqlStatement_4 h => exact ⟨w, [], [], by simp, by rw [List.append_nil, gr_leaves h rfl]; rfl, .inl rfl⟩
  | sqlStatement_5 h => exact ⟨w, [], [], by simp, by rw [List.append_nil, gr_leaves h rfl]; rfl, .inl rfl⟩

/-- So a query keeps everything, ... -/
theorem C100_queries (s : Str) (x : SqlStatement Name) (toks) (h : parse s = some (.ok (.ok x)))
    (ht : Tokens 0 s toks none) (hx : ¬ ChangesSql x) : leaves (toks.map wordOf) = leaves (words x) := by
  obtain ⟨a, u, b, e, h1, rfl | ⟨_, h2⟩⟩ := C100_kept_partial s x toks h ht
  · rw [e]; exact h1
  · exact absurd h2 hx

/-- ... and so does every text without the keyword WITH. -/
theorem C100_without_with (s : Str) (x : SqlStatement Name) (toks) (h : parse s = some (.ok (.ok x)))
    (ht : Tokens 0 s toks none) (hw : ∀ t ∈ toks.map wordOf, t.1 ≠ .WITH) :
    leaves (toks.map wordOf) = leaves (words x) := by
  obtain ⟨a, u, b, e, h1, rfl | ⟨⟨c, h2⟩, _⟩⟩ := C100_kept_partial s x toks h ht
  · rw [e]; exact h1
  · cases h2
    exact absurd rfl (hw (.WITH, _) (by rw [e]; simp; exact .inr (.inl rfl)))

/-- A WITH clause before a statement that changes a table and has none makes no difference: the text is the same
statement, whatever the clause says. -/
theorem C100_with_refuted (s s' : Str) (x : Statement Name) (toks toks') (u : List Lexeme) (c : List (Cte Name))
    (hx : Changes x) (h : parse s = some (.ok (.ok (.statement x)))) (ht : Tokens 0 s toks none)
    (ht' : Tokens 0 s' toks' none) (hn : ∀ t, (toks.map wordOf).head? ≠ some (.WITH, t))
    (hu : Gr .tableExpressions u c) (hw : toks'.map wordOf = u ++ toks.map wordOf) :
    parse s' = some (.ok (.ok (.statement x))) := by
  obtain ⟨toks', h1, h2⟩ := (C88_accepts_grammar _ _).mp h
  obtain ⟨rfl, _⟩ := Tokens.unique h1 ht
  refine (C88_accepts_grammar _ _).mpr ⟨_, ht', ?_⟩
  rw [hw]
  clear h
  generalize toks'.map wordOf = w at h2 hn
  have none : ∀ {u' r : List Lexeme} {c : Option (List (Cte Name))}, Gr (.opt .tableExpressions) u' c → w = u' ++ r →
      u' = [] := by
    intro u' r c h e
    cases h with
    | optNone => rfl
    | optSome h =>
      cases h
      exact absurd (by rw [e]; rfl) (hn _)
  cases h2 with
  | sqlStatement_1 h =>
    cases h with
    | statement_1 h => cases hx
    | statement_2 h =>
      cases h with
      | insertStatement_1 h0 h1 h2 h3 =>
        have e := none h0 rfl
        subst e
        exact .sqlStatement_1 (.statement_2 (.insertStatement_1 (.optSome hu) h1 h2 h3))
    | statement_3 h =>
      cases h with
      | deleteStatement_1 h0 h1 h2 =>
        have e := none h0 rfl
        subst e
        exact .sqlStatement_1 (.statement_3 (.deleteStatement_1 (.optSome hu) h1 h2))
    | statement_4 h =>
      cases h with
      | updateStatement_1 h0 h1 h2 h3 =>
        have e := none h0 rfl
        subst e
        exact .sqlStatement_1 (.statement_4 (.updateStatement_1 (.optSome hu) h1 h2 h3))

private def t1 : Str := "DELETE FROM a WHERE b = 7".toList
private def t2 : Str := "WITH x AS (SELECT 1 FROM y) DELETE FROM a WHERE b = 7".toList

private def lost : SqlStatement Name :=
  .statement (.delete ⟨[⟨['a']⟩], some (.comparison .equal (.ident [⟨['b']⟩]) (.literal (.numeric ['7'])))⟩)

set_option maxRecDepth 100000 in
theorem without_lost : parse t1 = some (.ok (.ok lost)) := rfl

set_option maxRecDepth 100000 in
theorem with_lost : parse t2 = some (.ok (.ok lost)) := rfl

/-- The two texts are the same statement; the names `x` and `y` and the number `1` are lost. -/
example : leaves ((lex t1).1.map wordOf) = [['a'], ['b'], ['7']] ∧
    leaves ((lex t2).1.map wordOf) = [['x'], ['1'], ['y'], ['a'], ['b'], ['7']] ∧ parse t1 = parse t2 :=
  ⟨by decide +kernel, by decide +kernel, without_lost.trans with_lost.symm⟩

/-- C100, the full statement, is false: different names, numbers and strings can be the same statement. -/
theorem C100_lost_refuted : ¬ ∀ s s' x toks toks', parse s = some (.ok (.ok x)) → parse s' = some (.ok (.ok x)) →
    Tokens 0 s toks none → Tokens 0 s' toks' none → leaves (toks.map wordOf) = leaves (toks'.map wordOf) := by
  intro h
  obtain ⟨a, ha, _⟩ := (C88_accepts_grammar _ _).mp without_lost
  obtain ⟨b, hb, _⟩ := (C88_accepts_grammar _ _).mp with_lost
  have h1 := h _ _ _ _ _ without_lost with_lost ha hb
  have e1 := congrArg (·.1) ((C91_words _ _ _).mpr ha)
  have e2 := congrArg (·.1) ((C91_words _ _ _).mpr hb)
  simp only at e1 e2
  rw [← e1, ← e2] at h1
  exact absurd h1 (by decide +kernel)

/-- The text without the list. -/
example : ∃ toks, Tokens 0 "DELETE FROM a WHERE b = 7".toList toks none ∧
    leaves (toks.map wordOf) = [['a'], ['b'], ['7']] := by
  obtain ⟨a, ha, _⟩ := (C88_accepts_grammar _ _).mp without_lost
  have e := congrArg (·.1) ((C91_words _ _ _).mpr ha)
  refine ⟨a, ha, (C100_without_with _ _ _ without_lost ha ?_).trans (by decide +kernel)⟩
  simp only at e
  rw [← e]
  decide +kernel

/-! ## C101 -/

/-- C101. Leaving out OUTER, INNER and ASC, writing IS NULL for ISNULL, IS NOT NULL for NOTNULL, and a comma for
OFFSET, everywhere in a text, gives a text of the same statement. -/
theorem C101_synonyms (s s' : Str) (x : SqlStatement Name) (toks toks') (h : parse s = some (.ok (.ok x)))
    (ht : Tokens 0 s toks none) (ht' : Tokens 0 s' toks' none)
    (hw : toks'.map wordOf = (toks.map wordOf).flatMap plain) : parse s' = some (.ok (.ok x)) := by
  obtain ⟨toks', h1, h2⟩ := (C88_accepts_grammar _ _).mp h
  obtain ⟨rfl, _⟩ := Tokens.unique h1 ht
  refine (C88_accepts_grammar _ _).mpr ⟨_, ht', ?_⟩
  rw [hw]
  exact gr_plainOf h2

theorem plain_words {w : List Lexeme} (h : AllWords w) : AllWords (w.flatMap plain) := by
  intro x hx
  obtain ⟨y, hy, hxy⟩ := List.mem_flatMap.mp hx
  have := h y hy
  obtain ⟨k, t⟩ := y
  cases k <;> simp only [plain, List.mem_cons, List.not_mem_nil, or_false] at hxy
  all_goals first
    | (subst hxy; first | exact this | exact isWord_kw rfl)
    | (exact hxy.elim)
    | (rcases hxy with rfl | rfl | rfl <;> exact isWord_kw rfl)
    | (rcases hxy with rfl | rfl <;> exact isWord_kw rfl)

/-- There is such a text: the one with a space between two words. -/
theorem C101_plain_text (s : Str) (x : SqlStatement Name) (toks) (h : parse s = some (.ok (.ok x)))
    (ht : Tokens 0 s toks none) :
    parse (spaced ((toks.map wordOf).flatMap plain)) = some (.ok (.ok x)) := by
  obtain ⟨toks', h1, h2⟩ := (C88_accepts_grammar _ _).mp h
  obtain ⟨rfl, _⟩ := Tokens.unique h1 ht
  exact (C88_accepts_grammar _ _).mpr (standsFor_spaced (plain_words (tokens_words h1)) (gr_plainOf h2))

example : spaced (((lex "select a from b left outer join c on a isnull order by a asc limit 1 offset 2".toList).1.map
      wordOf).flatMap plain) = "select a from b left join c on a IS NULL order by a limit 1 , 2".toList ∧
    (lex "select a from b left outer join c on a isnull order by a asc limit 1 offset 2".toList).2 = none := by
  decide +kernel

end Verif.Props
