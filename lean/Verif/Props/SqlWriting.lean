import Verif.Proof.SqlWritable
import Verif.Props.SqlNames
import Verif.Props.SqlParser

/-! # C96, C97: writing statements as texts; DESCRIBE, ATTACH and EXPLAIN -/

namespace Verif.Props

open Verif Sql Parser Grammar Lexing Writing

/-! ## C96 -/

/-- Words that can stand in a text, with a space between two of them, are the words of that text. -/
theorem standsFor_spaced {ws : List Lexeme} {x : SqlStatement Name} (hw : AllWords ws) (h : Gr .sqlStatement ws x) :
    StandsFor (spaced ws) x := by
  obtain ⟨toks, h1, h2⟩ := laid_tokens (laid_spaced hw) [] 0 (by simp)
  exact ⟨toks, h1, by rw [h2]; exact h⟩

/-- A written statement is read back. -/
theorem C96_round_trip (x : SqlStatement Name) (h : Writable x) : parse (text x) = some (.ok (.ok x)) :=
  (C88_accepts_grammar _ _).mpr (standsFor_spaced (words_wr x h).2 (words_wr x h).1)

/-- Exactly the writable statements have a text. -/
theorem C96_expressible (x : SqlStatement Name) : (∃ s, parse s = some (.ok (.ok x))) ↔ Writable x := by
  constructor
  · rintro ⟨s, h⟩
    obtain ⟨toks, h1, h2⟩ := (C88_accepts_grammar _ _).mp h
    exact gr_okOf h2 (tokens_words h1)
  · exact fun h => ⟨_, C96_round_trip x h⟩

/-- Every statement that is read can be written, and the written text is the same statement. -/
theorem C96_normal_form (s : Str) (x : SqlStatement Name) (h : parse s = some (.ok (.ok x))) :
    parse (text x) = some (.ok (.ok x)) :=
  C96_round_trip x ((C96_expressible x).mp ⟨s, h⟩)

/-- Different statements have different texts. -/
theorem C96_faithful (x y : SqlStatement Name) (hx : Writable x) (hy : Writable y) (h : text x = text y) : x = y := by
  have h1 := C96_round_trip x hx
  rw [h, C96_round_trip y hy] at h1
  cases h1
  rfl

private def n (s : String) : Name := Name.ofString s

private def col (s : String) : Expr Name := .ident [n s]

theorem letters_ok : NameOk (n "a") ∧ NameOk (n "b") ∧ NameOk (n "c") ∧ NameOk (n "t") := by
  refine ⟨?_, ?_, ?_, ?_⟩ <;> exact isWord_lex (i := 3) (m := 0) (n := 1) (by decide +kernel) rfl

theorem quoted_ok : StringOk "x y".toList := isWord_lex (i := 0) (m := 0) (n := 5) (by decide +kernel) rfl

/-- `SELECT (a + b) * - c, a - (b - c) FROM t WHERE NOT (a OR b = 'x y') AND c IN () UNION SELECT * FROM t`, as a
statement. -/
def writtenSample : SqlStatement Name :=
  .statement (.select (.mk []
    (.op .union
      (.query .all
        (.list [.expr (.binary .multiply (.binary .add (col "a") (col "b")) (.unary .negate (col "c"))) none,
          .expr (.binary .subtract (col "a") (.binary .subtract (col "b") (col "c"))) none])
        [.named [n "t"] none]
        (some (.binary .and
          (.unary .not (.binary .or (col "a") (.comparison .equal (col "b") (.literal (.string "x y".toList)))))
          (.inSet (col "c") (.list []))))
        none)
      (.query .all .all [.named [n "t"] none] none none)) [] none))

theorem writtenSample_ok : Writable writtenSample := by
  obtain ⟨ha, hb, hc, ht⟩ := letters_ok
  simp [writtenSample, Writable, StatementOk, SelectOk, CtesOk, SetExprOk, Simple, ResultColumnsOk, ColumnsOk, ExprOk,
    col, QualifiedOk, TablesOk, TableOk, OptionOk, ExprOptionOk, GroupOk, SetSpecOk, ExprsOk, TermsOk, LimitOk, ha, hb,
    hc, ht, LiteralOk]
  exact quoted_ok

example : text writtenSample = ("SELECT ( a + b ) * - c , a - ( b - c ) FROM t " ++
    "WHERE NOT ( a OR b = 'x y' ) AND c IN ( ) UNION SELECT * FROM t").toList := by
  decide +kernel

example : parse (text writtenSample) = some (.ok (.ok writtenSample)) := C96_round_trip _ writtenSample_ok

/-- Not every statement can be written: there are no parentheses around queries, so the right side of UNION, INTERSECT
and EXCEPT is always a single query, ... -/
theorem C96_unions_refuted (s : Str) (c : List (Cte Name)) (o o' : SetOperator) (l l' r : SetExpr Name)
    (ts : List (OrderTerm Name)) (lim : Option (Limit Name)) :
    parse s ≠ some (.ok (.ok (.statement (.select (.mk c (.op o l (.op o' l' r)) ts lim))))) := by
  intro h
  have := (C96_expressible _).mp ⟨s, h⟩
  simp [Writable, StatementOk, SelectOk, SetExprOk, Simple] at this

/-- ... and no string has a quotation mark. -/
theorem C96_quotes_refuted (s : Str) (v : Str) (h : '\'' ∈ v) (k : Str → Literal)
    (hk : k ∈ [Literal.string, .date, .time, .timestamp]) (cs : List (ResultColumn Name)) (r : Option Name)
    (fs : List (TableExpr Name)) (m : SelectMode) (p : Option (Expr Name)) (g : Option (GroupBy Name)) :
    parse s ≠ some (.ok (.ok (.statement (.select
      (.mk [] (.query m (.list (.expr (.literal (k v)) r :: cs)) fs p g) [] none))))) := by
  intro hp
  have h1 := (C96_expressible _).mp ⟨s, hp⟩
  have h2 : StringOk v := by
    simp only [Writable, StatementOk, SelectOk, SetExprOk, ResultColumnsOk, ColumnsOk, ExprOk] at h1
    simp only [List.mem_cons, List.not_mem_nil, or_false] at hk
    rcases hk with rfl | rfl | rfl | rfl <;> exact h1.2.1.1.2.1
  obtain ⟨i, re, hi, hw⟩ := h2
  obtain ⟨k', r', hi', hm⟩ := hw.isWord
  rcases word_cases hi' hm with ⟨_, _, h3⟩ | ⟨_, b, h3, h4⟩ | ⟨_, h3⟩
  · exact (h3 '\'' (by simp)).2 rfl
  · have : v = b := by simpa using h3
    subst this
    have := h4 _ h
    rw [quote_not_string] at this
    cases this
  · have := h3 '\'' (by simp)
    rw [quote_not_space] at this
    cases this

/-- The three set operators have the same priority: `VALUES (1) UNION VALUES (2) INTERSECT VALUES (3)` is the
intersection of the union. -/
theorem C96_intersect : parse "VALUES (1) UNION VALUES (2) INTERSECT VALUES (3)".toList =
    some (.ok (.ok (.statement (.select (.mk []
      (.op .intersect
        (.op .union (.values [[.literal (.numeric ['1'])]]) (.values [[.literal (.numeric ['2'])]]))
        (.values [[.literal (.numeric ['3'])]])) [] none))))) := by
  set_option maxRecDepth 100000 in
  rfl

/-! ## C97 -/

/-- The words of DESCRIBE are the keyword and a name, with a schema and a dot before it or not. -/
theorem C97_describe_text (s : Str) (q : List Name) : parse s = some (.ok (.ok (.describe ⟨q⟩))) ↔
    ∃ toks, Tokens 0 s toks none ∧ ((∃ t a, toks.map wordOf = [(.DESCRIBE, t), (.ID, a)] ∧ q = [⟨a⟩]) ∨
      ∃ t a d b, toks.map wordOf = [(.DESCRIBE, t), (.ID, a), (.dot, d), (.ID, b)] ∧ q = [⟨a⟩, ⟨b⟩]) := by
  rw [C88_accepts_grammar]
  refine exists_congr fun toks => and_congr_right fun _ => ⟨fun h => ?_, ?_⟩
  · generalize toks.map wordOf = w at h
    cases h with
    | sqlStatement_5 h =>
      cases h with
      | describeStatement_1 h1 h2 =>
        cases h2
        cases h1 with
        | optNone => exact .inl ⟨_, _, rfl, rfl⟩
        | optSome h1 =>
          cases h1 with
          | schemaName_1 h1 =>
            cases h1
            exact .inr ⟨_, _, _, _, rfl, rfl⟩
  · rintro (⟨t, a, h, rfl⟩ | ⟨t, a, d, b, h, rfl⟩) <;> rw [h]
    · exact .sqlStatement_5 (.describeStatement_1 (s := none) .optNone .identifier_1)
    · exact .sqlStatement_5 (.describeStatement_1 (s := some ⟨a⟩) (.optSome (.schemaName_1 .identifier_1)) .identifier_1)

/-- ATTACH FILE has a string, AS, and a name with or without a schema. -/
theorem C97_attach_text (s : Str) (q : List Name) (p : Str) : parse s = some (.ok (.ok (.attach ⟨q, p⟩))) ↔
    ∃ toks, Tokens 0 s toks none ∧ ∃ t1 t2 t3, let file := [(Kind.ATTACH, t1), (.FILE, t2),
      (.STRING_LIT, '\'' :: (p ++ ['\''])), (.AS, t3)]
      (∃ a, toks.map wordOf = file ++ [(.ID, a)] ∧ q = [⟨a⟩]) ∨
      ∃ a d b, toks.map wordOf = file ++ [(.ID, a), (.dot, d), (.ID, b)] ∧ q = [⟨a⟩, ⟨b⟩] := by
  rw [C88_accepts_grammar]
  refine exists_congr fun toks => and_congr_right fun _ => ⟨fun h => ?_, ?_⟩
  · generalize toks.map wordOf = w at h
    cases h with
    | sqlStatement_4 h =>
      cases h with
      | attachStatement_1 h0 h1 h2 =>
        cases h0
        cases h2
        cases h1 with
        | optNone => exact ⟨_, _, _, .inl ⟨_, rfl, rfl⟩⟩
        | optSome h1 =>
          cases h1 with
          | schemaName_1 h1 =>
            cases h1
            exact ⟨_, _, _, .inr ⟨_, _, _, rfl, rfl⟩⟩
  · rintro ⟨t1, t2, t3, ⟨a, h, rfl⟩ | ⟨a, d, b, h, rfl⟩⟩ <;> rw [h]
    · exact .sqlStatement_4 (.attachStatement_1 (s := none) .stringLiteral_1 .optNone .identifier_1)
    · have h1 : Gr (.opt .schemaName) ([(.ID, a)] ++ [(.dot, d)]) (some ⟨a⟩) := .optSome (.schemaName_1 .identifier_1)
      exact .sqlStatement_4 (.attachStatement_1 (t0 := t1) (t1 := t2) (t3 := t3) .stringLiteral_1 h1
        (.identifier_1 (t := b)))

/-- So `schema_name` and `table_name` never panic for statements from texts. -/
theorem C97_names (s : Str) (x : SqlStatement Name) (h : parse s = some (.ok (.ok x))) (q : List Name)
    (hx : x = .describe ⟨q⟩ ∨ ∃ p, x = .attach ⟨q, p⟩) :
    ∃ o n, schemaName q = .ok o ∧ tableName q = .ok n ∧ q = o.toList ++ [n] := by
  have hq : (∃ a, q = [a]) ∨ ∃ a b, q = [a, b] := by
    rcases hx with rfl | ⟨p, rfl⟩
    · obtain ⟨_, _, ⟨_, a, _, hq⟩ | ⟨_, a, _, b, _, hq⟩⟩ := (C97_describe_text s q).mp h
      · exact .inl ⟨_, hq⟩
      · exact .inr ⟨_, _, hq⟩
    · obtain ⟨_, _, _, _, _, ⟨a, _, hq⟩ | ⟨a, _, b, _, hq⟩⟩ := (C97_attach_text s q p).mp h
      · exact .inl ⟨_, hq⟩
      · exact .inr ⟨_, _, hq⟩
  rcases hq with ⟨a, rfl⟩ | ⟨a, b, rfl⟩
  · exact ⟨none, a, rfl, rfl, rfl⟩
  · exact ⟨some a, b, rfl, rfl, rfl⟩

/-- DESCRIBE is accepted exactly if the name is that of a table. -/
theorem C97_describe (up : Char → List Char) (ctx : SetContext Name) (hc : ctx.Ok up) (q : List Name) :
    SqlStatement.validateType (nameOps up) ctx (.describe ⟨q⟩) = .ok () ↔ ∃ r, Resolves up ctx q r := by
  have h (r) := C61_resolve up ctx hc q r
  simp only [← h, SqlStatement.validateType, DescribeStatement.validateType]
  cases ctx.resolveTableName (nameOps up) q with
  | ok r => exact ⟨fun _ => ⟨r, rfl⟩, fun _ => rfl⟩
  | error e =>
    refine ⟨fun h => (by cases h), ?_⟩
    rintro ⟨r, h⟩
    cases h

/-- EXPLAIN, with or without QUERY PLAN, before the text of a statement explains that statement, and is accepted exactly
if the statement is. -/
theorem C97_explain (s s' : Str) (st : Statement Name) (h : parse s = some (.ok (.ok (.statement st)))) (toks toks')
    (hs : Tokens 0 s toks none) (hs' : Tokens 0 s' toks' none)
    (hw : (∃ t, toks'.map wordOf = (.EXPLAIN, t) :: toks.map wordOf) ∨
      ∃ t t1 t2, toks'.map wordOf = (.EXPLAIN, t) :: (.QUERY, t1) :: (.PLAN, t2) :: toks.map wordOf) :
    ∃ x, parse s' = some (.ok (.ok x)) ∧ x = .explainQueryPlan st ∧ ∀ up ctx,
      x.validateType (nameOps up) ctx = SqlStatement.validateType (nameOps up) ctx (.statement st) := by
  refine ⟨_, (C88_accepts_grammar _ _).mpr ⟨toks', hs', ?_⟩, rfl, fun _ _ => rfl⟩
  obtain ⟨u, h1, h2⟩ := (C88_accepts_grammar _ _).mp h
  obtain ⟨rfl, _⟩ := hs.unique h1
  generalize toks.map wordOf = w at h2 hw
  cases h2 with
  | sqlStatement_1 h2 =>
    rcases hw with ⟨t, hw⟩ | ⟨t, t1, t2, hw⟩ <;> rw [hw]
    · exact .sqlStatement_2 h2
    · exact .sqlStatement_3 h2

/-- `DESCRIBE main.users`. -/
example : parse "DESCRIBE main.users".toList = some (.ok (.ok (.describe ⟨[n "main", n "users"]⟩))) ∧
    SqlStatement.validateType (nameOps asciiUp) sampleCtx (.describe ⟨[n "main", n "USERS"]⟩) = .ok () ∧
    ∀ q, SqlStatement.validateType (nameOps asciiUp) sampleCtx (.describe ⟨[n "nobody", q]⟩) ≠ .ok () := by
  refine ⟨?_, rfl, fun q h => by cases h⟩
  set_option maxRecDepth 100000 in
  rfl

example : parse "explain QUERY plan DELETE FROM users".toList =
    some (.ok (.ok (.explainQueryPlan (.delete ⟨[n "users"], none⟩)))) := by
  set_option maxRecDepth 100000 in
  rfl

end Verif.Props
