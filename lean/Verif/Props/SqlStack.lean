import Verif.Proof.SqlNesting
import Verif.Props.SqlText
import Verif.Props.SqlWriting
/-! # The stack that validation needs -/

namespace Verif.Props
open Verif Sql Parser Grammar Lexing Writing

/-- C124. A limit of the stack does not change an answer: validation gives the one it gives without a limit, or it
overflows the stack. -/
theorem C124_agrees (up : Char → List Char) (ctx : SetContext Name) (x : SqlStatement Name) (n : Nat) :
    x.validateTypeD (nameOps up) n ctx = deep (x.validateType (nameOps up) ctx) ∨
    x.validateTypeD (nameOps up) n ctx = .error .overflow :=
  (sqlStatement_fits n ctx x).imp id And.left

/-- C124. Room for as many nested calls as the statement is nested is enough.  Missing: one number of calls for all
statements, which does not exist by `C124_bounded_refuted`. -/
theorem C124_nesting_partial (up : Char → List Char) (ctx : SetContext Name) (x : SqlStatement Name) (n : Nat)
    (h : x.nesting ≤ n) : x.validateTypeD (nameOps up) n ctx = deep (x.validateType (nameOps up) ctx) :=
  (sqlStatement_fits n ctx x).elim id fun ⟨_, h'⟩ => absurd h' (by omega)

/-- C124. A statement is nested at most twice as deep as it has words, plus three; so validating a text needs at most
that many nested calls.  Missing: as before. -/
theorem C124_text_partial (up : Char → List Char) (ctx : SetContext Name) (s : Str) (x : SqlStatement Name)
    (hx : parse s = some (.ok (.ok x))) :
    x.nesting ≤ 2 * (lex s).1.length + 3 ∧
    x.validateTypeD (nameOps up) (2 * (lex s).1.length + 3) ctx = deep (x.validateType (nameOps up) ctx) := by
  obtain ⟨toks, h1, h2⟩ := (C88_accepts_grammar s x).mp hx
  obtain ⟨e, _⟩ := (lex_tokens s).unique h1
  have h3 : x.nesting ≤ 2 * (lex s).1.length + 3 := by
    have := gr_nestOf h2
    rw [List.length_map, ← e] at this
    exact this
  exact ⟨h3, C124_nesting_partial up ctx x _ h3⟩

/-- `- - … - 1`, with `k` signs. -/
def negations : Nat → Expr Name
  | 0 => .literal (.numeric ['1'])
  | k + 1 => .unary .negate (negations k)

set_option maxRecDepth 100000 in
theorem literal_ok : ExprOk (.literal (.numeric ['1'])) := by
  have h := (C96_expressible (selectOne (.literal (.numeric ['1'])))).1 ⟨"SELECT 1".toList, rfl⟩
  simp only [selectOne, Writable, StatementOk, SelectOk, SetExprOk, ResultColumnsOk, ColumnsOk] at h
  exact h.2.1.1.2.1

theorem negations_ok : ∀ k, ExprOk (negations k)
  | 0 => literal_ok
  | k + 1 => by
    rw [negations, ExprOk]
    exact negations_ok k

theorem negations_writable (k : Nat) : Writable (selectOne (negations k)) := by
  simp [selectOne, Writable, StatementOk, SelectOk, SetExprOk, ResultColumnsOk, ColumnsOk, negations_ok, CtesOk,
    TermsOk, LimitOk, TablesOk, ExprOptionOk, GroupOk, OptionOk]

theorem negations_level : ∀ k, 7 ≤ level (negations k)
  | 0 => by simp [negations, level]
  | k + 1 => by simp [negations, level]

theorem negations_words : ∀ k, Writing.expr (negations k) = List.replicate k (kw .minus) ++ Writing.expr (negations 0)
  | 0 => rfl
  | k + 1 => by
    have h : Writing.expr (.unary .negate (negations k)) = kw .minus :: atLevel 7 (negations k) (expr (negations k)) := by
      rw [Writing.expr]
    show Writing.expr (.unary .negate (negations k)) = _
    rw [h]
    unfold atLevel
    rw [if_neg (by have := negations_level k; omega), negations_words k]
    rfl

theorem select_words (e : Expr Name) : words (selectOne e) = kw .SELECT :: Writing.expr e := by
  simp [selectOne, words, statement, select, withClause, setExpr, orderClause, limit, resultColumns, columns, fromClause,
    clause, groupClause, mode, alias, columnsTail]

theorem spaced_length : ∀ {w : List Lexeme}, w ≠ [] → (spaced w).length + 1 = (w.map fun x => x.2.length + 1).sum
  | [w], _ => by simp [spaced]
  | w :: v :: ws, _ => by
    have := spaced_length (w := v :: ws) (by simp)
    simp only [spaced, List.length_append, List.length_cons, List.map_cons, List.sum_cons] at this ⊢
    omega

theorem negations_length (k : Nat) : (text (selectOne (negations k))).length = 2 * k + 8 := by
  have h := spaced_length (w := words (selectOne (negations k))) (by rw [select_words]; simp)
  rw [select_words, negations_words] at h
  have h0 : ((Writing.expr (negations 0)).map fun x => x.2.length + 1).sum = 2 := by
    rw [negations, Writing.expr]; rfl
  rw [List.map_cons, List.map_append, List.map_replicate, List.sum_cons, List.sum_append, h0] at h
  have h1 : (kw Kind.minus).2.length = 1 := rfl
  simp only [List.sum_replicate_nat, h1] at h
  have h3 : (kw Kind.SELECT).2.length = 6 := rfl
  rw [text, select_words, negations_words]
  omega

theorem negations_type (ops : NameOps Name) (sc : ScalarContext Name) :
    ∀ k, inferExpr ops sc (negations k) = .ok (.scalar .numeric false)
  | 0 => by rw [negations, inferExpr]; rfl
  | k + 1 => by rw [negations, inferExpr, negations_type ops sc k]; rfl

theorem negations_overflow (ops : NameOps Name) (sc : ScalarContext Name) :
    ∀ n k, n ≤ k → inferExprD ops n sc (negations k) = .error .overflow
  | 0, 0, _ => by rw [negations, inferExprD]; rfl
  | 0, k + 1, _ => by rw [negations, inferExprD]; rfl
  | n + 1, 0, h => absurd h (by omega)
  | n + 1, k + 1, h => by
    rw [negations, inferExprD]
    show inferExprD ops n sc (negations k) >>= _ = _
    rw [negations_overflow ops sc n k (by omega)]
    rfl

theorem select_overflow (ops : NameOps Name) (ctx : SetContext Name) (k : Nat) : ∀ n, n ≤ k + 5 →
    (selectOne (negations k)).validateTypeD ops n ctx = .error .overflow
  | 0, _ => rfl
  | 1, _ => rfl
  | 2, _ => by simp [selectOne, SqlStatement.validateTypeD, Statement.validateTypeD, enter, inferSelectD]; rfl
  | 3, _ => by
    simp [selectOne, SqlStatement.validateTypeD, Statement.validateTypeD, enter, inferSelectD, addCommonD,
      inferSetExprD]; rfl
  | 4, _ => by
    simp [selectOne, SqlStatement.validateTypeD, Statement.validateTypeD, enter, inferSelectD, addCommonD,
      inferSetExprD, inferFromD, checkPredicateD, checkGroupByD, inferColumnsD]; rfl
  | n + 5, h => by
    simp [selectOne, SqlStatement.validateTypeD, Statement.validateTypeD, enter, inferSelectD, addCommonD,
      inferSetExprD, inferFromD, checkPredicateD, checkGroupByD, inferColumnsD, inferColumnListD,
      negations_overflow ops _ n k (by omega)]; rfl

theorem select_type (ops : NameOps Name) (ctx : SetContext Name) (k : Nat) :
    (selectOne (negations k)).validateType ops ctx = .ok () := by
  simp only [selectOne, SqlStatement.validateType, Statement.validateType, inferSelect, addCommon, inferSetExpr,
    inferFrom, checkPredicate, checkGroupBy, inferColumns, inferColumnList, checkOrder, checkLimit, bind, Except.bind,
    pure, Except.pure, negations_type]

/-- C124, refuted: for every number of nested calls there is a text, of twice as many characters and eight, which is a
statement that is right and for which there is not enough room: `SELECT - - … - 1`. -/
theorem C124_bounded_refuted (up : Char → List Char) (ctx : SetContext Name) (n : Nat) :
    ∃ s x, s.length = 2 * n + 8 ∧ parse s = some (.ok (.ok x)) ∧ x.validateType (nameOps up) ctx = .ok () ∧
      x.validateTypeD (nameOps up) n ctx = .error .overflow :=
  ⟨_, selectOne (negations n), negations_length n, C96_round_trip _ (negations_writable n), select_type _ _ _,
    select_overflow _ _ _ _ (by omega)⟩

theorem negations_nesting : ∀ k, (negations k).nesting = k + 1
  | 0 => by rw [negations, Expr.nesting]
  | k + 1 => by rw [negations, Expr.nesting, negations_nesting k]

/-- With `k` signs room for `k + 6` calls is enough and room for fewer is not. -/
example (k n : Nat) : (selectOne (negations k)).validateTypeD (nameOps asciiUp) n sampleCtx = .ok () ↔ k + 6 ≤ n := by
  have hn : (selectOne (negations k)).nesting = k + 6 := by
    simp [selectOne, SqlStatement.nesting, Statement.nesting, Select.nesting, ctesNesting, SetExpr.nesting,
      ResultColumns.nesting, columnsNesting, tablesNesting, exprNesting, groupNesting, termsNesting, limitNesting,
      negations_nesting]
  constructor
  · intro h
    refine Decidable.byContradiction fun h' => ?_
    rw [select_overflow _ _ _ _ (by omega)] at h
    cases h
  · intro h
    rw [C124_nesting_partial asciiUp sampleCtx _ n (by omega), select_type]
    rfl

end Verif.Props
