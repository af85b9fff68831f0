import Verif.Proof.SqlPanicText
import Verif.Props.SqlExpr
import Verif.Props.SqlText
import Verif.Props.SqlWriting
/-! # Where validation panics, exactly -/

namespace Verif.Props
open Verif Sql Parser Grammar Lexing Writing Chk

/-! ## C64 -/

/-- C64, exactly: validating a statement panics if and only if one of the parts looked at is one of the constructions of
`Dead`.  ATTACH is never looked at, DESCRIBE has only a name. -/
theorem C64_panics_iff (up : Char → List Char) (ctx : SetContext Name) (x : SqlStatement Name) :
    x.validateType (nameOps up) ctx = .error .panic ↔
      (∃ s w, (x = .statement s ∨ x = .explainQueryPlan s) ∧ Reaches (nameOps up) (.statement ctx s) w ∧
        Dead (nameOps up) w) ∨
      ∃ d, x = .describe d ∧ Nowhere (nameOps up) ctx d.qualifiedName := by
  have key (s : Statement Name) := panics_iff (ops := nameOps up) (w := .statement ctx s) trivial
  cases x with
  | statement s =>
    refine (key s).trans ⟨fun ⟨w, h, hd⟩ => .inl ⟨s, w, .inl rfl, h, hd⟩, ?_⟩
    rintro (⟨_, w, he | he, h, hd⟩ | ⟨_, he, _⟩) <;> cases he
    exact ⟨w, h, hd⟩
  | explainQueryPlan s =>
    refine (key s).trans ⟨fun ⟨w, h, hd⟩ => .inl ⟨s, w, .inr rfl, h, hd⟩, ?_⟩
    rintro (⟨_, w, he | he, h, hd⟩ | ⟨_, he, _⟩) <;> cases he
    exact ⟨w, h, hd⟩
  | attach a =>
    refine ⟨(fun h => nomatch h), ?_⟩
    rintro (⟨_, w, he | he, _⟩ | ⟨_, he, _⟩) <;> cases he
  | describe d =>
    have hd : (SqlStatement.describe d).validateType (nameOps up) ctx = .error .panic ↔
        Nowhere (nameOps up) ctx d.qualifiedName := by
      rw [SqlStatement.validateType, DescribeStatement.validateType, bind_panic, resolve_nowhere]
      exact ⟨fun h => h.elim id (fun ⟨_, _, h⟩ => nomatch h), .inl⟩
    refine hd.trans ⟨fun h => .inr ⟨d, rfl, h⟩, ?_⟩
    rintro (⟨_, w, he | he, _⟩ | ⟨_, he, h⟩) <;> cases he
    exact h

/-- C64, exactly, for expressions. -/
theorem C64_expression_iff (up : Char → List Char) (sc : ScalarContext Name) (hs : sc.Scalars) (e : Expr Name) :
    inferExpr (nameOps up) sc e = .error .panic ↔
      ∃ w, Reaches (nameOps up) (.expr sc e) w ∧ Dead (nameOps up) w :=
  panics_iff (w := .expr sc e) hs

/-- The contexts for which this holds are those of `C64_contexts`. -/
theorem C64_scalars (sc : ScalarContext Name) : sc.Scalars ↔ sc.symbols.All Symbol.Plain := scalars_iff

/-- `1 IN ()` -/
def inNothing : Expr Name := .inSet sqlOne (.list [])

/-- The second THEN part is looked at though the first is a tuple and its WHEN part is not LOGICAL. -/
example : inferExpr (nameOps asciiUp) (ScalarContext.new sampleCtx)
    (.case none [.mk sqlOne (.tuple [sqlOne, sqlOne]), .mk sqlOne inNothing] none) = .error .panic :=
  (C64_expression_iff asciiUp _ ((C64_scalars _).2 (C64_contexts asciiUp _).1) _).2
    ⟨_, .step (.caseSecond (fun _ h => nomatch h) ⟨_, rfl⟩) (.here _), .emptyList ⟨_, rfl⟩⟩

/-- `VALUES (1), (1, 1 IN ())` is accepted, since the second row is cut: and `1 IN ()` is not looked at. -/
example : (SqlStatement.statement (.select (.mk [] (.values [[sqlOne], [sqlOne, inNothing]]) [] none))).validateType
    (nameOps asciiUp) sampleCtx = .ok () := rfl

/-- In `VALUES (1, 1), (1, 1 IN ())` it is. -/
example : (SqlStatement.statement (.select (.mk [] (.values [[sqlOne, sqlOne], [sqlOne, inNothing]])
    [] none))).validateType (nameOps asciiUp) sampleCtx = .error .panic :=
  (C64_panics_iff asciiUp sampleCtx _).2 (.inl ⟨_, _, .inl rfl,
    .step .selectStatement (.step (.body rfl)
      (.step (.laterRow (above := [[sqlOne, sqlOne]]) (pre := [sqlOne]) rfl (by decide) ⟨_, rfl⟩) (.here _))),
    .emptyList ⟨_, rfl⟩⟩)

/-- A statement with a wrong part before the dead one does not panic. -/
example : ∃ e, (SqlStatement.statement (.select (.mk [] (.query .all (.list [.expr inNothing none])
    [.named [Name.ofString "nowhere"] none] none none) [] none))).validateType (nameOps asciiUp) sampleCtx =
    .error (.err e) := ⟨_, rfl⟩

/-! ## C94 -/

/-- C94, exactly: if there is a default schema, a text panics if and only if it is a statement (or its EXPLAIN) in which
one of the parts looked at is an empty list after IN, or a CASE with one branch that is a tuple of two or more. -/
theorem C94_exactly (up : Char → List Char) (ctx : SetContext Name) (hd : ctx.HasDefault up) (s : Str)
    (x : SqlStatement Name) (hx : parse s = some (.ok (.ok x))) :
    x.validateType (nameOps up) ctx = .error .panic ↔
      ∃ st, (x = .statement st ∨ x = .explainQueryPlan st) ∧ ∃ sc e,
        Reaches (nameOps up) (.statement ctx st) (.expr sc e) ∧
        ((∃ l, e = .inSet l (.list []) ∧ (Work.expr sc l).Accepted (nameOps up)) ∨
        ∃ operand guard es els, e = .case operand [.mk guard (.tuple es)] els ∧ 2 ≤ es.length ∧
          (∀ o, operand = some o → (Work.expr sc o).Accepted (nameOps up)) ∧
          (Work.expr sc (.tuple es)).Accepted (nameOps up)) := by
  have hdef : ctx.namespaces.get (nameOps up) ctx.defaultNamespace ≠ none := by
    obtain ⟨o, ho⟩ := hd
    exact fun h => (get_none_iff up).1 h o ho
  have hw := (C96_expressible x).1 ⟨s, hx⟩
  rw [C64_panics_iff]
  constructor
  · rintro (⟨st, w, he, hr, hdead⟩ | ⟨d, rfl, _, _, _, h⟩)
    · have hok : StatementOk st := by rcases he with rfl | rfl <;> exact hw
      have hc : w.context = ctx := reaches_context hr trivial
      rcases dead_written hdead (reaches_ok hr hok) (by rw [hc]; exact hdef) with
        ⟨sc, l, rfl, h⟩ | ⟨sc, operand, guard, es, els, rfl, h⟩
      · exact ⟨st, he, sc, _, hr, .inl ⟨l, rfl, h⟩⟩
      · exact ⟨st, he, sc, _, hr, .inr ⟨operand, guard, es, els, rfl, h⟩⟩
    · exact absurd h hdef
  · rintro ⟨st, he, sc, e, hr, ⟨l, rfl, h⟩ | ⟨operand, guard, es, els, rfl, _, ho, ht⟩⟩
    · exact .inl ⟨st, _, he, hr, .emptyList h⟩
    · exact .inl ⟨st, _, he, hr, .tupleBranch ho ht⟩

example : (selectOne inNothing).validateType (nameOps asciiUp) sampleCtx = .error .panic :=
  (C94_exactly asciiUp sampleCtx sampleCtx_default _ _ parse_in_empty).2 ⟨_, .inl rfl, _, _,
    .step .selectStatement (.step (.body rfl) (.step (.column (pre := []) rfl ⟨_, rfl⟩) (.here _))),
    .inl ⟨_, rfl, _, rfl⟩⟩

end Verif.Props
