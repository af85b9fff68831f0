import Verif.Proof.SqlRules
import Verif.Props.SqlQueries

/-! # C95: the operands of every operator have the types it is for; LIMIT and OFFSET are numbers -/

namespace Verif.Props

open Verif Sql

/-- The types of names, subqueries, IN and CASE are those inferred; the rules say all others. -/
theorem C95_operators (up : Char → List Char) (sc : ScalarContext Name) (e : Expr Name) (t : ScalarType) :
    inferExpr (nameOps up) sc e = .ok t ↔ Rule (Infers (nameOps up) sc) e t :=
  ⟨infer_rule e, fun h => (rule_infer h).1⟩

theorem addCommon_setContext {up : Char → List Char} {ctx : SetContext Name} : ∀ {cs : List (Cte Name)}
    {sc sc' : ScalarContext Name}, addCommon (nameOps up) ctx sc cs = .ok sc' → sc'.setContext = sc.setContext
  | [], sc, sc', h => by
    unfold addCommon at h
    cases h
    rfl
  | .mk i names q :: cs, sc, sc', h => by
    unfold addCommon at h
    obtain ⟨typ, _, h⟩ := ok_bind h
    obtain ⟨sc1, h1, h⟩ := ok_bind h
    rw [addCommon_setContext h]
    unfold ScalarContext.addRelation at h1
    simp only at h1
    split at h1 <;> cases h1
    rfl

theorem mustBeCount_iff {msg : SqlError} {t : ScalarType} :
    mustBeCount msg t = .ok () ↔ t = .scalar .numeric false := by
  unfold mustBeCount
  split
  · simp
  · rename_i h
    constructor
    · intro h
      cases h
    · intro ht
      exact absurd ht (by simpa using h)

/-- A query with LIMIT and OFFSET is accepted exactly if it is accepted without them and they are numbers that cannot
be NULL.  They are expressions where no columns are known. -/
theorem C95_limit (up : Char → List Char) (ctx : SetContext Name) (common : List (Cte Name)) (expr : SetExpr Name)
    (orderBy : List (OrderTerm Name)) (rows : Expr Name) (offset : Option (Expr Name)) (r : RowType Name) :
    inferSelect (nameOps up) ctx (.mk common expr orderBy (some (.mk rows offset))) = .ok r ↔
      inferSelect (nameOps up) ctx (.mk common expr orderBy none) = .ok r ∧
      ∀ e ∈ rows :: offset.toList,
        Rule (Infers (nameOps up) (ScalarContext.new ctx)) e (.scalar .numeric false) := by
  have key : checkLimit (nameOps up) ctx (some (.mk rows offset)) = .ok () ↔
      ∀ e ∈ rows :: offset.toList, Rule (Infers (nameOps up) (ScalarContext.new ctx)) e (.scalar .numeric false) := by
    simp only [List.forall_mem_cons, ← C95_operators]
    unfold checkLimit
    constructor
    · intro h
      obtain ⟨t, h1, h⟩ := ok_bind h
      obtain ⟨_, h2, h⟩ := ok_bind h
      refine ⟨by rw [h1, mustBeCount_iff.mp h2], ?_⟩
      cases offset with
      | none => simp
      | some o =>
        unfold checkOffset at h
        obtain ⟨t, h1, h⟩ := ok_bind h
        simpa [mustBeCount_iff.mp h] using h1
    · rintro ⟨h1, h2⟩
      rw [h1, Chk.bind_ok, mustBeCount_iff.mpr rfl, Chk.bind_ok]
      cases offset with
      | none => rfl
      | some o =>
        rw [checkOffset, h2 o (by simp), Chk.bind_ok, mustBeCount_iff.mpr rfl]
  rw [← key]
  unfold inferSelect
  constructor
  · intro h
    obtain ⟨sc, h0, h⟩ := ok_bind h
    obtain ⟨res, h1, h⟩ := ok_bind h
    obtain ⟨_, h2, h⟩ := ok_bind h
    obtain ⟨_, h3, h⟩ := ok_bind h
    cases h
    rw [addCommon_setContext h0] at h3
    refine ⟨?_, h3⟩
    rw [h0, Chk.bind_ok, h1, Chk.bind_ok, h2]
    rfl
  · rintro ⟨h, h3⟩
    obtain ⟨sc, h0, h⟩ := ok_bind h
    obtain ⟨res, h1, h⟩ := ok_bind h
    obtain ⟨_, h2, h⟩ := ok_bind h
    obtain ⟨_, _, h⟩ := ok_bind h
    cases h
    rw [h0, Chk.bind_ok, h1, Chk.bind_ok, h2, Chk.bind_ok, addCommon_setContext h0]
    show (checkLimit (nameOps up) ctx _ >>= _) = _
    rw [h3]
    rfl

/-- `1 + 2 * -3 < 4`. -/
example : Rule (Infers (nameOps asciiUp) (ScalarContext.new sampleCtx)) (.comparison .lessThan (.binary .add sqlOne
    (.binary .multiply sqlOne (.unary .negate sqlOne))) sqlOne) (.scalar .logical false) :=
  .order (t := .numeric) (n := false) (m := false) (by simp [ComparisonOperator.Ordering]) (by simp [Orderable])
    (.arithmetic (n := false) (m := false) (by simp [BinaryOperator.Arithmetic]) .number
      (.arithmetic (n := false) (m := false) (by simp [BinaryOperator.Arithmetic]) .number (.negate .number))) .number

/-- `(1 = 1) < (1 = 1)` and `'a' < 1` have no type. -/
example (t : ScalarType) : ¬ Rule (Infers (nameOps asciiUp) (ScalarContext.new sampleCtx)) (.comparison .lessThan
    (.comparison .equal sqlOne sqlOne) (.comparison .equal sqlOne sqlOne)) t := by
  rw [← C95_operators]
  intro h
  cases h

example (t : ScalarType) : ¬ Rule (Infers (nameOps asciiUp) (ScalarContext.new sampleCtx)) (.comparison .lessThan
    (.literal (.string ['a'])) sqlOne) t := by
  rw [← C95_operators]
  intro h
  cases h

/-- `VALUES (1) LIMIT 1 OFFSET 1` is accepted, `VALUES (1) LIMIT NULL` is not. -/
example : inferSelect (nameOps asciiUp) sampleCtx (.mk [] (.values [[sqlOne]]) [] (some (.mk sqlOne (some sqlOne)))) =
    .ok (.plain [⟨Name.ofString "_col0", .numeric, false⟩]) :=
  (C95_limit asciiUp sampleCtx _ _ _ _ _ _).mpr ⟨rfl, by
    intro e he
    simp at he
    subst he
    exact .number⟩

example : inferSelect (nameOps asciiUp) sampleCtx (.mk [] (.values [[sqlOne]]) []
    (some (.mk (.literal .null) none))) = err .limitNumeric := rfl

end Verif.Props
