import Verif.Proof.SqlCase
import Verif.Props.SqlNames

/-! # C63, C64: CASE conditions; panics of type inference -/

namespace Verif.Props

open Verif Sql

/-- The literal 1. -/
def sqlOne : Expr Name := .literal (.numeric "1".toList)

/-- The literal `'x'`. -/
def sqlText : Expr Name := .literal (.string "x".toList)

/-- C63, refuted: `CASE WHEN 1 THEN 1 END`, `CASE WHEN nosuchcolumn THEN 1 END` and
`CASE 'x' WHEN 1 THEN 1 END` are accepted. -/
theorem C63_case_conditions_refuted :
    let sc := ScalarContext.new sampleCtx
    let ok : Chk ScalarType := .ok (.scalar .numeric true)
    inferExpr (nameOps asciiUp) sc (.case none [.mk sqlOne sqlOne] none) = ok ∧
    inferExpr (nameOps asciiUp) sc (.case none [.mk (.ident [Name.ofString "nosuchcolumn"]) sqlOne] none) = ok ∧
    inferExpr (nameOps asciiUp) sc (.case (some sqlText) [.mk sqlOne sqlOne] none) = ok := ⟨rfl, rfl, rfl⟩

/-- C63, refuted for all expressions: the conditions of a CASE have no influence on the answer.  Replacing
them by any others (for which inference returns at all) leaves it unchanged, be it a type or an error. -/
theorem C63_conditions_ignored_refuted (up : Char → List Char) (sc : ScalarContext Name)
    (operand : Option (Expr Name)) (branches branches' : List (When Name)) (els : Option (Expr Name))
    (hb : branches.map When.body = branches'.map When.body)
    (h : ∀ w ∈ branches, inferExpr (nameOps up) sc w.guard ≠ .error .panic)
    (h' : ∀ w ∈ branches', inferExpr (nameOps up) sc w.guard ≠ .error .panic) :
    inferExpr (nameOps up) sc (.case operand branches els) =
      inferExpr (nameOps up) sc (.case operand branches' els) := by
  cases operand with
  | none => exact case_ignores_guards els hb h h'
  | some e => exact case_ignores_matches e els hb h h'

example (guard : Expr Name) (h : inferExpr (nameOps asciiUp) (ScalarContext.new sampleCtx) guard ≠ .error .panic) :
    inferExpr (nameOps asciiUp) (ScalarContext.new sampleCtx) (.case none [.mk guard sqlText] (some sqlText)) =
      .ok (.scalar .varchar false) := by
  rw [C63_conditions_ignored_refuted asciiUp _ none [.mk guard sqlText] [.mk sqlOne sqlText] _ rfl
    (by intro w hw; cases List.mem_singleton.1 hw; exact h)
    (by intro w hw; cases List.mem_singleton.1 hw; intro h; cases h)]
  rfl

/-- C64, refuted: `1 IN ()`, `CASE WHEN 1 THEN (1, 1) END`, `VALUES` without rows, and a table name when the
default schema does not exist all panic. The first two can be written in the SQL grammar. -/
theorem C64_no_panic_refuted :
    let sc := ScalarContext.new sampleCtx
    inferExpr (nameOps asciiUp) sc (.inSet sqlOne (.list [])) = panics ∧
    inferExpr (nameOps asciiUp) sc (.case none [.mk sqlOne (.tuple [sqlOne, sqlOne])] none) = panics ∧
    inferExpr (nameOps asciiUp) sc (.case none [.mk sqlOne (.tuple [sqlOne])] (some sqlOne)) = panics ∧
    inferSetExpr (nameOps asciiUp) sampleCtx (.values []) = panics ∧
    (SetContext.new (nameOps asciiUp) sampleDb (Name.ofString "x")).resolveTableName (nameOps asciiUp)
      [Name.ofString "users"] = panics := ⟨rfl, rfl, rfl, rfl, rfl⟩

/-- C64, for statements without these constructions (`Safe`) and contexts whose default schema exists:
validation of any statement returns, with `Ok` or `Err`.  Missing: the statements of
`C64_no_panic_refuted`, where it is false. -/
theorem C64_no_panic_partial (up : Char → List Char) (ctx : SetContext Name) (hd : ctx.HasDefault up)
    (s : SqlStatement Name) (hs : s.Safe) : s.validateType (nameOps up) ctx ≠ .error .panic := by
  refine Chk.post_ne (sqlStatement_post ?_ s hs)
  intro h
  obtain ⟨o, ho⟩ := hd
  exact (get_none_iff up).1 h o ho

/-- C64, the same for expressions, in every context in which names stand for scalars. -/
theorem C64_expression_partial (up : Char → List Char) (sc : ScalarContext Name)
    (hd : sc.setContext.HasDefault up) (hn : sc.symbols.All Symbol.Plain) (e : Expr Name) (hs : e.Safe) :
    inferExpr (nameOps up) sc e ≠ .error .panic := by
  refine Chk.post_ne (inferExpr_post ⟨hn, ?_⟩ e hs)
  intro h
  obtain ⟨o, ho⟩ := hd
  exact (get_none_iff up).1 h o ho

/-- C64. The contexts of the code have scalars only: the empty one, and one with a relation added. -/
theorem C64_contexts (up : Char → List Char) (ctx : SetContext Name) :
    (ScalarContext.new ctx).symbols.All Symbol.Plain ∧
    ∀ (sc sc' : ScalarContext Name) (name : Name) (as : List (Attribute Name)),
      sc.symbols.All Symbol.Plain → sc.addRelation (nameOps up) name as = .ok sc' →
      sc'.symbols.All Symbol.Plain := by
  refine ⟨(fun _ h => nomatch h), ?_⟩
  intro sc sc' name as h hr
  unfold ScalarContext.addRelation at hr
  simp only at hr
  split at hr
  · cases hr
  · cases hr
    refine (addAttributes_plain h as).insert ?_
    refine TMap.All.collect ?_
    intro e he
    obtain ⟨a, _, rfl⟩ := List.mem_map.1 he
    exact ⟨_, _, rfl⟩

theorem sampleCtx_default : sampleCtx.HasDefault asciiUp := by
  unfold SetContext.HasDefault
  exact ⟨_, (get_iff_entry asciiUp sampleCtx_ok.namespaces).1
    (show sampleCtx.namespaces.get (nameOps asciiUp) sampleCtx.defaultNamespace = some _ from rfl)⟩

/-- `WITH c AS (VALUES (1)) SELECT u.*, CASE name WHEN 'x' THEN id = 1 END
FROM users AS u WHERE active ORDER BY c._col0 LIMIT 1`. -/
def sampleSelect : Select Name :=
  .mk [.mk (Name.ofString "c") none (.mk [] (.values [[sqlOne]]) [] none)]
    (.query .all
      (.list [.allFrom (Name.ofString "u"),
        .expr (.case (some (.ident [Name.ofString "name"]))
          [.mk sqlText (.comparison .equal (.ident [Name.ofString "id"]) sqlOne)] none) none])
      [.named [Name.ofString "users"] (some (Name.ofString "u"))]
      (some (.ident [Name.ofString "active"])) none)
    [.mk (.ident [Name.ofString "c", Name.ofString "_col0"]) none .ascending]
    (some (.mk sqlOne none))

theorem sampleSelect_ok : inferSelect (nameOps asciiUp) sampleCtx sampleSelect =
    .ok (.plain [⟨Name.ofString "active", .logical, true⟩, ⟨Name.ofString "id", .numeric, false⟩,
      ⟨Name.ofString "name", .varchar, true⟩, ⟨Name.ofString "col", .logical, true⟩]) := rfl

theorem sampleSelect_safe : sampleSelect.Safe := by
  simp only [sampleSelect, Select.Safe, Cte.AllSafe, SetExpr.Safe, Expr.RowsSafe, Expr.AllSafe, sqlOne, sqlText,
    Expr.Safe, OrderTerm.AllSafe, Limit.OptionSafe, Expr.OptionSafe, ResultColumns.Safe,
    ResultColumn.AllSafe, TableExpr.AllSafe, TableExpr.Safe, GroupBy.OptionSafe, GoodBranches, When.AllSafe]
  simp

example : (SqlStatement.explainQueryPlan (.select sampleSelect)).validateType (nameOps asciiUp) sampleCtx ≠
    .error .panic :=
  C64_no_panic_partial asciiUp sampleCtx sampleCtx_default _ sampleSelect_safe

/-- C64 exactly, for the constructions that `Safe` excludes, if inferring their parts returns: `e IN ()` panics
if and only if `e` is accepted; a CASE without branches panics if and only if its operand is accepted; a CASE
with just one branch, and a tuple in it, panics if and only if the operand and the tuple are accepted, whatever
its WHEN and ELSE are; VALUES without rows panics always. -/
theorem C64_exactly (up : Char → List Char) (ctx : SetContext Name) (sc : ScalarContext Name) (e : Expr Name)
    (els : Option (Expr Name)) (guard : Expr Name) (es : List (Expr Name))
    (he : inferExpr (nameOps up) sc e ≠ .error .panic) (hg : inferExpr (nameOps up) sc guard ≠ .error .panic)
    (ht : inferExpr (nameOps up) sc (.tuple es) ≠ .error .panic) :
    (inferExpr (nameOps up) sc (.inSet e (.list [])) = .error .panic ↔
      ∃ t, inferExpr (nameOps up) sc e = .ok t) ∧
    inferExpr (nameOps up) sc (.case none [] els) = .error .panic ∧
    (inferExpr (nameOps up) sc (.case (some e) [] els) = .error .panic ↔
      ∃ t, inferExpr (nameOps up) sc e = .ok t) ∧
    (inferExpr (nameOps up) sc (.case none [.mk guard (.tuple es)] els) = .error .panic ↔
      ∃ t, inferExpr (nameOps up) sc (.tuple es) = .ok t) ∧
    (inferExpr (nameOps up) sc (.case (some e) [.mk guard (.tuple es)] els) = .error .panic ↔
      (∃ t, inferExpr (nameOps up) sc e = .ok t) ∧ ∃ t, inferExpr (nameOps up) sc (.tuple es) = .ok t) ∧
    inferSetExpr (nameOps up) ctx (.values []) = .error .panic := by
  have hguard : ∀ t s, guardMatches t s ≠ .error .panic := fun t s => Chk.post_ne (guardMatches_post t s)
  have hlog : ∀ s, guardLogical s ≠ .error .panic := fun s => Chk.post_ne (guardLogical_post s)
  have helse : ∀ ts, inferElse (nameOps up) sc (.tuple ts) els = .error .panic := by
    intro ts
    cases els <;> simp [inferElse, panics]
  have hbody : (do let t ← inferBodies (nameOps up) sc [.mk guard (.tuple es)]; inferElse (nameOps up) sc t els) =
      (.error .panic : Chk ScalarType) ↔ ∃ t, inferExpr (nameOps up) sc (.tuple es) = .ok t := by
    simp only [inferBodies, foldBodies]
    cases h : inferExpr (nameOps up) sc (.tuple es) with
    | error x => cases x <;> simp_all [bind, Except.bind]
    | ok t =>
      have : ∃ ts, t = .tuple ts := by
        rw [inferExpr] at h
        cases h2 : inferExprs (nameOps up) sc es with
        | error x => simp [h2, bind, Except.bind] at h
        | ok ts => simp [h2, bind, Except.bind, pure, Except.pure] at h; exact ⟨ts, h.symm⟩
      obtain ⟨ts, rfl⟩ := this
      simp [bind, Except.bind, helse]
  have hign : ∀ check : ScalarType → Chk Unit, (∀ s, check s ≠ .error .panic) →
      ignored (checkGuards (nameOps up) sc check [.mk guard (.tuple es)]) = .ok () := by
    intro check hc
    simp only [checkGuards]
    cases h : inferExpr (nameOps up) sc guard with
    | error x => cases x <;> simp_all [bind, Except.bind, ignored]
    | ok t =>
      cases h2 : check t with
      | error x => cases x <;> simp_all [bind, Except.bind, ignored]
      | ok _ => simp [h2, bind, Except.bind, ignored]
  refine ⟨?_, ?_, ?_, ?_, ?_, rfl⟩
  · rw [inferExpr]
    cases h : inferExpr (nameOps up) sc e with
    | error x => cases x <;> simp_all [bind, Except.bind]
    | ok t => simp [bind, Except.bind, inferSet, inferList, panics]
  · rw [inferExpr]; rfl
  · rw [inferExpr]
    cases h : inferExpr (nameOps up) sc e with
    | error x => cases x <;> simp_all [bind, Except.bind]
    | ok t => simp [bind, Except.bind, inferBodies, checkGuards, ignored, panics]
  · have h1 : inferExpr (nameOps up) sc (.case none [.mk guard (.tuple es)] els) = (do
        ignored (checkGuards (nameOps up) sc guardLogical [.mk guard (.tuple es)])
        let t ← inferBodies (nameOps up) sc [.mk guard (.tuple es)]
        inferElse (nameOps up) sc t els) := by rw [inferExpr]
    rw [h1, hign guardLogical hlog]
    exact hbody
  · have h1 : inferExpr (nameOps up) sc (.case (some e) [.mk guard (.tuple es)] els) = (do
        let et ← inferExpr (nameOps up) sc e
        ignored (checkGuards (nameOps up) sc (guardMatches et) [.mk guard (.tuple es)])
        let t ← inferBodies (nameOps up) sc [.mk guard (.tuple es)]
        inferElse (nameOps up) sc t els) := by rw [inferExpr]
    rw [h1]
    cases h : inferExpr (nameOps up) sc e with
    | error x =>
      cases x with
      | panic => exact absurd h he
      | err y => exact ⟨fun h => (nomatch h), fun h => (nomatch h.1.choose_spec)⟩
    | ok t =>
      show (do
        ignored (checkGuards (nameOps up) sc (guardMatches t) [.mk guard (.tuple es)])
        let t ← inferBodies (nameOps up) sc [.mk guard (.tuple es)]
        inferElse (nameOps up) sc t els) = .error .panic ↔ _
      rw [hign (guardMatches t) (hguard t)]
      exact ⟨fun h => ⟨⟨t, rfl⟩, hbody.1 h⟩, fun h => hbody.2 h.2⟩

/-- `1 IN ()` panics, `zz IN ()` is an error. -/
example : inferExpr (nameOps asciiUp) (ScalarContext.new sampleCtx) (.inSet sqlOne (.list [])) = .error .panic ∧
    ∃ x, inferExpr (nameOps asciiUp) (ScalarContext.new sampleCtx)
      (.inSet (.ident [Name.ofString "zz"]) (.list [])) = .error (.err x) :=
  ⟨(C64_exactly asciiUp sampleCtx _ sqlOne none sqlOne [] (fun h => nomatch h) (fun h => nomatch h)
    (fun h => nomatch h)).1.2 ⟨_, rfl⟩, _, rfl⟩

end Verif.Props
