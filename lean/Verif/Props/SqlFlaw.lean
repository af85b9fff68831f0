import Verif.Proof.SqlFlawSound
import Verif.Props.SqlPanic
/-! # Why a statement is rejected -/

namespace Verif.Props
open Verif Sql Chk

/-! ## C129 -/

/-- C129: if validating a statement reports an error, then one of the parts looked at, other than WHEN parts, has a flaw
that this error is for.
ATTACH is never rejected, DESCRIBE has only a name. -/
theorem C129_reason (up : Char → List Char) (ctx : SetContext Name) (s : SqlStatement Name) (x : SqlError)
    (h : s.validateType (nameOps up) ctx = .error (.err x)) :
    (∃ st w, (s = .statement st ∨ s = .explainQueryPlan st) ∧ Outside (nameOps up) (.statement ctx st) w ∧
      Flaw up w x) ∨
    ∃ d, s = .describe d ∧ Unknown up ctx d.qualifiedName x := by
  cases s with
  | statement st =>
    obtain ⟨w, hr, hw⟩ := fails_reason (w := .statement ctx st) trivial h
    exact .inl ⟨st, w, .inl rfl, hr, hw⟩
  | explainQueryPlan st =>
    obtain ⟨w, hr, hw⟩ := fails_reason (w := .statement ctx st) trivial h
    exact .inl ⟨st, w, .inr rfl, hr, hw⟩
  | attach a => cases h
  | describe d =>
    rw [SqlStatement.validateType, DescribeStatement.validateType, bind_err] at h
    rcases h with h | ⟨_, _, h⟩
    · exact .inr ⟨d, rfl, resolve_err h⟩
    · cases h

/-- C129 for expressions. -/
theorem C129_expression (up : Char → List Char) (sc : ScalarContext Name) (hs : sc.Scalars) (e : Expr Name)
    (x : SqlError) (h : inferExpr (nameOps up) sc e = .error (.err x)) :
    ∃ w, Outside (nameOps up) (.expr sc e) w ∧ Flaw up w x :=
  fails_reason (w := .expr sc e) hs h

/-- `1 < 'x'` has no type, and the flaw is in it. -/
example : ∃ w, Outside (nameOps asciiUp) (.expr (ScalarContext.new sampleCtx)
      (.comparison .lessThan sqlOne (.literal (.string ['x'])))) w ∧ Flaw asciiUp w .compareOrdered :=
  C129_expression asciiUp (ScalarContext.new sampleCtx) ⟨fun _ h => (nomatch h), fun _ h => (nomatch h)⟩ _ _ rfl

/-- C129: a statement is accepted exactly if none of the parts looked at is one that panics, and none, other than WHEN
parts, has a flaw. -/
theorem C129_exactly (up : Char → List Char) (ctx : SetContext Name) (hc : ctx.Ok up) (s : Statement Name) :
    s.validateType (nameOps up) ctx = .ok () ↔
      (∀ w, Reaches (nameOps up) (.statement ctx s) w → ¬ Dead (nameOps up) w) ∧
      ∀ w x, Outside (nameOps up) (.statement ctx s) w → ¬ Flaw up w x := by
  have hp := panics_iff (ops := nameOps up) (w := .statement ctx s) trivial
  constructor
  · intro h
    refine ⟨fun w hw hd => ?_, fun w x hw hf => ?_⟩
    · have : s.validateType (nameOps up) ctx = .error .panic := hp.2 ⟨w, hw, hd⟩
      rw [h] at this
      cases this
    · obtain ⟨ht, ha⟩ := outside_accepted hw (up := up) hc h
      exact flaw_not_accepted ht hf ha
  · rintro ⟨hd, hf⟩
    cases h : s.validateType (nameOps up) ctx with
    | ok u => rfl
    | error z =>
      cases z with
      | panic =>
        obtain ⟨w, hw, hdead⟩ := hp.1 h
        exact absurd hdead (hd w hw)
      | err x =>
        obtain ⟨w, hw, hflaw⟩ := fails_reason (w := .statement ctx s) trivial h
        exact absurd hflaw (hf w x hw)

/-- C129 for expressions: the type exists exactly if there are no such parts. -/
theorem C129_typed (up : Char → List Char) (sc : ScalarContext Name) (hc : sc.Tidy up) (hs : sc.Scalars)
    (e : Expr Name) :
    (∃ t, inferExpr (nameOps up) sc e = .ok t) ↔
      (∀ w, Reaches (nameOps up) (.expr sc e) w → ¬ Dead (nameOps up) w) ∧
      ∀ w x, Outside (nameOps up) (.expr sc e) w → ¬ Flaw up w x := by
  have hp := panics_iff (ops := nameOps up) (w := .expr sc e) hs
  constructor
  · intro h
    refine ⟨fun w hw hd => ?_, fun w x hw hf => ?_⟩
    · have : inferExpr (nameOps up) sc e = .error .panic := hp.2 ⟨w, hw, hd⟩
      obtain ⟨t, h⟩ := h
      rw [h] at this
      cases this
    · obtain ⟨ht, ha⟩ := outside_accepted hw (up := up) hc h
      exact flaw_not_accepted ht hf ha
  · rintro ⟨hd, hf⟩
    cases h : inferExpr (nameOps up) sc e with
    | ok u => exact ⟨u, rfl⟩
    | error z =>
      cases z with
      | panic =>
        obtain ⟨w, hw, hdead⟩ := hp.1 h
        exact absurd hdead (hd w hw)
      | err x =>
        obtain ⟨w, hw, hflaw⟩ := fails_reason (w := .expr sc e) hs h
        exact absurd hflaw (hf w x hw)

/-- Four of the errors that the code can construct are never reported. -/
theorem C129_unreported (up : Char → List Char) (ctx : SetContext Name) (s : SqlStatement Name) (x : SqlError)
    (h : s.validateType (nameOps up) ctx = .error (.err x)) : x ∉ Unreported := by
  rcases C129_reason up ctx s x h with ⟨_, _, _, _, hw⟩ | ⟨_, _, hw⟩
  · exact flaw_reported hw
  · exact unknown_reported hw

/-- `SELECT id FROM users WHERE name < id` -/
def comparesUsers : SqlStatement Name :=
  .statement (.select (.mk [] (.query .all (.list [.expr (.ident [Name.ofString "id"]) none])
    [.named [Name.ofString "users"] none]
    (some (.comparison .lessThan (.ident [Name.ofString "name"]) (.ident [Name.ofString "id"]))) none) [] none))

example : comparesUsers.validateType (nameOps asciiUp) sampleCtx = .error (.err .compareOrdered) := by decide +kernel

/-- `INSERT INTO users (id, ID) VALUES (1, 1)` -/
def insertsTwice : SqlStatement Name :=
  .statement (.insert ⟨[Name.ofString "users"], some [Name.ofString "id", Name.ofString "ID"],
    .values [[sqlOne, sqlOne]]⟩)

example : insertsTwice.validateType (nameOps asciiUp) sampleCtx = .error (.err .insertUndefinedColumn) := by
  decide +kernel

/-- Its source is an accepted part, and the flaw is the second target. -/
example : Flaw asciiUp (.statement sampleCtx (.insert ⟨[Name.ofString "users"],
    some [Name.ofString "id", Name.ofString "ID"], .values [[sqlOne, sqlOne]]⟩)) .insertUndefinedColumn := by
  refine .insertTarget (i := 1) (c := Name.ofString "ID") (r := usersRow) (v := .plain
    [⟨Name.ofString "_col0", .numeric, false⟩, ⟨Name.ofString "_col1", .numeric, false⟩]) ?_ ?_ rfl
    (.inr ⟨0, Name.ofString "id", by decide, rfl, ?_⟩)
  · decide +kernel
  · decide +kernel
  · show (Name.ofString "id").upper asciiUp = (Name.ofString "ID").upper asciiUp
    decide +kernel

/-- `CASE WHEN nosuchcolumn THEN 1 END` has a flaw, but this is not reported. -/
example : Flaw asciiUp (.expr (ScalarContext.new sampleCtx) (.ident [Name.ofString "nosuchcolumn"]))
      .undefinedAttribute ∧
    ∃ t, inferExpr (nameOps asciiUp) (ScalarContext.new sampleCtx)
      (.case none [.mk (.ident [Name.ofString "nosuchcolumn"]) sqlOne] none) = .ok t :=
  ⟨.ident (.undefined fun _ ⟨_, h, _⟩ => nomatch h), _, rfl⟩

/-- `SELECT CASE WHEN nosuchcolumn THEN 1 END` is accepted, and has none outside its WHEN part. -/
example : ∀ w x, Outside (nameOps asciiUp) (.statement sampleCtx (.select (.mk [] (.query .all (.list [.expr
    (.case none [.mk (.ident [Name.ofString "nosuchcolumn"]) sqlOne] none) none]) [] none none) [] none))) w →
    ¬ Flaw asciiUp w x :=
  ((C129_exactly asciiUp sampleCtx sampleCtx_ok _).1 (by decide +kernel)).2

end Verif.Props
