import Verif.Proof.JsonFill
import Verif.Props.Json

/-!
# The data source after a failed parse (C114)
-/

namespace Verif.Props

open Spec Json

/-! ## C114 -/

/-- C114. The decoder with its data source and the decoder that forgets it on errors have the same outcome, and give
the same data source when it is `Ok`; what was in the data source before does not matter. -/
theorem C114_agrees (env : Env) (t : Ty) (input : Str) (old : IntermediateDataSource) :
    (∀ d, decode env t input = .ok d ↔ decodeInto env t input old = (.ok (), d)) ∧
    (∀ e, decode env t input = .error e ↔ (decodeInto env t input old).1 = .error e) := by
  unfold decode decodeInto
  rw [parserFor_run]
  cases next env.alnum input with
  | error e =>
    simp only [Parse.bind_error]
    exact ⟨fun d => ⟨nofun, nofun⟩, fun e' => ⟨fun h => by cases h; rfl, fun h => by cases h; rfl⟩⟩
  | ok p =>
    obtain ⟨tok, rest⟩ := p
    simp only [Parse.bind_ok, run, IntermediateDataSource.clear]
    rcases fillFor env [] t (tok, rest) [] with ⟨r, d'⟩
    cases r with
    | error e =>
      simp only [Parse.bind_error]
      exact ⟨fun d => ⟨nofun, nofun⟩, fun e' => ⟨fun h => by cases h; rfl, fun h => by cases h; rfl⟩⟩
    | ok q =>
      simp only [Parse.bind_ok]
      exact ⟨fun d => ⟨fun h => by cases h; rfl, fun h => by cases h; rfl⟩, fun e' => ⟨nofun, nofun⟩⟩

/-- If there is a first token, the earlier contents do not matter. -/
private theorem decodeInto_old {env : Env} {t : Ty} {input : Str} {p : Pos} (h : next env.alnum input = .ok p)
    (old old' : IntermediateDataSource) : decodeInto env t input old = decodeInto env t input old' := by
  unfold decodeInto
  rw [h]
  rfl

/-- Two bytes. -/
private def pairTy : Ty := .tuple [.prim .u8, .prim .u8]

/-- One byte in the first place. -/
private def firstOnly : IntermediateDataSource := [([0], .prim ⟨.u8, (1 : BitVec 8)⟩)]

private theorem pair_fails (old : IntermediateDataSource) :
    decodeInto (plainEnv true) pairTy "[1, null]".toList old = (.error .err, firstOnly) := by
  rw [decodeInto_old (p := (.beginArray, "1, null]".toList)) (by decide +kernel) old []]
  decide +kernel

/-- C114 is false: a text that ends in an error leaves its first components behind. -/
theorem C114_unchanged_refuted : ∃ (env : Env) (t : Ty) (input : Str) (d : IntermediateDataSource),
    decodeInto env t input [] = (.error .err, d) ∧ entries d [0] = some (.prim ⟨.u8, (1 : BitVec 8)⟩) :=
  ⟨plainEnv true, pairTy, _, _, pair_fails [], rfl⟩

/-- C114 is false: it need not be empty either, because a text without a first token leaves what was there; and what
was there is lost when there is a first token. -/
theorem C114_empty_refuted : ∃ (env : Env) (t : Ty) (old : IntermediateDataSource), old ≠ [] ∧
    decodeInto env t ['#'] old = (.error .err, old) ∧ decodeInto env t ['}'] old = (.error .err, []) :=
  ⟨plainEnv true, pairTy, firstOnly, nofun, rfl, rfl⟩

/-- C114, the part that holds.  Full statement: when `parse` returns `Err` the data source is as it was.  It is so if
the first token is not a token; otherwise it depends on the text only, and there is part of a value of the type in it
and nothing else, however the parse ends. -/
theorem C114_partial (env : Env) (t : Ty) (input : Str) (old : IntermediateDataSource) :
    ((∃ e, next env.alnum input = .error e) → (decodeInto env t input old).2 = old) ∧
    ((∃ p, next env.alnum input = .ok p) →
      (∀ old', decodeInto env t input old' = decodeInto env t input old) ∧
      PartOf t (entries (decodeInto env t input old).2)) := by
  constructor
  · rintro ⟨e, he⟩
    rw [decodeInto, he]
  · rintro ⟨p, hp⟩
    refine ⟨fun _ => decodeInto_old hp _ _, ?_⟩
    rw [decodeInto]
    simp only [hp, IntermediateDataSource.clear]
    have := (fillFor_good env t [] p [] (fun _ => rfl)).2
    rcases h : fillFor env [] t p [] with ⟨r, d⟩
    rw [h] at this
    cases r <;> exact this

/-- In the parts of a value of a type every entry is a leaf of the type: so text of the wrong type never gets there. -/
theorem C114_leaves (q : Prim) (g : Path → Option Value) (h : PartOf (.prim q) g) :
    (∀ r x, g r = some x → r = [] ∧ ∃ v : PrimVal, v.kind = q ∧ x = .prim v) := by
  intro r x hx
  cases h with
  | nothing h => rw [h] at hx; cases hx
  | prim h1 h2 =>
    cases r with
    | nil => rw [h1] at hx; cases hx; exact ⟨rfl, _, rfl, rfl⟩
    | cons i r => rw [h2] at hx; cases hx

example (old : IntermediateDataSource) : PartOf pairTy (entries firstOnly) ∧
    decodeInto (plainEnv true) pairTy "[1, null]".toList old = (.error .err, firstOnly) := by
  have h := (C114_partial (plainEnv true) pairTy "[1, null]".toList old).2
    ⟨(.beginArray, "1, null]".toList), by decide +kernel⟩
  rw [pair_fails] at h
  exact ⟨h.2, pair_fails old⟩

/-- A failed parse can leave a whole value, if the text ends too early, or part of a case. -/
example : decodeInto (plainEnv true) pairTy "[1, 2".toList [] =
      (.error .err, [([0], .prim ⟨.u8, (1 : BitVec 8)⟩), ([1], .prim ⟨.u8, (2 : BitVec 8)⟩)]) ∧
    decodeInto (plainEnv true) (.enum [(['a'], .unit), (['b'], pairTy)])
      "{\"kind\": \"b\", \"value\": [7, {".toList [] =
      (.error .err, [([], .tag 1), ([1, 0], .prim ⟨.u8, (7 : BitVec 8)⟩)]) := by
  constructor <;> decide +kernel

example (old : IntermediateDataSource) :
    decodeInto (plainEnv true) pairTy "[1, 2]".toList old =
      (.ok (), [([0], .prim ⟨.u8, (1 : BitVec 8)⟩), ([1], .prim ⟨.u8, (2 : BitVec 8)⟩)]) := by
  rw [← (C114_agrees _ _ _ old).1]
  decide +kernel

/-- The entries are no part of a pair if there is a string in a place, or a third place. -/
example : ¬ PartOf (.prim .u8) (entries [([], .string ['1'])]) ∧
    ¬ PartOf pairTy (entries [([2], .prim ⟨.u8, (1 : BitVec 8)⟩)]) := by
  constructor
  · intro h
    obtain ⟨_, v, _, hv⟩ := C114_leaves _ _ h [] _ rfl
    cases hv
  · intro h
    cases h with
    | nothing h => exact absurd (h [2]) nofun
    | tuple _ h _ => exact absurd (h 2 [] (by decide)) nofun

end Verif.Props
