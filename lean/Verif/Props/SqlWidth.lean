import Verif.Proof.SqlWidth
import Verif.Props.SqlCalls
/-! # The number of columns of queries -/

namespace Verif.Props
open Verif Sql Parser Grammar Lexing Writing

/-- C126. If no table that can be named has more than `w` columns, a query has at most `w` for each of its places;
common table expressions make no difference. -/
theorem C126_places (up : Char → List Char) (ctx : SetContext Name) (hc : ctx.Ok up) (w : Nat) (hw : 1 ≤ w)
    (ht : ∀ q r, Resolves up ctx q r → r.attributes.length ≤ w) (x : Select Name) (r : RowType Name)
    (h : inferSelect (nameOps up) ctx x = .ok r) : r.attributes.length ≤ w * x.places :=
  select_width hw (fun q r hr => ht q r ((resolve_ok_iff hc q r).1 hr)) x h

/-- C126. The query of a text has at most `w` columns for every two words. -/
theorem C126_text (up : Char → List Char) (ctx : SetContext Name) (hc : ctx.Ok up) (w : Nat) (hw : 1 ≤ w)
    (ht : ∀ q r, Resolves up ctx q r → r.attributes.length ≤ w) (s : Str) (x : Select Name)
    (hx : parse s = some (.ok (.ok (.statement (.select x))))) (r : RowType Name)
    (h : inferSelect (nameOps up) ctx x = .ok r) : 2 * r.attributes.length ≤ w * (lex s).1.length := by
  obtain ⟨toks, h1, h2⟩ := (C88_accepts_grammar s _).mp hx
  obtain ⟨e, _⟩ := (lex_tokens s).unique h1
  have h3 := gr_placesOf h2
  rw [PlacesOf, List.length_map, ← e] at h3
  have h4 := Nat.mul_le_mul_left w (h3 x rfl)
  have h5 := C126_places up ctx hc w hw ht x r h
  rw [Nat.mul_left_comm] at h4
  omega

/-- `SELECT u.*, …, u.* FROM users AS u` -/
def stars (k : Nat) : Select Name :=
  .mk [] (.query .all (.list (List.replicate k (.allFrom (Name.ofString "u"))))
    [.named [Name.ofString "users"] (some (Name.ofString "u"))] none none) [] none

theorem sampleCtx_width : ∀ q r, Resolves asciiUp sampleCtx q r → r.attributes.length ≤ 3 := by
  have key : ∀ objects ∈ sampleCtx.namespaces.map Prod.snd, ∀ r ∈ objects.map Prod.snd, r.attributes.length ≤ 3 := by
    decide +kernel
  have lift : ∀ {s t objects r}, Entry asciiUp sampleCtx.namespaces s objects → Entry asciiUp objects t r →
      r.attributes.length ≤ 3 := by
    rintro s t objects r ⟨e, he, _, rfl⟩ ⟨e', he', _, rfl⟩
    exact key _ (List.mem_map_of_mem he) _ (List.mem_map_of_mem he')
  intro q r h
  cases h with
  | common h => obtain ⟨e, he, _⟩ := h; cases he
  | default _ h1 h2 => exact lift h1 h2
  | qualified _ h1 h2 => exact lift h1 h2

/-- The relation `u`. -/
def starsContext : ScalarContext Name :=
  match (ScalarContext.new sampleCtx).addRelation (nameOps asciiUp) (Name.ofString "u") usersRow.attributes with
  | .ok sc => sc
  | .error _ => .new sampleCtx

/-- The columns of `u`, in the order of their names. -/
def starsColumns : List (Attribute Name) :=
  [⟨Name.ofString "active", .logical, true⟩, ⟨Name.ofString "id", .numeric, false⟩,
    ⟨Name.ofString "name", .varchar, true⟩]

theorem stars_columns : ∀ (k : Nat) (g : TMap Name Nat), ∃ as, inferColumnList (nameOps asciiUp) starsContext g
    (List.replicate k (.allFrom (Name.ofString "u"))) = .ok as ∧ as.length = 3 * k
  | 0, g => ⟨[], by rw [List.replicate, inferColumnList], rfl⟩
  | k + 1, g => by
    obtain ⟨as, h1, h2⟩ := stars_columns k (generateColumns (nameOps asciiUp) g starsColumns).2
    refine ⟨(generateColumns (nameOps asciiUp) g starsColumns).1 ++ as, ?_, ?_⟩
    · rw [List.replicate, inferColumnList]
      rw [show starsContext.symbols.get (nameOps asciiUp) (Name.ofString "u") = some (.relation
        [(Name.ofString "active", .scalar .logical true), (Name.ofString "id", .scalar .numeric false),
          (Name.ofString "name", .scalar .varchar true)]) by rfl]
      exact congrArg (fun (c : Chk (List (Attribute Name))) =>
        (do return (generateColumns (nameOps asciiUp) g starsColumns).1 ++ (← c))) h1
    · rw [List.length_append, generateColumns_length, h2]
      show 3 + _ = _
      omega

/-- The bound is reached: the widest table has three columns, and `u.*` given `k` times has `3 * k` columns. -/
example (k : Nat) : ∃ r, inferSelect (nameOps asciiUp) sampleCtx (stars k) = .ok r ∧ r.attributes.length = 3 * k ∧
    (stars k).places = k := by
  obtain ⟨as, h1, h2⟩ := stars_columns k []
  refine ⟨.plain as, ?_, h2, ?_⟩
  · have h3 : inferTable (nameOps asciiUp) (ScalarContext.new sampleCtx)
        (.named [Name.ofString "users"] (some (Name.ofString "u"))) = .ok (starsContext, usersRow.attributes) := by
      rw [inferTable]; rfl
    simp only [stars, inferSelect, addCommon, inferSetExpr, inferFrom, h3, checkPredicate, checkGroupBy, inferColumns,
      checkOrder, checkLimit, bind, Except.bind, pure, Except.pure, h1]
  · simp [stars, Select.places, SetExpr.places]

set_option maxRecDepth 100000 in
/-- A text of eight words and three columns. -/
example : ∃ x r, parse "SELECT 1, id, name FROM users".toList = some (.ok (.ok (.statement (.select x)))) ∧
    inferSelect (nameOps asciiUp) sampleCtx x = .ok r ∧ r.attributes.length = 3 ∧
    (lex "SELECT 1, id, name FROM users".toList).1.length = 8 := by
  refine ⟨_, _, rfl, rfl, rfl, rfl⟩

end Verif.Props
