import Verif.Proof.SqlOrder
import Verif.Props.SqlStatements
import Verif.Props.SqlExpr

namespace Verif.Props

open Verif Sql Chk

/-- **C138** for FROM.  A query with the same tables and subqueries (with the same aliases) in its FROM clause, in any
order and joined in any way, has the same columns. -/
theorem C138_from (up : Char → List Char) (ctx : SetContext Name) (hok : ctx.Ok up)
    (froms froms' : List (TableExpr Name))
    (h : (froms.flatMap TableExpr.leaves).Perm (froms'.flatMap TableExpr.leaves)) (m m' : SelectMode)
    (cs : List (ResultColumn Name)) (w : Option (Expr Name)) (g : Option (GroupBy Name)) (r : RowType Name) :
    inferSetExpr (nameOps up) ctx (.query m (.list cs) froms w g) = .ok r ↔
      inferSetExpr (nameOps up) ctx (.query m' (.list cs) froms' w g) = .ok r :=
  ⟨query_order hok h m m' cs w g r, query_order hok h.symm m' m cs w g r⟩

/-- **C138** for `SELECT * FROM`: the query is accepted in either case, and the types of its columns are the same, but
for their order. -/
theorem C138_star (up : Char → List Char) (ctx : SetContext Name) (hok : ctx.Ok up)
    (froms froms' : List (TableExpr Name))
    (h : (froms.flatMap TableExpr.leaves).Perm (froms'.flatMap TableExpr.leaves)) (m m' : SelectMode)
    (w : Option (Expr Name)) (g : Option (GroupBy Name)) (r : RowType Name)
    (hq : inferSetExpr (nameOps up) ctx (.query m .all froms w g) = .ok r) :
    ∃ r', inferSetExpr (nameOps up) ctx (.query m' .all froms' w g) = .ok r' ∧
      (r.attributes.map fun a => (a.typ, a.isNull)).Perm (r'.attributes.map fun a => (a.typ, a.isNull)) :=
  star_order hok h m m' w g r hq

/-- **C138** for UPDATE.  Only which column is assigned which expression matters, not the order and not how columns
that are assigned the same expression are grouped.  (The grammar has no assignment without a column.) -/
theorem C138_update (up : Char → List Char) (ctx : SetContext Name) (hok : ctx.Ok up) (s s' : UpdateStatement Name)
    (ht : s'.tableName = s.tableName) (hw : s'.wher = s.wher) (hn : ∀ a ∈ s.assignments, a.columns ≠ [])
    (hn' : ∀ a ∈ s'.assignments, a.columns ≠ []) (hp : s.pairs.Perm s'.pairs)
    (hd : ∀ typ, Resolves up ctx s.tableName typ → DistinctColumns up typ.attributes) :
    s.validateType (nameOps up) ctx = .ok () ↔ s'.validateType (nameOps up) ctx = .ok () :=
  ⟨update_order hok ht hw hn' hp hd, update_order hok ht.symm hw.symm hn hp.symm (ht ▸ hd)⟩

/-- **C138** for INSERT.  The columns may be given in any order, if the values in the rows are in that order too. -/
theorem C138_insert (up : Char → List Char) (ctx : SetContext Name) (hok : ctx.Ok up) (table : List Name) (k : Nat)
    (cols cols' : List (Name × (Nat → Expr Name))) (hp : cols.Perm cols')
    (hd : ∀ typ, Resolves up ctx table typ → DistinctColumns up typ.attributes) :
    (insertRows table k cols).validateType (nameOps up) ctx = .ok () ↔
      (insertRows table k cols').validateType (nameOps up) ctx = .ok () :=
  ⟨insert_order hok hp hd, insert_order hok hp.symm hd⟩

/-- **C138** for INSERT: each INSERT of rows of the same length, one expression for each column, is one of these. -/
theorem C138_insert_all (table cs : List Name) (row : List (Expr Name)) (rows : List (List (Expr Name)))
    (h : ∀ r ∈ row :: rows, r.length = cs.length) :
    ∃ cols, InsertStatement.mk table (some cs) (.values (row :: rows)) = insertRows table rows.length cols := by
  refine ⟨(List.range cs.length).map fun j => (cs[j]?.getD ⟨[]⟩,
    fun i : Nat => (((row :: rows)[i]?.getD [])[j]?).getD (.tuple [])), ?_⟩
  have h1 : ((List.range cs.length).map fun j => (cs[j]?.getD ⟨[]⟩,
      fun i : Nat => (((row :: rows)[i]?.getD [])[j]?).getD (Expr.tuple []))).map (·.1) = cs := by
    apply List.ext_getElem
    · simp
    · intro i h1 h2
      simp [List.getElem?_eq_getElem h2]
  unfold insertRows
  rw [h1]
  congr 2
  apply List.ext_getElem
  · simp
  · intro i h1 h2
    have hl := h _ (List.getElem_mem h1)
    simp only [List.getElem_map, List.getElem_range]
    apply List.ext_getElem
    · simp [hl]
    · intro j g1 g2
      simp only [List.getElem_map, List.getElem_range]
      rw [List.getElem?_eq_getElem h1, Option.getD_some, List.getElem?_eq_getElem g1, Option.getD_some]

/-- `SELECT u.id FROM users AS u, users AS v WHERE v.id = u.id`, and `… FROM users AS v JOIN users AS u ON 1 …`. -/
def joinedQuery (joined : Bool) : SetExpr Name :=
  let u : TableExpr Name := .named [Name.ofString "users"] (some (Name.ofString "u"))
  let v : TableExpr Name := .named [Name.ofString "users"] (some (Name.ofString "v"))
  .query .all (.list [.expr (.ident [Name.ofString "u", Name.ofString "id"]) none])
    (if joined then [.join v u (.join .inner) (.expr sqlOne)] else [u, v])
    (some (.comparison .equal (.ident [Name.ofString "v", Name.ofString "id"])
      (.ident [Name.ofString "u", Name.ofString "id"]))) none

/-- The hypotheses of `C138_from` hold of it. -/
example : inferSetExpr (nameOps asciiUp) sampleCtx (joinedQuery true) =
    .ok (.plain [⟨Name.ofString "col", .numeric, false⟩]) :=
  (C138_from asciiUp sampleCtx sampleCtx_ok
    [.named [Name.ofString "users"] (some (Name.ofString "u")), .named [Name.ofString "users"] (some (Name.ofString "v"))]
    [.join (.named [Name.ofString "users"] (some (Name.ofString "v")))
      (.named [Name.ofString "users"] (some (Name.ofString "u"))) (.join .inner) (.expr sqlOne)]
    (List.Perm.swap _ _ _) _ _ _ _ _ _).1
    (show inferSetExpr (nameOps asciiUp) sampleCtx (joinedQuery false) = _ by decide +kernel)

/-- The hypotheses of `C138_star` hold of `SELECT * FROM users, aux.counts`. -/
example : ∃ r, inferSetExpr (nameOps asciiUp) sampleCtx (.query .all .all
    [.named [Name.ofString "aux", Name.ofString "counts"] none, .named [Name.ofString "users"] none] none none) = .ok r ∧
    r.attributes.length = 4 := by
  obtain ⟨r, h1, h2⟩ := C138_star asciiUp sampleCtx sampleCtx_ok
    [.named [Name.ofString "users"] none, .named [Name.ofString "aux", Name.ofString "counts"] none]
    [.named [Name.ofString "aux", Name.ofString "counts"] none, .named [Name.ofString "users"] none]
    (List.Perm.swap _ _ _) .all .all none none _ rfl
  refine ⟨r, h1, ?_⟩
  have := h2.length_eq
  rw [List.length_map, List.length_map] at this
  exact this.symm

/-- The columns of `SELECT *` do depend on the order. -/
example : inferSetExpr (nameOps asciiUp) sampleCtx (.query .all .all
      [.named [Name.ofString "aux", Name.ofString "counts"] none, .named [Name.ofString "users"] none] none none) ≠
    inferSetExpr (nameOps asciiUp) sampleCtx (.query .all .all
      [.named [Name.ofString "users"] none, .named [Name.ofString "aux", Name.ofString "counts"] none] none none) := by
  decide +kernel

/-- The hypotheses of `C138_update` hold of the sample update, `SET name = 'x', Active = NOT active`, in reverse. -/
example : (UpdateStatement.mk sampleUpdate.tableName sampleUpdate.assignments.reverse sampleUpdate.wher).validateType
    (nameOps asciiUp) sampleCtx = .ok () :=
  (C138_update asciiUp sampleCtx sampleCtx_ok sampleUpdate
    ⟨sampleUpdate.tableName, sampleUpdate.assignments.reverse, sampleUpdate.wher⟩ rfl rfl (by simp [sampleUpdate])
    (by simp [sampleUpdate]) (List.Perm.swap _ _ _) fun typ h => users_resolves typ h ▸ usersRow_distinct).1 sampleUpdate_ok

/-- The hypotheses of `C138_insert` hold of `INSERT INTO users (Name, ID) VALUES ('x', 1), ('x', 1)`. -/
example : (InsertStatement.mk [Name.ofString "users"] (some [Name.ofString "ID", Name.ofString "Name"])
    (.values [[sqlOne, sqlText], [sqlOne, sqlText]])).validateType (nameOps asciiUp) sampleCtx = .ok () :=
  (C138_insert asciiUp sampleCtx sampleCtx_ok [Name.ofString "users"] 1
    [(Name.ofString "Name", fun _ => sqlText), (Name.ofString "ID", fun _ => sqlOne)]
    [(Name.ofString "ID", fun _ => sqlOne), (Name.ofString "Name", fun _ => sqlText)] (List.Perm.swap _ _ _)
    fun typ h => users_resolves typ h ▸ usersRow_distinct).1 rfl

/-- The hypotheses of `C138_insert_all` hold of it. -/
example : ∃ cols, InsertStatement.mk [Name.ofString "users"] (some [Name.ofString "ID", Name.ofString "Name"])
    (.values [[sqlOne, sqlText], [sqlOne, sqlText]]) = insertRows [Name.ofString "users"] 1 cols :=
  C138_insert_all _ _ _ _ (by simp)

end Verif.Props
