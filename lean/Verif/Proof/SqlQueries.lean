import Verif.Proof.SqlScope
import Verif.Proof.SqlColumns
/-!
# IN, WITH, ORDER BY, subqueries and column lists
-/

namespace Verif.Sql

section
variable {up : Char → List Char}

/-- IN is accepted exactly if both sides have the same type and one of them may be NULL. -/
theorem in_iff {sc : ScalarContext Name} {e : Expr Name} {set : SetSpec Name} {typ : DataType} {n : Bool}
    (he : inferExpr (nameOps up) sc e = .ok (.scalar typ n)) {r : RowType Name}
    (hr : inferSet (nameOps up) sc set = .ok r) {a : Attribute Name} (ha : r.attributes = [a]) (t : ScalarType) :
    inferExpr (nameOps up) sc (.inSet e set) = .ok t ↔
      t = .scalar .logical false ∧ a.typ = typ ∧ (n = true ∨ a.isNull = true) := by
  have h : inferExpr (nameOps up) sc (.inSet e set) =
      (do if ← (ScalarType.scalar typ n).isCompatible a.scalar then return .scalar .logical false
          else err .inIncompatible) := by
    conv => lhs; unfold inferExpr
    rw [he]
    show (inferSet (nameOps up) sc set >>= _) = _
    rw [hr]
    show (singleColumn SqlError.inOneColumn r >>= _) = _
    unfold singleColumn
    rw [ha]
    rfl
  rw [h]
  unfold Attribute.scalar ScalarType.isCompatible
  by_cases ht : typ = a.typ
  · rw [if_pos ht]
    show (if (n || a.isNull) = true then _ else _) = _ ↔ _
    cases hn : n <;> cases hm : a.isNull
    · simp [err]
    all_goals
      simp only [Bool.or_true, Bool.or_false, if_true, ht]
      constructor
      · intro h
        cases h
        simp
      · rintro ⟨rfl, _⟩
        rfl
  · rw [if_neg ht]
    constructor
    · intro h
      cases h
    · rintro ⟨_, h, _⟩
      exact absurd h.symm ht

/-- The common table expressions of a query have no influence on the type of its result. -/
theorem select_ignores_common {ctx : SetContext Name} {common : List (Cte Name)} {expr : SetExpr Name}
    {orderBy : List (OrderTerm Name)} {limit : Option (Limit Name)} {r : RowType Name}
    (h : inferSelect (nameOps up) ctx (.mk common expr orderBy limit) = .ok r) :
    inferSetExpr (nameOps up) ctx expr = .ok r := by
  unfold inferSelect at h
  obtain ⟨_, _, h⟩ := ok_bind h
  obtain ⟨_, h1, h⟩ := ok_bind h
  obtain ⟨_, _, h⟩ := ok_bind h
  obtain ⟨_, _, h⟩ := ok_bind h
  cases h
  exact h1

/-- A query from a table exists only if the table does. -/
theorem query_table {ctx : SetContext Name} {mode : SelectMode} {columns : ResultColumns Name}
    {q : List Name} {alias : Option Name} {froms : List (TableExpr Name)} {wher : Option (Expr Name)}
    {groupBy : Option (GroupBy Name)} {r : RowType Name}
    (h : inferSetExpr (nameOps up) ctx (.query mode columns (.named q alias :: froms) wher groupBy) = .ok r) :
    ∃ typ, ctx.resolveTableName (nameOps up) q = .ok typ := by
  unfold inferSetExpr at h
  obtain ⟨_, h, _⟩ := ok_bind h
  unfold inferFrom at h
  obtain ⟨_, h, _⟩ := ok_bind h
  unfold inferTable at h
  obtain ⟨typ, h, _⟩ := ok_bind h
  exact ⟨typ, h⟩

theorem new_inferType (ctx : SetContext Name) (q : List Name) (t : ScalarType) :
    (ScalarContext.new ctx).inferType (nameOps up) q ≠ .ok t := by
  intro h
  unfold ScalarContext.inferType at h
  split at h <;> first | cases h | (simp only [ScalarContext.new, TMap.get] at h; cases h)

/-- Each term of an accepted ORDER BY is a scalar. -/
theorem checkOrder_iff {sc : ScalarContext Name} : ∀ {terms : List (OrderTerm Name)},
    checkOrder (nameOps up) sc terms = .ok () ↔ ∀ t ∈ terms, ∃ typ n, inferExpr (nameOps up) sc
      (match t with | .mk e _ _ => e) = .ok (.scalar typ n)
  | [] => by
    unfold checkOrder
    simp
  | .mk e c d :: ts => by
    have ih := checkOrder_iff (sc := sc) (terms := ts)
    unfold checkOrder
    constructor
    · intro h
      obtain ⟨t, h1, h⟩ := ok_bind h
      obtain ⟨u, h2, h⟩ := ok_bind h
      intro x hx
      rcases List.mem_cons.1 hx with rfl | hx
      · cases t with
        | scalar typ n => exact ⟨typ, n, h1⟩
        | tuple ts => cases h2
      · exact ih.1 h x hx
    · intro h
      obtain ⟨typ, n, h1⟩ := h (.mk e c d) List.mem_cons_self
      simp only at h1
      rw [h1]
      exact ih.2 fun x hx => h x (List.mem_cons_of_mem _ hx)

/-! ## Common table expressions in a context -/

theorem defineRelation_defines {ctx ctx' : SetContext Name} (hok : ctx.Ok up) {n : Name} {typ : RowType Name}
    (h : ctx.defineRelation (nameOps up) n typ = .ok ctx') :
    ctx'.Ok up ∧ (∀ r, ¬ Entry up ctx.tableExpression n r) ∧ Resolves up ctx' [n] typ ∧
    (∀ m t, ¬ SameName up m n → (Resolves up ctx' [m] t ↔ Resolves up ctx [m] t)) ∧
    (∀ m r, Entry up ctx'.tableExpression m r ↔ Entry up ctx.tableExpression m r ∨ (SameName up n m ∧ r = typ)) := by
  unfold SetContext.defineRelation at h
  split at h
  · rename_i hnone
    cases h
    have hno : ∀ r, ¬ Entry up ctx.tableExpression n r := (get_none_iff up).1 hnone
    have hsorted : Sorted up (ctx.tableExpression.insert (nameOps up) n typ) :=
      TMap.insert_increasing (keyed_nameOps up) hok.tables n typ
    have hent : ∀ m r, Entry up (ctx.tableExpression.insert (nameOps up) n typ) m r ↔
        Entry up ctx.tableExpression m r ∨ (SameName up n m ∧ r = typ) := by
      intro m r
      rw [← get_iff_entry up hsorted, TMap.get_insert (keyed_nameOps up), ← get_iff_entry up hok.tables]
      split
      · rename_i hm
        constructor
        · intro h
          cases h
          exact Or.inr ⟨hm.symm, rfl⟩
        · rintro (h | ⟨_, rfl⟩)
          · refine absurd (entry_of_get up h) ?_
            rintro ⟨e, he, hs, hr⟩
            exact hno r ⟨e, he, Eq.trans hs hm, hr⟩
          · rfl
      · rename_i hm
        constructor
        · exact Or.inl
        · rintro (h | ⟨h, _⟩)
          · exact h
          · exact absurd (Eq.symm h) hm
    refine ⟨⟨hok.namespaces, hok.objects, hsorted⟩, hno, .common ((hent n typ).2 (Or.inr ⟨rfl, rfl⟩)), ?_, hent⟩
    intro m t hm
    have hiff : ∀ r, Entry up (ctx.tableExpression.insert (nameOps up) n typ) m r ↔
        Entry up ctx.tableExpression m r := by
      intro r
      rw [hent]
      exact ⟨fun h => h.elim id fun h => absurd (Eq.symm h.1) hm, Or.inl⟩
    constructor
    · intro h
      cases h with
      | common h => exact .common ((hiff _).1 h)
      | default hc hn h => exact .default (fun r hr => hc r ((hiff r).2 hr)) hn h
    · intro h
      cases h with
      | common h => exact .common ((hiff _).2 h)
      | default hc hn h => exact .default (fun r hr => hc r ((hiff r).1 hr)) hn h
  · cases h

/-- The name of a common table expression. -/
def Cte.name {N : Type} : Cte N → N
  | .mk n _ _ => n

theorem initializeFrom_cons {ctx : SetContext Name} {c : Cte Name} {cs : List (Cte Name)} :
    ctx.initializeFrom (nameOps up) (c :: cs) = (do
      let typ ← inferCte (nameOps up) ctx c
      let ctx ← ctx.defineRelation (nameOps up) c.name typ
      ctx.initializeFrom (nameOps up) cs) := by
  cases c
  rfl

theorem initializeFrom_defines {ctx' : SetContext Name} : ∀ {cs : List (Cte Name)} {ctx : SetContext Name},
    ctx.Ok up → ctx.initializeFrom (nameOps up) cs = .ok ctx' →
    ctx'.Ok up ∧ DistinctNames up (cs.map Cte.name) ∧
    (∀ c ∈ cs, ∀ r, ¬ Entry up ctx.tableExpression c.name r) ∧
    (∀ m t, (∀ c ∈ cs, ¬ SameName up m c.name) → (Resolves up ctx' [m] t ↔ Resolves up ctx [m] t)) ∧
    (∀ i c, cs[i]? = some c → ∃ before typ, ctx.initializeFrom (nameOps up) (cs.take i) = .ok before ∧
      inferCte (nameOps up) before c = .ok typ ∧ Resolves up ctx' [c.name] typ)
  | [], ctx, hok, h => by
    cases h
    refine ⟨hok, List.Pairwise.nil, ?_, ?_, ?_⟩
    · intro c hc
      cases hc
    · intro m t _
      exact Iff.rfl
    · intro i c hc
      simp at hc
  | c :: cs, ctx, hok, h => by
    rw [initializeFrom_cons] at h
    obtain ⟨typ, h1, h⟩ := ok_bind h
    obtain ⟨ctx1, h2, h⟩ := ok_bind h
    obtain ⟨hok1, hno, hres, hother, hent⟩ := defineRelation_defines hok h2
    obtain ⟨hok', hd, hfresh, hsame, heach⟩ := initializeFrom_defines hok1 h
    have hne : ∀ c' ∈ cs, ¬ SameName up c.name c'.name := by
      intro c' hc' hs
      exact hfresh c' hc' typ ((hent _ _).2 (Or.inr ⟨hs, rfl⟩))
    refine ⟨hok', ?_, ?_, ?_, ?_⟩
    · refine List.pairwise_cons.2 ⟨fun b hb => ?_, hd⟩
      obtain ⟨c', hc', rfl⟩ := List.mem_map.1 hb
      exact hne c' hc'
    · intro c' hc' r hr
      rcases List.mem_cons.1 hc' with rfl | hc'
      · exact hno r hr
      · exact hfresh c' hc' r ((hent _ _).2 (Or.inl hr))
    · intro m t hm
      rw [hsame m t fun c' hc' => hm c' (List.mem_cons_of_mem _ hc')]
      exact hother m t (hm c List.mem_cons_self)
    · intro i c' hc'
      cases i with
      | zero =>
        simp only [List.getElem?_cons_zero, Option.some.injEq] at hc'
        subst hc'
        exact ⟨ctx, typ, rfl, h1, (hsame _ _ hne).2 hres⟩
      | succ i =>
        rw [List.getElem?_cons_succ] at hc'
        obtain ⟨before, typ', hb, hi, hr⟩ := heach i c' hc'
        refine ⟨before, typ', ?_, hi, hr⟩
        rw [List.take_succ_cons, initializeFrom_cons, h1]
        show (ctx.defineRelation (nameOps up) c.name typ >>= _) = _
        rw [h2]
        exact hb

/-- The columns of a common table expression with a column list. -/
theorem selectColumns_iff {columns : List (Attribute Name)} : ∀ {cs : List Name} {as : List (Attribute Name)},
    selectColumns (nameOps up) columns cs = .ok as ↔ as.length = cs.length ∧
      ∀ (i : Nat) (c : Name), cs[i]? = some c → ∃ a, (columnsCalled up c columns).head? = some a ∧
        as[i]? = some ⟨c, a.typ, a.isNull⟩
  | [], as => by
    unfold selectColumns
    constructor
    · intro h
      cases h
      simp
    · rintro ⟨h, _⟩
      rw [List.eq_nil_of_length_eq_zero h]
  | c :: cs, as => by
    have ih := fun as => selectColumns_iff (columns := columns) (cs := cs) (as := as)
    have hfind : (columns.find? fun a => (nameOps up).eq a.name c) = (columnsCalled up c columns).head? := by
      unfold columnsCalled
      rw [List.head?_filter]
      congr 1
      funext a
      rw [Bool.eq_iff_iff, (keyed_nameOps up).eq_true, sameName_iff]
      exact Iff.rfl
    unfold selectColumns
    rw [hfind]
    constructor
    · intro h
      split at h
      · rename_i a ha
        obtain ⟨rest, hrest, h⟩ := ok_bind h
        cases h
        obtain ⟨hl, hall⟩ := (ih rest).1 hrest
        refine ⟨by simp [hl], fun i c' hc' => ?_⟩
        cases i with
        | zero =>
          simp only [List.getElem?_cons_zero, Option.some.injEq] at hc'
          subst hc'
          exact ⟨a, ha, rfl⟩
        | succ i =>
          rw [List.getElem?_cons_succ] at hc'
          exact hall i c' hc'
      · cases h
    · rintro ⟨hl, hall⟩
      obtain ⟨a, ha, h0⟩ := hall 0 c rfl
      cases as with
      | nil => cases h0
      | cons b bs =>
        simp only [List.getElem?_cons_zero, Option.some.injEq] at h0
        subst h0
        rw [ha]
        have := (ih bs).2 ⟨by simpa using hl, fun i c' hc' => hall (i + 1) c' hc'⟩
        simp only
        rw [this]
        rfl

/-! ## `relation.*` -/

theorem relationAttributes_ok : ∀ {m : TMap Name ScalarType}, (∀ e ∈ m, e.2.IsScalar) →
    ∃ as, relationAttributes m = .ok as ∧ m = as.map fun a => (a.name, a.scalar)
  | [], _ => ⟨[], rfl, rfl⟩
  | (n, t) :: m, h => by
    obtain ⟨as, h1, h2⟩ := relationAttributes_ok fun e he => h e (List.mem_cons_of_mem _ he)
    obtain ⟨typ, nul, ht⟩ := h (n, t) List.mem_cons_self
    simp only at ht
    subst ht
    refine ⟨⟨n, typ, nul⟩ :: as, ?_, ?_⟩
    · unfold relationAttributes
      rw [h1]
      rfl
    · rw [List.map_cons, ← h2]
      rfl

/-- Columns that differ in name keep their names. -/
theorem generateColumns_keep : ∀ {as : List (Attribute Name)} {g : TMap Name Nat}, DistinctColumns up as →
    (∀ a ∈ as, g.get (nameOps up) a.name = none) → (generateColumns (nameOps up) g as).1 = as
  | [], _, _, _ => rfl
  | a :: as, g, hd, hg => by
    obtain ⟨h1, h2⟩ := List.pairwise_cons.1 hd
    unfold generateColumns generateColumnName
    rw [hg a List.mem_cons_self]
    simp only
    congr 1
    refine generateColumns_keep h2 fun b hb => ?_
    rw [TMap.get_insert (keyed_nameOps up), if_neg, hg b (List.mem_cons_of_mem _ hb)]
    intro hs
    exact h1 b hb (Eq.symm hs)

/-- The columns of `r.*`: those that `r.c` can denote, in the order of their names. -/
theorem allFrom_columns {ctx : SetContext Name} {sc : ScalarContext Name} {rels : List Relation}
    (h : InScope up ctx sc rels) (hd : DistinctNames up (rels.map (·.1))) {r : Relation} (hr : r ∈ rels)
    {n : Name} (hn : SameName up r.1 n) :
    ∃ as, inferColumnList (nameOps up) sc [] [.allFrom n] = .ok as ∧
      as.Pairwise (fun a b => a.name.upper up < b.name.upper up) ∧
      (∀ a ∈ as, ∃ b, Denotes up rels [n, a.name] b ∧ a.typ = b.typ ∧ a.isNull = b.isNull) ∧
      (∀ b ∈ r.2, ∃ a ∈ as, SameName up a.name b.name) := by
  let m := TMap.collect (nameOps up) (r.2.map fun a => (a.name, a.scalar))
  have hsym : sc.symbols.get (nameOps up) n = some (.relation m) := by
    rw [h.symbols]
    unfold symbolOf
    rw [find_distinct hd hr hn]
  have hm : TMap.Increasing (Name.upper up) m := TMap.collect_increasing (keyed_nameOps up) _
  have hget : ∀ e ∈ m, m.get (nameOps up) e.1 = some e.2 := fun e he =>
    TMap.get_of_mem (keyed_nameOps up) hm he rfl
  have hsc : ∀ e ∈ m, e.2.IsScalar := by
    intro e he
    obtain ⟨e', he', _, h2⟩ := TMap.get_collect_mem (keyed_nameOps up) (hget e he)
    obtain ⟨a, _, rfl⟩ := List.mem_map.1 he'
    rw [← h2]
    exact ⟨_, _, rfl⟩
  obtain ⟨as, h1, h2⟩ := relationAttributes_ok hsc
  have hinc : as.Pairwise (fun a b => a.name.upper up < b.name.upper up) := by
    have : (as.map fun a => (a.name, a.scalar)).Pairwise
        (fun x y : Name × ScalarType => x.1.upper up < y.1.upper up) := h2 ▸ hm
    rw [List.pairwise_map] at this
    exact this
  have hdist : DistinctColumns up as := by
    refine hinc.imp fun {a b} hlt hs => ?_
    unfold SameName at hs
    rw [hs] at hlt
    exact absurd hlt (List.lt_irrefl _)
  refine ⟨as, ?_, hinc, ?_, ?_⟩
  · unfold inferColumnList
    rw [hsym]
    simp only
    rw [h1]
    have hk := generateColumns_keep (g := []) hdist fun _ _ => rfl
    show Except.ok _ = _
    simp only [List.append_nil]
    exact congrArg Except.ok hk
  · intro a ha
    have hmem : (a.name, a.scalar) ∈ m := h2 ▸ List.mem_map.2 ⟨a, ha, rfl⟩
    have hg := hget _ hmem
    rw [relation_get, Option.map_eq_some_iff] at hg
    obtain ⟨b, hb, hs⟩ := hg
    unfold Attribute.scalar at hs
    cases hs' : ScalarType.scalar.inj hs with
    | intro h3 h4 => exact ⟨b, .qualified hr hn hb, h3.symm, h4.symm⟩
  · intro b hb
    have hne : m.get (nameOps up) b.name ≠ none := by
      intro hno
      exact (TMap.get_collect_none (keyed_nameOps up)).1 hno (b.name, b.scalar)
        (List.mem_map.2 ⟨b, hb, rfl⟩) rfl
    obtain ⟨t, ht⟩ := Option.ne_none_iff_exists'.1 hne
    obtain ⟨e, he, hs, _⟩ := TMap.get_mem (keyed_nameOps up) ht
    rw [h2] at he
    obtain ⟨a, ha, rfl⟩ := List.mem_map.1 he
    exact ⟨a, ha, hs⟩

end

end Verif.Sql
