import Verif.Proof.SqlScope
import Verif.Proof.SqlStatements
import Verif.Proof.SqlRows
import Verif.Spec.SqlOrder
/-! # The order of tables, assignments and columns -/

namespace Verif.Sql

section
variable {N : Type} {ops : NameOps N}

/-- The names have the same meaning. -/
structure SameScope (ops : NameOps N) (sc sc' : ScalarContext N) : Prop where
  context : sc'.setContext = sc.setContext
  symbols : ∀ c, sc'.symbols.get ops c = sc.symbols.get ops c

mutual

theorem inferExpr_scope {sc sc' : ScalarContext N} (h : SameScope ops sc sc') : (e : Expr N) →
    inferExpr ops sc' e = inferExpr ops sc e
  | .literal _ => by simp only [inferExpr]
  | .ident q => by
    simp only [inferExpr, ScalarContext.inferType]
    split
    · rw [h.symbols]
    · rw [h.symbols]
    · rfl
  | .tuple es => by simp only [inferExpr]; rw [inferExprs_scope h es]
  | .select s => by simp only [inferExpr]; rw [h.context]
  | .unary op e => by simp only [inferExpr]; rw [inferExpr_scope h e]
  | .binary op l r => by simp only [inferExpr]; rw [inferExpr_scope h l, inferExpr_scope h r]
  | .comparison op l r => by simp only [inferExpr]; rw [inferExpr_scope h l, inferExpr_scope h r]
  | .inSet e set => by simp only [inferExpr]; rw [inferExpr_scope h e, inferSet_scope h set]
  | .between e l u => by
    simp only [inferExpr]; rw [inferExpr_scope h e, inferExpr_scope h l, inferExpr_scope h u]
  | .case none ws els => by
    simp only [inferExpr]
    rw [checkGuards_scope h _ ws, inferBodies_scope h ws]
    congr 1; funext _; congr 1; funext t; exact inferElse_scope h t els
  | .case (some e) ws els => by
    simp only [inferExpr]
    rw [inferExpr_scope h e, inferBodies_scope h ws]
    congr 1; funext t; rw [checkGuards_scope h _ ws]
    congr 1; funext _; congr 1; funext t; exact inferElse_scope h t els

theorem inferExprs_scope {sc sc' : ScalarContext N} (h : SameScope ops sc sc') : (es : List (Expr N)) →
    inferExprs ops sc' es = inferExprs ops sc es
  | [] => by simp only [inferExprs]
  | e :: es => by simp only [inferExprs]; rw [inferExpr_scope h e, inferExprs_scope h es]

theorem checkGuards_scope {sc sc' : ScalarContext N} (h : SameScope ops sc sc') (check : ScalarType → Chk Unit) :
    (ws : List (When N)) → checkGuards ops sc' check ws = checkGuards ops sc check ws
  | [] => by simp only [checkGuards]
  | .mk g b :: ws => by simp only [checkGuards]; rw [inferExpr_scope h g, checkGuards_scope h check ws]

theorem inferBodies_scope {sc sc' : ScalarContext N} (h : SameScope ops sc sc') : (ws : List (When N)) →
    inferBodies ops sc' ws = inferBodies ops sc ws
  | [] => by simp only [inferBodies]
  | .mk g b :: ws => by
    simp only [inferBodies]; rw [inferExpr_scope h b]
    congr 1; funext t; exact foldBodies_scope h t ws

theorem foldBodies_scope {sc sc' : ScalarContext N} (h : SameScope ops sc sc') (t : ScalarType) :
    (ws : List (When N)) → foldBodies ops sc' t ws = foldBodies ops sc t ws
  | [] => by simp only [foldBodies]
  | .mk g b :: ws => by
    simp only [foldBodies]; rw [inferExpr_scope h b]
    congr 1; funext u; congr 1; funext t; exact foldBodies_scope h t ws

theorem inferElse_scope {sc sc' : ScalarContext N} (h : SameScope ops sc sc') (t : ScalarType) :
    (o : Option (Expr N)) → inferElse ops sc' t o = inferElse ops sc t o
  | none => by cases t <;> simp only [inferElse]
  | some e => by cases t <;> simp only [inferElse]; rw [inferExpr_scope h e]

theorem inferSet_scope {sc sc' : ScalarContext N} (h : SameScope ops sc sc') : (s : SetSpec N) →
    inferSet ops sc' s = inferSet ops sc s
  | .select s => by simp only [inferSet]; rw [h.context]
  | .name q => by simp only [inferSet]; rw [h.context]
  | .list es => by simp only [inferSet]; rw [inferList_scope h es]

theorem inferList_scope {sc sc' : ScalarContext N} (h : SameScope ops sc sc') : (es : List (Expr N)) →
    inferList ops sc' es = inferList ops sc es
  | [] => by simp only [inferList]
  | e :: es => by simp only [inferList]; rw [inferExpr_scope h e, foldList_scope h _ es]

theorem foldList_scope {sc sc' : ScalarContext N} (h : SameScope ops sc sc') (t : Chk ScalarType) :
    (es : List (Expr N)) → foldList ops sc' t es = foldList ops sc t es
  | [] => by simp only [foldList]
  | e :: es => by
    rcases t with (_ | x) | t <;> simp only [foldList]
    all_goals
      rw [inferExpr_scope h e]
      exact foldList_scope h _ es

end

theorem checkPredicate_scope {sc sc' : ScalarContext N} (h : SameScope ops sc sc') (msg : SqlError)
    (o : Option (Expr N)) : checkPredicate ops sc' msg o = checkPredicate ops sc msg o := by
  cases o <;> simp only [checkPredicate]
  rw [inferExpr_scope h]

theorem checkGroupBy_scope {sc sc' : ScalarContext N} (h : SameScope ops sc sc') (g : Option (GroupBy N)) :
    checkGroupBy ops sc' g = checkGroupBy ops sc g := by
  rcases g with _ | ⟨es, o⟩ <;> simp only [checkGroupBy]
  rw [inferExprs_scope h, checkPredicate_scope h]

theorem inferColumnList_scope {sc sc' : ScalarContext N} (h : SameScope ops sc sc') :
    ∀ (cs : List (ResultColumn N)) (g : TMap N Nat), inferColumnList ops sc' g cs = inferColumnList ops sc g cs
  | [], g => by simp only [inferColumnList]
  | .allFrom n :: cs, g => by
    simp only [inferColumnList]
    rw [h.symbols]
    simp only [inferColumnList_scope h cs]
  | .expr e a :: cs, g => by
    simp only [inferColumnList]
    rw [inferExpr_scope h e]
    simp only [inferColumnList_scope h cs]

end

/-! ## FROM -/

section
variable {up : Char → List Char} {ctx : SetContext Name}

theorem bindsAll_append {ts us : List (TableExpr Name)} {rels : List Relation} {as : List (Attribute Name)} :
    BindsAll up ctx (ts ++ us) rels as ↔ ∃ r1 a1 r2 a2, BindsAll up ctx ts r1 a1 ∧ BindsAll up ctx us r2 a2 ∧
      rels = r1 ++ r2 ∧ as = a1 ++ a2 := by
  induction ts generalizing rels as with
  | nil =>
    constructor
    · intro h; exact ⟨[], [], rels, as, .nil, h, rfl, rfl⟩
    · rintro ⟨_, _, _, _, h1, h2, rfl, rfl⟩; cases h1; exact h2
  | cons t ts ih =>
    constructor
    · intro h
      cases h with
      | cons h hs =>
        obtain ⟨r1, a1, r2, a2, h1, h2, rfl, rfl⟩ := ih.1 hs
        exact ⟨_, _, r2, a2, .cons h h1, h2, by simp, by simp⟩
    · rintro ⟨_, _, r2, a2, h1, h2, rfl, rfl⟩
      cases h1 with
      | cons h hs =>
        rw [List.cons_append, List.append_assoc, List.append_assoc]
        exact .cons h (ih.2 ⟨_, _, r2, a2, hs, h2, rfl, rfl⟩)

theorem binds_single {t : TableExpr Name} {rels : List Relation} {as : List (Attribute Name)} :
    BindsAll up ctx [t] rels as ↔ Binds up ctx t rels as := by
  constructor
  · intro h
    cases h with
    | cons h hs => cases hs; simpa using h
  · intro h
    have := BindsAll.cons h .nil
    simpa using this

theorem binds_leaves : ∀ (t : TableExpr Name) (rels : List Relation) (as : List (Attribute Name)),
    Binds up ctx t rels as ↔ BindsAll up ctx t.leaves rels as
  | .named _ _, rels, as => by rw [TableExpr.leaves, binds_single]; simp
  | .select _ _, rels, as => by rw [TableExpr.leaves, binds_single]; simp
  | .join l r _ _, rels, as => by
    rw [TableExpr.leaves, bindsAll_append]
    constructor
    · intro h
      cases h with
      | join hl hr => exact ⟨_, _, _, _, (binds_leaves l _ _).1 hl, (binds_leaves r _ _).1 hr, rfl, rfl⟩
    · rintro ⟨_, _, _, _, h1, h2, rfl, rfl⟩
      exact .join ((binds_leaves l _ _).2 h1) ((binds_leaves r _ _).2 h2)

theorem bindsAll_leaves (ts : List (TableExpr Name)) (rels : List Relation) (as : List (Attribute Name)) :
    BindsAll up ctx ts rels as ↔ BindsAll up ctx (ts.flatMap TableExpr.leaves) rels as := by
  induction ts generalizing rels as with
  | nil => exact Iff.rfl
  | cons t ts ih =>
    rw [List.flatMap_cons, bindsAll_append]
    constructor
    · intro h
      cases h with
      | cons h hs => exact ⟨_, _, _, _, (binds_leaves _ _ _).1 h, (ih _ _).1 hs, rfl, rfl⟩
    · rintro ⟨_, _, _, _, h1, h2, rfl, rfl⟩
      exact .cons ((binds_leaves _ _ _).2 h1) ((ih _ _).2 h2)

theorem bindsAll_perm {ts us : List (TableExpr Name)} (h : ts.Perm us) :
    ∀ {rels : List Relation} {as : List (Attribute Name)}, BindsAll up ctx ts rels as →
    ∃ rels' as', BindsAll up ctx us rels' as' ∧ rels.Perm rels' ∧ as.Perm as' := by
  induction h with
  | nil => intro rels as h; exact ⟨rels, as, h, .refl _, .refl _⟩
  | cons x _ ih =>
    intro rels as h
    cases h with
    | cons h hs =>
      obtain ⟨rels', as', h1, h2, h3⟩ := ih hs
      exact ⟨_, _, .cons h h1, h2.append_left _, h3.append_left _⟩
  | swap x y l =>
    intro rels as h
    cases h with
    | cons h1 hs =>
      cases hs with
      | cons h2 hs =>
        refine ⟨_, _, .cons h2 (.cons h1 hs), ?_, ?_⟩
        · rw [← List.append_assoc, ← List.append_assoc]
          exact List.perm_append_comm.append_right _
        · rw [← List.append_assoc, ← List.append_assoc]
          exact List.perm_append_comm.append_right _
  | trans _ _ ih1 ih2 =>
    intro rels as h
    obtain ⟨r1, a1, h1, h2, h3⟩ := ih1 h
    obtain ⟨r2, a2, h4, h5, h6⟩ := ih2 h1
    exact ⟨r2, a2, h4, h2.trans h5, h3.trans h6⟩

theorem symbolOf_perm {rels rels' : List Relation} (h : rels.Perm rels')
    (hd' : DistinctNames up (rels'.map (·.1))) (c : Name) :
    symbolOf up rels' (rels'.flatMap (·.2)) c = symbolOf up rels (rels.flatMap (·.2)) c := by
  have hf : rels'.find? (fun r => sameName up r.1 c) = rels.find? (fun r => sameName up r.1 c) := by
    cases hs : rels.find? (fun r => sameName up r.1 c) with
    | none =>
      rw [List.find?_eq_none] at hs ⊢
      exact fun r hr => hs r (h.mem_iff.2 hr)
    | some r =>
      have hn := List.find?_some hs
      exact find_distinct hd' (h.mem_iff.1 (List.mem_of_find?_eq_some hs)) (sameName_iff.1 hn)
  have hc : (columnsCalled up c (rels.flatMap (·.2))).Perm (columnsCalled up c (rels'.flatMap (·.2))) :=
    (h.flatMap_right _).filter _
  unfold symbolOf
  rw [hf]
  split
  · rfl
  · generalize columnsCalled up c (rels.flatMap (·.2)) = l at hc
    generalize columnsCalled up c (rels'.flatMap (·.2)) = l' at hc
    match l, l', hc with
    | [], l', hc => rw [hc.symm.eq_nil]
    | [a], l', hc => rw [List.perm_singleton.1 hc.symm]
    | _ :: _ :: _, [], hc => exact absurd hc.eq_nil (by simp)
    | _ :: _ :: _, [_], hc => exact absurd hc.length_eq (by simp)
    | _ :: _ :: _, _ :: _ :: _, _ => rfl

theorem distinct_perm {ns ms : List Name} (h : ns.Perm ms) (hd : DistinctNames up ns) : DistinctNames up ms :=
  h.pairwise hd fun h h' => h h'.symm

/-- The tables of a FROM clause may be joined in any order. -/
theorem inferFrom_order (hok : ctx.Ok up) {froms froms' : List (TableExpr Name)}
    (h : (froms.flatMap TableExpr.leaves).Perm (froms'.flatMap TableExpr.leaves)) {sc : ScalarContext Name}
    {as : List (Attribute Name)} (hf : inferFrom (nameOps up) (ScalarContext.new ctx) froms = .ok (sc, as)) :
    ∃ sc' as', inferFrom (nameOps up) (ScalarContext.new ctx) froms' = .ok (sc', as') ∧
      SameScope (nameOps up) sc sc' ∧ as.Perm as' := by
  obtain ⟨rels, h1, h2, h3⟩ := inferFrom_binds hok froms (inScope_new ctx) List.Pairwise.nil hf
  rw [List.nil_append] at h2 h3
  obtain ⟨rels', as', g1, g2, g3⟩ := bindsAll_perm h ((bindsAll_leaves _ _ _).1 h1)
  have hd' := distinct_perm (g2.map (·.1)) h3
  obtain ⟨sc', k1, k2⟩ := binds_inferFrom hok froms' (inScope_new ctx) ((bindsAll_leaves _ _ _).2 g1) hd'
  rw [List.nil_append] at k2
  refine ⟨sc', as', k1, ⟨by rw [h2.context, k2.context], fun c => ?_⟩, g3⟩
  rw [h2.symbols, k2.symbols]
  exact symbolOf_perm g2 hd' c

theorem query_order (hok : ctx.Ok up) {froms froms' : List (TableExpr Name)}
    (h : (froms.flatMap TableExpr.leaves).Perm (froms'.flatMap TableExpr.leaves)) (m m' : SelectMode)
    (cs : List (ResultColumn Name)) (w : Option (Expr Name)) (g : Option (GroupBy Name)) (r : RowType Name)
    (hq : inferSetExpr (nameOps up) ctx (.query m (.list cs) froms w g) = .ok r) :
    inferSetExpr (nameOps up) ctx (.query m' (.list cs) froms' w g) = .ok r := by
  rw [inferSetExpr] at hq ⊢
  obtain ⟨⟨sc, as⟩, h1, h2⟩ := Chk.bind_eq_ok.1 hq
  obtain ⟨sc', as', h3, h4, _⟩ := inferFrom_order hok h h1
  rw [h3, Chk.bind_ok]
  simp only [inferColumns] at h2 ⊢
  rw [checkPredicate_scope h4, checkGroupBy_scope h4, inferColumnList_scope h4]
  exact h2

theorem star_order (hok : ctx.Ok up) {froms froms' : List (TableExpr Name)}
    (h : (froms.flatMap TableExpr.leaves).Perm (froms'.flatMap TableExpr.leaves)) (m m' : SelectMode)
    (w : Option (Expr Name)) (g : Option (GroupBy Name)) (r : RowType Name)
    (hq : inferSetExpr (nameOps up) ctx (.query m .all froms w g) = .ok r) :
    ∃ r', inferSetExpr (nameOps up) ctx (.query m' .all froms' w g) = .ok r' ∧
      (r.attributes.map fun a => (a.typ, a.isNull)).Perm (r'.attributes.map fun a => (a.typ, a.isNull)) := by
  have hg : ∀ (as : List (Attribute Name)) (t : TMap Name Nat),
      (generateColumns (nameOps up) t as).1.map (fun a => (a.typ, a.isNull)) = as.map fun a => (a.typ, a.isNull) := by
    intro as
    induction as with
    | nil => intro t; rfl
    | cons a as ih => intro t; simp only [generateColumns, List.map_cons, ih]
  rw [inferSetExpr] at hq
  obtain ⟨⟨sc, as⟩, h1, h2⟩ := Chk.bind_eq_ok.1 hq
  obtain ⟨sc', as', h3, h4, h5⟩ := inferFrom_order hok h h1
  obtain ⟨_, h6, h7⟩ := Chk.bind_eq_ok.1 h2
  obtain ⟨_, h8, h9⟩ := Chk.bind_eq_ok.1 h7
  rw [inferColumns] at h9
  cases h9
  refine ⟨.plain (generateColumns (nameOps up) [] as').1, ?_, ?_⟩
  · rw [inferSetExpr, h3, Chk.bind_ok]
    simp only [inferColumns]
    rw [checkPredicate_scope h4, checkGroupBy_scope h4, h6, Chk.bind_ok, h8, Chk.bind_ok]
  · simp only [RowType.plain, hg]
    exact h5.map _

/-! ## UPDATE -/

theorem update_order (hc : ctx.Ok up) {s s' : UpdateStatement Name} (ht : s'.tableName = s.tableName)
    (hw : s'.wher = s.wher) (hn : ∀ a ∈ s'.assignments, a.columns ≠ []) (hp : s.pairs.Perm s'.pairs)
    (hd : ∀ typ, Resolves up ctx s.tableName typ → DistinctColumns up typ.attributes)
    (h : s.validateType (nameOps up) ctx = .ok ()) : s'.validateType (nameOps up) ctx = .ok () := by
  obtain ⟨typ, table, sc, h1, h2, h3, h4, h5⟩ := (update_iff hc s hd).1 h
  refine (update_iff hc s' (by rw [ht]; exact hd)).2 ⟨typ, table, sc, ?_, ?_, ?_, h4, ?_, ?_, ?_⟩
  · rw [ht]; exact h1
  · rw [ht]; exact h2
  · rw [ht]; exact h3
  · have hf : ∀ s : UpdateStatement Name, s.assignments.flatMap (·.columns) = s.pairs.map (·.1) := by
      intro s
      simp [UpdateStatement.pairs, List.map_flatMap, Function.comp_def]
    have := h5.distinct
    rw [hf] at this ⊢
    exact distinct_perm (hp.map _) this
  · have key : ∀ p ∈ s'.pairs, ∃ typ' isNull, inferExpr (nameOps up) sc p.2 = .ok (.scalar typ' isNull) ∧
        Storable up typ.attributes p.1 typ' isNull := by
      intro p hp'
      obtain ⟨a, ha, hm⟩ := List.mem_flatMap.1 (hp.mem_iff.2 hp')
      obtain ⟨c, hc', rfl⟩ := List.mem_map.1 hm
      obtain ⟨t, n, k1, k2⟩ := h5.assigned a ha
      exact ⟨t, n, k1, k2 c hc'⟩
    intro a ha
    obtain ⟨c, hc'⟩ := List.exists_mem_of_ne_nil _ (hn a ha)
    have hmem : ∀ c ∈ a.columns, (c, a.expr) ∈ s'.pairs := fun c hc =>
      List.mem_flatMap.2 ⟨a, ha, List.mem_map.2 ⟨c, hc, rfl⟩⟩
    obtain ⟨t, n, k1, _⟩ := key _ (hmem c hc')
    refine ⟨t, n, k1, fun d hd => ?_⟩
    obtain ⟨t', n', k3, k4⟩ := key _ (hmem d hd)
    simp only at k1 k3
    rw [k1] at k3
    cases k3
    exact k4
  · rw [hw]; exact h5.wher

/-! ## INSERT -/

/-- The type of a column given as a function. -/
def ColumnOf (up : Char → List Char) (sc : ScalarContext Name) (k : Nat) (f : Nat → Expr Name) (typ : DataType)
    (isNull : Bool) : Prop :=
  (∀ i, i < k + 1 → ∃ n, inferExpr (nameOps up) sc (f i) = .ok (.scalar typ n) ∧ (n = true → isNull = true)) ∧
  (isNull = true → ∃ i, i < k + 1 ∧ inferExpr (nameOps up) sc (f i) = .ok (.scalar typ true))

theorem ColumnOf.unique {sc : ScalarContext Name} {k : Nat} {f : Nat → Expr Name} {t u : DataType} {m n : Bool}
    (h : ColumnOf up sc k f t m) (h' : ColumnOf up sc k f u n) : t = u ∧ m = n := by
  obtain ⟨a, h1, _⟩ := h.1 0 (by omega)
  obtain ⟨b, h2, _⟩ := h'.1 0 (by omega)
  rw [h1] at h2
  cases h2
  refine ⟨rfl, Bool.eq_iff_iff.2 ⟨fun hm => ?_, fun hn => ?_⟩⟩
  · obtain ⟨i, hi, he⟩ := h.2 hm
    obtain ⟨b, h2, h3⟩ := h'.1 i hi
    rw [he] at h2; cases h2; exact h3 rfl
  · obtain ⟨i, hi, he⟩ := h'.2 hn
    obtain ⟨b, h2, h3⟩ := h.1 i hi
    rw [he] at h2; cases h2; exact h3 rfl

/-- The rows of `insertRows`. -/
def rowsOf {N : Type} (k : Nat) (cols : List (N × (Nat → Expr N))) : List (List (Expr N)) :=
  (List.range (k + 1)).map fun i => cols.map fun c => c.2 i

theorem columnType_rowsOf {sc : ScalarContext Name} {k : Nat} {cols : List (Name × (Nat → Expr Name))} {j : Nat}
    {c : Name × (Nat → Expr Name)} (hj : cols[j]? = some c) (typ : DataType) (isNull : Bool) :
    ColumnType up sc (rowsOf k cols) j typ isNull ↔ ColumnOf up sc k c.2 typ isNull := by
  have hrow : ∀ i, (cols.map fun c => c.2 i)[j]? = some (c.2 i) := by intro i; simp [hj]
  unfold ColumnType ColumnOf rowsOf
  constructor
  · rintro ⟨h1, h2⟩
    refine ⟨fun i hi => ?_, fun hn => ?_⟩
    · obtain ⟨e, n, k1, k2, k3⟩ := h1 _ (List.mem_map.2 ⟨i, List.mem_range.2 hi, rfl⟩)
      rw [hrow] at k1; cases k1
      exact ⟨n, k2, k3⟩
    · obtain ⟨row, hr, e, k1, k2⟩ := h2 hn
      obtain ⟨i, hi, rfl⟩ := List.mem_map.1 hr
      rw [hrow] at k1; cases k1
      exact ⟨i, List.mem_range.1 hi, k2⟩
  · rintro ⟨h1, h2⟩
    refine ⟨fun row hr => ?_, fun hn => ?_⟩
    · obtain ⟨i, hi, rfl⟩ := List.mem_map.1 hr
      obtain ⟨n, k2, k3⟩ := h1 i (List.mem_range.1 hi)
      exact ⟨_, n, hrow i, k2, k3⟩
    · obtain ⟨i, hi, k2⟩ := h2 hn
      exact ⟨_, List.mem_map.2 ⟨i, List.mem_range.2 hi, rfl⟩, _, hrow i, k2⟩

theorem rowsOf_cons {N : Type} (k : Nat) (cols : List (N × (Nat → Expr N))) :
    rowsOf k cols = (cols.map fun c => c.2 0) :: (List.range k).map fun i => cols.map fun c => c.2 (i + 1) := by
  unfold rowsOf
  rw [List.range_succ_eq_map]
  simp [Function.comp_def]

theorem foldl_min_le (n : Nat) (rows : List (List (Expr Name))) (h : ∀ r ∈ rows, r.length = n) :
    rows.foldl (fun m row => min m row.length) n = n := by
  induction rows with
  | nil => rfl
  | cons r rs ih =>
    rw [List.foldl_cons, h r (by simp), Nat.min_self]
    exact ih fun x hx => h x (by simp [hx])

/-- The types of rows of the same length. -/
theorem inferValues_rowsOf {sc : ScalarContext Name} (k : Nat) (cols : List (Name × (Nat → Expr Name))) :
    (∀ as, inferValues (nameOps up) sc (rowsOf k cols) = .ok as → as.length = cols.length ∧
      ∀ (j : Nat) (a : Attribute Name) (c : Name × (Nat → Expr Name)), as[j]? = some a → cols[j]? = some c →
        ColumnOf up sc k c.2 a.typ a.isNull) ∧
    ((∀ c ∈ cols, ∃ t n, ColumnOf up sc k c.2 t n) → ∃ as, inferValues (nameOps up) sc (rowsOf k cols) = .ok as) := by
  constructor
  · intro as h
    have h0 := h
    rw [rowsOf_cons] at h
    obtain ⟨h1, h2⟩ := inferValues_ok h
    rw [← rowsOf_cons] at h2
    rw [List.length_map, foldl_min_le] at h1
    · refine ⟨h1, fun j a c ha hc => ?_⟩
      exact (columnType_rowsOf hc _ _).1 (h2 j a ha).2
    · intro r hr
      obtain ⟨i, _, rfl⟩ := List.mem_map.1 hr
      simp
  · intro h
    rw [rowsOf_cons]
    apply inferValues_complete
    intro j hj
    rw [List.length_map] at hj
    have hc : cols[j]? = some (cols[j]'hj) := List.getElem?_eq_getElem _
    obtain ⟨t, n, ht⟩ := h _ (List.mem_of_getElem? hc)
    rw [← rowsOf_cons]
    exact ⟨t, n, (columnType_rowsOf hc _ _).2 ht⟩

theorem insert_order (hc : ctx.Ok up) {table : List Name} {k : Nat} {cols cols' : List (Name × (Nat → Expr Name))}
    (hp : cols.Perm cols')
    (hd : ∀ typ, Resolves up ctx table typ → DistinctColumns up typ.attributes)
    (h : (insertRows table k cols).validateType (nameOps up) ctx = .ok ()) :
    (insertRows table k cols').validateType (nameOps up) ctx = .ok () := by
  obtain ⟨typ, values, h1, h2, h3⟩ := (insert_iff hc (insertRows table k cols) hd).1 h
  have hs : ∀ cols : List (Name × (Nat → Expr Name)), (insertRows table k cols).source = .values (rowsOf k cols) :=
    fun _ => rfl
  rw [hs, inferSetExpr] at h2
  obtain ⟨as, h4, h5⟩ := Chk.bind_eq_ok.1 h2
  cases h5
  obtain ⟨h6, h7⟩ := (inferValues_rowsOf k cols).1 as h4
  have hcol : ∀ c ∈ cols, ∃ a ∈ as, ColumnOf up (ScalarContext.new ctx) k c.2 a.typ a.isNull ∧
      (a, c.1) ∈ as.zip (cols.map (·.1)) := by
    intro c hc
    obtain ⟨j, hj⟩ := List.getElem?_of_mem hc
    have hlt := (List.getElem?_eq_some_iff.1 hj).1
    have ha : as[j]? = some (as[j]'(by omega)) := List.getElem?_eq_getElem _
    refine ⟨_, List.mem_of_getElem? ha, h7 j _ c ha hj, List.mem_of_getElem? (i := j) ?_⟩
    rw [List.getElem?_zip_eq_some]
    exact ⟨ha, by simp [hj]⟩
  obtain ⟨bs, h8⟩ := (inferValues_rowsOf (up := up) (sc := ScalarContext.new ctx) k cols').2 fun c hc => by
    obtain ⟨a, _, ha, _⟩ := hcol c (hp.mem_iff.2 hc)
    exact ⟨_, _, ha⟩
  obtain ⟨g1, g2⟩ := (inferValues_rowsOf k cols').1 bs h8
  refine (insert_iff hc (insertRows table k cols') hd).2 ⟨typ, .plain bs, h1, ?_, ?_⟩
  · rw [hs, inferSetExpr, h8]; rfl
  · have ht : ∀ (cols : List (Name × (Nat → Expr Name))) (vs : List (Attribute Name)),
        insertTargets (insertRows table k cols) vs = cols.map (·.1) := fun _ _ => rfl
    rw [ht] at h3 ⊢
    refine ⟨by simp [RowType.plain, g1], distinct_perm (hp.map _) h3.distinct, ?_, ?_⟩
    · intro e he
      obtain ⟨j, hj⟩ := List.getElem?_of_mem he
      obtain ⟨hb, hc'⟩ := List.getElem?_zip_eq_some.1 hj
      rw [List.getElem?_map, Option.map_eq_some_iff] at hc'
      obtain ⟨c, hc', hce⟩ := hc'
      obtain ⟨a, _, ha, hz⟩ := hcol c (hp.mem_iff.2 (List.mem_of_getElem? hc'))
      obtain ⟨e1, e2⟩ := ha.unique (g2 j _ c hb hc')
      have := h3.stored _ hz
      simp only at this
      rw [e1, e2, hce] at this
      exact this
    · intro a ha hn
      obtain ⟨t, ht, hst⟩ := h3.complete a ha hn
      exact ⟨t, (hp.map (·.1)).mem_iff.1 ht, hst⟩

end

end Verif.Sql
