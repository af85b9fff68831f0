import Verif.Proof.SqlSpelling
import Verif.Proof.SqlSchema
import Verif.Spec.SqlTables
/-! # Inference looks only at the tables that are named -/

namespace Verif.Sql

open Chk

variable {N : Type} {ops : NameOps N} {P : List N → Prop} {c c' : SetContext N}

/-- The contexts resolve these names alike. -/
def Agree (ops : NameOps N) (P : List N → Prop) (c c' : SetContext N) : Prop :=
  ∀ q, P q → c'.resolveTableName ops q = c.resolveTableName ops q

/-- The same outcome, but for what `g` and `g'` make of it. -/
def Twin {X α : Type} (g g' : X → α) (r r' : Chk α) : Prop := ∃ x, r = map g x ∧ r' = map g' x

theorem Chk.ok_bind' {α β : Type} (a : α) (k : α → Chk β) : ((Except.ok a : Chk α) >>= k) = k a := rfl

namespace Twin
variable {X Y α β : Type} {g g' : X → α} {j j' : Y → β}

theorem ok (x : X) : Twin g g' (.ok (g x)) (.ok (g' x)) := ⟨.ok x, rfl, rfl⟩

theorem error (e : Stop) : Twin g g' (.error e) (.error e) := ⟨.error e, rfl, rfl⟩

theorem bind_eq {r r' : Chk α} {k k' : α → Chk β} (h : Twin g g' r r') (hk : ∀ x, k' (g' x) = k (g x)) :
    (r' >>= k') = (r >>= k) := by
  obtain ⟨x, rfl, rfl⟩ := h
  cases x with
  | ok a => exact hk a
  | error e => rfl

theorem bind {r r' : Chk α} {k k' : α → Chk β} (h : Twin g g' r r')
    (hk : ∀ x, Twin j j' (k (g x)) (k' (g' x))) : Twin j j' (r >>= k) (r' >>= k') := by
  obtain ⟨x, rfl, rfl⟩ := h
  cases x with
  | ok a => exact hk a
  | error e => exact error e

theorem bind' {r r' : Chk α} {k k' : α → Chk β} (h : r' = r)
    (hk : ∀ a, Twin j j' (k a) (k' a)) : Twin j j' (r >>= k) (r' >>= k') := by
  subst h
  cases r' with
  | ok a => exact hk a
  | error e => exact error e

end Twin

/-- The symbols put into a context. -/
def within (c : SetContext N) (m : TMap N (Symbol N)) : ScalarContext N := ⟨c, m⟩

/-- The same together with columns. -/
def ranged (c : SetContext N) (p : TMap N (Symbol N) × List (Attribute N)) :
    ScalarContext N × List (Attribute N) := (⟨c, p.1⟩, p.2)

theorem addRelation_twin (m : TMap N (Symbol N)) (name : N) (as : List (Attribute N)) :
    Twin (within c) (within c') ((within c m).addRelation ops name as) ((within c' m).addRelation ops name as) := by
  unfold ScalarContext.addRelation within
  simp only
  split
  · exact Twin.error _
  · exact ⟨.ok _, rfl, rfl⟩

theorem inferCte_of {query : Select N} (h : inferSelect ops c' query = inferSelect ops c query) (identifier : N)
    (names : Option (List N)) :
    inferCte ops c' (.mk identifier names query) = inferCte ops c (.mk identifier names query) := by
  unfold inferCte
  exact same_bind h fun _ => rfl

mutual

theorem inferExpr_agree (h : Agree ops P c c') (m : TMap N (Symbol N)) :
    (e : Expr N) → e.Tables P → inferExpr ops (within c' m) e = inferExpr ops (within c m) e
  | .literal l, _ => by unfold inferExpr; rfl
  | .ident q, _ => by unfold inferExpr; rfl
  | .tuple es, ht => by
    unfold Expr.Tables at ht
    unfold inferExpr
    exact same_bind (inferExprs_agree h m es ht) fun _ => rfl
  | .unary op e, ht => by
    unfold Expr.Tables at ht
    unfold inferExpr
    exact same_bind (inferExpr_agree h m e ht) fun _ => rfl
  | .binary op l r, ht => by
    unfold Expr.Tables at ht
    unfold inferExpr
    exact same_bind (inferExpr_agree h m l ht.1) fun _ => same_bind (inferExpr_agree h m r ht.2) fun _ => rfl
  | .comparison op l r, ht => by
    unfold Expr.Tables at ht
    unfold inferExpr
    exact same_bind (inferExpr_agree h m l ht.1) fun _ => same_bind (inferExpr_agree h m r ht.2) fun _ => rfl
  | .between e l u, ht => by
    unfold Expr.Tables at ht
    unfold inferExpr
    exact same_bind (inferExpr_agree h m e ht.1) fun _ => same_bind (inferExpr_agree h m l ht.2.1) fun _ =>
      same_bind (inferExpr_agree h m u ht.2.2) fun _ => rfl
  | .case none whens els, ht => by
    unfold Expr.Tables at ht
    unfold inferExpr
    exact same_bind (congrArg ignored (checkGuards_agree h m _ whens ht.2.1)) fun _ =>
      same_bind (inferBodies_agree h m whens ht.2.1) fun t => inferElse_agree h m t els ht.2.2
  | .case (some e) whens els, ht => by
    unfold Expr.Tables at ht
    have he := ht.1
    unfold Expr.TablesOption at he
    unfold inferExpr
    exact same_bind (inferExpr_agree h m e he) fun et =>
      same_bind (congrArg ignored (checkGuards_agree h m _ whens ht.2.1)) fun _ =>
      same_bind (inferBodies_agree h m whens ht.2.1) fun t => inferElse_agree h m t els ht.2.2
  | .inSet e set, ht => by
    unfold Expr.Tables at ht
    unfold inferExpr
    exact same_bind (inferExpr_agree h m e ht.1) fun _ => same_bind (inferSet_agree h m set ht.2) fun _ => rfl
  | .select s, ht => by
    unfold Expr.Tables at ht
    unfold inferExpr
    exact same_bind (inferSelect_agree h s ht) fun _ => rfl

theorem inferExprs_agree (h : Agree ops P c c') (m : TMap N (Symbol N)) :
    (es : List (Expr N)) → Expr.TablesList P es → inferExprs ops (within c' m) es = inferExprs ops (within c m) es
  | [], _ => by unfold inferExprs; rfl
  | e :: es, ht => by
    unfold Expr.TablesList at ht
    unfold inferExprs
    exact same_bind (inferExpr_agree h m e ht.1) fun _ => same_bind (inferExprs_agree h m es ht.2) fun _ => rfl

theorem checkGuards_agree (h : Agree ops P c c') (m : TMap N (Symbol N)) (check : ScalarType → Chk Unit) :
    (ws : List (When N)) → When.TablesList P ws →
      checkGuards ops (within c' m) check ws = checkGuards ops (within c m) check ws
  | [], _ => by unfold checkGuards; rfl
  | .mk guard body :: ws, ht => by
    unfold When.TablesList at ht
    unfold checkGuards
    exact same_bind (inferExpr_agree h m guard ht.1) fun _ => same_bind rfl fun _ =>
      checkGuards_agree h m check ws ht.2.2

theorem inferBodies_agree (h : Agree ops P c c') (m : TMap N (Symbol N)) :
    (ws : List (When N)) → When.TablesList P ws → inferBodies ops (within c' m) ws = inferBodies ops (within c m) ws
  | [], _ => by unfold inferBodies; rfl
  | .mk guard body :: ws, ht => by
    unfold When.TablesList at ht
    unfold inferBodies
    exact same_bind (inferExpr_agree h m body ht.2.1) fun t => foldBodies_agree h m t ws ht.2.2

theorem foldBodies_agree (h : Agree ops P c c') (m : TMap N (Symbol N)) (typ : ScalarType) :
    (ws : List (When N)) → When.TablesList P ws →
      foldBodies ops (within c' m) typ ws = foldBodies ops (within c m) typ ws
  | [], _ => by unfold foldBodies; rfl
  | .mk guard body :: ws, ht => by
    unfold When.TablesList at ht
    unfold foldBodies
    exact same_bind (inferExpr_agree h m body ht.2.1) fun _ => same_bind rfl fun t => foldBodies_agree h m t ws ht.2.2

theorem inferElse_agree (h : Agree ops P c c') (m : TMap N (Symbol N)) (t : ScalarType) :
    (els : Option (Expr N)) → Expr.TablesOption P els →
      inferElse ops (within c' m) t els = inferElse ops (within c m) t els
  | none, _ => by unfold inferElse; rfl
  | some body, ht => by
    unfold Expr.TablesOption at ht
    unfold inferElse
    cases t with
    | tuple _ => rfl
    | scalar typ n => exact same_bind (inferExpr_agree h m body ht) fun _ => rfl

theorem inferSet_agree (h : Agree ops P c c') (m : TMap N (Symbol N)) :
    (s : SetSpec N) → s.Tables P → inferSet ops (within c' m) s = inferSet ops (within c m) s
  | .select s, ht => by
    unfold SetSpec.Tables at ht
    unfold inferSet
    exact inferSelect_agree h s ht
  | .name q, ht => by
    unfold SetSpec.Tables at ht
    unfold inferSet
    exact h q ht
  | .list es, ht => by
    unfold SetSpec.Tables at ht
    unfold inferSet
    exact same_bind (inferList_agree h m es ht) fun _ => rfl

theorem inferList_agree (h : Agree ops P c c') (m : TMap N (Symbol N)) :
    (es : List (Expr N)) → Expr.TablesList P es → inferList ops (within c' m) es = inferList ops (within c m) es
  | [], _ => by unfold inferList; rfl
  | e :: es, ht => by
    unfold Expr.TablesList at ht
    unfold inferList
    rw [inferExpr_agree h m e ht.1]
    exact foldList_agree h m _ es ht.2

theorem foldList_agree (h : Agree ops P c c') (m : TMap N (Symbol N)) (typ : Chk ScalarType) :
    (es : List (Expr N)) → Expr.TablesList P es →
      foldList ops (within c' m) typ es = foldList ops (within c m) typ es
  | [], _ => by unfold foldList; rfl
  | e :: es, ht => by
    unfold Expr.TablesList at ht
    match typ with
    | .ok t =>
      unfold foldList
      rw [inferExpr_agree h m e ht.1]
      exact foldList_agree h m _ es ht.2
    | .error (.err x) =>
      unfold foldList
      rw [inferExpr_agree h m e ht.1]
      exact foldList_agree h m _ es ht.2
    | .error .panic => unfold foldList; rfl

theorem inferSelect_agree (h : Agree ops P c c') :
    (s : Select N) → s.Tables P → inferSelect ops c' s = inferSelect ops c s
  | .mk common expr orderBy limit, ht => by
    unfold Select.Tables at ht
    unfold inferSelect
    exact Twin.bind_eq (addCommon_agree h [] common ht.1) fun m => same_bind (inferSetExpr_agree h expr ht.2.1)
      fun r => same_bind (checkOrder_agree h m orderBy ht.2.2.1) fun _ =>
        same_bind (checkLimit_agree h limit ht.2.2.2) fun _ => rfl

theorem addCommon_agree (h : Agree ops P c c') (m : TMap N (Symbol N)) :
    (cs : List (Cte N)) → Cte.TablesList P cs →
      Twin (within c) (within c') (addCommon ops c (within c m) cs) (addCommon ops c' (within c' m) cs)
  | [], _ => by unfold addCommon; exact Twin.ok m
  | .mk identifier names query :: cs, ht => by
    unfold Cte.TablesList at ht
    unfold addCommon
    exact Twin.bind' (inferCte_of (inferSelect_agree h query ht.1) identifier names) fun typ =>
      Twin.bind (addRelation_twin m identifier typ.attributes) fun m' => addCommon_agree h m' cs ht.2

theorem checkOrder_agree (h : Agree ops P c c') (m : TMap N (Symbol N)) :
    (ts : List (OrderTerm N)) → OrderTerm.TablesList P ts →
      checkOrder ops (within c' m) ts = checkOrder ops (within c m) ts
  | [], _ => by unfold checkOrder; rfl
  | .mk e _ _ :: ts, ht => by
    unfold OrderTerm.TablesList at ht
    unfold checkOrder
    exact same_bind (inferExpr_agree h m e ht.1) fun _ => same_bind rfl fun _ => checkOrder_agree h m ts ht.2

theorem checkLimit_agree (h : Agree ops P c c') :
    (l : Option (Limit N)) → Limit.TablesOption P l → checkLimit ops c' l = checkLimit ops c l
  | none, _ => by unfold checkLimit; rfl
  | some (.mk rows offset), ht => by
    unfold Limit.TablesOption at ht
    unfold checkLimit
    exact same_bind (inferExpr_agree h [] rows ht.1) fun _ => same_bind rfl fun _ => checkOffset_agree h [] offset ht.2

theorem checkOffset_agree (h : Agree ops P c c') (m : TMap N (Symbol N)) :
    (o : Option (Expr N)) → Expr.TablesOption P o → checkOffset ops (within c' m) o = checkOffset ops (within c m) o
  | none, _ => by unfold checkOffset; rfl
  | some e, ht => by
    unfold Expr.TablesOption at ht
    unfold checkOffset
    exact same_bind (inferExpr_agree h m e ht) fun _ => rfl

theorem inferSetExpr_agree (h : Agree ops P c c') :
    (s : SetExpr N) → s.Tables P → inferSetExpr ops c' s = inferSetExpr ops c s
  | .values rows, ht => by
    unfold SetExpr.Tables at ht
    unfold inferSetExpr
    exact same_bind (inferValues_agree h [] rows ht) fun _ => rfl
  | .query mode columns froms wher groupBy, ht => by
    unfold SetExpr.Tables at ht
    unfold inferSetExpr
    exact Twin.bind_eq (inferFrom_agree h [] froms ht.2.1) fun p =>
      same_bind (checkPredicate_agree h p.1 _ wher ht.2.2.1) fun _ =>
        same_bind (checkGroupBy_agree h p.1 groupBy ht.2.2.2) fun _ => inferColumns_agree h p.1 p.2 columns ht.1
  | .op o l r, ht => by
    unfold SetExpr.Tables at ht
    unfold inferSetExpr
    exact same_bind (inferSetExpr_agree h l ht.1) fun _ => same_bind (inferSetExpr_agree h r ht.2) fun _ => rfl

theorem inferValues_agree (h : Agree ops P c c') (m : TMap N (Symbol N)) :
    (rows : List (List (Expr N))) → Expr.TablesRows P rows →
      inferValues ops (within c' m) rows = inferValues ops (within c m) rows
  | [], _ => by unfold inferValues; rfl
  | row :: rows, ht => by
    unfold Expr.TablesRows at ht
    unfold inferValues
    exact same_bind (inferFirstRow_agree h m 0 row ht.1) fun types => foldRows_agree h m types rows ht.2

theorem inferFirstRow_agree (h : Agree ops P c c') (m : TMap N (Symbol N)) (count : Nat) :
    (es : List (Expr N)) → Expr.TablesList P es →
      inferFirstRow ops (within c' m) count es = inferFirstRow ops (within c m) count es
  | [], _ => by unfold inferFirstRow; rfl
  | e :: es, ht => by
    unfold Expr.TablesList at ht
    unfold inferFirstRow
    refine same_bind (inferExpr_agree h m e ht.1) fun t => ?_
    cases t with
    | tuple _ => rfl
    | scalar typ n => exact same_bind (inferFirstRow_agree h m (count + 1) es ht.2) fun _ => rfl

theorem foldRows_agree (h : Agree ops P c c') (m : TMap N (Symbol N)) (types : List (Attribute N)) :
    (rows : List (List (Expr N))) → Expr.TablesRows P rows →
      foldRows ops (within c' m) types rows = foldRows ops (within c m) types rows
  | [], _ => by unfold foldRows; rfl
  | row :: rows, ht => by
    unfold Expr.TablesRows at ht
    unfold foldRows
    exact same_bind (unifyRow_agree h m types row ht.1) fun types' => foldRows_agree h m types' rows ht.2

theorem unifyRow_agree (h : Agree ops P c c') (m : TMap N (Symbol N)) (as : List (Attribute N)) :
    (es : List (Expr N)) → Expr.TablesList P es → unifyRow ops (within c' m) as es = unifyRow ops (within c m) as es
  | [], _ => by cases as <;> rfl
  | e :: es, ht => by
    unfold Expr.TablesList at ht
    cases as with
    | nil => rfl
    | cons a as =>
      unfold unifyRow
      refine same_bind (inferExpr_agree h m e ht.1) fun t => same_bind rfl fun u => ?_
      cases u with
      | tuple _ => rfl
      | scalar typ n => exact same_bind (unifyRow_agree h m as es ht.2) fun _ => rfl

theorem inferFrom_agree (h : Agree ops P c c') (m : TMap N (Symbol N)) :
    (ts : List (TableExpr N)) → TableExpr.TablesList P ts →
      Twin (ranged c) (ranged c') (inferFrom ops (within c m) ts) (inferFrom ops (within c' m) ts)
  | [], _ => by unfold inferFrom; exact Twin.ok (m, [])
  | t :: ts, ht => by
    unfold TableExpr.TablesList at ht
    unfold inferFrom
    exact Twin.bind (inferTable_agree h m t ht.1) fun p => Twin.bind (inferFrom_agree h p.1 ts ht.2) fun p' =>
      Twin.ok (p'.1, p.2 ++ p'.2)

theorem inferTable_agree (h : Agree ops P c c') (m : TMap N (Symbol N)) :
    (t : TableExpr N) → t.Tables P →
      Twin (ranged c) (ranged c') (inferTable ops (within c m) t) (inferTable ops (within c' m) t)
  | .named name alias, ht => by
    unfold TableExpr.Tables at ht
    unfold inferTable
    exact Twin.bind' (h name ht) fun typ => Twin.bind' rfl fun id =>
      Twin.bind (addRelation_twin m id typ.attributes) fun m' => Twin.ok (m', typ.attributes)
  | .select s alias, ht => by
    unfold TableExpr.Tables at ht
    unfold inferTable
    exact Twin.bind' (inferSelect_agree h s ht) fun typ => Twin.ok (m, typ.attributes)
  | .join l r _ _, ht => by
    unfold TableExpr.Tables at ht
    unfold inferTable
    exact Twin.bind (inferTable_agree h m l ht.1) fun p => Twin.bind (inferTable_agree h p.1 r ht.2.1) fun p' =>
      Twin.ok (p'.1, p.2 ++ p'.2)

theorem checkPredicate_agree (h : Agree ops P c c') (m : TMap N (Symbol N)) (msg : SqlError) :
    (o : Option (Expr N)) → Expr.TablesOption P o →
      checkPredicate ops (within c' m) msg o = checkPredicate ops (within c m) msg o
  | none, _ => by unfold checkPredicate; rfl
  | some e, ht => by
    unfold Expr.TablesOption at ht
    unfold checkPredicate
    exact same_bind (inferExpr_agree h m e ht) fun _ => rfl

theorem checkGroupBy_agree (h : Agree ops P c c') (m : TMap N (Symbol N)) :
    (g : Option (GroupBy N)) → GroupBy.TablesOption P g →
      checkGroupBy ops (within c' m) g = checkGroupBy ops (within c m) g
  | none, _ => by unfold checkGroupBy; rfl
  | some (.mk groupings having), ht => by
    unfold GroupBy.TablesOption at ht
    unfold checkGroupBy
    exact same_bind (inferExprs_agree h m groupings ht.1) fun _ => checkPredicate_agree h m _ having ht.2

theorem inferColumns_agree (h : Agree ops P c c') (m : TMap N (Symbol N)) (as : List (Attribute N)) :
    (cs : ResultColumns N) → cs.Tables P → inferColumns ops (within c' m) as cs = inferColumns ops (within c m) as cs
  | .all, _ => by unfold inferColumns; rfl
  | .list cs, ht => by
    unfold ResultColumns.Tables at ht
    unfold inferColumns
    exact same_bind (inferColumnList_agree h m [] cs ht) fun _ => rfl

theorem inferColumnList_agree (h : Agree ops P c c') (m : TMap N (Symbol N)) (generated : TMap N Nat) :
    (cs : List (ResultColumn N)) → ResultColumn.TablesList P cs →
      inferColumnList ops (within c' m) generated cs = inferColumnList ops (within c m) generated cs
  | [], _ => by unfold inferColumnList; rfl
  | .allFrom name :: cs, ht => by
    unfold ResultColumn.TablesList at ht
    unfold inferColumnList
    rw [show (within c' m).symbols = m from rfl, show (within c m).symbols = m from rfl]
    cases m.get ops name with
    | none => rfl
    | some s =>
      cases s with
      | «attribute» t => rfl
      | attributeConflict => rfl
      | relation fields =>
        exact same_bind rfl fun as => same_bind (inferColumnList_agree h m _ cs ht) fun _ => rfl
  | .expr e rename :: cs, ht => by
    unfold ResultColumn.TablesList at ht
    unfold inferColumnList
    refine same_bind (inferExpr_agree h m e ht.1) fun t => ?_
    cases t with
    | tuple _ => rfl
    | scalar typ n => exact same_bind (inferColumnList_agree h m _ cs ht.2) fun _ => rfl

end

theorem updateAssignments_agree (h : Agree ops P c c') (m : TMap N (Symbol N)) (map : TMap N (DataType × Bool))
    (as : List (Assignment N)) (ht : ∀ a ∈ as, a.expr.Tables P) (assigned : TMap N Unit) :
    updateAssignments ops (within c' m) map assigned as = updateAssignments ops (within c m) map assigned as := by
  induction as generalizing assigned with
  | nil => rfl
  | cons a as ih =>
    unfold updateAssignments
    refine same_bind (inferExpr_agree h m a.expr (ht a List.mem_cons_self)) fun t => ?_
    cases t with
    | tuple _ => rfl
    | scalar typ n => exact same_bind rfl fun _ => ih (fun a ha => ht a (List.mem_cons_of_mem _ ha)) _

theorem tableContext_twin (name : List N) (typ : RowType N) :
    Twin (within c) (within c') (tableContext ops c name typ) (tableContext ops c' name typ) := by
  unfold tableContext
  cases name.getLast? with
  | none => exact Twin.error _
  | some n => exact addRelation_twin [] n typ.attributes

theorem statement_agree (h : Agree ops P c c') (s : Statement N) (ht : s.Tables P) :
    s.validateType ops c' = s.validateType ops c := by
  cases s with
  | select s => exact same_bind (inferSelect_agree h s ht) fun _ => rfl
  | insert s =>
    show s.validateType ops c' = s.validateType ops c
    unfold InsertStatement.validateType
    exact same_bind (h _ ht.1) fun _ => same_bind (inferSetExpr_agree h _ ht.2) fun _ => rfl
  | update s =>
    show s.validateType ops c' = s.validateType ops c
    unfold UpdateStatement.validateType
    exact same_bind (h _ ht.1) fun typ => Twin.bind_eq (tableContext_twin s.tableName typ) fun m =>
      same_bind (updateAssignments_agree h m _ _ ht.2.1 _) fun _ => checkPredicate_agree h m _ _ ht.2.2
  | delete s =>
    show s.validateType ops c' = s.validateType ops c
    unfold DeleteStatement.validateType
    exact same_bind (h _ ht.1) fun typ => Twin.bind_eq (tableContext_twin s.tableName typ) fun m =>
      checkPredicate_agree h m _ _ ht.2

theorem sqlStatement_agree (h : Agree ops P c c') (s : SqlStatement N) (ht : s.Tables P) :
    s.validateType ops c' = s.validateType ops c := by
  cases s with
  | statement s => exact statement_agree h s ht
  | explainQueryPlan s => exact statement_agree h s ht
  | attach s => rfl
  | describe s => exact same_bind (h _ ht) fun _ => rfl

/-! ## Catalogues -/

section
variable {up : Char → List Char}

/-- In a map made from another one value by value, every key has the image of its value. -/
theorem get_collect_map {V W : Type} {m : TMap Name V} (hm : Sorted up m) (g : Name × V → W) (k : Name) :
    (TMap.collect (nameOps up) (m.map fun e => (e.1, g e))).get (nameOps up) k = none ∧ m.get (nameOps up) k = none ∨
    ∃ e ∈ m, m.get (nameOps up) k = some e.2 ∧
      (TMap.collect (nameOps up) (m.map fun e => (e.1, g e))).get (nameOps up) k = some (g e) := by
  cases h : (TMap.collect (nameOps up) (m.map fun e => (e.1, g e))).get (nameOps up) k with
  | none =>
    refine .inl ⟨rfl, (get_none_iff up).2 fun v hv => ?_⟩
    obtain ⟨e, he, hk, rfl⟩ := hv
    exact (TMap.get_collect_none (keyed_nameOps up)).1 h (e.1, g e) (List.mem_map_of_mem he) hk
  | some w =>
    obtain ⟨e', he', hk, rfl⟩ := TMap.get_collect_mem (keyed_nameOps up) h
    obtain ⟨e, he, rfl⟩ := List.mem_map.1 he'
    exact .inr ⟨e, he, (get_iff_entry up hm).2 ⟨e, he, hk, rfl⟩, rfl⟩

/-- What a table name in a statement means, by what `describe` says. -/
theorem resolve_new {db : Database Name} (hs : Sorted up db.schemata)
    (ho : ∀ e ∈ db.schemata, Sorted up e.2.objects) (d s t : Name) :
    (∀ rows, db.describe (nameOps up) s t = .ok rows →
      (SetContext.new (nameOps up) db d).resolveTableName (nameOps up) [s, t] = .ok (RowType.ofRowSet rows) ∧
      (SetContext.new (nameOps up) db s).resolveTableName (nameOps up) [t] = .ok (RowType.ofRowSet rows)) ∧
    (db.describe (nameOps up) s t = .error .schemaNotFound →
      (SetContext.new (nameOps up) db d).resolveTableName (nameOps up) [s, t] = err .namespaceNotPresent ∧
      (SetContext.new (nameOps up) db s).resolveTableName (nameOps up) [t] = panics) ∧
    (db.describe (nameOps up) s t = .error .objectNotFound →
      (SetContext.new (nameOps up) db d).resolveTableName (nameOps up) [s, t] = err .tableNotFound ∧
      (SetContext.new (nameOps up) db s).resolveTableName (nameOps up) [t] = err .tableNotFound) ∧
    db.describe (nameOps up) s t ≠ .error .alreadyDefined := by
  unfold Database.describe SetContext.resolveTableName SetContext.new
  simp only [TMap.get]
  rcases get_collect_map hs (fun e => objectTypes (nameOps up) e.2) s with ⟨h1, h2⟩ | ⟨e, he, h2, h1⟩
  · rw [show namespacesOf (nameOps up) db =
      TMap.collect (nameOps up) (db.schemata.map fun e => (e.1, objectTypes (nameOps up) e.2)) from rfl, h1, h2]
    simp
  · rw [show namespacesOf (nameOps up) db =
      TMap.collect (nameOps up) (db.schemata.map fun e => (e.1, objectTypes (nameOps up) e.2)) from rfl, h1, h2]
    simp only
    rcases get_collect_map (ho e he) (fun o => RowType.ofRowSet o.2.rowSet) t with ⟨h3, h4⟩ | ⟨o, ho', h4, h3⟩
    · rw [show objectTypes (nameOps up) e.2 = TMap.collect (nameOps up)
        (e.2.objects.map fun e => (e.1, RowType.ofRowSet e.2.rowSet)) from rfl, h3, h4]
      simp
    · rw [show objectTypes (nameOps up) e.2 = TMap.collect (nameOps up)
        (e.2.objects.map fun e => (e.1, RowType.ofRowSet e.2.rowSet)) from rfl, h3, h4]
      obtain ⟨_, o⟩ := o
      cases o <;> simp [SchemaObject.rowSet]

theorem new_agree {db db' : Database Name} (hs : Sorted up db.schemata) (ho : ∀ e ∈ db.schemata, Sorted up e.2.objects)
    (hs' : Sorted up db'.schemata) (ho' : ∀ e ∈ db'.schemata, Sorted up e.2.objects) (d : Name) :
    Agree (nameOps up) (fun q => ∀ s t, q = [s, t] ∨ q = [t] ∧ s = d →
      db'.describe (nameOps up) s t = db.describe (nameOps up) s t)
      (SetContext.new (nameOps up) db d) (SetContext.new (nameOps up) db' d) := by
  intro q hq
  match q, hq with
  | [], _ => rfl
  | [t], hq =>
    have hd := hq d t (.inr ⟨rfl, rfl⟩)
    obtain ⟨a1, a2, a3, a4⟩ := resolve_new hs ho d d t
    obtain ⟨b1, b2, b3, b4⟩ := resolve_new hs' ho' d d t
    cases h : db.describe (nameOps up) d t with
    | ok rows => rw [(a1 rows h).2, (b1 rows (hd.trans h)).2]
    | error e =>
      cases e with
      | alreadyDefined => exact absurd h a4
      | schemaNotFound => rw [(a2 h).2, (b2 (hd.trans h)).2]
      | objectNotFound => rw [(a3 h).2, (b3 (hd.trans h)).2]
  | [s, t], hq =>
    have hd := hq s t (.inl rfl)
    obtain ⟨a1, a2, a3, a4⟩ := resolve_new hs ho d s t
    obtain ⟨b1, b2, b3, b4⟩ := resolve_new hs' ho' d s t
    cases h : db.describe (nameOps up) s t with
    | ok rows => rw [(a1 rows h).1, (b1 rows (hd.trans h)).1]
    | error e =>
      cases e with
      | alreadyDefined => exact absurd h a4
      | schemaNotFound => rw [(a2 h).1, (b2 (hd.trans h)).1]
      | objectNotFound => rw [(a3 h).1, (b3 (hd.trans h)).1]
  | _ :: _ :: _ :: _, _ => rfl

/-- Defining the same common table expression keeps contexts alike. -/
theorem defineRelation_agree {P : List Name → Prop} {c c' : SetContext Name} (h : Agree (nameOps up) P c c')
    (he : c'.tableExpression = c.tableExpression) (n : Name) (r : RowType Name) :
    Agree (nameOps up) P { c with tableExpression := c.tableExpression.insert (nameOps up) n r }
      { c' with tableExpression := c'.tableExpression.insert (nameOps up) n r } := by
  intro q hq
  have h1 := h q hq
  have back : ∀ k, (c.tableExpression.insert (nameOps up) n r).get (nameOps up) k = none →
      c.tableExpression.get (nameOps up) k = none := by
    intro k hk
    rw [TMap.get_insert (keyed_nameOps up)] at hk
    split at hk
    · cases hk
    · exact hk
  unfold SetContext.resolveTableName at h1 ⊢
  match q with
  | [] => rfl
  | [t] =>
    simp only [he] at h1 ⊢
    cases hk : (c.tableExpression.insert (nameOps up) n r).get (nameOps up) t with
    | some _ => rfl
    | none =>
      rw [back t hk] at h1
      exact h1
  | [s, t] =>
    simp only [he] at h1 ⊢
    cases hk : (c.tableExpression.insert (nameOps up) n r).get (nameOps up) s with
    | some _ => rfl
    | none =>
      rw [back s hk] at h1
      exact h1
  | _ :: _ :: _ :: _ => rfl

/-- Both runs over the common table expressions fail alike, or end in contexts that are alike. -/
theorem initializeFrom_agree {P : List Name → Prop} (cs : List (Cte Name)) (ht : Cte.TablesList P cs)
    {c c' : SetContext Name} (h : Agree (nameOps up) P c c') (he : c'.tableExpression = c.tableExpression) :
    (∃ e, c.initializeFrom (nameOps up) cs = .error e ∧ c'.initializeFrom (nameOps up) cs = .error e) ∨
    ∃ d d', c.initializeFrom (nameOps up) cs = .ok d ∧ c'.initializeFrom (nameOps up) cs = .ok d' ∧
      Agree (nameOps up) P d d' := by
  induction cs generalizing c c' with
  | nil => exact .inr ⟨c, c', rfl, rfl, h⟩
  | cons x cs ih =>
    obtain ⟨id, names, query⟩ := x
    unfold Cte.TablesList at ht
    unfold SetContext.initializeFrom
    rw [inferCte_of (inferSelect_agree h query ht.1) id names]
    cases h1 : inferCte (nameOps up) c (.mk id names query) with
    | error e => exact .inl ⟨e, rfl, rfl⟩
    | ok r =>
      rw [Chk.ok_bind', Chk.ok_bind']
      unfold SetContext.defineRelation
      rw [he]
      cases h2 : c.tableExpression.get (nameOps up) id with
      | some _ => exact .inl ⟨_, rfl, rfl⟩
      | none =>
        have h3 := defineRelation_agree h he id r
        rw [he] at h3
        exact ih ht.2 h3 rfl

end

end Verif.Sql
