import Verif.Proof.SqlSafe
import Verif.Spec.SqlSpelling
/-! # Inference commutes with replacing identifiers -/

namespace Verif.Sql

/-- A replacement of identifiers that keeps everything the code does with them. -/
structure Hom {N K : Type} (ops : NameOps N) (ops' : NameOps K) (f : N → K) : Prop where
  cmp : ∀ a b, ops'.cmp (f a) (f b) = ops.cmp a b
  eq : ∀ a b, ops'.eq (f a) (f b) = ops.eq a b
  lit : ∀ s, ops'.lit s = f (ops.lit s)
  numbered : ∀ n k, ops'.numbered (f n) k = f (ops.numbered n k)

namespace Chk
variable {α β γ δ : Type}

/-- The value of a successful call changed. -/
def map (g : α → β) : Chk α → Chk β
  | .ok a => .ok (g a)
  | .error e => .error e

theorem map_id (r : Chk α) : map id r = r := by
  cases r <;> rfl

theorem hom_bind {r : Chk α} {r' : Chk β} {g : α → β} {k : α → Chk γ} {k' : β → Chk δ} {j : γ → δ}
    (h : r' = map g r) (hk : ∀ a, k' (g a) = map j (k a)) : (r' >>= k') = map j (r >>= k) := by
  subst h
  cases r with
  | ok a => exact hk a
  | error e => rfl

/-- The first call gives the same. -/
theorem hom_bind' {r r' : Chk α} {k : α → Chk γ} {k' : α → Chk δ} {j : γ → δ}
    (h : r' = r) (hk : ∀ a, k' a = map j (k a)) : (r' >>= k') = map j (r >>= k) := by
  subst h
  cases r' with
  | ok a => exact hk a
  | error e => rfl

/-- Both give the same. -/
theorem same_bind {r r' : Chk α} {k k' : α → Chk γ} (h : r' = r) (hk : ∀ a, k' a = k a) :
    (r' >>= k') = (r >>= k) := by
  subst h
  cases r' with
  | ok a => exact hk a
  | error e => rfl

/-- The first call gives the image, the whole the same. -/
theorem from_bind {r : Chk α} {r' : Chk β} {g : α → β} {k : α → Chk γ} {k' : β → Chk γ}
    (h : r' = map g r) (hk : ∀ a, k' (g a) = k a) : (r' >>= k') = (r >>= k) := by
  subst h
  cases r with
  | ok a => exact hk a
  | error e => rfl

end Chk

open Chk

section maps

variable {N K V W : Type} {ops : NameOps N} {ops' : NameOps K} {f : N → K} (h : Hom ops ops' f)
include h

theorem get_mapBoth (g : V → W) (m : TMap N V) (k : N) :
    (m.mapBoth f g).get ops' (f k) = (m.get ops k).map g := by
  induction m with
  | nil => rfl
  | cons e r ih =>
    obtain ⟨k', v⟩ := e
    show TMap.get ops' ((f k', g v) :: TMap.mapBoth f g r) (f k) = _
    unfold TMap.get
    rw [h.cmp]
    split
    · rfl
    · exact ih

theorem containsKey_mapBoth (g : V → W) (m : TMap N V) (k : N) :
    (m.mapBoth f g).containsKey ops' (f k) = m.containsKey ops k := by
  unfold TMap.containsKey
  rw [get_mapBoth h]
  cases m.get ops k <;> rfl

theorem insert_mapBoth (g : V → W) (m : TMap N V) (k : N) (v : V) :
    (m.mapBoth f g).insert ops' (f k) (g v) = (m.insert ops k v).mapBoth f g := by
  induction m with
  | nil => rfl
  | cons e r ih =>
    obtain ⟨k', v'⟩ := e
    show TMap.insert ops' ((f k', g v') :: TMap.mapBoth f g r) (f k) (g v) = _
    unfold TMap.insert
    rw [h.cmp]
    cases ops.cmp k k' with
    | lt => rfl
    | eq => rfl
    | gt =>
      simp only [ih]
      rfl

theorem remove_mapBoth (g : V → W) (m : TMap N V) (k : N) :
    (m.mapBoth f g).remove ops' (f k) = (m.remove ops k).mapBoth f g := by
  unfold TMap.remove TMap.mapBoth
  rw [List.filter_map]
  congr 1
  refine congrArg (fun p => List.filter p m) (funext fun e => ?_)
  simp only [Function.comp, h.cmp]

theorem foldl_mapBoth (g : V → W) (es : List (N × V)) (m : TMap N V) :
    (es.map fun e => (f e.1, g e.2)).foldl (fun m e => TMap.insert ops' m e.1 e.2) (m.mapBoth f g) =
      (es.foldl (fun m e => TMap.insert ops m e.1 e.2) m).mapBoth f g := by
  induction es generalizing m with
  | nil => rfl
  | cons e es ih =>
    rw [List.map_cons, List.foldl_cons, List.foldl_cons]
    rw [insert_mapBoth h]
    exact ih _

theorem collect_mapBoth (g : V → W) (es : List (N × V)) :
    TMap.collect ops' (es.map fun e => (f e.1, g e.2)) = (TMap.collect ops es).mapBoth f g :=
  foldl_mapBoth h g es []

end maps

variable {N K : Type} {ops : NameOps N} {ops' : NameOps K} {f : N → K} (h : Hom ops ops' f)

theorem attribute_scalar_map (a : Attribute N) : (a.map f).scalar = a.scalar := rfl

section contexts
include h

theorem resolve_map (ctx : SetContext N) (q : List N) :
    (ctx.map f).resolveTableName ops' (q.map f) = map (RowType.map f) (ctx.resolveTableName ops q) := by
  have g1 : ∀ k, (ctx.map f).tableExpression.get ops' (f k) = (ctx.tableExpression.get ops k).map (RowType.map f) :=
    fun k => get_mapBoth h _ _ k
  have g2 : ∀ k, (ctx.map f).namespaces.get ops' (f k) =
      (ctx.namespaces.get ops k).map (TMap.mapBoth f (RowType.map f)) := fun k => get_mapBoth h _ _ k
  have g3 : ∀ (m : TMap N (RowType N)) k, TMap.get ops' (m.mapBoth f (RowType.map f)) (f k) =
      (m.get ops k).map (RowType.map f) := fun m k => get_mapBoth h _ _ k
  match q with
  | [] => rfl
  | [t] =>
    show SetContext.resolveTableName ops' (ctx.map f) [f t] = _
    unfold SetContext.resolveTableName
    simp only [g1]
    cases ctx.tableExpression.get ops t with
    | some r => rfl
    | none =>
      simp only [Option.map_none, show (ctx.map f).defaultNamespace = f ctx.defaultNamespace from rfl, g2]
      cases ctx.namespaces.get ops ctx.defaultNamespace with
      | none => rfl
      | some ns =>
        simp only [Option.map_some, g3]
        cases ns.get ops t <;> rfl
  | [s, t] =>
    show SetContext.resolveTableName ops' (ctx.map f) [f s, f t] = _
    unfold SetContext.resolveTableName
    simp only [g1]
    cases ctx.tableExpression.get ops s with
    | some r => rfl
    | none =>
      simp only [Option.map_none, g2]
      cases ctx.namespaces.get ops s with
      | none => rfl
      | some ns =>
        simp only [Option.map_some, g3]
        cases ns.get ops t <;> rfl
  | _ :: _ :: _ :: _ => rfl

theorem addAttributes_map (as : List (Attribute N)) (symbols : TMap N (Symbol N)) :
    addAttributes ops' (symbols.mapBoth f (Symbol.map f)) (as.map (Attribute.map f)) =
      (addAttributes ops symbols as).mapBoth f (Symbol.map f) := by
  induction as generalizing symbols with
  | nil => rfl
  | cons a as ih =>
    rw [List.map_cons]
    unfold addAttributes
    rw [show (a.map f).name = f a.name from rfl, get_mapBoth h]
    have ins : ∀ s : Symbol N, TMap.insert ops' (symbols.mapBoth f (Symbol.map f)) (f a.name) (s.map f) =
      (symbols.insert ops a.name s).mapBoth f (Symbol.map f) := fun s => insert_mapBoth h _ _ _ _
    cases symbols.get ops a.name with
    | none =>
      simp only [Option.map_none, attribute_scalar_map]
      rw [← ih]
      exact congrArg (fun m => addAttributes ops' m _) (ins (.attribute a.scalar))
    | some s =>
      cases s with
      | «attribute» t =>
        show addAttributes ops' (TMap.insert ops' _ (f a.name) .attributeConflict) _ = _
        rw [← ih]
        exact congrArg (fun m => addAttributes ops' m _) (ins .attributeConflict)
      | attributeConflict => exact ih symbols
      | relation m => exact ih symbols

theorem addRelation_map (sc : ScalarContext N) (name : N) (as : List (Attribute N)) :
    (sc.map f).addRelation ops' (f name) (as.map (Attribute.map f)) =
      map (ScalarContext.map f) (sc.addRelation ops name as) := by
  unfold ScalarContext.addRelation
  simp only
  have e1 : addAttributes ops' (sc.map f).symbols (as.map (Attribute.map f)) =
      (addAttributes ops sc.symbols as).mapBoth f (Symbol.map f) := addAttributes_map h as _
  have e2 : TMap.collect ops' (List.map (fun a => (a.name, a.scalar)) (as.map (Attribute.map f))) =
      (TMap.collect ops (as.map fun a => (a.name, a.scalar))).mapBoth f id := by
    rw [← collect_mapBoth h, List.map_map, List.map_map]
    rfl
  rw [e1, e2, get_mapBoth h]
  have ins : TMap.insert ops' ((addAttributes ops sc.symbols as).mapBoth f (Symbol.map f)) (f name)
      (.relation ((TMap.collect ops (as.map fun a => (a.name, a.scalar))).mapBoth f id)) =
      ((addAttributes ops sc.symbols as).insert ops name
        (.relation (TMap.collect ops (as.map fun a => (a.name, a.scalar))))).mapBoth f (Symbol.map f) :=
    insert_mapBoth h (Symbol.map f) _ name (.relation _)
  rw [ins]
  cases (addAttributes ops sc.symbols as).get ops name with
  | none => rfl
  | some s => cases s <;> rfl

theorem inferType_map (sc : ScalarContext N) (q : List N) :
    (sc.map f).inferType ops' (q.map f) = sc.inferType ops q := by
  have g1 : ∀ k, (sc.map f).symbols.get ops' (f k) = (sc.symbols.get ops k).map (Symbol.map f) :=
    fun k => get_mapBoth h _ _ k
  match q with
  | [] => rfl
  | [a] =>
    show ScalarContext.inferType ops' (sc.map f) [f a] = _
    unfold ScalarContext.inferType
    simp only [g1]
    cases sc.symbols.get ops a with
    | none => rfl
    | some s => cases s <;> rfl
  | [r, a] =>
    show ScalarContext.inferType ops' (sc.map f) [f r, f a] = _
    unfold ScalarContext.inferType
    simp only [g1]
    cases sc.symbols.get ops r with
    | none => rfl
    | some s =>
      cases s with
      | «attribute» t => rfl
      | attributeConflict => rfl
      | relation m =>
        simp only [Option.map_some, Symbol.map]
        rw [get_mapBoth h]
        cases m.get ops a <;> rfl
  | _ :: _ :: _ :: _ => rfl

theorem generateColumnName_map (name : N) (generated : TMap N Nat) :
    generateColumnName ops' (f name) (generated.mapBoth f id) =
      (f (generateColumnName ops name generated).1, (generateColumnName ops name generated).2.mapBoth f id) := by
  have ins : ∀ (m : TMap N Nat) k v, TMap.insert ops' (m.mapBoth f id) (f k) v = (m.insert ops k v).mapBoth f id :=
    fun m k v => insert_mapBoth h id m k v
  unfold generateColumnName
  rw [get_mapBoth h]
  cases generated.get ops name with
  | none => simp only [Option.map_none, ins]
  | some c => simp only [Option.map_some, h.numbered, ins, id]

theorem generateColumns_map (as : List (Attribute N)) (generated : TMap N Nat) :
    generateColumns ops' (generated.mapBoth f id) (as.map (Attribute.map f)) =
      ((generateColumns ops generated as).1.map (Attribute.map f),
        (generateColumns ops generated as).2.mapBoth f id) := by
  induction as generalizing generated with
  | nil => rfl
  | cons a as ih =>
    rw [List.map_cons]
    unfold generateColumns
    rw [show (a.map f).name = f a.name from rfl, generateColumnName_map h]
    simp only [ih]
    rfl

omit h in
theorem relationAttributes_map (m : TMap N ScalarType) :
    relationAttributes (m.mapBoth f id) = map (List.map (Attribute.map f)) (relationAttributes m) := by
  induction m with
  | nil => rfl
  | cons e r ih =>
    obtain ⟨n, t⟩ := e
    cases t with
    | tuple _ => rfl
    | scalar typ b =>
      show relationAttributes ((f n, .scalar typ b) :: TMap.mapBoth f id r) = _
      unfold relationAttributes
      exact hom_bind ih fun _ => rfl

omit h in
theorem singleColumn_map (e : SqlError) (r : RowType N) : singleColumn e (r.map f) = singleColumn e r := by
  obtain ⟨as, pk, ob⟩ := r
  match as with
  | [] => rfl
  | [_] => rfl
  | _ :: _ :: _ => rfl

omit h in
theorem relationName_map (name : List N) (alias : Option N) :
    relationName (name.map f) (alias.map f) = map f (relationName name alias) := by
  cases alias with
  | some _ => rfl
  | none =>
    unfold relationName
    simp only [Option.map_none, List.getLast?_map]
    cases name.getLast? <;> rfl

omit h in
theorem unifyAttributes_map (ls rs : List (Attribute N)) :
    unifyAttributes (ls.map (Attribute.map f)) (rs.map (Attribute.map f)) =
      map (List.map (Attribute.map f)) (unifyAttributes ls rs) := by
  induction ls generalizing rs with
  | nil => rfl
  | cons l ls ih =>
    cases rs with
    | nil => rfl
    | cons r rs =>
      rw [List.map_cons, List.map_cons]
      unfold unifyAttributes
      rw [attribute_scalar_map, attribute_scalar_map]
      refine hom_bind' rfl fun t => ?_
      cases t with
      | tuple _ => rfl
      | scalar typ b => exact hom_bind (ih rs) fun _ => rfl

theorem selectColumns_map (as : List (Attribute N)) (cs : List N) :
    selectColumns ops' (as.map (Attribute.map f)) (cs.map f) =
      map (List.map (Attribute.map f)) (selectColumns ops as cs) := by
  induction cs with
  | nil => rfl
  | cons c cs ih =>
    rw [List.map_cons]
    unfold selectColumns
    have e1 : (as.map (Attribute.map f)).find? (fun a => ops'.eq a.name (f c)) =
        (as.find? fun a => ops.eq a.name c).map (Attribute.map f) := by
      rw [List.find?_map]
      refine congrArg (fun p => (List.find? p as).map _) (funext fun a => ?_)
      exact h.eq _ _
    rw [e1]
    cases as.find? fun a => ops.eq a.name c with
    | none => rfl
    | some a => exact hom_bind ih fun _ => rfl

end contexts

/-- The result of a FROM clause with its identifiers replaced. -/
def mapFrom (f : N → K) (r : ScalarContext N × List (Attribute N)) : ScalarContext K × List (Attribute K) :=
  (r.1.map f, r.2.map (Attribute.map f))

theorem mapFrom_append (f : N → K) (sc : ScalarContext N) (as bs : List (Attribute N)) :
    mapFrom f (sc, as ++ bs) = (sc.map f, as.map (Attribute.map f) ++ bs.map (Attribute.map f)) := by
  unfold mapFrom
  rw [List.map_append]

mutual

theorem inferExpr_map (h : Hom ops ops' f) (sc : ScalarContext N) :
    (e : Expr N) → inferExpr ops' (sc.map f) (e.map f) = inferExpr ops sc e
  | .literal l => by unfold Expr.map inferExpr; rfl
  | .ident q => by
    unfold Expr.map inferExpr
    exact inferType_map h sc q
  | .tuple es => by
    unfold Expr.map inferExpr
    exact same_bind (inferExprs_map h sc es) fun _ => rfl
  | .unary op e => by
    unfold Expr.map inferExpr
    exact same_bind (inferExpr_map h sc e) fun _ => rfl
  | .binary op l r => by
    unfold Expr.map inferExpr
    exact same_bind (inferExpr_map h sc l) fun _ => same_bind (inferExpr_map h sc r) fun _ => rfl
  | .comparison op l r => by
    unfold Expr.map inferExpr
    exact same_bind (inferExpr_map h sc l) fun _ => same_bind (inferExpr_map h sc r) fun _ => rfl
  | .between e l u => by
    unfold Expr.map inferExpr
    exact same_bind (inferExpr_map h sc e) fun _ => same_bind (inferExpr_map h sc l) fun _ =>
      same_bind (inferExpr_map h sc u) fun _ => rfl
  | .case none whens els => by
    unfold Expr.map
    rw [show Expr.mapOption f (none : Option (Expr N)) = none from rfl]
    unfold inferExpr
    refine same_bind (congrArg ignored (checkGuards_map h sc _ whens)) fun _ =>
      same_bind (inferBodies_map h sc whens) fun t => ?_
    exact inferElse_map h sc t els
  | .case (some e) whens els => by
    unfold Expr.map
    rw [show Expr.mapOption f (some e) = some (e.map f) from by rw [Expr.mapOption]]
    unfold inferExpr
    refine same_bind (inferExpr_map h sc e) fun et =>
      same_bind (congrArg ignored (checkGuards_map h sc _ whens)) fun _ =>
      same_bind (inferBodies_map h sc whens) fun t => ?_
    exact inferElse_map h sc t els
  | .inSet e set => by
    unfold Expr.map inferExpr
    exact same_bind (inferExpr_map h sc e) fun et => from_bind (inferSet_map h sc set) fun r =>
      same_bind (singleColumn_map _ r) fun _ => rfl
  | .select s => by
    unfold Expr.map inferExpr
    exact from_bind (inferSelect_map h sc.setContext s) fun r => singleColumn_map _ r

theorem inferExprs_map (h : Hom ops ops' f) (sc : ScalarContext N) :
    (es : List (Expr N)) → inferExprs ops' (sc.map f) (Expr.mapList f es) = inferExprs ops sc es
  | [] => by unfold Expr.mapList inferExprs; rfl
  | e :: es => by
    unfold Expr.mapList inferExprs
    exact same_bind (inferExpr_map h sc e) fun _ => same_bind (inferExprs_map h sc es) fun _ => rfl

theorem checkGuards_map (h : Hom ops ops' f) (sc : ScalarContext N) (check : ScalarType → Chk Unit) :
    (ws : List (When N)) → checkGuards ops' (sc.map f) check (When.mapList f ws) = checkGuards ops sc check ws
  | [] => by unfold When.mapList checkGuards; rfl
  | .mk guard body :: ws => by
    unfold When.mapList checkGuards
    exact same_bind (inferExpr_map h sc guard) fun _ => same_bind rfl fun _ => checkGuards_map h sc check ws

theorem inferBodies_map (h : Hom ops ops' f) (sc : ScalarContext N) :
    (ws : List (When N)) → inferBodies ops' (sc.map f) (When.mapList f ws) = inferBodies ops sc ws
  | [] => by unfold When.mapList inferBodies; rfl
  | .mk guard body :: ws => by
    unfold When.mapList inferBodies
    exact same_bind (inferExpr_map h sc body) fun t => foldBodies_map h sc t ws

theorem foldBodies_map (h : Hom ops ops' f) (sc : ScalarContext N) (typ : ScalarType) :
    (ws : List (When N)) → foldBodies ops' (sc.map f) typ (When.mapList f ws) = foldBodies ops sc typ ws
  | [] => by unfold When.mapList foldBodies; rfl
  | .mk guard body :: ws => by
    unfold When.mapList foldBodies
    exact same_bind (inferExpr_map h sc body) fun _ => same_bind rfl fun t => foldBodies_map h sc t ws

theorem inferElse_map (h : Hom ops ops' f) (sc : ScalarContext N) (t : ScalarType) :
    (els : Option (Expr N)) → inferElse ops' (sc.map f) t (Expr.mapOption f els) = inferElse ops sc t els
  | none => by unfold Expr.mapOption inferElse; rfl
  | some body => by
    unfold Expr.mapOption inferElse
    cases t with
    | tuple _ => rfl
    | scalar typ n => exact same_bind (inferExpr_map h sc body) fun _ => rfl

theorem inferSet_map (h : Hom ops ops' f) (sc : ScalarContext N) :
    (s : SetSpec N) → inferSet ops' (sc.map f) (s.map f) = map (RowType.map f) (inferSet ops sc s)
  | .select s => by
    unfold SetSpec.map inferSet
    exact inferSelect_map h sc.setContext s
  | .name q => by
    unfold SetSpec.map inferSet
    exact resolve_map h sc.setContext q
  | .list es => by
    unfold SetSpec.map inferSet
    refine hom_bind' (inferList_map h sc es) fun t => ?_
    cases t with
    | tuple _ => rfl
    | scalar typ n =>
      show Except.ok _ = Except.ok _
      rw [h.lit, h.numbered]
      rfl

theorem inferList_map (h : Hom ops ops' f) (sc : ScalarContext N) :
    (es : List (Expr N)) → inferList ops' (sc.map f) (Expr.mapList f es) = inferList ops sc es
  | [] => by unfold Expr.mapList inferList; rfl
  | e :: es => by
    unfold Expr.mapList inferList
    rw [inferExpr_map h sc e]
    exact foldList_map h sc _ es

theorem foldList_map (h : Hom ops ops' f) (sc : ScalarContext N) (typ : Chk ScalarType) :
    (es : List (Expr N)) → foldList ops' (sc.map f) typ (Expr.mapList f es) = foldList ops sc typ es
  | [] => by unfold Expr.mapList foldList; rfl
  | e :: es => by
    unfold Expr.mapList
    match typ with
    | .ok t =>
      unfold foldList
      rw [inferExpr_map h sc e]
      exact foldList_map h sc _ es
    | .error (.err x) =>
      unfold foldList
      rw [inferExpr_map h sc e]
      exact foldList_map h sc _ es
    | .error .panic => unfold foldList; rfl

theorem inferSelect_map (h : Hom ops ops' f) (ctx : SetContext N) :
    (s : Select N) → inferSelect ops' (ctx.map f) (s.map f) = map (RowType.map f) (inferSelect ops ctx s)
  | .mk common expr orderBy limit => by
    unfold Select.map inferSelect
    exact hom_bind (addCommon_map h ctx (ScalarContext.new ctx) common) fun sc =>
      hom_bind (inferSetExpr_map h ctx expr) fun r =>
        hom_bind' (checkOrder_map h sc orderBy) fun _ =>
          hom_bind' (checkLimit_map h sc.setContext limit) fun _ => rfl

theorem addCommon_map (h : Hom ops ops' f) (ctx : SetContext N) (sc : ScalarContext N) :
    (cs : List (Cte N)) → addCommon ops' (ctx.map f) (sc.map f) (Cte.mapList f cs) =
      map (ScalarContext.map f) (addCommon ops ctx sc cs)
  | [] => by unfold Cte.mapList addCommon; rfl
  | .mk identifier names query :: cs => by
    have e1 := inferCte_map h ctx (.mk identifier names query)
    unfold Cte.mapList
    unfold Cte.map at e1 ⊢
    unfold addCommon
    exact hom_bind e1 fun typ => hom_bind (addRelation_map h sc identifier typ.attributes) fun sc' =>
      addCommon_map h ctx sc' cs

theorem inferCte_map (h : Hom ops ops' f) (ctx : SetContext N) :
    (c : Cte N) → inferCte ops' (ctx.map f) (c.map f) = map (RowType.map f) (inferCte ops ctx c)
  | .mk identifier names query => by
    unfold Cte.map inferCte
    refine hom_bind (inferSelect_map h ctx query) fun typ => ?_
    cases names with
    | none => rfl
    | some cs => exact hom_bind (selectColumns_map h typ.attributes cs) fun _ => rfl

theorem checkOrder_map (h : Hom ops ops' f) (sc : ScalarContext N) :
    (ts : List (OrderTerm N)) → checkOrder ops' (sc.map f) (OrderTerm.mapList f ts) = checkOrder ops sc ts
  | [] => by unfold OrderTerm.mapList checkOrder; rfl
  | .mk e c d :: ts => by
    unfold OrderTerm.mapList checkOrder
    exact same_bind (inferExpr_map h sc e) fun _ => same_bind rfl fun _ => checkOrder_map h sc ts

theorem checkLimit_map (h : Hom ops ops' f) (ctx : SetContext N) :
    (l : Option (Limit N)) → checkLimit ops' (ctx.map f) (Limit.mapOption f l) = checkLimit ops ctx l
  | none => by unfold Limit.mapOption checkLimit; rfl
  | some (.mk rows offset) => by
    unfold Limit.mapOption checkLimit
    exact same_bind (inferExpr_map h (ScalarContext.new ctx) rows) fun _ => same_bind rfl fun _ =>
      checkOffset_map h (ScalarContext.new ctx) offset

theorem checkOffset_map (h : Hom ops ops' f) (sc : ScalarContext N) :
    (o : Option (Expr N)) → checkOffset ops' (sc.map f) (Expr.mapOption f o) = checkOffset ops sc o
  | none => by unfold Expr.mapOption checkOffset; rfl
  | some e => by
    unfold Expr.mapOption checkOffset
    exact same_bind (inferExpr_map h sc e) fun _ => rfl

theorem inferSetExpr_map (h : Hom ops ops' f) (ctx : SetContext N) :
    (s : SetExpr N) → inferSetExpr ops' (ctx.map f) (s.map f) = map (RowType.map f) (inferSetExpr ops ctx s)
  | .values rows => by
    unfold SetExpr.map inferSetExpr
    exact hom_bind (inferValues_map h (ScalarContext.new ctx) rows) fun _ => rfl
  | .query mode columns froms wher groupBy => by
    unfold SetExpr.map inferSetExpr
    exact hom_bind (g := mapFrom f)
      (inferFrom_map h (ScalarContext.new ctx) froms) fun r =>
      hom_bind' (checkPredicate_map h r.1 _ wher) fun _ =>
        hom_bind' (checkGroupBy_map h r.1 groupBy) fun _ => inferColumns_map h r.1 r.2 columns
  | .op o l r => by
    unfold SetExpr.map inferSetExpr
    exact hom_bind (inferSetExpr_map h ctx l) fun lt => hom_bind (inferSetExpr_map h ctx r) fun rt =>
      hom_bind (unifyAttributes_map lt.attributes rt.attributes) fun _ => rfl

theorem inferValues_map (h : Hom ops ops' f) (sc : ScalarContext N) :
    (rows : List (List (Expr N))) → inferValues ops' (sc.map f) (Expr.mapRows f rows) =
      map (List.map (Attribute.map f)) (inferValues ops sc rows)
  | [] => by unfold Expr.mapRows inferValues; rfl
  | row :: rows => by
    unfold Expr.mapRows inferValues
    exact hom_bind (inferFirstRow_map h sc 0 row) fun types => foldRows_map h sc types rows

theorem inferFirstRow_map (h : Hom ops ops' f) (sc : ScalarContext N) (count : Nat) :
    (es : List (Expr N)) → inferFirstRow ops' (sc.map f) count (Expr.mapList f es) =
      map (List.map (Attribute.map f)) (inferFirstRow ops sc count es)
  | [] => by unfold Expr.mapList inferFirstRow; rfl
  | e :: es => by
    unfold Expr.mapList inferFirstRow
    refine hom_bind' (inferExpr_map h sc e) fun t => ?_
    cases t with
    | tuple _ => rfl
    | scalar typ n =>
      refine hom_bind (inferFirstRow_map h sc (count + 1) es) fun _ => ?_
      show Except.ok _ = Except.ok _
      rw [h.lit, h.numbered]
      rfl

theorem foldRows_map (h : Hom ops ops' f) (sc : ScalarContext N) (types : List (Attribute N)) :
    (rows : List (List (Expr N))) →
      foldRows ops' (sc.map f) (types.map (Attribute.map f)) (Expr.mapRows f rows) =
      map (List.map (Attribute.map f)) (foldRows ops sc types rows)
  | [] => by unfold Expr.mapRows foldRows; rfl
  | row :: rows => by
    unfold Expr.mapRows foldRows
    exact hom_bind (unifyRow_map h sc types row) fun types' => foldRows_map h sc types' rows

theorem unifyRow_map (h : Hom ops ops' f) (sc : ScalarContext N) (as : List (Attribute N)) :
    (es : List (Expr N)) → unifyRow ops' (sc.map f) (as.map (Attribute.map f)) (Expr.mapList f es) =
      map (List.map (Attribute.map f)) (unifyRow ops sc as es)
  | [] => by cases as <;> unfold Expr.mapList <;> rfl
  | e :: es => by
    unfold Expr.mapList
    cases as with
    | nil => rfl
    | cons a as =>
      rw [List.map_cons]
      unfold unifyRow
      refine hom_bind' (inferExpr_map h sc e) fun t => hom_bind' rfl fun u => ?_
      cases u with
      | tuple _ => rfl
      | scalar typ n => exact hom_bind (unifyRow_map h sc as es) fun _ => rfl

theorem inferFrom_map (h : Hom ops ops' f) (sc : ScalarContext N) :
    (ts : List (TableExpr N)) → inferFrom ops' (sc.map f) (TableExpr.mapList f ts) =
      map (mapFrom f) (inferFrom ops sc ts)
  | [] => by unfold TableExpr.mapList inferFrom; rfl
  | t :: ts => by
    unfold TableExpr.mapList inferFrom
    refine hom_bind (g := mapFrom f) (inferTable_map h sc t) fun r =>
      hom_bind (g := mapFrom f) (inferFrom_map h r.1 ts) fun r' => ?_
    exact congrArg Except.ok (mapFrom_append f r'.1 r.2 r'.2).symm

theorem inferTable_map (h : Hom ops ops' f) (sc : ScalarContext N) :
    (t : TableExpr N) → inferTable ops' (sc.map f) (t.map f) =
      map (mapFrom f) (inferTable ops sc t)
  | .named name alias => by
    unfold TableExpr.map inferTable
    exact hom_bind (resolve_map h sc.setContext name) fun typ => hom_bind (relationName_map name alias) fun id =>
      hom_bind (addRelation_map h sc id typ.attributes) fun _ => rfl
  | .select s alias => by
    unfold TableExpr.map inferTable
    exact hom_bind (inferSelect_map h sc.setContext s) fun _ => rfl
  | .join l r o c => by
    unfold TableExpr.map inferTable
    refine hom_bind (g := mapFrom f) (inferTable_map h sc l) fun lr =>
      hom_bind (g := mapFrom f) (inferTable_map h lr.1 r) fun rr => ?_
    exact congrArg Except.ok (mapFrom_append f rr.1 lr.2 rr.2).symm

theorem checkPredicate_map (h : Hom ops ops' f) (sc : ScalarContext N) (msg : SqlError) :
    (o : Option (Expr N)) → checkPredicate ops' (sc.map f) msg (Expr.mapOption f o) = checkPredicate ops sc msg o
  | none => by unfold Expr.mapOption checkPredicate; rfl
  | some e => by
    unfold Expr.mapOption checkPredicate
    exact same_bind (inferExpr_map h sc e) fun _ => rfl

theorem checkGroupBy_map (h : Hom ops ops' f) (sc : ScalarContext N) :
    (g : Option (GroupBy N)) → checkGroupBy ops' (sc.map f) (GroupBy.mapOption f g) = checkGroupBy ops sc g
  | none => by unfold GroupBy.mapOption checkGroupBy; rfl
  | some (.mk groupings having) => by
    unfold GroupBy.mapOption checkGroupBy
    exact same_bind (inferExprs_map h sc groupings) fun _ => checkPredicate_map h sc _ having

theorem inferColumns_map (h : Hom ops ops' f) (sc : ScalarContext N) (as : List (Attribute N)) :
    (cs : ResultColumns N) → inferColumns ops' (sc.map f) (as.map (Attribute.map f)) (cs.map f) =
      map (RowType.map f) (inferColumns ops sc as cs)
  | .all => by
    unfold ResultColumns.map inferColumns
    show Except.ok _ = Except.ok _
    rw [show ([] : TMap K Nat) = TMap.mapBoth f id [] from rfl, generateColumns_map h]
    rfl
  | .list cs => by
    unfold ResultColumns.map inferColumns
    exact hom_bind (inferColumnList_map h sc [] cs) fun _ => rfl

theorem inferColumnList_map (h : Hom ops ops' f) (sc : ScalarContext N) (generated : TMap N Nat) :
    (cs : List (ResultColumn N)) →
      inferColumnList ops' (sc.map f) (generated.mapBoth f id) (ResultColumn.mapList f cs) =
      map (List.map (Attribute.map f)) (inferColumnList ops sc generated cs)
  | [] => by unfold ResultColumn.mapList inferColumnList; rfl
  | .allFrom name :: cs => by
    unfold ResultColumn.mapList inferColumnList
    rw [show (sc.map f).symbols.get ops' (f name) = (sc.symbols.get ops name).map (Symbol.map f) from
      get_mapBoth h _ _ _]
    cases sc.symbols.get ops name with
    | none => rfl
    | some s =>
      cases s with
      | «attribute» t => rfl
      | attributeConflict => rfl
      | relation m =>
        simp only [Option.map_some, Symbol.map]
        refine hom_bind (relationAttributes_map m) fun as => ?_
        rw [generateColumns_map h]
        refine hom_bind (inferColumnList_map h sc _ cs) fun _ => ?_
        show Except.ok _ = Except.ok _
        rw [List.map_append]
  | .expr e rename :: cs => by
    unfold ResultColumn.mapList inferColumnList
    refine hom_bind' (inferExpr_map h sc e) fun t => ?_
    cases t with
    | tuple _ => rfl
    | scalar typ n =>
      have e1 : (rename.map f).getD (ops'.lit "col") = f (rename.getD (ops.lit "col")) := by
        rw [h.lit]
        cases rename <;> rfl
      rw [e1]
      simp only [generateColumnName_map h]
      exact hom_bind (inferColumnList_map h sc _ cs) fun _ => rfl

end

section statements
include h

theorem columnMap_map (typ : RowType N) : columnMap ops' (typ.map f) = (columnMap ops typ).mapBoth f id := by
  unfold columnMap
  rw [← collect_mapBoth h]
  show TMap.collect ops' (List.map _ (List.map (Attribute.map f) typ.attributes)) = _
  rw [List.map_map, List.map_map]
  rfl

theorem insertColumns_map (r : List (Attribute N × N)) (missing : TMap N (DataType × Bool)) :
    insertColumns ops' (missing.mapBoth f id) (r.map fun e => (e.1.map f, f e.2)) =
      map (TMap.mapBoth f id) (insertColumns ops missing r) := by
  induction r generalizing missing with
  | nil => rfl
  | cons e r ih =>
    obtain ⟨v, t⟩ := e
    rw [List.map_cons]
    unfold insertColumns
    refine hom_bind ?_ fun m => ih m
    unfold insertColumn
    rw [get_mapBoth h]
    cases missing.get ops t with
    | none => rfl
    | some p =>
      obtain ⟨typ, n⟩ := p
      simp only [Option.map_some, id]
      rw [show (v.map f).typ = v.typ from rfl, show (v.map f).isNull = v.isNull from rfl, remove_mapBoth h]
      split <;> rfl

theorem insertSource_map (missing : TMap N (DataType × Bool)) (values : List (Attribute N))
    (columns : Option (List N)) :
    insertSource ops' (missing.mapBoth f id) (values.map (Attribute.map f)) (columns.map fun cs => cs.map f) =
      map (TMap.mapBoth f id) (insertSource ops missing values columns) := by
  cases columns with
  | none =>
    unfold insertSource
    simp only [Option.map_none]
    rw [← insertColumns_map h, List.map_map, List.map_map]
    rfl
  | some cs =>
    unfold insertSource
    simp only [Option.map_some, List.length_map]
    split
    · rfl
    · rw [← insertColumns_map h, List.zip_map]
      rfl

theorem updateColumns_map (m : TMap N (DataType × Bool)) (typ : DataType) (n : Bool) (cs : List N)
    (assigned : TMap N Unit) :
    updateColumns ops' (m.mapBoth f id) typ n (assigned.mapBoth f id) (cs.map f) =
      map (TMap.mapBoth f id) (updateColumns ops m typ n assigned cs) := by
  induction cs generalizing assigned with
  | nil => rfl
  | cons c cs ih =>
    rw [List.map_cons]
    unfold updateColumns
    rw [containsKey_mapBoth h, get_mapBoth h]
    split
    · rfl
    · cases m.get ops c with
      | none => rfl
      | some p =>
        obtain ⟨ctyp, cnull⟩ := p
        simp only [Option.map_some, id]
        split
        · rfl
        · rw [← ih, ← insert_mapBoth h]

theorem updateAssignments_map (sc : ScalarContext N) (m : TMap N (DataType × Bool))
    (as : List (Assignment N)) (assigned : TMap N Unit) :
    updateAssignments ops' (sc.map f) (m.mapBoth f id) (assigned.mapBoth f id) (as.map (Assignment.map f)) =
      map (TMap.mapBoth f id) (updateAssignments ops sc m assigned as) := by
  induction as generalizing assigned with
  | nil => rfl
  | cons a as ih =>
    rw [List.map_cons]
    unfold updateAssignments
    refine hom_bind' (inferExpr_map h sc a.expr) fun t => ?_
    cases t with
    | tuple _ => rfl
    | scalar typ n => exact hom_bind (updateColumns_map h m typ n a.columns assigned) fun m' => ih m'

theorem tableContext_map (ctx : SetContext N) (name : List N) (typ : RowType N) :
    tableContext ops' (ctx.map f) (name.map f) (typ.map f) =
      map (ScalarContext.map f) (tableContext ops ctx name typ) := by
  unfold tableContext
  rw [List.getLast?_map]
  cases name.getLast? with
  | none => rfl
  | some n => exact addRelation_map h (ScalarContext.new ctx) n typ.attributes

theorem statement_map (ctx : SetContext N) (s : Statement N) :
    (s.map f).validateType ops' (ctx.map f) = s.validateType ops ctx := by
  cases s with
  | select s => exact from_bind (inferSelect_map h ctx s) fun _ => rfl
  | insert s =>
    show (s.map f).validateType ops' (ctx.map f) = s.validateType ops ctx
    unfold InsertStatement.validateType
    refine from_bind (resolve_map h ctx s.tableName) fun typ => from_bind (inferSetExpr_map h ctx s.source) fun v => ?_
    rw [columnMap_map h]
    refine from_bind (insertSource_map h (columnMap ops typ) v.attributes s.columns) fun m => ?_
    unfold insertComplete TMap.mapBoth
    rw [List.any_map]
    rfl
  | update s =>
    show (s.map f).validateType ops' (ctx.map f) = s.validateType ops ctx
    unfold UpdateStatement.validateType
    refine from_bind (resolve_map h ctx s.tableName) fun typ => from_bind (tableContext_map h ctx s.tableName typ) fun sc => ?_
    rw [columnMap_map h]
    exact from_bind (updateAssignments_map h sc (columnMap ops typ) s.assignments []) fun _ =>
      checkPredicate_map h sc _ s.wher
  | delete s =>
    show (s.map f).validateType ops' (ctx.map f) = s.validateType ops ctx
    unfold DeleteStatement.validateType
    exact from_bind (resolve_map h ctx s.tableName) fun typ =>
      from_bind (tableContext_map h ctx s.tableName typ) fun sc => checkPredicate_map h sc _ s.wher

theorem sqlStatement_map (ctx : SetContext N) (s : SqlStatement N) :
    (s.map f).validateType ops' (ctx.map f) = s.validateType ops ctx := by
  cases s with
  | statement s => exact statement_map h ctx s
  | explainQueryPlan s => exact statement_map h ctx s
  | attach s => rfl
  | describe s => exact from_bind (resolve_map h ctx s.qualifiedName) fun _ => rfl

theorem setContext_new_map (db : Database N) (d : N) :
    SetContext.new ops' (db.map f) (f d) = (SetContext.new ops db d).map f := by
  have e1 : ∀ r : RowSet N, RowType.ofRowSet (r.map f) = (RowType.ofRowSet r).map f := by
    intro r
    unfold RowType.ofRowSet RowType.map RowSet.map
    simp only [List.map_map, List.filter_map, List.map_nil]
    rfl
  have e2 : ∀ s : Schema N, objectTypes ops' (s.map f) = (objectTypes ops s).mapBoth f (RowType.map f) := by
    intro s
    unfold objectTypes
    rw [← collect_mapBoth h]
    unfold Schema.map TMap.mapBoth
    simp only [List.map_map]
    refine congrArg (TMap.collect ops') (List.map_congr_left fun e _ => ?_)
    obtain ⟨k, o⟩ := e
    simp only [Function.comp, ← e1]
    cases o <;> rfl
  unfold SetContext.new SetContext.map
  simp only
  refine congr (congr (congrArg SetContext.mk ?_) rfl) rfl
  unfold namespacesOf
  rw [← collect_mapBoth h]
  unfold Database.map TMap.mapBoth
  simp only [List.map_map]
  refine congrArg (TMap.collect ops') (List.map_congr_left fun e _ => ?_)
  simp only [Function.comp, e2]
  rfl

theorem initializeFrom_map (cs : List (Cte N)) (ctx : SetContext N) :
    (ctx.map f).initializeFrom ops' (Cte.mapList f cs) = map (SetContext.map f) (ctx.initializeFrom ops cs) := by
  induction cs generalizing ctx with
  | nil => unfold Cte.mapList; rfl
  | cons c cs ih =>
    obtain ⟨id, names, query⟩ := c
    have e1 := inferCte_map h ctx (.mk id names query)
    unfold Cte.mapList
    unfold Cte.map at e1 ⊢
    unfold SetContext.initializeFrom
    refine hom_bind e1 fun typ => hom_bind (g := SetContext.map f) ?_ fun ctx' => ih ctx'
    unfold SetContext.defineRelation
    rw [show (ctx.map f).tableExpression.get ops' (f id) = (ctx.tableExpression.get ops id).map (RowType.map f) from
      get_mapBoth h _ _ _]
    cases ctx.tableExpression.get ops id with
    | some _ => rfl
    | none =>
      show Except.ok _ = Except.ok _
      unfold SetContext.map
      simp only
      rw [insert_mapBoth h]

end statements

/-- Names as their upper-case forms. -/
def keyOps (up : Char → List Char) : NameOps (List Char) where
  cmp := iterCmp
  eq := iterEq
  lit s := s.toList.flatMap up
  numbered u k := u ++ (Nat.toDigits 10 k).flatMap up

theorem hom_upper (up : Char → List Char) : Hom (nameOps up) (keyOps up) (Name.upper up) where
  cmp _ _ := rfl
  eq _ _ := rfl
  lit _ := rfl
  numbered n k := by
    show n.upper up ++ _ = (n.numbered k).upper up
    unfold Name.upper Name.numbered
    rw [List.flatMap_append]

end Verif.Sql
