import Verif.Proof.SqlStatements
import Verif.Spec.SqlSafe
/-! # Type inference does not panic on safe statements -/

namespace Verif.Sql

/-- The function does not panic, and what it returns satisfies `P`. -/
def Chk.Post {α : Type} (r : Chk α) (P : α → Prop) : Prop :=
  match r with
  | .ok a => P a
  | .error (.err _) => True
  | .error .panic => False

namespace Chk
variable {α β : Type}

theorem post_bind {r : Chk α} {P : α → Prop} {f : α → Chk β} {Q : β → Prop} (h : r.Post P)
    (hf : ∀ a, r = .ok a → P a → (f a).Post Q) : (r >>= f).Post Q := by
  match r, h with
  | .ok a, h => exact hf a rfl h
  | .error (.err _), _ => exact trivial

theorem post_mono {r : Chk α} {P Q : α → Prop} (h : r.Post P) (hf : ∀ a, P a → Q a) : r.Post Q := by
  match r, h with
  | .ok a, h => exact hf a h
  | .error (.err _), _ => exact trivial

theorem post_true {r : Chk α} {P : α → Prop} (h : r.Post P) : r.Post fun _ => True :=
  post_mono h fun _ _ => trivial

theorem post_ne {r : Chk α} {P : α → Prop} (h : r.Post P) : r ≠ .error .panic := by
  rintro rfl
  exact h

theorem post_of_ne {r : Chk α} (h : r ≠ .error .panic) : r.Post fun _ => True := by
  match r, h with
  | .ok a, _ => exact trivial
  | .error (.err _), _ => exact trivial
  | .error .panic, h => exact h rfl

theorem post_ok {a : α} {P : α → Prop} (h : P a) : Chk.Post (.ok a) P := h

theorem post_err {e : SqlError} {P : α → Prop} : (err e : Chk α).Post P := trivial

theorem post_ignored {r : Chk α} {P : α → Prop} (h : r.Post P) : (ignored r).Post fun _ => True := by
  match r, h with
  | .ok a, _ => exact trivial
  | .error (.err _), _ => exact trivial

end Chk

open Chk

/-- The values of a map. -/
def TMap.All {N V : Type} (P : V → Prop) (m : TMap N V) : Prop := ∀ e ∈ m, P e.2

section maps
variable {N V : Type} {ops : NameOps N}

theorem TMap.All.get {P : V → Prop} {m : TMap N V} (h : m.All P) {k : N} {v : V}
    (hg : m.get ops k = some v) : P v := by
  induction m with
  | nil => cases hg
  | cons e r ih =>
    obtain ⟨k', v'⟩ := e
    unfold TMap.get at hg
    split at hg
    · cases hg
      exact h (k', v) List.mem_cons_self
    · exact ih (fun e he => h e (List.mem_cons_of_mem _ he)) hg

theorem TMap.All.insert {P : V → Prop} {m : TMap N V} (h : m.All P) {k : N} {v : V} (hv : P v) :
    (m.insert ops k v).All P := by
  induction m with
  | nil =>
    intro e he
    cases List.mem_singleton.1 he
    exact hv
  | cons e r ih =>
    obtain ⟨k', v'⟩ := e
    have h1 := h (k', v') List.mem_cons_self
    have h2 : TMap.All P r := fun e he => h e (List.mem_cons_of_mem _ he)
    unfold TMap.insert
    intro e he
    split at he
    · rcases List.mem_cons.1 he with rfl | he
      · exact hv
      · exact h e he
    · rcases List.mem_cons.1 he with rfl | he
      · exact hv
      · exact h2 e he
    · rcases List.mem_cons.1 he with rfl | he
      · exact h1
      · exact ih h2 e he

theorem TMap.All.collect {P : V → Prop} {es : List (N × V)} (h : ∀ e ∈ es, P e.2) :
    (TMap.collect ops es).All P := by
  unfold TMap.collect
  have key : ∀ (es : List (N × V)) (m : TMap N V), m.All P → (∀ e ∈ es, P e.2) →
      (es.foldl (fun m e => TMap.insert ops m e.1 e.2) m).All P := by
    intro es
    induction es with
    | nil => intro m hm _; exact hm
    | cons e es ih =>
      intro m hm h
      exact ih _ (hm.insert (h e List.mem_cons_self)) fun e he => h e (List.mem_cons_of_mem _ he)
  exact key es [] (fun _ h => nomatch h) h

end maps

/-- Not a tuple. -/
def ScalarType.IsScalar (t : ScalarType) : Prop := ∃ typ n, t = .scalar typ n

/-- Names in a context stand for scalars. -/
def Symbol.Plain {N : Type} : Symbol N → Prop
  | .attribute t => t.IsScalar
  | .attributeConflict => True
  | .relation m => m.All ScalarType.IsScalar

variable {N : Type} {ops : NameOps N}

/-- Contexts in which inference is safe: names stand for scalars and the default schema exists. -/
structure ScalarContext.Plain (ops : NameOps N) (sc : ScalarContext N) : Prop where
  symbols : sc.symbols.All Symbol.Plain
  default : sc.setContext.namespaces.get ops sc.setContext.defaultNamespace ≠ none

theorem plain_new {ctx : SetContext N} (h : ctx.namespaces.get ops ctx.defaultNamespace ≠ none) :
    (ScalarContext.new ctx).Plain ops := ⟨(fun _ h => nomatch h), h⟩

theorem addAttributes_plain {symbols : TMap N (Symbol N)} (h : symbols.All Symbol.Plain)
    (as : List (Attribute N)) : (addAttributes ops symbols as).All Symbol.Plain := by
  induction as generalizing symbols with
  | nil => exact h
  | cons a as ih =>
    unfold addAttributes
    split
    · exact ih (h.insert ⟨_, _, rfl⟩)
    · exact ih (h.insert trivial)
    · exact ih h
    · exact ih h

theorem addRelation_post {sc : ScalarContext N} (h : sc.Plain ops) (name : N) (as : List (Attribute N)) :
    (sc.addRelation ops name as).Post fun sc' => sc'.Plain ops ∧ sc'.setContext = sc.setContext := by
  unfold ScalarContext.addRelation
  simp only
  split
  · exact post_err
  · refine ⟨⟨?_, h.default⟩, rfl⟩
    refine (addAttributes_plain h.symbols as).insert ?_
    refine TMap.All.collect ?_
    intro e he
    obtain ⟨a, _, rfl⟩ := List.mem_map.1 he
    exact ⟨_, _, rfl⟩

theorem inferType_post {sc : ScalarContext N} (h : sc.Plain ops) (q : List N) :
    (sc.inferType ops q).Post ScalarType.IsScalar := by
  unfold ScalarContext.inferType
  split
  · split
    · exact post_err
    · rename_i hg
      exact h.symbols.get hg
    · exact post_err
    · exact post_err
  · split
    · rename_i hg
      split
      · rename_i hg'
        exact (h.symbols.get hg).get hg'
      · exact post_err
    · exact post_err
  · exact post_err

theorem resolve_post {ctx : SetContext N} (h : ctx.namespaces.get ops ctx.defaultNamespace ≠ none)
    (q : List N) : (ctx.resolveTableName ops q).Post fun _ => q ≠ [] := by
  unfold SetContext.resolveTableName
  split
  · split
    · exact post_ok (by simp)
    · split
      · rename_i hn
        exact absurd hn h
      · split
        · exact post_ok (by simp)
        · exact post_err
  · split
    · exact post_err
    · split
      · exact post_err
      · split
        · exact post_ok (by simp)
        · exact post_err
  · exact post_err

mutual
theorem isCompatible_post : (l r : ScalarType) → (l.isCompatible r).Post fun _ => True
  | .scalar t1 n1, .scalar t2 n2 => by
    unfold ScalarType.isCompatible
    split
    · trivial
    · trivial
  | .tuple ts1, .tuple ts2 => by
    unfold ScalarType.isCompatible
    split
    · trivial
    · exact isCompatibleFold_post (result := .ok false) trivial ts1 ts2
  | .tuple _, .scalar _ _ => by unfold ScalarType.isCompatible; trivial
  | .scalar _ _, .tuple _ => by unfold ScalarType.isCompatible; trivial
theorem isCompatibleFold_post {result : Chk Bool} (h : result.Post fun _ => True) :
    (ls rs : List ScalarType) → (ScalarType.isCompatibleFold result ls rs).Post fun _ => True
  | l :: ls, r :: rs => by
    unfold ScalarType.isCompatibleFold
    refine isCompatibleFold_post ?_ ls rs
    have h2 := isCompatible_post l r
    match result, h with
    | .error (.err _), _ => trivial
    | .ok a, _ =>
      simp only
      generalize l.isCompatible r = x at h2 ⊢
      match x, h2 with
      | .ok b, _ => trivial
      | .error (.err _), _ => trivial
  | [], _ => by unfold ScalarType.isCompatibleFold; exact h
  | _ :: _, [] => by unfold ScalarType.isCompatibleFold; exact h
end

mutual
theorem unify_post : (l r : ScalarType) → (l.unify r).Post fun t => l.IsScalar → t.IsScalar
  | .scalar t1 n1, .scalar t2 n2 => by
    unfold ScalarType.unify
    split
    · exact post_ok fun _ => ⟨_, _, rfl⟩
    · trivial
  | .tuple ts1, .tuple ts2 => by
    unfold ScalarType.unify
    split
    · trivial
    · refine post_bind (unifyList_post ts1 ts2) fun ts _ _ => post_ok ?_
      rintro ⟨_, _, h⟩
      cases h
  | .tuple _, .scalar _ _ => by unfold ScalarType.unify; trivial
  | .scalar _ _, .tuple _ => by unfold ScalarType.unify; trivial
theorem unifyList_post : (ls rs : List ScalarType) → (ScalarType.unifyList ls rs).Post fun _ => True
  | l :: ls, r :: rs => by
    unfold ScalarType.unifyList
    exact post_bind (unify_post l r) fun _ _ _ => post_bind (unifyList_post ls rs) fun _ _ _ => trivial
  | [], _ => by unfold ScalarType.unifyList; trivial
  | _ :: _, [] => by unfold ScalarType.unifyList; trivial
end

theorem unaryType_post (op : UnaryOperator) (t : ScalarType) : (unaryType op t).Post ScalarType.IsScalar := by
  unfold unaryType
  split <;> first | exact post_err | exact post_ok ⟨_, _, rfl⟩

theorem binaryType_post (op : BinaryOperator) (l r : ScalarType) :
    (binaryType op l r).Post ScalarType.IsScalar := by
  unfold binaryType
  split <;> split <;> first | exact post_err | exact post_ok ⟨_, _, rfl⟩

theorem comparisonType_post (op : ComparisonOperator) (l r : ScalarType) :
    (comparisonType op l r).Post ScalarType.IsScalar := by
  cases op <;> unfold comparisonType <;> simp only
  case equal | notEqual => exact post_bind (isCompatible_post l r) fun _ _ _ => post_ok ⟨_, _, rfl⟩
  case like => split <;> first | exact post_err | exact post_ok ⟨_, _, rfl⟩
  all_goals
    split
    · split <;> first | exact post_err | exact post_ok ⟨_, _, rfl⟩
    · exact post_err

theorem betweenType_post (e l u : ScalarType) : (betweenType e l u).Post ScalarType.IsScalar := by
  unfold betweenType
  split
  · split <;> first | exact post_err | exact post_ok ⟨_, _, rfl⟩
  · exact post_err

theorem guardLogical_post (t : ScalarType) : (guardLogical t).Post fun _ => True := by
  unfold guardLogical
  split <;> trivial

theorem guardMatches_post (o t : ScalarType) : (guardMatches o t).Post fun _ => True := by
  unfold guardMatches
  refine post_bind (isCompatible_post t o) fun b _ _ => ?_
  cases b <;> trivial

theorem thenStep_post (typ body : ScalarType) : (thenStep typ body).Post ScalarType.IsScalar := by
  unfold thenStep
  refine post_bind (isCompatible_post body typ) fun b _ _ => ?_
  cases body with
  | tuple _ => exact post_err
  | scalar t n => exact post_ok ⟨_, _, rfl⟩

theorem mustBeLogical_post (e : SqlError) (t : ScalarType) : (mustBeLogical e t).Post fun _ => True := by
  unfold mustBeLogical
  split <;> trivial

theorem mustBeCount_post (e : SqlError) (t : ScalarType) : (mustBeCount e t).Post fun _ => True := by
  unfold mustBeCount
  split <;> trivial

theorem mustBeScalar_post (e : SqlError) (t : ScalarType) : (mustBeScalar e t).Post fun _ => True := by
  unfold mustBeScalar
  split <;> trivial

theorem singleColumn_post (e : SqlError) (r : RowType N) : (singleColumn e r).Post ScalarType.IsScalar := by
  unfold singleColumn
  split
  · exact post_ok ⟨_, _, rfl⟩
  · exact post_err

theorem relationAttributes_post {fields : TMap N ScalarType} (h : fields.All ScalarType.IsScalar) :
    (relationAttributes fields).Post fun _ => True := by
  induction fields with
  | nil => trivial
  | cons f fs ih =>
    obtain ⟨n, t⟩ := f
    obtain ⟨typ, b, ht⟩ := h (n, t) List.mem_cons_self
    simp only at ht
    subst ht
    unfold relationAttributes
    exact post_bind (ih fun e he => h e (List.mem_cons_of_mem _ he)) fun _ _ _ => trivial

theorem relationName_post {name : List N} (h : name ≠ []) (alias : Option N) :
    (relationName name alias).Post fun _ => True := by
  unfold relationName
  split
  · trivial
  · split
    · trivial
    · rename_i hn
      exact absurd (List.getLast?_eq_none_iff.1 hn) h

theorem unifyAttributes_post (ls rs : List (Attribute N)) : (unifyAttributes ls rs).Post fun _ => True := by
  induction ls generalizing rs with
  | nil => unfold unifyAttributes; trivial
  | cons l ls ih =>
    cases rs with
    | nil => unfold unifyAttributes; trivial
    | cons r rs =>
      unfold unifyAttributes
      refine post_bind (unify_post l.scalar r.scalar) fun t _ ht => ?_
      obtain ⟨_, _, rfl⟩ := ht ⟨_, _, rfl⟩
      exact post_bind (ih rs) fun _ _ _ => trivial

theorem selectColumns_post (as : List (Attribute N)) (cs : List N) :
    (selectColumns ops as cs).Post fun _ => True := by
  induction cs with
  | nil => trivial
  | cons c cs ih =>
    unfold selectColumns
    split
    · exact post_bind ih fun _ _ _ => trivial
    · trivial

/-- Only a tuple expression has a tuple type. -/
def OnlyTuples (e : Expr N) (t : ScalarType) : Prop := (∀ es, e ≠ .tuple es) → t.IsScalar

mutual

theorem inferExpr_post {sc : ScalarContext N} (h : sc.Plain ops) :
    (e : Expr N) → e.Safe → (inferExpr ops sc e).Post (OnlyTuples e)
  | .literal l, _ => by
    unfold inferExpr
    refine post_ok fun _ => ?_
    cases l <;> exact ⟨_, _, rfl⟩
  | .ident q, _ => by
    unfold inferExpr
    exact post_mono (inferType_post h q) fun _ ht _ => ht
  | .tuple es, hs => by
    unfold inferExpr
    unfold Expr.Safe at hs
    exact post_bind (inferExprs_post h es hs) fun _ _ _ => post_ok fun hn => absurd rfl (hn es)
  | .unary op e, hs => by
    unfold inferExpr
    unfold Expr.Safe at hs
    exact post_bind (inferExpr_post h e hs) fun t _ _ => post_mono (unaryType_post op t) fun _ ht _ => ht
  | .binary op l r, hs => by
    unfold inferExpr
    unfold Expr.Safe at hs
    exact post_bind (inferExpr_post h l hs.1) fun lt _ _ => post_bind (inferExpr_post h r hs.2) fun rt _ _ =>
      post_mono (binaryType_post op lt rt) fun _ ht _ => ht
  | .comparison op l r, hs => by
    unfold inferExpr
    unfold Expr.Safe at hs
    exact post_bind (inferExpr_post h l hs.1) fun lt _ _ => post_bind (inferExpr_post h r hs.2) fun rt _ _ =>
      post_mono (comparisonType_post op lt rt) fun _ ht _ => ht
  | .between e l u, hs => by
    unfold inferExpr
    unfold Expr.Safe at hs
    exact post_bind (inferExpr_post h e hs.1) fun et _ _ => post_bind (inferExpr_post h l hs.2.1) fun lt _ _ =>
      post_bind (inferExpr_post h u hs.2.2) fun ut _ _ =>
        post_mono (betweenType_post et lt ut) fun _ ht _ => ht
  | .case none whens els, hs => by
    unfold inferExpr
    unfold Expr.Safe at hs
    obtain ⟨_, hb, hw, he⟩ := hs
    exact post_bind (post_ignored (checkGuards_post h guardLogical_post whens hw)) fun _ _ _ =>
      post_bind (inferBodies_post h whens hb hw) fun t _ ht =>
        post_mono (inferElse_post h ht els he) fun _ ht _ => ht
  | .case (some e) whens els, hs => by
    unfold inferExpr
    unfold Expr.Safe at hs
    obtain ⟨ho, hb, hw, he⟩ := hs
    unfold Expr.OptionSafe at ho
    exact post_bind (inferExpr_post h e ho) fun et _ _ =>
      post_bind (post_ignored (checkGuards_post h (guardMatches_post et) whens hw)) fun _ _ _ =>
        post_bind (inferBodies_post h whens hb hw) fun t _ ht =>
          post_mono (inferElse_post h ht els he) fun _ ht _ => ht
  | .inSet e set, hs => by
    unfold inferExpr
    unfold Expr.Safe at hs
    refine post_bind (inferExpr_post h e hs.1) fun et _ _ => post_bind (inferSet_post h set hs.2) fun r _ _ =>
      post_bind (singleColumn_post .inOneColumn r) fun ct _ _ =>
        post_bind (isCompatible_post et ct) fun b _ _ => ?_
    cases b
    · exact post_err
    · exact post_ok fun _ => ⟨_, _, rfl⟩
  | .select s, hs => by
    unfold inferExpr
    unfold Expr.Safe at hs
    exact post_bind (inferSelect_post h.default s hs) fun r _ _ =>
      post_mono (singleColumn_post .selectOneColumn r) fun _ ht _ => ht

theorem inferExprs_post {sc : ScalarContext N} (h : sc.Plain ops) :
    (es : List (Expr N)) → Expr.AllSafe es → (inferExprs ops sc es).Post fun _ => True
  | [], _ => by unfold inferExprs; trivial
  | e :: es, hs => by
    unfold inferExprs
    unfold Expr.AllSafe at hs
    exact post_bind (inferExpr_post h e hs.1) fun _ _ _ =>
      post_bind (inferExprs_post h es hs.2) fun _ _ _ => trivial

theorem checkGuards_post {sc : ScalarContext N} (h : sc.Plain ops) {check : ScalarType → Chk Unit}
    (hc : ∀ t, (check t).Post fun _ => True) :
    (ws : List (When N)) → When.AllSafe ws → (checkGuards ops sc check ws).Post fun _ => True
  | [], _ => by unfold checkGuards; trivial
  | .mk guard body :: ws, hs => by
    unfold checkGuards
    unfold When.AllSafe at hs
    exact post_bind (inferExpr_post h guard hs.1) fun t _ _ => post_bind (hc t) fun _ _ _ =>
      checkGuards_post h hc ws hs.2.2

theorem inferBodies_post {sc : ScalarContext N} (h : sc.Plain ops) :
    (ws : List (When N)) → GoodBranches ws → When.AllSafe ws →
      (inferBodies ops sc ws).Post ScalarType.IsScalar
  | [], hb, _ => hb.elim
  | .mk guard body :: ws, hb, hs => by
    unfold inferBodies
    unfold When.AllSafe at hs
    refine post_bind (inferExpr_post h body hs.2.1) fun t _ ht => ?_
    refine foldBodies_post h t ws ?_ hs.2.2
    intro hw
    subst hw
    exact ht hb

theorem foldBodies_post {sc : ScalarContext N} (h : sc.Plain ops) (typ : ScalarType) :
    (ws : List (When N)) → (ws = [] → typ.IsScalar) → When.AllSafe ws →
      (foldBodies ops sc typ ws).Post ScalarType.IsScalar
  | [], ht, _ => by unfold foldBodies; exact post_ok (ht rfl)
  | .mk guard body :: ws, _, hs => by
    unfold foldBodies
    unfold When.AllSafe at hs
    exact post_bind (inferExpr_post h body hs.2.1) fun t _ _ => post_bind (thenStep_post typ t) fun t' _ ht' =>
      foldBodies_post h t' ws (fun _ => ht') hs.2.2

theorem inferElse_post {sc : ScalarContext N} (h : sc.Plain ops) {result : ScalarType}
    (hr : result.IsScalar) : (els : Option (Expr N)) → Expr.OptionSafe els →
      (inferElse ops sc result els).Post ScalarType.IsScalar
  | none, _ => by
    obtain ⟨typ, n, rfl⟩ := hr
    unfold inferElse
    exact post_ok ⟨_, _, rfl⟩
  | some body, hs => by
    obtain ⟨typ, n, rfl⟩ := hr
    unfold inferElse
    unfold Expr.OptionSafe at hs
    exact post_bind (inferExpr_post h body hs) fun t _ _ =>
      post_bind (isCompatible_post t _) fun _ _ _ => post_ok ⟨_, _, rfl⟩

theorem inferSet_post {sc : ScalarContext N} (h : sc.Plain ops) :
    (s : SetSpec N) → s.Safe → (inferSet ops sc s).Post fun _ => True
  | .select s, hs => by
    unfold inferSet
    unfold SetSpec.Safe at hs
    exact inferSelect_post h.default s hs
  | .name q, _ => by
    unfold inferSet
    exact post_true (resolve_post h.default q)
  | .list es, hs => by
    unfold inferSet
    unfold SetSpec.Safe at hs
    refine post_bind (inferList_post h es hs.1 hs.2) fun t _ _ => ?_
    cases t <;> trivial

theorem inferList_post {sc : ScalarContext N} (h : sc.Plain ops) :
    (es : List (Expr N)) → es ≠ [] → Expr.AllSafe es → (inferList ops sc es).Post fun _ => True
  | [], hn, _ => absurd rfl hn
  | e :: es, _, hs => by
    unfold inferList
    unfold Expr.AllSafe at hs
    exact foldList_post h (post_true (inferExpr_post h e hs.1)) es hs.2

theorem foldList_post {sc : ScalarContext N} (h : sc.Plain ops) {typ : Chk ScalarType}
    (ht : typ.Post fun _ => True) : (es : List (Expr N)) → Expr.AllSafe es →
      (foldList ops sc typ es).Post fun _ => True
  | [], _ => by unfold foldList; exact ht
  | e :: es, hs => by
    unfold Expr.AllSafe at hs
    match typ, ht with
    | .ok t, _ =>
      unfold foldList
      exact foldList_post h (post_bind (inferExpr_post h e hs.1) fun t' _ _ => post_true (unify_post t t')) es hs.2
    | .error (.err x), _ =>
      unfold foldList
      exact foldList_post h (post_bind (inferExpr_post h e hs.1) fun t' _ _ => post_err) es hs.2

theorem inferSelect_post {ctx : SetContext N} (h : ctx.namespaces.get ops ctx.defaultNamespace ≠ none) :
    (s : Select N) → s.Safe → (inferSelect ops ctx s).Post fun _ => True
  | .mk common expr orderBy limit, hs => by
    unfold inferSelect
    unfold Select.Safe at hs
    obtain ⟨h1, h2, h3, h4⟩ := hs
    exact post_bind (addCommon_post h (plain_new h) common h1) fun sc _ hsc =>
      post_bind (inferSetExpr_post h expr h2) fun r _ _ =>
        post_bind (checkOrder_post hsc orderBy h3) fun _ _ _ =>
          post_bind (checkLimit_post hsc.default limit h4) fun _ _ _ => trivial

theorem addCommon_post {ctx : SetContext N} (h : ctx.namespaces.get ops ctx.defaultNamespace ≠ none)
    {sc : ScalarContext N} (hsc : sc.Plain ops) :
    (cs : List (Cte N)) → Cte.AllSafe cs → (addCommon ops ctx sc cs).Post fun sc' => sc'.Plain ops
  | [], _ => by unfold addCommon; exact hsc
  | .mk identifier names query :: cs, hs => by
    unfold addCommon
    unfold Cte.AllSafe at hs
    exact post_bind (inferCte_post h (.mk identifier names query) ⟨hs.1, trivial⟩) fun typ _ _ =>
      post_bind (addRelation_post hsc identifier typ.attributes) fun sc' _ hsc' =>
        addCommon_post h hsc'.1 cs hs.2

theorem inferCte_post {ctx : SetContext N} (h : ctx.namespaces.get ops ctx.defaultNamespace ≠ none) :
    (c : Cte N) → Cte.AllSafe [c] → (inferCte ops ctx c).Post fun _ => True
  | .mk identifier names query, hs => by
    unfold inferCte
    unfold Cte.AllSafe at hs
    refine post_bind (inferSelect_post h query hs.1) fun typ _ _ => ?_
    cases names with
    | none => trivial
    | some cs => exact post_bind (selectColumns_post typ.attributes cs) fun _ _ _ => trivial

theorem checkOrder_post {sc : ScalarContext N} (h : sc.Plain ops) :
    (ts : List (OrderTerm N)) → OrderTerm.AllSafe ts → (checkOrder ops sc ts).Post fun _ => True
  | [], _ => by unfold checkOrder; trivial
  | .mk e c d :: ts, hs => by
    unfold checkOrder
    unfold OrderTerm.AllSafe at hs
    exact post_bind (inferExpr_post h e hs.1) fun t _ _ => post_bind (mustBeScalar_post _ t) fun _ _ _ =>
      checkOrder_post h ts hs.2

theorem checkLimit_post {ctx : SetContext N} (h : ctx.namespaces.get ops ctx.defaultNamespace ≠ none) :
    (l : Option (Limit N)) → Limit.OptionSafe l → (checkLimit ops ctx l).Post fun _ => True
  | none, _ => by unfold checkLimit; trivial
  | some (.mk rows offset), hs => by
    unfold checkLimit
    unfold Limit.OptionSafe at hs
    exact post_bind (inferExpr_post (plain_new h) rows hs.1) fun t _ _ =>
      post_bind (mustBeCount_post _ t) fun _ _ _ => checkOffset_post (plain_new h) offset hs.2

theorem checkOffset_post {sc : ScalarContext N} (h : sc.Plain ops) :
    (o : Option (Expr N)) → Expr.OptionSafe o → (checkOffset ops sc o).Post fun _ => True
  | none, _ => by unfold checkOffset; trivial
  | some e, hs => by
    unfold checkOffset
    unfold Expr.OptionSafe at hs
    exact post_bind (inferExpr_post h e hs) fun t _ _ => mustBeCount_post _ t

theorem inferSetExpr_post {ctx : SetContext N} (h : ctx.namespaces.get ops ctx.defaultNamespace ≠ none) :
    (s : SetExpr N) → s.Safe → (inferSetExpr ops ctx s).Post fun _ => True
  | .values rows, hs => by
    unfold inferSetExpr
    unfold SetExpr.Safe at hs
    exact post_bind (inferValues_post (plain_new h) rows hs.1 hs.2) fun _ _ _ => trivial
  | .query mode columns froms wher groupBy, hs => by
    unfold inferSetExpr
    unfold SetExpr.Safe at hs
    obtain ⟨h1, h2, h3, h4⟩ := hs
    exact post_bind (inferFrom_post (plain_new h) froms h2) fun r _ hr =>
      post_bind (checkPredicate_post hr _ wher h3) fun _ _ _ =>
        post_bind (checkGroupBy_post hr groupBy h4) fun _ _ _ => inferColumns_post hr r.2 columns h1
  | .op o l r, hs => by
    unfold inferSetExpr
    unfold SetExpr.Safe at hs
    exact post_bind (inferSetExpr_post h l hs.1) fun lt _ _ =>
      post_bind (inferSetExpr_post h r hs.2) fun rt _ _ =>
        post_bind (unifyAttributes_post lt.attributes rt.attributes) fun _ _ _ => trivial

theorem inferValues_post {sc : ScalarContext N} (h : sc.Plain ops) :
    (rows : List (List (Expr N))) → rows ≠ [] → Expr.RowsSafe rows →
      (inferValues ops sc rows).Post fun _ => True
  | [], hn, _ => absurd rfl hn
  | row :: rows, _, hs => by
    unfold inferValues
    unfold Expr.RowsSafe at hs
    exact post_bind (inferFirstRow_post h 0 row hs.1) fun types _ _ => foldRows_post h types rows hs.2

theorem inferFirstRow_post {sc : ScalarContext N} (h : sc.Plain ops) (count : Nat) :
    (es : List (Expr N)) → Expr.AllSafe es → (inferFirstRow ops sc count es).Post fun _ => True
  | [], _ => by unfold inferFirstRow; trivial
  | e :: es, hs => by
    unfold inferFirstRow
    unfold Expr.AllSafe at hs
    refine post_bind (inferExpr_post h e hs.1) fun t _ _ => ?_
    cases t with
    | tuple _ => exact post_err
    | scalar typ n => exact post_bind (inferFirstRow_post h (count + 1) es hs.2) fun _ _ _ => trivial

theorem foldRows_post {sc : ScalarContext N} (h : sc.Plain ops) (types : List (Attribute N)) :
    (rows : List (List (Expr N))) → Expr.RowsSafe rows → (foldRows ops sc types rows).Post fun _ => True
  | [], _ => by unfold foldRows; trivial
  | row :: rows, hs => by
    unfold foldRows
    unfold Expr.RowsSafe at hs
    exact post_bind (unifyRow_post h types row hs.1) fun types' _ _ => foldRows_post h types' rows hs.2

theorem unifyRow_post {sc : ScalarContext N} (h : sc.Plain ops) (as : List (Attribute N)) :
    (es : List (Expr N)) → Expr.AllSafe es → (unifyRow ops sc as es).Post fun _ => True
  | [], _ => by cases as <;> unfold unifyRow <;> trivial
  | e :: es, hs => by
    unfold Expr.AllSafe at hs
    cases as with
    | nil => unfold unifyRow; trivial
    | cons a as =>
      unfold unifyRow
      refine post_bind (inferExpr_post h e hs.1) fun t _ _ => post_bind (unify_post a.scalar t) fun u _ hu => ?_
      obtain ⟨_, _, rfl⟩ := hu ⟨_, _, rfl⟩
      exact post_bind (unifyRow_post h as es hs.2) fun _ _ _ => trivial

theorem inferFrom_post {sc : ScalarContext N} (h : sc.Plain ops) :
    (ts : List (TableExpr N)) → TableExpr.AllSafe ts → (inferFrom ops sc ts).Post fun r => r.1.Plain ops
  | [], _ => by unfold inferFrom; exact h
  | t :: ts, hs => by
    unfold inferFrom
    unfold TableExpr.AllSafe at hs
    exact post_bind (inferTable_post h t hs.1) fun r _ hr =>
      post_bind (inferFrom_post hr ts hs.2) fun _ _ hr' => hr'

theorem inferTable_post {sc : ScalarContext N} (h : sc.Plain ops) :
    (t : TableExpr N) → t.Safe → (inferTable ops sc t).Post fun r => r.1.Plain ops
  | .named name alias, _ => by
    unfold inferTable
    exact post_bind (resolve_post h.default name) fun typ _ hn =>
      post_bind (relationName_post hn alias) fun id _ _ =>
        post_bind (addRelation_post h id typ.attributes) fun _ _ hsc => hsc.1
  | .select s alias, hs => by
    unfold inferTable
    unfold TableExpr.Safe at hs
    exact post_bind (inferSelect_post h.default s hs) fun _ _ _ => h
  | .join l r o c, hs => by
    unfold inferTable
    unfold TableExpr.Safe at hs
    exact post_bind (inferTable_post h l hs.1) fun lr _ hl =>
      post_bind (inferTable_post hl r hs.2) fun _ _ hr => hr

theorem checkPredicate_post {sc : ScalarContext N} (h : sc.Plain ops) (msg : SqlError) :
    (o : Option (Expr N)) → Expr.OptionSafe o → (checkPredicate ops sc msg o).Post fun _ => True
  | none, _ => by unfold checkPredicate; trivial
  | some e, hs => by
    unfold checkPredicate
    unfold Expr.OptionSafe at hs
    exact post_bind (inferExpr_post h e hs) fun t _ _ => mustBeLogical_post _ t

theorem checkGroupBy_post {sc : ScalarContext N} (h : sc.Plain ops) :
    (g : Option (GroupBy N)) → GroupBy.OptionSafe g → (checkGroupBy ops sc g).Post fun _ => True
  | none, _ => by unfold checkGroupBy; trivial
  | some (.mk groupings having), hs => by
    unfold checkGroupBy
    unfold GroupBy.OptionSafe at hs
    exact post_bind (inferExprs_post h groupings hs.1) fun _ _ _ => checkPredicate_post h _ having hs.2

theorem inferColumns_post {sc : ScalarContext N} (h : sc.Plain ops) (as : List (Attribute N)) :
    (cs : ResultColumns N) → cs.Safe → (inferColumns ops sc as cs).Post fun _ => True
  | .all, _ => by unfold inferColumns; trivial
  | .list cs, hs => by
    unfold inferColumns
    unfold ResultColumns.Safe at hs
    exact post_bind (inferColumnList_post h [] cs hs) fun _ _ _ => trivial

theorem inferColumnList_post {sc : ScalarContext N} (h : sc.Plain ops) (generated : TMap N Nat) :
    (cs : List (ResultColumn N)) → ResultColumn.AllSafe cs →
      (inferColumnList ops sc generated cs).Post fun _ => True
  | [], _ => by unfold inferColumnList; trivial
  | .allFrom name :: cs, hs => by
    unfold inferColumnList
    unfold ResultColumn.AllSafe at hs
    split
    · exact post_err
    · rename_i fields hg
      exact post_bind (relationAttributes_post (h.symbols.get hg)) fun as _ _ =>
        post_bind (inferColumnList_post h _ cs hs) fun _ _ _ => trivial
    · exact post_err
  | .expr e rename :: cs, hs => by
    unfold inferColumnList
    unfold ResultColumn.AllSafe at hs
    refine post_bind (inferExpr_post h e hs.1) fun t _ _ => ?_
    cases t with
    | tuple _ => exact post_err
    | scalar typ n => exact post_bind (inferColumnList_post h _ cs hs.2) fun _ _ _ => trivial

end

theorem tableContext_post {ctx : SetContext N} (h : ctx.namespaces.get ops ctx.defaultNamespace ≠ none)
    {name : List N} (hn : name ≠ []) (typ : RowType N) :
    (tableContext ops ctx name typ).Post fun sc => sc.Plain ops := by
  unfold tableContext
  split
  · exact post_mono (addRelation_post (plain_new h) _ _) fun _ h => h.1
  · rename_i hl
    exact absurd (List.getLast?_eq_none_iff.1 hl) hn

theorem insertColumns_post (missing : TMap N (DataType × Bool)) (r : List (Attribute N × N)) :
    (insertColumns ops missing r).Post fun _ => True := by
  induction r generalizing missing with
  | nil => trivial
  | cons e r ih =>
    obtain ⟨v, t⟩ := e
    unfold insertColumns
    refine post_bind (P := fun _ => True) ?_ fun m _ _ => ih m
    unfold insertColumn
    split
    · trivial
    · split <;> trivial

theorem updateColumns_post (map : TMap N (DataType × Bool)) (typ : DataType) (n : Bool)
    (assigned : TMap N Unit) (cs : List N) :
    (updateColumns ops map typ n assigned cs).Post fun _ => True := by
  induction cs generalizing assigned with
  | nil => trivial
  | cons c cs ih =>
    unfold updateColumns
    split
    · trivial
    · split
      · trivial
      · split
        · trivial
        · exact ih _

theorem updateAssignments_post {sc : ScalarContext N} (h : sc.Plain ops) (map : TMap N (DataType × Bool))
    (assigned : TMap N Unit) (as : List (Assignment N)) (hs : ∀ a ∈ as, a.expr.Safe) :
    (updateAssignments ops sc map assigned as).Post fun _ => True := by
  induction as generalizing assigned with
  | nil => trivial
  | cons a as ih =>
    unfold updateAssignments
    refine post_bind (inferExpr_post h a.expr (hs a List.mem_cons_self)) fun t _ _ => ?_
    cases t with
    | tuple _ => exact post_err
    | scalar typ n =>
      exact post_bind (updateColumns_post map typ n assigned a.columns) fun m _ _ =>
        ih m fun a ha => hs a (List.mem_cons_of_mem _ ha)

theorem statement_post {ctx : SetContext N} (h : ctx.namespaces.get ops ctx.defaultNamespace ≠ none)
    (s : Statement N) (hs : s.Safe) : (s.validateType ops ctx).Post fun _ => True := by
  cases s with
  | select s => exact post_bind (inferSelect_post h s hs) fun _ _ _ => trivial
  | insert s =>
    show (s.validateType ops ctx).Post _
    unfold InsertStatement.validateType
    refine post_bind (resolve_post h s.tableName) fun typ _ _ =>
      post_bind (inferSetExpr_post h s.source hs) fun values _ _ =>
        post_bind (P := fun _ => True) ?_ fun m _ _ => ?_
    · unfold insertSource
      split
      · exact insertColumns_post _ _
      · split
        · trivial
        · exact insertColumns_post _ _
    · unfold insertComplete
      split <;> trivial
  | update s =>
    show (s.validateType ops ctx).Post _
    unfold UpdateStatement.validateType
    exact post_bind (resolve_post h s.tableName) fun typ _ hn =>
      post_bind (tableContext_post h hn typ) fun sc _ hsc =>
        post_bind (updateAssignments_post hsc _ _ _ hs.1) fun _ _ _ => checkPredicate_post hsc _ _ hs.2
  | delete s =>
    show (s.validateType ops ctx).Post _
    unfold DeleteStatement.validateType
    exact post_bind (resolve_post h s.tableName) fun typ _ hn =>
      post_bind (tableContext_post h hn typ) fun sc _ hsc => checkPredicate_post hsc _ _ hs

theorem sqlStatement_post {ctx : SetContext N} (h : ctx.namespaces.get ops ctx.defaultNamespace ≠ none)
    (s : SqlStatement N) (hs : s.Safe) : (s.validateType ops ctx).Post fun _ => True := by
  cases s with
  | statement s => exact statement_post h s hs
  | explainQueryPlan s => exact statement_post h s hs
  | attach s => trivial
  | describe s => exact post_bind (resolve_post h _) fun _ _ _ => trivial

end Verif.Sql
