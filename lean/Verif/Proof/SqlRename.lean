import Verif.Proof.SqlSpelling
import Verif.Proof.SqlNames
import Verif.Proof.SqlTables
import Verif.Spec.SqlRename
/-! # Choosing other names -/

namespace Verif.Sql

open Chk

/-- Names renamed: the names that are the same are those that were. -/
structure Ren {N K : Type} (ops : NameOps N) (ops' : NameOps K) (key : N → List Char) (key' : K → List Char)
    (f : N → K) : Prop where
  keyed : Keyed ops key
  keyed' : Keyed ops' key'
  same : ∀ a b, key' (f a) = key' (f b) ↔ key a = key b
  col : ops'.lit "col" = f (ops.lit "col")
  first : ops'.lit "_col" = f (ops.lit "_col")
  numbered : ∀ n k, ops'.numbered (f n) k = f (ops.numbered n k)

namespace Chk
variable {α β γ δ : Type}

/-- Both calls fail in the same way, or they give related values. -/
def Rel (R : α → β → Prop) : Chk α → Chk β → Prop
  | .ok a, .ok b => R a b
  | .error e, .error e' => e = e'
  | _, _ => False

theorem rel_map {g : α → β} {r : Chk α} {r' : Chk β} (h : r' = map g r) : Rel (fun a b => b = g a) r r' := by
  subst h
  cases r with
  | ok a => exact rfl
  | error e => exact rfl

theorem rel_bind {R : α → β → Prop} {S : γ → δ → Prop} {r : Chk α} {r' : Chk β} {k : α → Chk γ} {k' : β → Chk δ}
    (h : Rel R r r') (hk : ∀ a b, R a b → Rel S (k a) (k' b)) : Rel S (r >>= k) (r' >>= k') := by
  cases r with
  | ok a => cases r' with
    | ok b => exact hk a b h
    | error e => exact h.elim
  | error e => cases r' with
    | ok b => exact h.elim
    | error e' => exact h

theorem rel_bind_map {R : α → β → Prop} {j : γ → δ} {r : Chk α} {r' : Chk β} {k : α → Chk γ} {k' : β → Chk δ}
    (h : Rel R r r') (hk : ∀ a b, R a b → k' b = map j (k a)) : (r' >>= k') = map j (r >>= k) := by
  cases r with
  | ok a => cases r' with
    | ok b => exact hk a b h
    | error e => exact h.elim
  | error e => cases r' with
    | ok b => exact h.elim
    | error e' => exact congrArg Except.error (show e = e' from h).symm

theorem rel_bind_eq {R : α → β → Prop} {r : Chk α} {r' : Chk β} {k : α → Chk γ} {k' : β → Chk γ}
    (h : Rel R r r') (hk : ∀ a b, R a b → k' b = k a) : (r' >>= k') = (r >>= k) := by
  cases r with
  | ok a => cases r' with
    | ok b => exact hk a b h
    | error e => exact h.elim
  | error e => cases r' with
    | ok b => exact h.elim
    | error e' => exact congrArg Except.error (show e = e' from h).symm

end Chk

section maps
variable {N K V W : Type} {ops : NameOps N} {ops' : NameOps K} {key : N → List Char} {key' : K → List Char} {f : N → K}

/-- Both or neither is there. -/
def OptRel (R : V → W → Prop) : Option V → Option W → Prop
  | some a, some b => R a b
  | none, none => True
  | _, _ => False

/-- The values found under a name and its new name are related. -/
def MapRel (ops : NameOps N) (ops' : NameOps K) (f : N → K) (R : V → W → Prop) (m : TMap N V) (m' : TMap K W) : Prop :=
  ∀ k, OptRel R (m.get ops k) (m'.get ops' (f k))

theorem mapRel_nil (R : V → W → Prop) : MapRel ops ops' f R [] [] := fun _ => trivial

theorem mapRel_insert (h : Ren ops ops' key key' f) {R : V → W → Prop} {m : TMap N V} {m' : TMap K W}
    (hm : MapRel ops ops' f R m m') (k : N) {v : V} {w : W} (hv : R v w) :
    MapRel ops ops' f R (m.insert ops k v) (m'.insert ops' (f k) w) := by
  intro k0
  rw [TMap.get_insert h.keyed, TMap.get_insert h.keyed']
  by_cases hc : key k0 = key k
  · rw [if_pos hc, if_pos ((h.same _ _).2 hc)]; exact hv
  · rw [if_neg hc, if_neg (fun hd => hc ((h.same _ _).1 hd))]; exact hm k0

theorem mapRel_remove (h : Ren ops ops' key key' f) {R : V → W → Prop} {m : TMap N V} {m' : TMap K W}
    (hm : MapRel ops ops' f R m m') (k : N) :
    MapRel ops ops' f R (m.remove ops k) (m'.remove ops' (f k)) := by
  intro k0
  rw [TMap.get_remove h.keyed, TMap.get_remove h.keyed']
  by_cases hc : key k0 = key k
  · rw [if_pos hc, if_pos ((h.same _ _).2 hc)]; exact trivial
  · rw [if_neg hc, if_neg (fun hd => hc ((h.same _ _).1 hd))]; exact hm k0

theorem mapRel_foldl (h : Ren ops ops' key key' f) (g : V → W) (es : List (N × V)) {m : TMap N V} {m' : TMap K W}
    (hm : MapRel ops ops' f (fun a b => b = g a) m m') :
    MapRel ops ops' f (fun a b => b = g a) (es.foldl (fun m e => TMap.insert ops m e.1 e.2) m)
      ((es.map fun e => (f e.1, g e.2)).foldl (fun m e => TMap.insert ops' m e.1 e.2) m') := by
  induction es generalizing m m' with
  | nil => exact hm
  | cons e es ih => exact ih (mapRel_insert h hm _ rfl)

theorem mapRel_collect (h : Ren ops ops' key key' f) (g : V → W) (es : List (N × V)) :
    MapRel ops ops' f (fun a b => b = g a) (TMap.collect ops es)
      (TMap.collect ops' (es.map fun e => (f e.1, g e.2))) :=
  mapRel_foldl h g es (mapRel_nil _)

theorem Ren.eq (h : Ren ops ops' key key' f) (a b : N) : ops'.eq (f a) (f b) = ops.eq a b := by
  rw [Bool.eq_iff_iff, h.keyed.eq_true, h.keyed'.eq_true, h.same]

end maps

variable {N K : Type} {ops : NameOps N} {ops' : NameOps K} {key : N → List Char} {key' : K → List Char} {f : N → K}

/-- The tables have the same columns, under their new names. -/
def RenContext (ops : NameOps N) (ops' : NameOps K) (f : N → K) (ctx : SetContext N) (ctx' : SetContext K) : Prop :=
  ∀ q : List N, ctx'.resolveTableName ops' (q.map f) = map (RowType.map f) (ctx.resolveTableName ops q)

/-- The same meaning of a name. -/
inductive SymbolRel (ops : NameOps N) (ops' : NameOps K) (f : N → K) : Symbol N → Symbol K → Prop
  | «attribute» (t : ScalarType) : SymbolRel ops ops' f (.attribute t) (.attribute t)
  | attributeConflict : SymbolRel ops ops' f .attributeConflict .attributeConflict
  | relation {m : TMap N ScalarType} {m' : TMap K ScalarType} (h : MapRel ops ops' f (fun a b => b = a) m m') :
    SymbolRel ops ops' f (.relation m) (.relation m')

structure RenScope (ops : NameOps N) (ops' : NameOps K) (f : N → K) (sc : ScalarContext N) (sc' : ScalarContext K) :
    Prop where
  context : RenContext ops ops' f sc.setContext sc'.setContext
  symbols : MapRel ops ops' f (SymbolRel ops ops' f) sc.symbols sc'.symbols

theorem renScope_new {ctx : SetContext N} {ctx' : SetContext K} (hc : RenContext ops ops' f ctx ctx') :
    RenScope ops ops' f (ScalarContext.new ctx) (ScalarContext.new ctx') := ⟨hc, mapRel_nil _⟩

theorem addAttributes_ren (h : Ren ops ops' key key' f) (as : List (Attribute N)) {m : TMap N (Symbol N)}
    {m' : TMap K (Symbol K)} (hm : MapRel ops ops' f (SymbolRel ops ops' f) m m') :
    MapRel ops ops' f (SymbolRel ops ops' f) (addAttributes ops m as)
      (addAttributes ops' m' (as.map (Attribute.map f))) := by
  induction as generalizing m m' with
  | nil => exact hm
  | cons a as ih =>
    rw [List.map_cons]
    unfold addAttributes
    rw [show (a.map f).name = f a.name from rfl, attribute_scalar_map]
    have h1 := hm a.name
    cases h2 : m.get ops a.name with
    | none =>
      cases h3 : m'.get ops' (f a.name) with
      | none => exact ih (mapRel_insert h hm _ (.attribute _))
      | some s => rw [h2, h3] at h1; exact h1.elim
    | some s =>
      cases h3 : m'.get ops' (f a.name) with
      | none => rw [h2, h3] at h1; exact h1.elim
      | some s' =>
        rw [h2, h3] at h1
        cases (h1 : SymbolRel ops ops' f s s') with
        | «attribute» t => exact ih (mapRel_insert h hm _ .attributeConflict)
        | attributeConflict => exact ih hm
        | relation _ => exact ih hm

theorem addRelation_ren (h : Ren ops ops' key key' f) {sc : ScalarContext N} {sc' : ScalarContext K}
    (hs : RenScope ops ops' f sc sc') (name : N) (as : List (Attribute N)) :
    Rel (RenScope ops ops' f) (sc.addRelation ops name as)
      (sc'.addRelation ops' (f name) (as.map (Attribute.map f))) := by
  unfold ScalarContext.addRelation
  simp only
  have e1 := addAttributes_ren h as hs.symbols
  have e2 : MapRel ops ops' f (fun a b => b = a) (TMap.collect ops (as.map fun a => (a.name, a.scalar)))
      (TMap.collect ops' (List.map (fun a => (a.name, a.scalar)) (as.map (Attribute.map f)))) := by
    have := mapRel_collect h id (as.map fun a => (a.name, a.scalar))
    rw [List.map_map] at this
    rw [List.map_map]
    exact this
  have h1 := e1 name
  have hi := mapRel_insert h e1 name (.relation e2)
  cases h2 : (addAttributes ops sc.symbols as).get ops name with
  | none =>
    cases h3 : (addAttributes ops' sc'.symbols (as.map (Attribute.map f))).get ops' (f name) with
    | none => exact ⟨hs.context, hi⟩
    | some s => rw [h2, h3] at h1; exact h1.elim
  | some s =>
    cases h3 : (addAttributes ops' sc'.symbols (as.map (Attribute.map f))).get ops' (f name) with
    | none => rw [h2, h3] at h1; exact h1.elim
    | some s' =>
      rw [h2, h3] at h1
      cases (h1 : SymbolRel ops ops' f s s') with
      | «attribute» t => exact ⟨hs.context, hi⟩
      | attributeConflict => exact ⟨hs.context, hi⟩
      | relation _ => exact rfl

theorem inferType_ren {sc : ScalarContext N} {sc' : ScalarContext K}
    (hs : RenScope ops ops' f sc sc') (q : List N) : sc'.inferType ops' (q.map f) = sc.inferType ops q := by
  match q with
  | [] => rfl
  | [a] =>
    show ScalarContext.inferType ops' sc' [f a] = _
    unfold ScalarContext.inferType
    have h1 := hs.symbols a
    revert h1
    simp only
    cases sc.symbols.get ops a <;> cases sc'.symbols.get ops' (f a)
    · intro _; rfl
    · intro h1; exact h1.elim
    · intro h1; exact h1.elim
    · intro h1
      cases (h1 : SymbolRel ops ops' f _ _) <;> rfl
  | [r, a] =>
    show ScalarContext.inferType ops' sc' [f r, f a] = _
    unfold ScalarContext.inferType
    have h1 := hs.symbols r
    revert h1
    simp only
    cases sc.symbols.get ops r <;> cases sc'.symbols.get ops' (f r)
    · intro _; rfl
    · intro h1; exact h1.elim
    · intro h1; exact h1.elim
    · intro h1
      cases (h1 : SymbolRel ops ops' f _ _) with
      | «attribute» t => rfl
      | attributeConflict => rfl
      | relation hm =>
        have h2 := hm a
        revert h2
        simp only
        rename_i m m'
        cases m.get ops a <;> cases m'.get ops' (f a)
        · intro _; rfl
        · intro h2; exact h2.elim
        · intro h2; exact h2.elim
        · intro h2
          have h2 : _ = _ := h2
          rw [h2]
  | _ :: _ :: _ :: _ => rfl

theorem mapRel_eq {V : Type} {m : TMap N V} {m' : TMap K V} (hm : MapRel ops ops' f (fun a b => b = a) m m') (k : N) :
    m'.get ops' (f k) = m.get ops k := by
  have h1 := hm k
  revert h1
  cases m.get ops k <;> cases m'.get ops' (f k)
  · intro _; rfl
  · intro h1; exact h1.elim
  · intro h1; exact h1.elim
  · intro h1; exact congrArg some h1

theorem generateColumnName_ren (h : Ren ops ops' key key' f) (name : N) {g : TMap N Nat} {g' : TMap K Nat}
    (hg : MapRel ops ops' f (fun a b => b = a) g g') :
    (generateColumnName ops' (f name) g').1 = f (generateColumnName ops name g).1 ∧
      MapRel ops ops' f (fun a b =>
      b = a) (generateColumnName ops name g).2 (generateColumnName ops' (f name) g').2 := by
  unfold generateColumnName
  rw [mapRel_eq hg]
  cases g.get ops name with
  | none => exact ⟨rfl, mapRel_insert h hg name rfl⟩
  | some c =>
    simp only [h.numbered]
    exact ⟨trivial, mapRel_insert h (mapRel_insert h hg name rfl) _ rfl⟩

theorem generateColumns_ren (h : Ren ops ops' key key' f) (as : List (Attribute N)) {g : TMap N Nat} {g' : TMap K Nat}
    (hg : MapRel ops ops' f (fun a b => b = a) g g') :
    (generateColumns ops' g' (as.map (Attribute.map f))).1 = (generateColumns ops g as).1.map (Attribute.map f) := by
  induction as generalizing g g' with
  | nil => rfl
  | cons a as ih =>
    rw [List.map_cons]
    unfold generateColumns
    obtain ⟨h1, h2⟩ := generateColumnName_ren h a.name hg
    rw [show (a.map f).name = f a.name from rfl]
    simp only [List.map_cons]
    rw [ih h2, h1]
    rfl

theorem selectColumns_ren (h : Ren ops ops' key key' f) (as : List (Attribute N)) (cs : List N) :
    selectColumns ops' (as.map (Attribute.map f)) (cs.map f) =
      map (List.map (Attribute.map f)) (selectColumns ops as cs) := by
  induction cs with
  | nil => rfl
  | cons c cs ih =>
    rw [List.map_cons]
    unfold selectColumns
    have e1 : (as.map (Attribute.map f)).find? (fun a => ops'.eq a.name (f c)) =
        (as.find? fun a => ops.eq a.name c).map (Attribute.map f) := by
      rw [List.find?_map]
      refine congrArg (fun p => (List.find? p as).map _) (funext fun a => ?_)
      exact h.eq _ _
    rw [e1]
    cases as.find? fun a => ops.eq a.name c with
    | none => rfl
    | some a => exact hom_bind ih fun _ => rfl

/-- Related results of a FROM clause. -/
def FromRel (ops : NameOps N) (ops' : NameOps K) (f : N → K) (r : ScalarContext N × List (Attribute N))
    (r' : ScalarContext K × List (Attribute K)) : Prop :=
  RenScope ops ops' f r.1 r'.1 ∧ r'.2 = r.2.map (Attribute.map f)

/-- A part of a statement without `t.*` has none. -/
local macro "star" : tactic => `(tactic| first
  | assumption
  | exact $(Lean.mkIdent `hn).1
  | exact $(Lean.mkIdent `hn).2
  | exact $(Lean.mkIdent `hn).2.1
  | exact $(Lean.mkIdent `hn).2.2
  | exact $(Lean.mkIdent `hn).2.2.1
  | exact $(Lean.mkIdent `hn).2.2.2)

mutual

theorem inferExpr_ren (h : Ren ops ops' key key' f) {sc : ScalarContext N} {sc' : ScalarContext K}
    (hs : RenScope ops ops' f sc sc') :
    (e : Expr N) → e.starFree → inferExpr ops' sc' (e.map f) = inferExpr ops sc e
  | .literal l, _ => by unfold Expr.map inferExpr; rfl
  | .ident q, _ => by
    unfold Expr.map inferExpr
    exact inferType_ren hs q
  | .tuple es, hn => by
    simp only [Expr.starFree] at hn
    unfold Expr.map inferExpr
    exact same_bind (inferExprs_ren h hs es (by star)) fun _ => rfl
  | .unary op e, hn => by
    simp only [Expr.starFree] at hn
    unfold Expr.map inferExpr
    exact same_bind (inferExpr_ren h hs e (by star)) fun _ => rfl
  | .binary op l r, hn => by
    simp only [Expr.starFree] at hn
    unfold Expr.map inferExpr
    exact same_bind (inferExpr_ren h hs l (by star)) fun _ => same_bind (inferExpr_ren h hs r (by star)) fun _ => rfl
  | .comparison op l r, hn => by
    simp only [Expr.starFree] at hn
    unfold Expr.map inferExpr
    exact same_bind (inferExpr_ren h hs l (by star)) fun _ => same_bind (inferExpr_ren h hs r (by star)) fun _ => rfl
  | .between e l u, hn => by
    simp only [Expr.starFree] at hn
    unfold Expr.map inferExpr
    exact same_bind (inferExpr_ren h hs e (by star)) fun _ => same_bind (inferExpr_ren h hs l (by star)) fun _ =>
      same_bind (inferExpr_ren h hs u (by star)) fun _ => rfl
  | .case none whens els, hn => by
    simp only [Expr.starFree, Expr.starFreeOption] at hn
    unfold Expr.map
    rw [show Expr.mapOption f (none : Option (Expr N)) = none from rfl]
    unfold inferExpr
    refine same_bind (congrArg ignored (checkGuards_ren h hs _ whens (by star))) fun _ =>
      same_bind (inferBodies_ren h hs whens (by star)) fun t => ?_
    exact inferElse_ren h hs t els (by star)
  | .case (some e) whens els, hn => by
    simp only [Expr.starFree, Expr.starFreeOption] at hn
    unfold Expr.map
    rw [show Expr.mapOption f (some e) = some (e.map f) from by rw [Expr.mapOption]]
    unfold inferExpr
    refine same_bind (inferExpr_ren h hs e (by star)) fun et =>
      same_bind (congrArg ignored (checkGuards_ren h hs _ whens (by star))) fun _ =>
      same_bind (inferBodies_ren h hs whens (by star)) fun t => ?_
    exact inferElse_ren h hs t els (by star)
  | .inSet e set, hn => by
    simp only [Expr.starFree] at hn
    unfold Expr.map inferExpr
    exact same_bind (inferExpr_ren h hs e (by star)) fun et => from_bind (inferSet_ren h hs set (by star)) fun r =>
      same_bind (singleColumn_map _ r) fun _ => rfl
  | .select s, hn => by
    simp only [Expr.starFree] at hn
    unfold Expr.map inferExpr
    exact from_bind (inferSelect_ren h hs.context s (by star)) fun r => singleColumn_map _ r

theorem inferExprs_ren (h : Ren ops ops' key key' f) {sc : ScalarContext N} {sc' : ScalarContext K}
    (hs : RenScope ops ops' f sc sc') :
    (es : List (Expr N)) → Expr.starFreeList es → inferExprs ops' sc' (Expr.mapList f es) = inferExprs ops sc es
  | [], _ => by unfold Expr.mapList inferExprs; rfl
  | e :: es, hn => by
    simp only [Expr.starFreeList] at hn
    unfold Expr.mapList inferExprs
    exact same_bind (inferExpr_ren h hs e (by star)) fun _ => same_bind (inferExprs_ren h hs es (by star)) fun _ => rfl

theorem checkGuards_ren (h : Ren ops ops' key key' f) {sc : ScalarContext N} {sc' : ScalarContext K}
    (hs : RenScope ops ops' f sc sc') (check : ScalarType → Chk Unit) :
    (ws : List (When N)) → When.starFreeList ws →
      checkGuards ops' sc' check (When.mapList f ws) = checkGuards ops sc check ws
  | [], _ => by unfold When.mapList checkGuards; rfl
  | .mk guard body :: ws, hn => by
    simp only [When.starFreeList] at hn
    unfold When.mapList checkGuards
    exact same_bind (inferExpr_ren h hs guard (by star)) fun _ => same_bind rfl fun _ =>
      checkGuards_ren h hs check ws (by star)

theorem inferBodies_ren (h : Ren ops ops' key key' f) {sc : ScalarContext N} {sc' : ScalarContext K}
    (hs : RenScope ops ops' f sc sc') :
    (ws : List (When N)) → When.starFreeList ws → inferBodies ops' sc' (When.mapList f ws) = inferBodies ops sc ws
  | [], _ => by unfold When.mapList inferBodies; rfl
  | .mk guard body :: ws, hn => by
    simp only [When.starFreeList] at hn
    unfold When.mapList inferBodies
    exact same_bind (inferExpr_ren h hs body (by star)) fun t => foldBodies_ren h hs t ws (by star)

theorem foldBodies_ren (h : Ren ops ops' key key' f) {sc : ScalarContext N} {sc' : ScalarContext K}
    (hs : RenScope ops ops' f sc sc') (typ : ScalarType) :
    (ws : List (When N)) → When.starFreeList ws → foldBodies ops' sc' typ (When.mapList f ws) = foldBodies ops sc typ ws
  | [], _ => by unfold When.mapList foldBodies; rfl
  | .mk guard body :: ws, hn => by
    simp only [When.starFreeList] at hn
    unfold When.mapList foldBodies
    exact same_bind (inferExpr_ren h hs body (by star)) fun _ => same_bind rfl fun t =>
      foldBodies_ren h hs t ws (by star)

theorem inferElse_ren (h : Ren ops ops' key key' f) {sc : ScalarContext N} {sc' : ScalarContext K}
    (hs : RenScope ops ops' f sc sc') (t : ScalarType) :
    (els : Option (Expr N)) → Expr.starFreeOption els →
      inferElse ops' sc' t (Expr.mapOption f els) = inferElse ops sc t els
  | none, _ => by unfold Expr.mapOption inferElse; rfl
  | some body, hn => by
    simp only [Expr.starFreeOption] at hn
    unfold Expr.mapOption inferElse
    cases t with
    | tuple _ => rfl
    | scalar typ n => exact same_bind (inferExpr_ren h hs body (by star)) fun _ => rfl

theorem inferSet_ren (h : Ren ops ops' key key' f) {sc : ScalarContext N} {sc' : ScalarContext K}
    (hs : RenScope ops ops' f sc sc') :
    (s : SetSpec N) → s.starFree → inferSet ops' sc' (s.map f) = map (RowType.map f) (inferSet ops sc s)
  | .select s, hn => by
    simp only [SetSpec.starFree] at hn
    unfold SetSpec.map inferSet
    exact inferSelect_ren h hs.context s (by star)
  | .name q, _ => by
    unfold SetSpec.map inferSet
    exact hs.context q
  | .list es, hn => by
    simp only [SetSpec.starFree] at hn
    unfold SetSpec.map inferSet
    refine hom_bind' (inferList_ren h hs es (by star)) fun t => ?_
    cases t with
    | tuple _ => rfl
    | scalar typ n =>
      show Except.ok _ = Except.ok _
      rw [h.first, h.numbered]
      rfl

theorem inferList_ren (h : Ren ops ops' key key' f) {sc : ScalarContext N} {sc' : ScalarContext K}
    (hs : RenScope ops ops' f sc sc') :
    (es : List (Expr N)) → Expr.starFreeList es → inferList ops' sc' (Expr.mapList f es) = inferList ops sc es
  | [], _ => by unfold Expr.mapList inferList; rfl
  | e :: es, hn => by
    simp only [Expr.starFreeList] at hn
    unfold Expr.mapList inferList
    rw [inferExpr_ren h hs e (by star)]
    exact foldList_ren h hs _ es (by star)

theorem foldList_ren (h : Ren ops ops' key key' f) {sc : ScalarContext N} {sc' : ScalarContext K}
    (hs : RenScope ops ops' f sc sc') (typ : Chk ScalarType) :
    (es : List (Expr N)) → Expr.starFreeList es → foldList ops' sc' typ (Expr.mapList f es) = foldList ops sc typ es
  | [], _ => by unfold Expr.mapList foldList; rfl
  | e :: es, hn => by
    simp only [Expr.starFreeList] at hn
    unfold Expr.mapList
    match typ with
    | .ok t =>
      unfold foldList
      rw [inferExpr_ren h hs e (by star)]
      exact foldList_ren h hs _ es (by star)
    | .error (.err x) =>
      unfold foldList
      rw [inferExpr_ren h hs e (by star)]
      exact foldList_ren h hs _ es (by star)
    | .error .panic => unfold foldList; rfl

theorem inferSelect_ren (h : Ren ops ops' key key' f) {ctx : SetContext N} {ctx' : SetContext K}
    (hc : RenContext ops ops' f ctx ctx') :
    (s : Select N) → s.starFree → inferSelect ops' ctx' (s.map f) = map (RowType.map f) (inferSelect ops ctx s)
  | .mk common expr orderBy limit, hn => by
    simp only [Select.starFree] at hn
    unfold Select.map inferSelect
    exact rel_bind_map (addCommon_ren h hc (renScope_new hc) common (by star)) fun sc sc' hs =>
      hom_bind (inferSetExpr_ren h hc expr (by star)) fun r =>
        hom_bind' (checkOrder_ren h hs orderBy (by star)) fun _ =>
          hom_bind' (checkLimit_ren h hs.context limit (by star)) fun _ => rfl

theorem addCommon_ren (h : Ren ops ops' key key' f) {ctx : SetContext N} {ctx' : SetContext K}
    (hc : RenContext ops ops' f ctx ctx') {sc : ScalarContext N} {sc' : ScalarContext K}
    (hs : RenScope ops ops' f sc sc') : (cs : List (Cte N)) → Cte.starFreeList cs →
      Rel (RenScope ops ops' f) (addCommon ops ctx sc cs) (addCommon ops' ctx' sc' (Cte.mapList f cs))
  | [], _ => by unfold Cte.mapList addCommon; exact hs
  | .mk identifier names query :: cs, hn => by
    simp only [Cte.starFreeList] at hn
    have e1 := inferCte_ren h hc (.mk identifier names query) (by star)
    unfold Cte.mapList
    unfold Cte.map at e1 ⊢
    unfold addCommon
    refine rel_bind (rel_map e1) fun typ typ' ht => ?_
    subst ht
    exact rel_bind (addRelation_ren h hs identifier typ.attributes) fun _ _ hs => addCommon_ren h hc hs cs (by star)

theorem inferCte_ren (h : Ren ops ops' key key' f) {ctx : SetContext N} {ctx' : SetContext K}
    (hc : RenContext ops ops' f ctx ctx') :
    (c : Cte N) → c.starFree → inferCte ops' ctx' (c.map f) = map (RowType.map f) (inferCte ops ctx c)
  | .mk identifier names query, hn => by
    simp only [Cte.starFree] at hn
    unfold Cte.map inferCte
    refine hom_bind (inferSelect_ren h hc query (by star)) fun typ => ?_
    cases names with
    | none => rfl
    | some cs => exact hom_bind (selectColumns_ren h typ.attributes cs) fun _ => rfl

theorem checkOrder_ren (h : Ren ops ops' key key' f) {sc : ScalarContext N} {sc' : ScalarContext K}
    (hs : RenScope ops ops' f sc sc') :
    (ts : List (OrderTerm N)) → OrderTerm.starFreeList ts →
      checkOrder ops' sc' (OrderTerm.mapList f ts) = checkOrder ops sc ts
  | [], _ => by unfold OrderTerm.mapList checkOrder; rfl
  | .mk e c d :: ts, hn => by
    simp only [OrderTerm.starFreeList] at hn
    unfold OrderTerm.mapList checkOrder
    exact same_bind (inferExpr_ren h hs e (by star)) fun _ => same_bind rfl fun _ => checkOrder_ren h hs ts (by star)

theorem checkLimit_ren (h : Ren ops ops' key key' f) {ctx : SetContext N} {ctx' : SetContext K}
    (hc : RenContext ops ops' f ctx ctx') :
    (l : Option (Limit N)) → Limit.starFreeOption l → checkLimit ops' ctx' (Limit.mapOption f l) = checkLimit ops ctx l
  | none, _ => by unfold Limit.mapOption checkLimit; rfl
  | some (.mk rows offset), hn => by
    simp only [Limit.starFreeOption] at hn
    unfold Limit.mapOption checkLimit
    exact same_bind (inferExpr_ren h (renScope_new hc) rows (by star)) fun _ => same_bind rfl fun _ =>
      checkOffset_ren h (renScope_new hc) offset (by star)

theorem checkOffset_ren (h : Ren ops ops' key key' f) {sc : ScalarContext N} {sc' : ScalarContext K}
    (hs : RenScope ops ops' f sc sc') :
    (o : Option (Expr N)) → Expr.starFreeOption o → checkOffset ops' sc' (Expr.mapOption f o) = checkOffset ops sc o
  | none, _ => by unfold Expr.mapOption checkOffset; rfl
  | some e, hn => by
    simp only [Expr.starFreeOption] at hn
    unfold Expr.mapOption checkOffset
    exact same_bind (inferExpr_ren h hs e (by star)) fun _ => rfl

theorem inferSetExpr_ren (h : Ren ops ops' key key' f) {ctx : SetContext N} {ctx' : SetContext K}
    (hc : RenContext ops ops' f ctx ctx') :
    (s : SetExpr N) → s.starFree → inferSetExpr ops' ctx' (s.map f) = map (RowType.map f) (inferSetExpr ops ctx s)
  | .values rows, hn => by
    simp only [SetExpr.starFree] at hn
    unfold SetExpr.map inferSetExpr
    exact hom_bind (inferValues_ren h (renScope_new hc) rows (by star)) fun _ => rfl
  | .query mode columns froms wher groupBy, hn => by
    simp only [SetExpr.starFree] at hn
    unfold SetExpr.map inferSetExpr
    refine rel_bind_map (inferFrom_ren h (renScope_new hc) froms (by star)) fun r r' hr => ?_
    obtain ⟨sc', as'⟩ := r'
    obtain ⟨hs, ha⟩ := hr
    subst ha
    exact hom_bind' (checkPredicate_ren h hs _ wher (by star)) fun _ =>
      hom_bind' (checkGroupBy_ren h hs groupBy (by star)) fun _ => inferColumns_ren h hs r.2 columns (by star)
  | .op o l r, hn => by
    simp only [SetExpr.starFree] at hn
    unfold SetExpr.map inferSetExpr
    exact hom_bind (inferSetExpr_ren h hc l (by star)) fun lt => hom_bind (inferSetExpr_ren h hc r (by star)) fun rt =>
      hom_bind (unifyAttributes_map lt.attributes rt.attributes) fun _ => rfl

theorem inferValues_ren (h : Ren ops ops' key key' f) {sc : ScalarContext N} {sc' : ScalarContext K}
    (hs : RenScope ops ops' f sc sc') :
    (rows : List (List (Expr N))) → Expr.starFreeRows rows → inferValues ops' sc' (Expr.mapRows f rows) =
      map (List.map (Attribute.map f)) (inferValues ops sc rows)
  | [], _ => by unfold Expr.mapRows inferValues; rfl
  | row :: rows, hn => by
    simp only [Expr.starFreeRows] at hn
    unfold Expr.mapRows inferValues
    exact hom_bind (inferFirstRow_ren h hs 0 row (by star)) fun types => foldRows_ren h hs types rows (by star)

theorem inferFirstRow_ren (h : Ren ops ops' key key' f) {sc : ScalarContext N} {sc' : ScalarContext K}
    (hs : RenScope ops ops' f sc sc') (count : Nat) :
    (es : List (Expr N)) → Expr.starFreeList es → inferFirstRow ops' sc' count (Expr.mapList f es) =
      map (List.map (Attribute.map f)) (inferFirstRow ops sc count es)
  | [], _ => by unfold Expr.mapList inferFirstRow; rfl
  | e :: es, hn => by
    simp only [Expr.starFreeList] at hn
    unfold Expr.mapList inferFirstRow
    refine hom_bind' (inferExpr_ren h hs e (by star)) fun t => ?_
    cases t with
    | tuple _ => rfl
    | scalar typ n =>
      refine hom_bind (inferFirstRow_ren h hs (count + 1) es (by star)) fun _ => ?_
      show Except.ok _ = Except.ok _
      rw [h.first, h.numbered]
      rfl

theorem foldRows_ren (h : Ren ops ops' key key' f) {sc : ScalarContext N} {sc' : ScalarContext K}
    (hs : RenScope ops ops' f sc sc') (types : List (Attribute N)) :
    (rows : List (List (Expr N))) → Expr.starFreeRows rows →
      foldRows ops' sc' (types.map (Attribute.map f)) (Expr.mapRows f rows) =
      map (List.map (Attribute.map f)) (foldRows ops sc types rows)
  | [], _ => by unfold Expr.mapRows foldRows; rfl
  | row :: rows, hn => by
    simp only [Expr.starFreeRows] at hn
    unfold Expr.mapRows foldRows
    exact hom_bind (unifyRow_ren h hs types row (by star)) fun types' => foldRows_ren h hs types' rows (by star)

theorem unifyRow_ren (h : Ren ops ops' key key' f) {sc : ScalarContext N} {sc' : ScalarContext K}
    (hs : RenScope ops ops' f sc sc') (as : List (Attribute N)) :
    (es : List (Expr N)) → Expr.starFreeList es → unifyRow ops' sc' (as.map (Attribute.map f)) (Expr.mapList f es) =
      map (List.map (Attribute.map f)) (unifyRow ops sc as es)
  | [], _ => by cases as <;> unfold Expr.mapList <;> rfl
  | e :: es, hn => by
    simp only [Expr.starFreeList] at hn
    unfold Expr.mapList
    cases as with
    | nil => rfl
    | cons a as =>
      rw [List.map_cons]
      unfold unifyRow
      refine hom_bind' (inferExpr_ren h hs e (by star)) fun t => hom_bind' rfl fun u => ?_
      cases u with
      | tuple _ => rfl
      | scalar typ n => exact hom_bind (unifyRow_ren h hs as es (by star)) fun _ => rfl

theorem inferFrom_ren (h : Ren ops ops' key key' f) {sc : ScalarContext N} {sc' : ScalarContext K}
    (hs : RenScope ops ops' f sc sc') :
    (ts : List (TableExpr N)) → TableExpr.starFreeList ts → 
      Rel (FromRel ops ops' f) (inferFrom ops sc ts) (inferFrom ops' sc' (TableExpr.mapList f ts))
  | [], _ => by unfold TableExpr.mapList inferFrom; exact ⟨hs, rfl⟩
  | t :: ts, hn => by
    simp only [TableExpr.starFreeList] at hn
    unfold TableExpr.mapList inferFrom
    exact rel_bind (inferTable_ren h hs t (by star)) fun r r' hr =>
      rel_bind (inferFrom_ren h hr.1 ts (by star)) fun u u' hu =>
        ⟨hu.1, by rw [hr.2, hu.2, List.map_append]⟩

theorem inferTable_ren (h : Ren ops ops' key key' f) {sc : ScalarContext N} {sc' : ScalarContext K}
    (hs : RenScope ops ops' f sc sc') :
    (t : TableExpr N) → t.starFree → 
      Rel (FromRel ops ops' f) (inferTable ops sc t) (inferTable ops' sc' (t.map f))
  | .named name alias, _ => by
    unfold TableExpr.map inferTable
    refine rel_bind (rel_map (hs.context name)) fun typ typ' ht => ?_
    subst ht
    refine rel_bind (rel_map (relationName_map name alias)) fun id id' hi => ?_
    subst hi
    exact rel_bind (addRelation_ren h hs id typ.attributes) fun _ _ hs => ⟨hs, rfl⟩
  | .select s alias, hn => by
    simp only [TableExpr.starFree] at hn
    unfold TableExpr.map inferTable
    refine rel_bind (rel_map (inferSelect_ren h hs.context s (by star))) fun typ typ' ht => ?_
    subst ht
    exact ⟨hs, rfl⟩
  | .join l r o c, hn => by
    simp only [TableExpr.starFree] at hn
    unfold TableExpr.map inferTable
    exact rel_bind (inferTable_ren h hs l (by star)) fun u u' hu =>
      rel_bind (inferTable_ren h hu.1 r (by star)) fun w w' hw =>
        ⟨hw.1, by rw [hu.2, hw.2, List.map_append]⟩

theorem checkPredicate_ren (h : Ren ops ops' key key' f) {sc : ScalarContext N} {sc' : ScalarContext K}
    (hs : RenScope ops ops' f sc sc') (msg : SqlError) :
    (o : Option (Expr N)) → Expr.starFreeOption o →
      checkPredicate ops' sc' msg (Expr.mapOption f o) = checkPredicate ops sc msg o
  | none, _ => by unfold Expr.mapOption checkPredicate; rfl
  | some e, hn => by
    simp only [Expr.starFreeOption] at hn
    unfold Expr.mapOption checkPredicate
    exact same_bind (inferExpr_ren h hs e (by star)) fun _ => rfl

theorem checkGroupBy_ren (h : Ren ops ops' key key' f) {sc : ScalarContext N} {sc' : ScalarContext K}
    (hs : RenScope ops ops' f sc sc') :
    (g : Option (GroupBy N)) → GroupBy.starFreeOption g →
      checkGroupBy ops' sc' (GroupBy.mapOption f g) = checkGroupBy ops sc g
  | none, _ => by unfold GroupBy.mapOption checkGroupBy; rfl
  | some (.mk groupings having), hn => by
    simp only [GroupBy.starFreeOption] at hn
    unfold GroupBy.mapOption checkGroupBy
    exact same_bind (inferExprs_ren h hs groupings (by star)) fun _ => checkPredicate_ren h hs _ having (by star)

theorem inferColumns_ren (h : Ren ops ops' key key' f) {sc : ScalarContext N} {sc' : ScalarContext K}
    (hs : RenScope ops ops' f sc sc') (as : List (Attribute N)) :
    (cs : ResultColumns N) → cs.starFree → inferColumns ops' sc' (as.map (Attribute.map f)) (cs.map f) =
      map (RowType.map f) (inferColumns ops sc as cs)
  | .all, _ => by
    unfold ResultColumns.map inferColumns
    show Except.ok _ = Except.ok _
    rw [generateColumns_ren h as (mapRel_nil _)]
    rfl
  | .list cs, hn => by
    simp only [ResultColumns.starFree] at hn
    unfold ResultColumns.map inferColumns
    exact hom_bind (inferColumnList_ren h hs (mapRel_nil _) cs (by star)) fun _ => rfl

theorem inferColumnList_ren (h : Ren ops ops' key key' f) {sc : ScalarContext N} {sc' : ScalarContext K}
    (hs : RenScope ops ops' f sc sc') {g : TMap N Nat} {g' : TMap K Nat}
    (hg : MapRel ops ops' f (fun a b => b = a) g g') :
    (cs : List (ResultColumn N)) → ResultColumn.starFreeList cs →
      inferColumnList ops' sc' g' (ResultColumn.mapList f cs) =
      map (List.map (Attribute.map f)) (inferColumnList ops sc g cs)
  | [], _ => by unfold ResultColumn.mapList inferColumnList; rfl
  | .allFrom name :: cs, hn => by simp only [ResultColumn.starFreeList] at hn
  | .expr e rename :: cs, hn => by
    simp only [ResultColumn.starFreeList] at hn
    unfold ResultColumn.mapList inferColumnList
    refine hom_bind' (inferExpr_ren h hs e (by star)) fun t => ?_
    cases t with
    | tuple _ => rfl
    | scalar typ n =>
      have e1 : (rename.map f).getD (ops'.lit "col") = f (rename.getD (ops.lit "col")) := by
        rw [h.col]
        cases rename <;> rfl
      rw [e1]
      obtain ⟨h1, h2⟩ := generateColumnName_ren h (rename.getD (ops.lit "col")) hg
      rw [show generateColumnName ops' (f (rename.getD (ops.lit "col"))) g' =
        (f (generateColumnName ops (rename.getD (ops.lit "col")) g).1,
          (generateColumnName ops' (f (rename.getD (ops.lit "col"))) g').2) from Prod.ext h1 rfl]
      exact hom_bind (inferColumnList_ren h hs h2 cs (by star)) fun _ => rfl

end

/-- Related lists of the columns that are still to be given. -/
structure MissingRel (ops : NameOps N) (ops' : NameOps K) (key : N → List Char) (key' : K → List Char) (f : N → K)
    (m : TMap N (DataType × Bool)) (m' : TMap K (DataType × Bool)) : Prop where
  map : MapRel ops ops' f (fun a b => b = a) m m'
  increasing : TMap.Increasing key m
  increasing' : TMap.Increasing key' m'
  image : ∀ e ∈ m', ∃ k, e.1 = f k

theorem columnMap_ren (h : Ren ops ops' key key' f) (typ : RowType N) :
    MissingRel ops ops' key key' f (columnMap ops typ) (columnMap ops' (typ.map f)) := by
  have e1 : columnMap ops' (typ.map f) = TMap.collect ops'
      ((typ.attributes.map fun a => (a.name, (a.typ, a.isNull))).map fun e => (f e.1, id e.2)) := by
    unfold columnMap
    show TMap.collect ops' (List.map _ (List.map (Attribute.map f) typ.attributes)) = _
    rw [List.map_map, List.map_map]
    rfl
  refine ⟨?_, TMap.collect_increasing h.keyed _, TMap.collect_increasing h.keyed' _, ?_⟩
  · rw [e1]
    exact mapRel_collect h id _
  · rw [e1]
    have key : ∀ (es : List (N × (DataType × Bool))) (m : TMap K (DataType × Bool)), (∀ e ∈ m, ∃ k, e.1 = f k) →
        ∀ e ∈ (es.map fun e => (f e.1, id e.2)).foldl (fun m e => TMap.insert ops' m e.1 e.2) m, ∃ k, e.1 = f k := by
      intro es
      induction es with
      | nil => intro m hm; exact hm
      | cons e es ih =>
        intro m hm
        refine ih _ fun x hx => ?_
        rcases TMap.mem_insert hx with h1 | h1 | ⟨_, v, h1⟩
        · exact hm _ h1
        · exact ⟨e.1, congrArg Prod.fst h1⟩
        · exact hm (x.1, v) h1
    exact key _ [] (by simp)

theorem missing_complete (h : Ren ops ops' key key' f) {m : TMap N (DataType × Bool)} {m' : TMap K (DataType × Bool)}
    (hm : MissingRel ops ops' key key' f m m') : insertComplete m' = insertComplete m := by
  unfold insertComplete
  have : m'.any (fun e => !e.2.2) = m.any (fun e => !e.2.2) := by
    rw [Bool.eq_iff_iff, List.any_eq_true, List.any_eq_true]
    constructor
    · rintro ⟨e, he, h1⟩
      obtain ⟨k, hk⟩ := hm.image e he
      have h2 := TMap.get_of_mem h.keyed' hm.increasing' he (k := f k) (by rw [hk])
      rw [mapRel_eq hm.map] at h2
      obtain ⟨e0, h3, _, h4⟩ := TMap.get_mem h.keyed h2
      exact ⟨e0, h3, by rw [h4]; exact h1⟩
    · rintro ⟨e, he, h1⟩
      have h2 := TMap.get_of_mem h.keyed hm.increasing he (k := e.1) rfl
      rw [← mapRel_eq hm.map] at h2
      obtain ⟨e0, h3, _, h4⟩ := TMap.get_mem h.keyed' h2
      exact ⟨e0, h3, by rw [h4]; exact h1⟩
  rw [this]

theorem insertColumns_ren (h : Ren ops ops' key key' f) (r : List (Attribute N × N)) {m : TMap N (DataType × Bool)}
    {m' : TMap K (DataType × Bool)} (hm : MissingRel ops ops' key key' f m m') :
    Rel (MissingRel ops ops' key key' f) (insertColumns ops m r)
      (insertColumns ops' m' (r.map fun e => (e.1.map f, f e.2))) := by
  induction r generalizing m m' with
  | nil => exact hm
  | cons e r ih =>
    obtain ⟨v, t⟩ := e
    rw [List.map_cons]
    unfold insertColumns
    refine rel_bind (R := MissingRel ops ops' key key' f) ?_ fun _ _ hm => ih hm
    unfold insertColumn
    rw [mapRel_eq hm.map]
    cases m.get ops t with
    | none => exact rfl
    | some p =>
      obtain ⟨typ, n⟩ := p
      simp only
      rw [show (v.map f).typ = v.typ from rfl, show (v.map f).isNull = v.isNull from rfl]
      split
      · exact rfl
      · exact ⟨mapRel_remove h hm.map t, hm.increasing.filter _, hm.increasing'.filter _,
          fun e he => hm.image e (List.mem_filter.1 he).1⟩

theorem insertSource_ren (h : Ren ops ops' key key' f) {m : TMap N (DataType × Bool)}
    {m' : TMap K (DataType × Bool)} (hm : MissingRel ops ops' key key' f m m') (values : List (Attribute N))
    (columns : Option (List N)) :
    Rel (MissingRel ops ops' key key' f) (insertSource ops m values columns)
      (insertSource ops' m' (values.map (Attribute.map f)) (columns.map fun cs => cs.map f)) := by
  cases columns with
  | none =>
    unfold insertSource
    have := insertColumns_ren h (values.map fun a => (a, a.name)) hm
    rw [List.map_map] at this
    simp only [Option.map_none, List.map_map]
    exact this
  | some cs =>
    unfold insertSource
    simp only [Option.map_some, List.length_map]
    split
    · exact rfl
    · have := insertColumns_ren h (values.zip cs) hm
      rw [List.zip_map]
      exact this

theorem updateColumns_ren (h : Ren ops ops' key key' f) {m : TMap N (DataType × Bool)}
    {m' : TMap K (DataType × Bool)} (hm : MapRel ops ops' f (fun a b => b = a) m m') (typ : DataType) (n : Bool)
    (cs : List N) {a : TMap N Unit} {a' : TMap K Unit} (ha : MapRel ops ops' f (fun a b => b = a) a a') :
    Rel (MapRel ops ops' f (fun a b => b = a)) (updateColumns ops m typ n a cs)
      (updateColumns ops' m' typ n a' (cs.map f)) := by
  induction cs generalizing a a' with
  | nil => exact ha
  | cons c cs ih =>
    rw [List.map_cons]
    unfold updateColumns TMap.containsKey
    rw [mapRel_eq hm, mapRel_eq ha]
    split
    · exact rfl
    · cases m.get ops c with
      | none => exact rfl
      | some p =>
        obtain ⟨ctyp, cnull⟩ := p
        show Rel _ (if ctyp ≠ typ ∨ (n = true ∧ ¬ cnull = true) then _ else _) (if _ then _ else _)
        split
        · exact rfl
        · exact ih (mapRel_insert h ha c rfl)

theorem updateAssignments_ren (h : Ren ops ops' key key' f) {sc : ScalarContext N} {sc' : ScalarContext K}
    (hs : RenScope ops ops' f sc sc') {m : TMap N (DataType × Bool)}
    {m' : TMap K (DataType × Bool)} (hm : MapRel ops ops' f (fun a b => b = a) m m')
    (as : List (Assignment N)) (hn : ∀ a ∈ as, a.expr.starFree) {a : TMap N Unit} {a' : TMap K Unit}
    (ha : MapRel ops ops' f (fun a b => b = a) a a') :
    Rel (MapRel ops ops' f (fun a b => b = a)) (updateAssignments ops sc m a as)
      (updateAssignments ops' sc' m' a' (as.map (Assignment.map f))) := by
  induction as generalizing a a' with
  | nil => exact ha
  | cons x as ih =>
    rw [List.map_cons]
    unfold updateAssignments
    have e1 : inferExpr ops' sc' (x.map f).expr = map id (inferExpr ops sc x.expr) := by
      rw [map_id]
      exact inferExpr_ren h hs x.expr (hn x List.mem_cons_self)
    refine rel_bind (rel_map e1) fun t t' ht => ?_
    cases (show t' = t from ht)
    cases t with
    | tuple _ => exact rfl
    | scalar typ n =>
      exact rel_bind (updateColumns_ren h hm typ n x.columns ha) fun _ _ ha =>
        ih (fun a h => hn a (List.mem_cons_of_mem _ h)) ha

theorem tableContext_ren (h : Ren ops ops' key key' f) {ctx : SetContext N} {ctx' : SetContext K}
    (hc : RenContext ops ops' f ctx ctx') (name : List N) (typ : RowType N) :
    Rel (RenScope ops ops' f) (tableContext ops ctx name typ) (tableContext ops' ctx' (name.map f) (typ.map f)) := by
  unfold tableContext
  rw [List.getLast?_map]
  cases name.getLast? with
  | none => exact rfl
  | some n => exact addRelation_ren h (renScope_new hc) n typ.attributes

theorem statement_ren (h : Ren ops ops' key key' f) {ctx : SetContext N} {ctx' : SetContext K}
    (hc : RenContext ops ops' f ctx ctx') (s : Statement N) (hn : s.starFree) :
    (s.map f).validateType ops' ctx' = s.validateType ops ctx := by
  cases s with
  | select s => exact from_bind (inferSelect_ren h hc s hn) fun _ => rfl
  | insert s =>
    show (s.map f).validateType ops' ctx' = s.validateType ops ctx
    unfold InsertStatement.validateType
    refine from_bind (hc s.tableName) fun typ => from_bind (inferSetExpr_ren h hc s.source hn) fun v => ?_
    exact rel_bind_eq (insertSource_ren h (columnMap_ren h typ) v.attributes s.columns) fun _ _ hm =>
      missing_complete h hm
  | update s =>
    show (s.map f).validateType ops' ctx' = s.validateType ops ctx
    unfold UpdateStatement.validateType
    refine from_bind (hc s.tableName) fun typ => rel_bind_eq (tableContext_ren h hc s.tableName typ) fun sc sc' hs => ?_
    exact rel_bind_eq (updateAssignments_ren h hs (columnMap_ren h typ).map s.assignments hn.1 (mapRel_nil _))
      fun _ _ _ => checkPredicate_ren h hs _ s.wher hn.2
  | delete s =>
    show (s.map f).validateType ops' ctx' = s.validateType ops ctx
    unfold DeleteStatement.validateType
    exact from_bind (hc s.tableName) fun typ =>
      rel_bind_eq (tableContext_ren h hc s.tableName typ) fun sc sc' hs => checkPredicate_ren h hs _ s.wher hn

theorem sqlStatement_ren (h : Ren ops ops' key key' f) {ctx : SetContext N} {ctx' : SetContext K}
    (hc : RenContext ops ops' f ctx ctx') (s : SqlStatement N) (hn : s.starFree) :
    (s.map f).validateType ops' ctx' = s.validateType ops ctx := by
  cases s with
  | statement s => exact statement_ren h hc s hn
  | explainQueryPlan s => exact statement_ren h hc s hn
  | attach s => rfl
  | describe s => exact from_bind (hc s.qualifiedName) fun _ => rfl

/-! ## Names of the repository -/

theorem ren_of {up : Char → List Char} {f : Name → Name} (hf : Renaming up f) :
    Ren (nameOps up) (nameOps up) (Name.upper up) (Name.upper up) f :=
  ⟨keyed_nameOps up, keyed_nameOps up, hf.same, hf.col.symm, hf.first.symm, fun n k => (hf.numbered n k).symm⟩

theorem renContext_of {up : Char → List Char} {f : Name → Name} {ctx ctx' : SetContext Name}
    (h : ctx.Renamed up f ctx') : RenContext (nameOps up) (nameOps up) f ctx ctx' := by
  intro q
  have h1 := h q
  revert h1
  cases ctx.resolveTableName (nameOps up) q <;> exact id

theorem ofRowSet_map (f : Name → Name) (r : RowSet Name) :
    RowType.ofRowSet (r.map f) = (RowType.ofRowSet r).map f := by
  unfold RowType.ofRowSet RowType.map RowSet.map
  simp only [List.map_map, List.filter_map, List.map_nil]
  rfl

theorem database_renamed {up : Char → List Char} {f : Name → Name} {db db' : Database Name}
    (hs : Sorted up db.schemata) (ho : ∀ e ∈ db.schemata, Sorted up e.2.objects)
    (hs' : Sorted up db'.schemata) (ho' : ∀ e ∈ db'.schemata, Sorted up e.2.objects)
    (h : db.Renamed up f db') (d : Name) :
    (SetContext.new (nameOps up) db d).Renamed up f (SetContext.new (nameOps up) db' (f d)) := by
  intro q
  match q with
  | [] => exact rfl
  | [t] =>
    have hd := h d t
    obtain ⟨a1, a2, a3, a4⟩ := resolve_new hs ho d d t
    obtain ⟨b1, b2, b3, b4⟩ := resolve_new hs' ho' (f d) (f d) (f t)
    cases hr : db.describe (nameOps up) d t with
    | ok rows =>
      rw [hr] at hd
      rw [(a1 rows hr).2]
      show (SetContext.new (nameOps up) db' (f d)).resolveTableName (nameOps up) [f t] = _
      rw [(b1 _ hd).2, ofRowSet_map]
    | error e =>
      rw [hr] at hd
      cases e with
      | schemaNotFound => rw [(a2 hr).2]; exact (b2 hd).2
      | objectNotFound => rw [(a3 hr).2]; exact (b3 hd).2
      | alreadyDefined => exact (a4 hr).elim
  | [s, t] =>
    have hd := h s t
    obtain ⟨a1, a2, a3, a4⟩ := resolve_new hs ho d s t
    obtain ⟨b1, b2, b3, b4⟩ := resolve_new hs' ho' (f d) (f s) (f t)
    cases hr : db.describe (nameOps up) s t with
    | ok rows =>
      rw [hr] at hd
      rw [(a1 rows hr).1]
      show (SetContext.new (nameOps up) db' (f d)).resolveTableName (nameOps up) [f s, f t] = _
      rw [(b1 _ hd).1, ofRowSet_map]
    | error e =>
      rw [hr] at hd
      cases e with
      | schemaNotFound => rw [(a2 hr).1]; exact (b2 hd).1
      | objectNotFound => rw [(a3 hr).1]; exact (b3 hd).1
      | alreadyDefined => exact (a4 hr).elim
  | _ :: _ :: _ :: _ => exact rfl

theorem get_renamed {V W : Type} {up : Char → List Char} {f : Name → Name} (hf : Renaming up f) (g : V → W)
    (m : TMap Name V) (k : Name) :
    (m.mapBoth f g).get (nameOps up) (f k) = (m.get (nameOps up) k).map g := by
  induction m with
  | nil => rfl
  | cons e r ih =>
    obtain ⟨k', v⟩ := e
    show TMap.get (nameOps up) ((f k', g v) :: TMap.mapBoth f g r) (f k) = _
    unfold TMap.get
    simp only [(keyed_nameOps up).cmp_eq, hf.same]
    split
    · rfl
    · exact ih

theorem database_map_renamed {up : Char → List Char} {f : Name → Name} (hf : Renaming up f) (db : Database Name) :
    db.Renamed up f (db.map f) := by
  intro s t
  have h1 : (db.map f).schemata.get (nameOps up) (f s) = (db.schemata.get (nameOps up) s).map (Schema.map f) :=
    get_renamed hf _ _ _
  unfold Database.describe
  rw [h1]
  cases db.schemata.get (nameOps up) s with
  | none => rfl
  | some sc =>
    have h2 : (sc.map f).objects.get (nameOps up) (f t) = (sc.objects.get (nameOps up) t).map (SchemaObject.map f) :=
      get_renamed hf _ _ _
    simp only [Option.map_some]
    rw [h2]
    cases sc.objects.get (nameOps up) t with
    | none => rfl
    | some o => cases o <;> rfl

end Verif.Sql
