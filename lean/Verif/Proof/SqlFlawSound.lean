import Verif.Proof.SqlFlawSteps
import Verif.Proof.SqlUnify
/-! # What is accepted has no flaw -/

namespace Verif.Sql

open Chk

variable {up : Char → List Char}

/-! ## Contexts -/

/-- The contexts of the part are sorted. -/
def Work.Tidy (up : Char → List Char) : Work Name → Prop
  | .expr sc _ | .table sc _ => sc.Tidy up
  | .query ctx _ | .rows ctx _ | .statement ctx _ => ctx.Ok up

theorem tidy_new {ctx : SetContext Name} (h : ctx.Ok up) : (ScalarContext.new ctx).Tidy up := ⟨h, List.Pairwise.nil⟩

theorem addAttributes_sorted {as : List (Attribute Name)} {m : TMap Name (Symbol Name)} (h : Sorted up m) :
    Sorted up (addAttributes (nameOps up) m as) := by
  induction as generalizing m with
  | nil => exact h
  | cons a as ih =>
    unfold addAttributes
    split
    · exact ih (TMap.insert_increasing (keyed_nameOps up) h _ _)
    · exact ih (TMap.insert_increasing (keyed_nameOps up) h _ _)
    · exact ih h
    · exact ih h

theorem addRelation_tidy {sc sc' : ScalarContext Name} {n : Name} {as : List (Attribute Name)}
    (h : sc.addRelation (nameOps up) n as = .ok sc') (ht : sc.Tidy up) : sc'.Tidy up := by
  unfold ScalarContext.addRelation at h
  simp only at h
  split at h
  · cases h
  · cases h
    exact ⟨ht.1, TMap.insert_increasing (keyed_nameOps up) (addAttributes_sorted ht.2) _ _⟩

theorem addCommon_tidy {ctx : SetContext Name} {cs : List (Cte Name)} {sc sc' : ScalarContext Name}
    (h : addCommon (nameOps up) ctx sc cs = .ok sc') (ht : sc.Tidy up) : sc'.Tidy up := by
  induction cs generalizing sc with
  | nil => rw [addCommon] at h; cases h; exact ht
  | cons c cs ih =>
    obtain ⟨i, n, q⟩ := c
    rw [addCommon, bind_ok_iff] at h
    obtain ⟨t, _, h⟩ := h
    rw [bind_ok_iff] at h
    obtain ⟨a, ha, h⟩ := h
    exact ih h (addRelation_tidy ha ht)

theorem inferTable_tidy : (t : TableExpr Name) → {sc sc' : ScalarContext Name} → {as : List (Attribute Name)} →
    inferTable (nameOps up) sc t = .ok (sc', as) → sc.Tidy up → sc'.Tidy up
  | .named q alias, sc, sc', as, h, ht => by
    rw [inferTable, bind_ok_iff] at h
    obtain ⟨typ, _, h⟩ := h
    rw [bind_ok_iff] at h
    obtain ⟨i, _, h⟩ := h
    rw [bind_ok_iff] at h
    obtain ⟨a, ha, h⟩ := h
    cases h
    exact addRelation_tidy ha ht
  | .select s alias, sc, sc', as, h, ht => by
    rw [inferTable, bind_ok_iff] at h
    obtain ⟨typ, _, h⟩ := h
    cases h
    exact ht
  | .join l r op c, sc, sc', as, h, ht => by
    rw [inferTable, bind_ok_iff] at h
    obtain ⟨⟨sc1, as1⟩, h1, h⟩ := h
    simp only [bind_ok_iff] at h
    obtain ⟨⟨sc2, as2⟩, h2, h⟩ := h
    cases h
    exact inferTable_tidy r h2 (inferTable_tidy l h1 ht)

theorem inferFrom_tidy {ts : List (TableExpr Name)} {sc sc' : ScalarContext Name} {as : List (Attribute Name)}
    (h : inferFrom (nameOps up) sc ts = .ok (sc', as)) (ht : sc.Tidy up) : sc'.Tidy up := by
  induction ts generalizing sc as with
  | nil => rw [inferFrom] at h; cases h; exact ht
  | cons t ts ih =>
    rw [inferFrom, bind_ok_iff] at h
    obtain ⟨⟨sc1, as1⟩, h1, h⟩ := h
    simp only [bind_ok_iff] at h
    obtain ⟨⟨sc2, as2⟩, h2, h⟩ := h
    cases h
    exact ih h2 (inferTable_tidy t h1 ht)

theorem tableContext_tidy {ctx : SetContext Name} {name : List Name} {r : RowType Name} {sc : ScalarContext Name}
    (h : tableContext (nameOps up) ctx name r = .ok sc) (hc : ctx.Ok up) : sc.Tidy up := by
  unfold tableContext at h
  split at h
  · exact addRelation_tidy h (tidy_new hc)
  · cases h

theorem next_tidy {w w' : Work Name} (h : Next (nameOps up) w w') (ht : w.Tidy up) : w'.Tidy up := by
  cases h with
  | joinRight hl => exact inferTable_tidy _ hl ht
  | order hc _ => exact addCommon_tidy hc (tidy_new ht)
  | «from» hf | «where» hf | group hf _ | having hf _ | column hf _ => exact inferFrom_tidy hf (tidy_new ht)
  | assignment _ hc _ | updateWhere _ hc _ | deleteWhere _ hc => exact tableContext_tidy hc ht
  | limit | offset | firstRow | laterRow => exact tidy_new ht
  | _ => first | exact ht | exact ht.1

/-! ## Names -/

theorem entry_same {V : Type} {m : TMap Name V} (hm : Sorted up m) {k : Name} {v v' : V} (h : Entry up m k v)
    (h' : Entry up m k v') : v = v' := by
  have h1 := (get_iff_entry up hm).2 h
  rw [(get_iff_entry up hm).2 h'] at h1
  exact (Option.some.inj h1).symm

theorem unknown_not {ctx : SetContext Name} (hc : ctx.Ok up) {q : List Name} {x : SqlError}
    (h : Unknown up ctx q x) {r : RowType Name} : ctx.resolveTableName (nameOps up) q ≠ .ok r := by
  intro hr
  rw [resolve_ok_iff hc] at hr
  cases h with
  | notFound h1 h2 h3 =>
    cases hr with
    | common h => exact h1 _ h
    | default _ h h' =>
      rw [entry_same hc.namespaces h h2] at h'
      exact h3 _ h'
  | notFoundIn h1 h2 h3 =>
    cases hr with
    | qualified _ h h' =>
      rw [entry_same hc.namespaces h h2] at h'
      exact h3 _ h'
  | hidden h1 => cases hr with | qualified h _ _ => exact h _ h1
  | noSchema h1 h2 => cases hr with | qualified _ h _ => exact h2 _ h
  | parts h => cases hr <;> simp at h

theorem noColumn_not {sc : ScalarContext Name} (ht : sc.Tidy up) {q : List Name} {x : SqlError}
    (h : NoColumn up sc q x) {t : ScalarType} : sc.inferType (nameOps up) q ≠ .ok t := by
  intro hr
  unfold ScalarContext.inferType at hr
  cases h with
  | undefined h => simp [(get_none_iff up).2 h, err] at hr
  | ambiguous h => simp [(get_iff_entry up ht.2).2 h, err] at hr
  | table h => simp [(get_iff_entry up ht.2).2 h, err] at hr
  | notIn h h' => simp [(get_iff_entry up ht.2).2 h, (get_none_iff up).2 h', err] at hr
  | noTable h => simp [(get_none_iff up).2 h, err] at hr
  | notTable h h' =>
    rename_i s
    cases s with
    | relation m => exact h' m rfl
    | «attribute» _ => simp [(get_iff_entry up ht.2).2 h, err] at hr
    | attributeConflict => simp [(get_iff_entry up ht.2).2 h, err] at hr
  | parts h =>
    split at hr
    · simp at h
    · simp at h
    · cases hr

theorem get_same {V : Type} {m : TMap Name V} {k k' : Name} (h : k.upper up = k'.upper up) :
    m.get (nameOps up) k = m.get (nameOps up) k' := by
  induction m with
  | nil => rfl
  | cons e r ih =>
    obtain ⟨k0, v0⟩ := e
    simp only [TMap.get, (keyed_nameOps up).cmp_eq, h, ih]

theorem addAttributes_keeps {as : List (Attribute Name)} {m : TMap Name (Symbol Name)} {n : Name}
    {fields : TMap Name ScalarType} (h : m.get (nameOps up) n = some (.relation fields)) :
    (addAttributes (nameOps up) m as).get (nameOps up) n = some (.relation fields) := by
  induction as generalizing m with
  | nil => exact h
  | cons a as ih =>
    have hne (v : Symbol Name) (ho : ∀ f, m.get (nameOps up) a.name ≠ some (.relation f)) :
        (m.insert (nameOps up) a.name v).get (nameOps up) n = some (.relation fields) := by
      rw [TMap.get_insert (keyed_nameOps up), if_neg ?_]
      · exact h
      · intro hk
        refine ho fields ?_
        rw [← h]
        exact get_same hk.symm
    unfold addAttributes
    split
    · rename_i hg
      exact ih (hne _ (fun f hf => by rw [hg] at hf; cases hf))
    · rename_i hg
      exact ih (hne _ (fun f hf => by rw [hg] at hf; cases hf))
    · exact ih h
    · exact ih h

theorem addRelation_not {sc sc' : ScalarContext Name} (ht : sc.Tidy up) {n : Name} {as : List (Attribute Name)}
    {m : TMap Name ScalarType} (h : Entry up sc.symbols n (.relation m)) :
    sc.addRelation (nameOps up) n as ≠ .ok sc' := by
  intro ha
  unfold ScalarContext.addRelation at ha
  simp only [addAttributes_keeps ((get_iff_entry up ht.2).2 h)] at ha
  cases ha

/-! ## The parts of what is accepted -/

mutual

theorem unify_other : ∀ {a b c : ScalarType}, a.unify b = .ok c → Alike c b
  | .scalar t1 n1, .scalar t2 n2, c, h => by
    rw [ScalarType.unify] at h
    split at h
    · rename_i ht
      cases h
      cases ht
      exact .scalar
    · cases h
  | .tuple ts, .tuple us, c, h => by
    rw [ScalarType.unify] at h
    split at h
    · cases h
    · rename_i hl
      rw [bind_ok_iff] at h
      obtain ⟨vs, hv, h⟩ := h
      cases h
      exact unifyList_other (by omega) hv
  | .scalar _ _, .tuple _, c, h => by
    rw [ScalarType.unify] at h
    · cases h
    · simp
    · simp
  | .tuple _, .scalar _ _, c, h => by
    rw [ScalarType.unify] at h
    · cases h
    · simp
    · simp

theorem unifyList_other : ∀ {ts us vs : List ScalarType}, ts.length = us.length →
    ScalarType.unifyList ts us = .ok vs → Alike (.tuple vs) (.tuple us)
  | [], [], vs, _, h => by
    simp only [ScalarType.unifyList, Except.ok.injEq] at h
    subst h
    exact .unit
  | t :: ts, u :: us, vs, hl, h => by
    rw [ScalarType.unifyList, bind_ok_iff] at h
    obtain ⟨v, hv, h⟩ := h
    rw [bind_ok_iff] at h
    obtain ⟨ws, hw, h⟩ := h
    cases h
    exact .tuple (unify_other hv) (unifyList_other (by simpa using hl) hw)

end

theorem inferExprs_parts {sc : ScalarContext Name} {es : List (Expr Name)} {ts : List ScalarType}
    (h : inferExprs (nameOps up) sc es = .ok ts) : ∀ e ∈ es, ∃ t, inferExpr (nameOps up) sc e = .ok t := by
  induction es generalizing ts with
  | nil => exact fun _ h => nomatch h
  | cons e es ih =>
    rw [inferExprs, bind_ok_iff] at h
    obtain ⟨t, ht, h⟩ := h
    rw [bind_ok_iff] at h
    obtain ⟨us, hu, h⟩ := h
    intro e' he'
    rcases List.mem_cons.1 he' with rfl | he'
    · exact ⟨t, ht⟩
    · exact ih hu e' he'

theorem foldBodies_parts {sc : ScalarContext Name} {ws : List (When Name)} {t u : ScalarType}
    (h : foldBodies (nameOps up) sc t ws = .ok u) : ∀ guard body, .mk guard body ∈ ws →
      ∃ v, inferExpr (nameOps up) sc body = .ok v ∧ Alike v t ∧ ¬ v.IsTuple := by
  induction ws generalizing t with
  | nil => exact fun _ _ h => nomatch h
  | cons w ws ih =>
    obtain ⟨g, b⟩ := w
    rw [foldBodies, bind_ok_iff] at h
    obtain ⟨v, hv, h⟩ := h
    rw [bind_ok_iff] at h
    obtain ⟨t', ht', h⟩ := h
    have h1 := (thenStep_alike ht').1
    intro guard body hm
    rcases List.mem_cons.1 hm with he | hm
    · cases he
      unfold thenStep at ht'
      rw [bind_ok_iff] at ht'
      obtain ⟨n, hn, ht'⟩ := ht'
      refine ⟨v, hv, (isCompatible_alike hn).1, ?_⟩
      rintro ⟨ts, rfl⟩
      cases ht'
    · obtain ⟨v', h2, h3, h4⟩ := ih h guard body hm
      exact ⟨v', h2, h3.trans' h1, h4⟩

theorem case_parts {sc : ScalarContext Name} {operand els : Option (Expr Name)} {ws : List (When Name)}
    (h : (Work.expr sc (.case operand ws els)).Accepted (nameOps up)) :
    ∃ guard first rest t, ws = .mk guard first :: rest ∧ inferExpr (nameOps up) sc first = .ok t ∧
      (∀ guard body, .mk guard body ∈ rest →
        ∃ v, inferExpr (nameOps up) sc body = .ok v ∧ Alike v t ∧ ¬ v.IsTuple) ∧
      ∀ e, els = some e → ∃ v, inferExpr (nameOps up) sc e = .ok v ∧ Alike v t := by
  obtain ⟨check, _, heq, _⟩ := case_eq (case_accepted h)
  obtain ⟨r, hr⟩ := h
  rw [heq, caseTail, bind_ok_iff] at hr
  obtain ⟨_, _, hr⟩ := hr
  rw [bind_ok_iff] at hr
  obtain ⟨t', hb, hr⟩ := hr
  cases ws with
  | nil => rw [inferBodies] at hb; cases hb
  | cons w ws =>
    obtain ⟨guard, first⟩ := w
    rw [inferBodies, bind_ok_iff] at hb
    obtain ⟨t, ht, hb⟩ := hb
    refine ⟨guard, first, ws, t, rfl, ht, foldBodies_parts hb, ?_⟩
    rintro e rfl
    cases t' with
    | tuple ts => simp [inferElse, panics] at hr
    | scalar typ k =>
      simp only [inferElse, bind_ok_iff] at hr
      obtain ⟨v, hv, n, hn, _⟩ := hr
      exact ⟨v, hv, (isCompatible_alike hn).1.trans' (foldBodies_alike hb)⟩

theorem foldList_parts {sc : ScalarContext Name} {es : List (Expr Name)} {r : Chk ScalarType} {v : ScalarType}
    (h : foldList (nameOps up) sc r es = .ok v) : ∃ t, r = .ok t ∧ Alike v t ∧
      ∀ e ∈ es, ∃ u, inferExpr (nameOps up) sc e = .ok u ∧ Alike u t := by
  induction es generalizing r with
  | nil =>
    rw [foldList] at h
    exact ⟨v, h, alike_refl v, fun _ h => nomatch h⟩
  | cons e es ih =>
    cases r with
    | error z => exact absurd h foldList_stays
    | ok t =>
      rw [foldList] at h
      obtain ⟨t', ht', ha, hall⟩ := ih h
      rw [bind_ok_iff] at ht'
      obtain ⟨u, hu, hun⟩ := ht'
      have h1 := unify_alike hun
      refine ⟨t, rfl, ha.trans' h1, fun e' he' => ?_⟩
      rcases List.mem_cons.1 he' with rfl | he'
      · exact ⟨u, hu, (unify_other hun).symm'.trans' h1⟩
      · obtain ⟨u', h2, h3⟩ := hall e' he'
        exact ⟨u', h2, h3.trans' h1⟩

theorem inSet_parts {sc : ScalarContext Name} {e : Expr Name} {set : SetSpec Name}
    (h : (Work.expr sc (.inSet e set)).Accepted (nameOps up)) :
    ∃ t r a, inferExpr (nameOps up) sc e = .ok t ∧ inferSet (nameOps up) sc set = .ok r ∧ r.attributes = [a] ∧
      t.isCompatible (.scalar a.typ a.isNull) = .ok true := by
  obtain ⟨v, h⟩ := h
  rw [inferExpr, bind_ok_iff] at h
  obtain ⟨t, ht, h⟩ := h
  rw [bind_ok_iff] at h
  obtain ⟨r, hr, h⟩ := h
  rw [bind_ok_iff] at h
  obtain ⟨ct, hct, h⟩ := h
  obtain ⟨a, ha, rfl⟩ := singleColumn_ok hct
  rw [bind_ok_iff] at h
  obtain ⟨b, hb, h⟩ := h
  cases b with
  | true => exact ⟨t, r, a, ht, hr, ha, hb⟩
  | false => cases h

theorem inList_parts {sc : ScalarContext Name} {e first : Expr Name} {rest : List (Expr Name)}
    (h : (Work.expr sc (.inSet e (.list (first :: rest)))).Accepted (nameOps up)) :
    ∃ t typ n m, inferExpr (nameOps up) sc e = .ok t ∧ inferExpr (nameOps up) sc first = .ok (.scalar typ m) ∧
      (∀ x ∈ rest, ∃ k, inferExpr (nameOps up) sc x = .ok (.scalar typ k)) ∧
      foldList (nameOps up) sc (.ok (.scalar typ m)) rest = .ok (.scalar typ n) ∧
      t.isCompatible (.scalar typ n) = .ok true := by
  obtain ⟨t, r, a, ht, hr, ha, hb⟩ := inSet_parts h
  rw [inferSet, bind_ok_iff] at hr
  obtain ⟨u, hu, hr⟩ := hr
  cases u with
  | tuple ts => cases hr
  | scalar typ n =>
    cases hr
    simp only [RowType.plain, List.cons.injEq, and_true] at ha
    subst ha
    rw [inferList] at hu
    obtain ⟨v, hv, hav, hall⟩ := foldList_parts hu
    cases hav with
    | scalar =>
      rename_i m
      refine ⟨t, typ, n, m, ht, hv, fun x hx => ?_, by rw [← hv]; exact hu, hb⟩
      obtain ⟨w, hw, haw⟩ := hall x hx
      cases haw
      exact ⟨_, hw⟩

theorem addCommon_parts {ctx : SetContext Name} {pre post : List (Cte Name)} {i : Name} {names : Option (List Name)}
    {q : Select Name} {sc sc' sc'' : ScalarContext Name}
    (h : addCommon (nameOps up) ctx sc (pre ++ .mk i names q :: post) = .ok sc'')
    (hp : addCommon (nameOps up) ctx sc pre = .ok sc') :
    ∃ typ sc1, inferCte (nameOps up) ctx (.mk i names q) = .ok typ ∧
      sc'.addRelation (nameOps up) i typ.attributes = .ok sc1 := by
  induction pre generalizing sc with
  | nil =>
    rw [addCommon] at hp
    cases hp
    rw [List.nil_append, addCommon, bind_ok_iff] at h
    obtain ⟨typ, ht, h⟩ := h
    rw [bind_ok_iff] at h
    obtain ⟨sc1, h1, _⟩ := h
    exact ⟨typ, sc1, ht, h1⟩
  | cons c pre ih =>
    obtain ⟨i', n', q'⟩ := c
    rw [List.cons_append, addCommon, bind_ok_iff] at h
    obtain ⟨typ, ht, h⟩ := h
    rw [bind_ok_iff] at h
    obtain ⟨sc1, h1, h⟩ := h
    rw [addCommon, ht] at hp
    replace hp : (sc.addRelation (nameOps up) i' typ.attributes >>= fun sc => addCommon (nameOps up) ctx sc pre) =
      .ok sc' := hp
    rw [h1] at hp
    exact ih h hp

theorem addCommon_prefix {ctx : SetContext Name} {pre post : List (Cte Name)} {sc sc' : ScalarContext Name}
    (h : addCommon (nameOps up) ctx sc (pre ++ post) = .ok sc') :
    ∃ sc1, addCommon (nameOps up) ctx sc pre = .ok sc1 := by
  induction pre generalizing sc with
  | nil => exact ⟨sc, by rw [addCommon]⟩
  | cons c pre ih =>
    obtain ⟨i, names, q⟩ := c
    rw [List.cons_append, addCommon, bind_ok_iff] at h
    obtain ⟨typ, h1, h⟩ := h
    rw [bind_ok_iff] at h
    obtain ⟨sc2, h2, h⟩ := h
    obtain ⟨sc1, h3⟩ := ih h
    refine ⟨sc1, ?_⟩
    rw [addCommon, h1]
    show (sc.addRelation (nameOps up) i typ.attributes >>= _) = _
    rw [h2]
    exact h3

theorem inferFrom_parts {pre post : List (TableExpr Name)} {t : TableExpr Name} {sc sc' : ScalarContext Name}
    {as : List (Attribute Name)} {r : ScalarContext Name × List (Attribute Name)}
    (h : inferFrom (nameOps up) sc (pre ++ t :: post) = .ok r)
    (hp : inferFrom (nameOps up) sc pre = .ok (sc', as)) : ∃ r, inferTable (nameOps up) sc' t = .ok r := by
  induction pre generalizing sc as r with
  | nil =>
    rw [inferFrom] at hp
    cases hp
    rw [List.nil_append, inferFrom, bind_ok_iff] at h
    obtain ⟨a, ha, _⟩ := h
    exact ⟨a, ha⟩
  | cons y pre ih =>
    rw [List.cons_append, inferFrom, bind_ok_iff] at h
    obtain ⟨⟨sc1, as1⟩, h1, h⟩ := h
    simp only [bind_ok_iff] at h
    obtain ⟨⟨sc2, as2⟩, h2, _⟩ := h
    rw [inferFrom, bind_ok_iff] at hp
    obtain ⟨⟨sc3, as3⟩, h3, hp⟩ := hp
    rw [h1] at h3
    cases h3
    simp only [bind_ok_iff] at hp
    obtain ⟨⟨sc4, as4⟩, h4, hp⟩ := hp
    cases hp
    exact ih h2 h4

theorem checkOrder_parts {sc : ScalarContext Name} {ts : List (OrderTerm Name)}
    (h : checkOrder (nameOps up) sc ts = .ok ()) :
    ∀ e c d, .mk e c d ∈ ts → ∃ t, inferExpr (nameOps up) sc e = .ok t ∧ ¬ t.IsTuple := by
  induction ts with
  | nil => exact fun _ _ _ h => nomatch h
  | cons o ts ih =>
    obtain ⟨e', c', d'⟩ := o
    rw [checkOrder, bind_ok_iff] at h
    obtain ⟨t, ht, h⟩ := h
    rw [bind_ok_iff] at h
    obtain ⟨_, hm, h⟩ := h
    intro e c d hmem
    rcases List.mem_cons.1 hmem with he | hmem
    · cases he
      refine ⟨t, ht, ?_⟩
      rintro ⟨us, rfl⟩
      cases hm
    · exact ih h e c d hmem

theorem mustBeCount_parts {m : SqlError} {t : ScalarType} (h : mustBeCount m t = .ok ()) :
    t = .scalar .numeric false := by
  unfold mustBeCount at h
  split at h
  · rfl
  · cases h

theorem inferFirstRow_parts {sc : ScalarContext Name} {es : List (Expr Name)} {count : Nat}
    {ts : List (Attribute Name)} (h : inferFirstRow (nameOps up) sc count es = .ok ts) :
    ∀ (i : Nat) e, es[i]? = some e → ∃ a, ts[i]? = some a ∧ inferExpr (nameOps up) sc e = .ok a.scalar := by
  induction es generalizing count ts with
  | nil => intro i e he; simp at he
  | cons e es ih =>
    rw [inferFirstRow, bind_ok_iff] at h
    obtain ⟨t, ht, h⟩ := h
    cases t with
    | tuple us => cases h
    | scalar typ n =>
      simp only [bind_ok_iff] at h
      obtain ⟨us, hu, h⟩ := h
      cases h
      intro i e' he'
      cases i with
      | zero =>
        cases he'
        exact ⟨_, rfl, ht⟩
      | succ i => exact ih hu i e' (by simpa using he')

theorem unifyRow_parts {sc : ScalarContext Name} {es : List (Expr Name)} {as us : List (Attribute Name)}
    (h : unifyRow (nameOps up) sc as es = .ok us) :
    ∀ (i : Nat) a e, as[i]? = some a → es[i]? = some e →
      ∃ u b, inferExpr (nameOps up) sc e = .ok u ∧ Alike u a.scalar ∧ us[i]? = some b ∧ Alike b.scalar a.scalar := by
  induction es generalizing as us with
  | nil => intro i a e _ he; simp at he
  | cons e es ih =>
    cases as with
    | nil => intro i a e ha; simp at ha
    | cons a as =>
      rw [unifyRow, bind_ok_iff] at h
      obtain ⟨t, ht, h⟩ := h
      rw [bind_ok_iff] at h
      obtain ⟨u, hu, h⟩ := h
      cases u with
      | tuple us => cases h
      | scalar typ n =>
        simp only [bind_ok_iff] at h
        obtain ⟨vs, hvs, h⟩ := h
        cases h
        intro i a' e' ha he
        cases i with
        | zero =>
          cases ha
          cases he
          have h1 := unify_alike hu
          exact ⟨t, _, ht, (unify_other hu).symm'.trans' h1, rfl, h1⟩
        | succ i => exact ih hvs i a' e' (by simpa using ha) (by simpa using he)

theorem foldRows_append {sc : ScalarContext Name} {above below : List (List (Expr Name))} {row : List (Expr Name)}
    {as vs : List (Attribute Name)} (h : foldRows (nameOps up) sc as (above ++ row :: below) = .ok vs) :
    ∃ us ws, foldRows (nameOps up) sc as above = .ok us ∧ unifyRow (nameOps up) sc us row = .ok ws := by
  induction above generalizing as with
  | nil =>
    rw [List.nil_append, foldRows, bind_ok_iff] at h
    obtain ⟨ws, hw, _⟩ := h
    exact ⟨as, ws, by rw [foldRows], hw⟩
  | cons r above ih =>
    rw [List.cons_append, foldRows, bind_ok_iff] at h
    obtain ⟨us, hu, h⟩ := h
    obtain ⟨us', ws, h1, h2⟩ := ih h
    refine ⟨us', ws, ?_, h2⟩
    rw [foldRows, hu]
    exact h1

/-- The columns that no row is too short for are left. -/
theorem foldRows_keeps {sc : ScalarContext Name} {rows : List (List (Expr Name))} {as us : List (Attribute Name)}
    (h : foldRows (nameOps up) sc as rows = .ok us) {i : Nat} {a : Attribute Name} (ha : as[i]? = some a)
    (hl : ∀ r ∈ rows, i < r.length) : ∃ b, us[i]? = some b ∧ Alike b.scalar a.scalar := by
  induction rows generalizing as a with
  | nil =>
    rw [foldRows] at h
    cases h
    exact ⟨a, ha, alike_refl _⟩
  | cons r rows ih =>
    rw [foldRows, bind_ok_iff] at h
    obtain ⟨vs, hvs, h⟩ := h
    have hr := hl r List.mem_cons_self
    obtain ⟨u, b, _, _, hb, h1⟩ := unifyRow_parts hvs i a r[i] ha (List.getElem?_eq_getElem hr)
    obtain ⟨c, hc, h2⟩ := ih h hb (fun r' hr' => hl r' (List.mem_cons_of_mem _ hr'))
    exact ⟨c, hc, h2.trans' h1⟩

theorem inferColumnList_parts {sc : ScalarContext Name} {cs : List (ResultColumn Name)} {generated : TMap Name Nat}
    {as : List (Attribute Name)} (h : inferColumnList (nameOps up) sc generated cs = .ok as) :
    (∀ e rename, .expr e rename ∈ cs → ∃ t, inferExpr (nameOps up) sc e = .ok t ∧ ¬ t.IsTuple) ∧
    ∀ n, .allFrom n ∈ cs → ∃ m, sc.symbols.get (nameOps up) n = some (.relation m) := by
  induction cs generalizing generated as with
  | nil => exact ⟨fun _ _ h => (nomatch h), fun _ h => nomatch h⟩
  | cons c cs ih =>
    cases c with
    | allFrom n =>
      rw [inferColumnList] at h
      split at h
      · cases h
      · rename_i fields hg
        rw [bind_ok_iff] at h
        obtain ⟨new, _, h⟩ := h
        simp only [bind_ok_iff] at h
        obtain ⟨bs, hb, _⟩ := h
        obtain ⟨i1, i2⟩ := ih hb
        refine ⟨fun e r hm => ?_, fun m hm => ?_⟩
        · rcases List.mem_cons.1 hm with he | hm
          · cases he
          · exact i1 e r hm
        · rcases List.mem_cons.1 hm with he | hm
          · cases he
            exact ⟨fields, hg⟩
          · exact i2 m hm
      · cases h
    | expr e r =>
      rw [inferColumnList, bind_ok_iff] at h
      obtain ⟨t, ht, h⟩ := h
      cases t with
      | tuple ts => cases h
      | scalar typ n =>
        simp only [bind_ok_iff] at h
        obtain ⟨bs, hb, _⟩ := h
        obtain ⟨i1, i2⟩ := ih hb
        refine ⟨fun e' r' hm => ?_, fun m hm => ?_⟩
        · rcases List.mem_cons.1 hm with he | hm
          · cases he
            exact ⟨_, ht, fun ⟨_, h⟩ => nomatch h⟩
          · exact i1 e' r' hm
        · rcases List.mem_cons.1 hm with he | hm
          · cases he
          · exact i2 m hm

theorem unifyAttributes_parts {as bs cs : List (Attribute Name)} (h : unifyAttributes as bs = .ok cs) :
    ∀ (i : Nat) a b, as[i]? = some a → bs[i]? = some b → a.typ = b.typ := by
  induction as generalizing bs cs with
  | nil => intro i a b ha; simp at ha
  | cons a as ih =>
    cases bs with
    | nil => intro i a b _ hb; simp at hb
    | cons b bs =>
      rw [unifyAttributes, bind_ok_iff] at h
      obtain ⟨t, ht, h⟩ := h
      cases t with
      | tuple ts => cases h
      | scalar typ n =>
        simp only [bind_ok_iff] at h
        obtain ⟨vs, hvs, _⟩ := h
        intro i a' b' ha hb
        cases i with
        | zero =>
          cases ha
          cases hb
          have := (unify_alike ht).symm'.trans' (unify_other ht)
          obtain ⟨n1, t1, k1⟩ := a
          obtain ⟨n2, t2, k2⟩ := b
          cases this
          rfl
        | succ i => exact ih hvs i a' b' (by simpa using ha) (by simpa using hb)

theorem checkPredicate_parts {sc : ScalarContext Name} {m : SqlError} {e : Expr Name}
    (h : checkPredicate (nameOps up) sc m (some e) = .ok ()) :
    ∃ n, inferExpr (nameOps up) sc e = .ok (.scalar .logical n) :=
  checkPredicate_ok_iff.1 h e rfl

theorem getElem?_mid {α : Type} (pre : List α) (a : α) (post : List α) : (pre ++ a :: post)[pre.length]? = some a := by
  simp

theorem limit_parts {ctx : SetContext Name} {common : List (Cte Name)} {x : SetExpr Name}
    {orderBy : List (OrderTerm Name)} {n : Expr Name} {offset : Option (Expr Name)}
    (h : (Work.query ctx (.mk common x orderBy (some (.mk n offset)))).Accepted (nameOps up)) :
    inferExpr (nameOps up) (ScalarContext.new ctx) n = .ok (.scalar .numeric false) ∧
    ∀ e, offset = some e → inferExpr (nameOps up) (ScalarContext.new ctx) e = .ok (.scalar .numeric false) := by
  obtain ⟨r, h⟩ := h
  rw [inferSelect, bind_ok_iff] at h
  obtain ⟨sc, hc, h⟩ := h
  rw [bind_ok_iff] at h
  obtain ⟨_, _, h⟩ := h
  rw [bind_ok_iff] at h
  obtain ⟨_, _, h⟩ := h
  rw [bind_ok_iff, (addCommon_scalars hc (scalars_new _)).2] at h
  obtain ⟨_, h, _⟩ := h
  rw [checkLimit, bind_ok_iff] at h
  obtain ⟨t, ht, h⟩ := h
  rw [bind_ok_iff] at h
  obtain ⟨_, hm, h⟩ := h
  rw [mustBeCount_parts hm] at ht
  refine ⟨ht, ?_⟩
  rintro e rfl
  rw [checkOffset, bind_ok_iff] at h
  obtain ⟨u, hu, h⟩ := h
  rw [mustBeCount_parts h] at hu
  exact hu

theorem columnMap_sorted (r : RowType Name) : Sorted up (columnMap (nameOps up) r) :=
  TMap.collect_increasing (keyed_nameOps up) _

theorem last_same {as : List (Attribute Name)} {c : Name} {a b : Attribute Name} (ha : LastNamed up as c a)
    (hb : LastNamed up as c b) : a.typ = b.typ ∧ a.isNull = b.isNull := by
  have h1 := (columnMap_iff (r := .plain as)).2 ⟨a, ha, rfl⟩
  rw [(columnMap_iff (r := .plain as)).2 ⟨b, hb, rfl⟩] at h1
  have h2 := Prod.mk.inj (Option.some.inj h1)
  exact ⟨h2.1.symm, h2.2.symm⟩

theorem update_parts {ctx : SetContext Name} {name : List Name} {as : List (Assignment Name)}
    {wher : Option (Expr Name)} {r : RowType Name} {sc : ScalarContext Name}
    (h : (Work.statement ctx (.update ⟨name, as, wher⟩)).Accepted (nameOps up))
    (hr : ctx.resolveTableName (nameOps up) name = .ok r) (hc : tableContext (nameOps up) ctx name r = .ok sc) :
    (∀ a ∈ as, ∃ typ n, inferExpr (nameOps up) sc a.expr = .ok (.scalar typ n) ∧
      ∀ c ∈ a.columns, ∃ b, LastNamed up r.attributes c b ∧ b.typ = typ ∧ (n = true → b.isNull = true)) ∧
    DistinctNames up (as.flatMap (·.columns)) ∧
    ∀ e, wher = some e → ∃ n, inferExpr (nameOps up) sc e = .ok (.scalar .logical n) := by
  replace h : Statement.validateType (nameOps up) _ _ = .ok () := h
  rw [Statement.validateType, UpdateStatement.validateType, hr] at h
  replace h : (tableContext (nameOps up) ctx name r >>= _) = .ok () := h
  rw [hc] at h
  obtain ⟨sc', hsc, h⟩ := bind_ok_iff.1 h
  cases hsc
  obtain ⟨m, hm, h⟩ := bind_ok_iff.1 h
  obtain ⟨h1, h2, _⟩ := updateAssignments_ok
    (columns := (columnMap (nameOps up) r).map fun e => ⟨e.1, e.2.1, e.2.2⟩) (fun c p => by
      rw [get_iff_entry up (columnMap_sorted r)]
      constructor
      · rintro ⟨e, he, hs, rfl⟩
        exact ⟨_, List.mem_map.2 ⟨e, he, rfl⟩, hs, rfl⟩
      · rintro ⟨a, ha, hs, rfl⟩
        obtain ⟨e, he, rfl⟩ := List.mem_map.1 ha
        exact ⟨e, he, hs, rfl⟩) hm
  refine ⟨fun a ha => ?_, h2, ?_⟩
  · obtain ⟨typ, n, he, hcs⟩ := h1 a ha
    refine ⟨typ, n, he, fun c hc' => ?_⟩
    obtain ⟨a', ha', hs, ht, hn⟩ := hcs c hc'
    obtain ⟨e, hem, rfl⟩ := List.mem_map.1 ha'
    obtain ⟨b, hb, hv⟩ := columnMap_some ((get_iff_entry up (columnMap_sorted r)).2 ⟨e, hem, hs, rfl⟩)
    refine ⟨b, hb, ?_, ?_⟩
    · rw [← ht, hv]
    · intro h
      have := hn h
      rw [hv] at this
      exact this
  · rintro e rfl
    exact checkPredicate_parts h

theorem delete_parts {ctx : SetContext Name} {name : List Name} {wher : Option (Expr Name)} {r : RowType Name}
    {sc : ScalarContext Name} (h : (Work.statement ctx (.delete ⟨name, wher⟩)).Accepted (nameOps up))
    (hr : ctx.resolveTableName (nameOps up) name = .ok r) (hc : tableContext (nameOps up) ctx name r = .ok sc) :
    ∀ e, wher = some e → ∃ n, inferExpr (nameOps up) sc e = .ok (.scalar .logical n) := by
  replace h : Statement.validateType (nameOps up) _ _ = .ok () := h
  rw [Statement.validateType, DeleteStatement.validateType, hr] at h
  replace h : (tableContext (nameOps up) ctx name r >>= _) = .ok () := h
  rw [hc] at h
  rintro e rfl
  exact checkPredicate_parts h

/-! ## The parts are accepted, and have no flaw -/

theorem next_accepted {w w' : Work Name} (h : Next (nameOps up) w w') (hc : Counts w w')
    (ha : w.Accepted (nameOps up)) : w'.Accepted (nameOps up) := by
  have hcase {sc : ScalarContext Name} {operand els : Option (Expr Name)} {ws : List (When Name)} {w' : Work Name}
      (hc : Counts (.expr sc (.case operand ws els)) w')
      (ha : (Work.expr sc (.case operand ws els)).Accepted (nameOps up)) : w'.Accepted (nameOps up) := by
    obtain ⟨e, rfl, he⟩ := hc _ _ _ _ rfl
    obtain ⟨guard, first, rest, t, rfl, h1, h2, h3⟩ := case_parts ha
    rcases he with he | he | ⟨g, hm⟩
    · exact case_accepted ha e he
    · obtain ⟨v, hv, _⟩ := h3 e he
      exact ⟨v, hv⟩
    · rcases List.mem_cons.1 hm with he | hm
      · cases he
        exact ⟨t, h1⟩
      · obtain ⟨v, hv, _⟩ := h2 g e hm
        exact ⟨v, hv⟩
  cases h with
  | tuple _ =>
    obtain ⟨ts, hts⟩ := exprs_accepted.1 ha
    exact inferExprs_parts hts _ (by simp)
  | select | unary | binaryLeft | comparisonLeft | betweenOperand | inOperand =>
    obtain ⟨t, h⟩ := ha
    rw [inferExpr, bind_ok_iff] at h
    obtain ⟨u, hu, _⟩ := h
    exact ⟨u, hu⟩
  | binaryRight _ | comparisonRight _ | betweenLower _ =>
    obtain ⟨t, h⟩ := ha
    rw [inferExpr, bind_ok_iff] at h
    obtain ⟨u, hu, h⟩ := h
    rw [bind_ok_iff] at h
    obtain ⟨v, hv, _⟩ := h
    exact ⟨v, hv⟩
  | betweenUpper _ _ =>
    obtain ⟨t, h⟩ := ha
    rw [inferExpr, bind_ok_iff] at h
    obtain ⟨u, hu, h⟩ := h
    rw [bind_ok_iff] at h
    obtain ⟨v, hv, h⟩ := h
    rw [bind_ok_iff] at h
    obtain ⟨v', hv', _⟩ := h
    exact ⟨v', hv'⟩
  | @inElement sc e es x _ hx =>
    cases es with
    | nil => cases hx
    | cons first rest =>
      obtain ⟨t, typ, n, m, _, h1, h2, _⟩ := inList_parts ha
      rcases List.mem_cons.1 hx with rfl | hx
      · exact ⟨_, h1⟩
      · obtain ⟨k, hk⟩ := h2 x hx
        exact ⟨_, hk⟩
  | inSelect _ =>
    obtain ⟨t, r, a, _, hr, _⟩ := inSet_parts ha
    rw [inferSet] at hr
    exact ⟨r, hr⟩
  | caseOperand | caseGuard _ _ | caseFirst _ | caseSecond _ _ | caseLater _ | caseElse _ => exact hcase hc ha
  | joinLeft =>
    obtain ⟨r, h⟩ := ha
    rw [inferTable, bind_ok_iff] at h
    obtain ⟨u, hu, _⟩ := h
    exact ⟨u, hu⟩
  | joinRight hl =>
    obtain ⟨r, h⟩ := ha
    rw [inferTable, hl] at h
    obtain ⟨p, hp, h⟩ := bind_ok_iff.1 h
    cases hp
    obtain ⟨u, hu, _⟩ := bind_ok_iff.1 h
    exact ⟨u, hu⟩
  | tableSelect =>
    obtain ⟨r, h⟩ := ha
    rw [inferTable, bind_ok_iff] at h
    obtain ⟨u, hu, _⟩ := h
    exact ⟨u, hu⟩
  | common hp =>
    obtain ⟨r, h⟩ := ha
    rw [inferSelect, bind_ok_iff] at h
    obtain ⟨sc', hs, _⟩ := h
    obtain ⟨typ, sc1, hi, _⟩ := addCommon_parts hs hp
    rw [inferCte, bind_ok_iff] at hi
    obtain ⟨u, hu, _⟩ := hi
    exact ⟨u, hu⟩
  | body _ =>
    obtain ⟨r, h⟩ := ha
    rw [inferSelect, bind_ok_iff] at h
    obtain ⟨sc', hs, h⟩ := h
    rw [bind_ok_iff] at h
    obtain ⟨u, hu, _⟩ := h
    exact ⟨u, hu⟩
  | order hc' _ =>
    obtain ⟨r, h⟩ := ha
    rw [inferSelect, bind_ok_iff] at h
    obtain ⟨sc', hs, h⟩ := h
    rw [hc'] at hs
    cases hs
    rw [bind_ok_iff] at h
    obtain ⟨u, hu, h⟩ := h
    rw [bind_ok_iff] at h
    obtain ⟨_, ho, _⟩ := h
    obtain ⟨t, ht, _⟩ := checkOrder_parts ho _ _ _ (List.mem_append_right _ List.mem_cons_self)
    exact ⟨t, ht⟩
  | limit _ =>
    obtain ⟨hl, _⟩ := limit_parts ha
    exact ⟨_, hl⟩
  | offset _ =>
    obtain ⟨_, hl⟩ := limit_parts ha
    exact ⟨_, hl _ rfl⟩
  | firstRow _ =>
    obtain ⟨r, h⟩ := ha
    obtain ⟨ts, us, h1, _⟩ := values_accepted.1 h
    obtain ⟨a, _, h⟩ := inferFirstRow_parts h1 _ _ (getElem?_mid _ _ _)
    exact ⟨_, h⟩
  | @laterRow ctx above r pre e post rows hab hl _ =>
    cases above with
    | nil => rw [inferSetExpr] at hab; cases hab
    | cons row above =>
      obtain ⟨r', h⟩ := ha
      rw [List.cons_append] at h
      obtain ⟨ts, us, h1, h2, rfl⟩ := values_accepted.1 h
      obtain ⟨ts', us', h1', h2', rfl⟩ := values_accepted.1 hab
      rw [h1] at h1'
      cases h1'
      obtain ⟨vs, ws, h3, h4⟩ := foldRows_append h2
      rw [h2'] at h3
      cases h3
      obtain ⟨u, _, hu, _⟩ := unifyRow_parts h4 pre.length _ e (List.getElem?_eq_getElem hl) (getElem?_mid _ _ _)
      exact ⟨u, hu⟩
  | «from» hp =>
    obtain ⟨sc, as, hf, _⟩ := query_accepted.1 ha
    exact inferFrom_parts hf hp
  | «where» hf =>
    obtain ⟨sc, as, hf', hw, _⟩ := query_accepted.1 ha
    rw [hf] at hf'
    cases hf'
    obtain ⟨n, hn⟩ := checkPredicate_parts hw
    exact ⟨_, hn⟩
  | group hf _ =>
    obtain ⟨sc, as, hf', _, hg, _⟩ := query_accepted.1 ha
    rw [hf] at hf'
    cases hf'
    rw [checkGroupBy, bind_ok_iff] at hg
    obtain ⟨ts, hts, _⟩ := hg
    exact inferExprs_parts hts _ (by simp)
  | having hf _ =>
    obtain ⟨sc, as, hf', _, hg, _⟩ := query_accepted.1 ha
    rw [hf] at hf'
    cases hf'
    rw [checkGroupBy, bind_ok_iff] at hg
    obtain ⟨ts, _, hh⟩ := hg
    obtain ⟨n, hn⟩ := checkPredicate_parts hh
    exact ⟨_, hn⟩
  | column hf _ =>
    obtain ⟨sc, as, hf', _, _, r, hr⟩ := query_accepted.1 ha
    rw [hf] at hf'
    cases hf'
    rw [inferColumns, bind_ok_iff] at hr
    obtain ⟨bs, hb, _⟩ := hr
    obtain ⟨t, ht, _⟩ := (inferColumnList_parts hb).1 _ _ (List.mem_append_right _ List.mem_cons_self)
    exact ⟨t, ht⟩
  | opLeft =>
    obtain ⟨r, h⟩ := ha
    rw [inferSetExpr, bind_ok_iff] at h
    obtain ⟨u, hu, _⟩ := h
    exact ⟨u, hu⟩
  | opRight _ =>
    obtain ⟨r, h⟩ := ha
    rw [inferSetExpr, bind_ok_iff] at h
    obtain ⟨u, hu, h⟩ := h
    rw [bind_ok_iff] at h
    obtain ⟨v, hv, _⟩ := h
    exact ⟨v, hv⟩
  | selectStatement =>
    replace ha : Statement.validateType (nameOps up) _ _ = .ok () := ha
    rw [Statement.validateType, bind_ok_iff] at ha
    obtain ⟨u, hu, _⟩ := ha
    exact ⟨u, hu⟩
  | insertSource _ =>
    replace ha : Statement.validateType (nameOps up) _ _ = .ok () := ha
    rw [Statement.validateType, InsertStatement.validateType, bind_ok_iff] at ha
    obtain ⟨u, hu, h⟩ := ha
    rw [bind_ok_iff] at h
    obtain ⟨v, hv, _⟩ := h
    exact ⟨v, hv⟩
  | assignment hn hc' _ =>
    obtain ⟨_, _, h1, _⟩ := (update_parts ha hn hc').1 _ (List.mem_append_right _ List.mem_cons_self)
    exact ⟨_, h1⟩
  | updateWhere hn hc' _ =>
    obtain ⟨n, hn⟩ := (update_parts ha hn hc').2.2 _ rfl
    exact ⟨_, hn⟩
  | deleteWhere hn hc' =>
    obtain ⟨n, hn⟩ := delete_parts ha hn hc' _ rfl
    exact ⟨_, hn⟩

theorem insertColumns_append {ps qs : List (Attribute Name × Name)} {p : Attribute Name × Name}
    {m m' : TMap Name (DataType × Bool)} (h : insertColumns (nameOps up) m (ps ++ p :: qs) = .ok m') :
    ∃ m1 m2, insertColumns (nameOps up) m ps = .ok m1 ∧ insertColumn (nameOps up) m1 p.1 p.2 = .ok m2 := by
  induction ps generalizing m with
  | nil =>
    rw [List.nil_append, insertColumns, bind_ok_iff] at h
    obtain ⟨m2, h2, _⟩ := h
    exact ⟨m, m2, rfl, h2⟩
  | cons q ps ih =>
    rw [List.cons_append, insertColumns, bind_ok_iff] at h
    obtain ⟨m0, h0, h⟩ := h
    obtain ⟨m1, m2, h1, h2⟩ := ih h
    exact ⟨m1, m2, by rw [insertColumns, h0]; exact h1, h2⟩

theorem insert_parts {ctx : SetContext Name} {s : InsertStatement Name} {r v : RowType Name}
    (h : (Work.statement ctx (.insert s)).Accepted (nameOps up))
    (hr : ctx.resolveTableName (nameOps up) s.tableName = .ok r)
    (hv : inferSetExpr (nameOps up) ctx s.source = .ok v) :
    (∀ cs, s.columns = some cs → cs.length = v.attributes.length) ∧
    (∀ (i : Nat) c, (targetsOf s.columns v.attributes)[i]? = some c →
      (∃ a, LastNamed up r.attributes c a ∧ ∀ b, v.attributes[i]? = some b →
        a.typ = b.typ ∧ ¬ (a.isNull = false ∧ b.isNull = true)) ∧
      ∀ (j : Nat) d, j < i → (targetsOf s.columns v.attributes)[j]? = some d → ¬ SameName up d c) ∧
    ∀ a, LastNamed up r.attributes a.name a → a.isNull = false →
      ∃ c ∈ targetsOf s.columns v.attributes, SameName up a.name c := by
  replace h : Statement.validateType (nameOps up) _ _ = .ok () := h
  rw [Statement.validateType, InsertStatement.validateType, hr] at h
  replace h : (inferSetExpr (nameOps up) ctx s.source >>= _) = .ok () := h
  rw [hv] at h
  obtain ⟨v', hv', h⟩ := bind_ok_iff.1 h
  cases hv'
  obtain ⟨m, hm, h⟩ := bind_ok_iff.1 h
  have hl : ∀ cs, s.columns = some cs → cs.length = v.attributes.length := by
    intro cs hcs
    rw [hcs, insertSource] at hm
    split at hm
    · cases hm
    · rename_i hne
      exact Decidable.of_not_not hne
  rw [insertSource_pairs hl] at hm
  obtain ⟨htar, hval⟩ := pairsOf_targets hl
  refine ⟨hl, ?_, ?_⟩
  · intro i c hc
    have hc' := hc
    rw [← htar, List.getElem?_map, Option.map_eq_some_iff] at hc'
    obtain ⟨p, hp, rfl⟩ := hc'
    obtain ⟨hi, hpi⟩ := List.getElem?_eq_some_iff.1 hp
    have hsplit : pairsOf s.columns v.attributes = (pairsOf s.columns v.attributes).take i ++ p ::
        (pairsOf s.columns v.attributes).drop (i + 1) := by
      rw [← hpi, List.getElem_cons_drop, List.take_append_drop]
    rw [hsplit] at hm
    obtain ⟨m1, m2, h1, h2⟩ := insertColumns_append hm
    obtain ⟨g, _⟩ := insertColumns_get h1 p.2
    unfold insertColumn at h2
    split at h2
    · cases h2
    · rename_i typ isNull hg
      split at h2
      · cases h2
      · rename_i hgood
        obtain ⟨h3, h4⟩ := g _ hg
        obtain ⟨a, ha, he⟩ := columnMap_some h3
        cases he
        refine ⟨⟨a, ha, fun b hb => ?_⟩, fun j d hj hd => ?_⟩
        · rw [← hval, List.getElem?_map, hp] at hb
          cases hb
          by_cases ht : a.typ = p.1.typ
          · refine ⟨ht, fun hn => hgood (.inr ?_)⟩
            simp [hn.1, hn.2]
          · exact absurd (.inl ht) hgood
        · rw [← htar, List.getElem?_map, Option.map_eq_some_iff] at hd
          obtain ⟨q, hq, rfl⟩ := hd
          refine h4 q (List.mem_iff_getElem?.2 ⟨j, ?_⟩)
          rw [List.getElem?_take_of_lt hj, hq]
  · intro a ha hn
    have hcol := (columnMap_iff (r := r)).2 ⟨a, ha, rfl⟩
    obtain ⟨g1, g2⟩ := insertColumns_get hm a.name
    cases hg : m.get (nameOps up) a.name with
    | none =>
      rcases g2 hg with h' | ⟨p, hp, hs⟩
      · rw [hcol] at h'
        cases h'
      · exact ⟨p.2, by rw [← htar]; exact List.mem_map_of_mem hp, hs.symm⟩
    | some w =>
      have h1 := (g1 _ hg).1
      rw [hcol] at h1
      have hw := Option.some.inj h1
      have hsorted : Sorted up m := insertColumns_sorted hm (columnMap_sorted r)
      obtain ⟨e, he, _, hew⟩ := (get_iff_entry up hsorted).1 hg
      unfold insertComplete at h
      split at h
      · cases h
      · rename_i hany
        refine absurd (List.any_eq_true.2 ⟨e, he, ?_⟩) hany
        have : e.2.2 = a.isNull := by rw [hew, ← hw]
        simp [this, hn]

theorem rowsOf_set {sc : ScalarContext Name} {set : SetSpec Name} {r : RowType Name} (h : RowsOf up sc set r) :
    inferSet (nameOps up) sc set = .ok r := by
  cases h with
  | select h => rw [inferSet]; exact h
  | name h => rw [inferSet]; exact h

theorem foldList_notNull {sc : ScalarContext Name} {es : List (Expr Name)} {typ : DataType}
    (h : ∀ x ∈ es, inferExpr (nameOps up) sc x = .ok (.scalar typ false)) :
    foldList (nameOps up) sc (.ok (.scalar typ false)) es = .ok (.scalar typ false) := by
  induction es with
  | nil => rw [foldList]
  | cons e es ih =>
    have he := h e List.mem_cons_self
    have hu : (ScalarType.scalar typ false).unify (.scalar typ false) = .ok (.scalar typ false) := by
      simp [ScalarType.unify]
    rw [foldList, he]
    exact (congrArg (foldList (nameOps up) sc · es) hu).trans (ih fun x hx => h x (List.mem_cons_of_mem _ hx))

theorem update_tables {ctx : SetContext Name} {s : UpdateStatement Name}
    (h : (Work.statement ctx (.update s)).Accepted (nameOps up)) : ∃ r sc,
      ctx.resolveTableName (nameOps up) s.tableName = .ok r ∧ tableContext (nameOps up) ctx s.tableName r = .ok sc := by
  replace h : Statement.validateType (nameOps up) _ _ = .ok () := h
  rw [Statement.validateType, UpdateStatement.validateType, bind_ok_iff] at h
  obtain ⟨r, hr, h⟩ := h
  rw [bind_ok_iff] at h
  obtain ⟨sc, hc, _⟩ := h
  exact ⟨r, sc, hr, hc⟩

theorem predicate_not {sc : ScalarContext Name} {e : Expr Name} {t : ScalarType}
    (he : inferExpr (nameOps up) sc e = .ok t) (ht : ¬ t.Of .logical)
    (h : ∃ n, inferExpr (nameOps up) sc e = .ok (.scalar .logical n)) : False := by
  obtain ⟨n, h⟩ := h
  rw [he] at h
  cases h
  exact ht ⟨n, rfl⟩

theorem selectColumns_parts {as bs : List (Attribute Name)} {cs : List Name}
    (h : selectColumns (nameOps up) as cs = .ok bs) : ∀ c ∈ cs, ∃ a ∈ as, SameName up a.name c := by
  induction cs generalizing bs with
  | nil => intro c hc; cases hc
  | cons c cs ih =>
    rw [selectColumns] at h
    split at h
    · rename_i a hf
      obtain ⟨r, hr, _⟩ := bind_ok_iff.1 h
      intro d hd
      rcases List.mem_cons.1 hd with rfl | hd
      · refine ⟨a, List.mem_of_find?_eq_some hf, ?_⟩
        have := List.find?_some hf
        simpa [nameOps, Name.eq, SameName, iterEq_iff] using this
      · exact ih hr d hd
    · cases h

theorem unary_not {sc : ScalarContext Name} {op : UnaryOperator} {e : Expr Name} {t : ScalarType}
    (he : inferExpr (nameOps up) sc e = .ok t) (h : (Work.expr sc (.unary op e)).Accepted (nameOps up)) :
    ∃ u, unaryType op t = .ok u := by
  obtain ⟨u, h⟩ := h
  rw [inferExpr, he] at h
  exact ⟨u, h⟩

theorem binary_not {sc : ScalarContext Name} {op : BinaryOperator} {l r : Expr Name} {t u : ScalarType}
    (hl : inferExpr (nameOps up) sc l = .ok t) (hr : inferExpr (nameOps up) sc r = .ok u)
    (h : (Work.expr sc (.binary op l r)).Accepted (nameOps up)) : ∃ v, binaryType op t u = .ok v := by
  obtain ⟨v, h⟩ := h
  rw [inferExpr, hl, hr] at h
  exact ⟨v, h⟩

theorem comparison_not {sc : ScalarContext Name} {op : ComparisonOperator} {l r : Expr Name} {t u : ScalarType}
    (hl : inferExpr (nameOps up) sc l = .ok t) (hr : inferExpr (nameOps up) sc r = .ok u)
    (h : (Work.expr sc (.comparison op l r)).Accepted (nameOps up)) : ∃ v, comparisonType op t u = .ok v := by
  obtain ⟨v, h⟩ := h
  rw [inferExpr, hl, hr] at h
  exact ⟨v, h⟩

theorem flaw_not_accepted {w : Work Name} {x : SqlError} (ht : w.Tidy up) (h : Flaw up w x) :
    ¬ w.Accepted (nameOps up) := by
  intro ha
  cases h with
  | ident h =>
    obtain ⟨t, ha⟩ := ha
    rw [inferExpr] at ha
    exact noColumn_not ht h ha
  | negate he h =>
    obtain ⟨u, hu⟩ := unary_not he ha
    unfold unaryType at hu
    split at hu <;> simp_all [ScalarType.Of, Sql.err]
  | not he h =>
    obtain ⟨u, hu⟩ := unary_not he ha
    unfold unaryType at hu
    split at hu <;> simp_all [ScalarType.Of, Sql.err]
  | isNull he h =>
    obtain ⟨u, hu⟩ := unary_not he ha
    obtain ⟨ts, rfl⟩ := h
    simp [unaryType, Sql.err] at hu
  | arithmetic ho hl hr h =>
    obtain ⟨v, hv⟩ := binary_not hl hr ha
    rename_i op l r t u
    cases op <;> simp only [BinaryOperator.Arithmetic] at ho <;> simp only [binaryType] at hv <;> split at hv <;>
      simp_all [ScalarType.Of, Sql.err]
  | concat hl hr h =>
    obtain ⟨v, hv⟩ := binary_not hl hr ha
    simp only [binaryType] at hv
    split at hv <;> simp_all [ScalarType.Of, Sql.err]
  | logical ho hl hr h =>
    obtain ⟨v, hv⟩ := binary_not hl hr ha
    rcases ho with rfl | rfl <;> simp only [binaryType] at hv <;> split at hv <;>
      simp_all [ScalarType.Of, Sql.err]
  | equality ho hl hr h =>
    obtain ⟨v, hv⟩ := comparison_not hl hr ha
    rcases ho with rfl | rfl <;>
    · simp only [comparisonType, bind_ok_iff] at hv
      obtain ⟨n, hn, _⟩ := hv
      exact h.not_alike (isCompatible_alike hn).1
  | ordered ho hl hr h =>
    obtain ⟨v, hv⟩ := comparison_not hl hr ha
    have key : ∀ {op t n u m}, op.Ordering → comparisonType op (.scalar t n) (.scalar u m) = .ok v →
        t = u ∧ t.isOrdered = true := by
      intro op t n u m ho hv
      cases op <;> simp [ComparisonOperator.Ordering] at ho <;> simp only [comparisonType] at hv <;> split at hv <;>
        first
        | assumption
        | cases hv
    obtain ⟨h1, h2⟩ := key ho hv
    rcases h with h | h
    · exact h h1
    · exact h (isOrdered_iff.1 h2)
  | orderedTuple ho hl hr h =>
    obtain ⟨v, hv⟩ := comparison_not hl hr ha
    have key : ∀ {op t u}, op.Ordering → comparisonType op t u = .ok v → ¬ (t.IsTuple ∨ u.IsTuple) := by
      intro op t u ho hv h
      rcases h with ⟨ts, rfl⟩ | ⟨us, rfl⟩
      · cases op <;> simp [ComparisonOperator.Ordering] at ho <;> simp [comparisonType, Sql.err] at hv
      · cases op <;> simp [ComparisonOperator.Ordering] at ho <;> cases t <;> simp [comparisonType, Sql.err] at hv
    exact key ho hv h
  | like hl hr h =>
    obtain ⟨v, hv⟩ := comparison_not hl hr ha
    simp only [comparisonType] at hv
    split at hv <;> simp_all [ScalarType.Of, Sql.err]
  | between he hl hr h =>
    obtain ⟨v, hv⟩ := ha
    rw [inferExpr, he, hl, hr] at hv
    simp only [bind_ok_iff, Except.ok.injEq, exists_eq_left', betweenType] at hv
    split at hv
    · rename_i hc
      rcases h with h | h | h
      · exact h hc.1
      · exact h hc.2.1
      · exact h (isOrdered_iff.1 hc.2.2)
    · cases hv
  | betweenTuple he hl hr h =>
    obtain ⟨v, hv⟩ := ha
    rw [inferExpr, he, hl, hr] at hv
    replace hv : betweenType _ _ _ = .ok v := hv
    unfold betweenType at hv
    split at hv
    · rcases h with ⟨ts, h⟩ | ⟨ts, h⟩ | ⟨ts, h⟩ <;> cases h
    · cases hv
  | thens hf hm hb h =>
    obtain ⟨_, _, _, t, hws, h1, h2, _⟩ := case_parts ha
    cases hws
    obtain ⟨v, hv, hal, _⟩ := h2 _ _ hm
    rw [hf] at h1
    rw [hb] at hv
    cases h1
    cases hv
    exact h.not_alike hal
  | thenTuples hf hb hu h =>
    obtain ⟨_, _, _, t, hws, h1, h2, _⟩ := case_parts ha
    cases hws
    obtain ⟨v, hv, _, hn⟩ := h2 _ _ List.mem_cons_self
    rw [hb] at hv
    cases hv
    exact hn hu
  | els hf hb h =>
    obtain ⟨_, _, _, t, hws, h1, _, h3⟩ := case_parts ha
    cases hws
    obtain ⟨v, hv, hal⟩ := h3 _ rfl
    rw [hf] at h1
    rw [hb] at hv
    cases h1
    cases hv
    exact h.not_alike hal
  | elements hf hm ho h =>
    obtain ⟨t, typ, n, m, _, h1, h2, _⟩ := inList_parts ha
    obtain ⟨k, hk⟩ := h2 _ hm
    rw [hf] at h1
    rw [ho] at hk
    cases h1
    cases hk
    exact h.not_alike .scalar
  | elementTuple hf h =>
    obtain ⟨t, typ, n, m, _, h1, _⟩ := inList_parts ha
    obtain ⟨ts, rfl⟩ := h
    rw [hf] at h1
    cases h1
  | inColumns hs h =>
    obtain ⟨t, r', a, _, h1, h2, _⟩ := inSet_parts ha
    rw [rowsOf_set hs] at h1
    cases h1
    rw [h2] at h
    exact h rfl
  | inList he hf h =>
    obtain ⟨t, typ, n, m, h0, h1, _, _, h2⟩ := inList_parts ha
    rw [he] at h0
    rw [hf] at h1
    cases h0
    cases h1
    exact h.not_alike ((isCompatible_alike h2).1.trans' .scalar)
  | inRows he hs hr h =>
    obtain ⟨t, r', a, h0, h1, h2, h3⟩ := inSet_parts ha
    rw [he] at h0
    rw [rowsOf_set hs] at h1
    cases h0
    cases h1
    rw [hr] at h2
    cases h2
    exact h.not_alike (isCompatible_alike h3).1
  | inListNotNull he hs =>
    rename_i sc e es typ
    cases es with
    | nil =>
      obtain ⟨t, r', a, _, h1, _⟩ := inSet_parts ha
      rw [inferSet, inferList] at h1
      cases h1
    | cons first rest =>
      obtain ⟨t, typ', n, m, h0, h1, _, h2, h3⟩ := inList_parts ha
      rw [he] at h0
      rw [hs first List.mem_cons_self] at h1
      cases h0
      cases h1
      rw [foldList_notNull fun x hx => hs x (List.mem_cons_of_mem _ hx)] at h2
      cases h2
      simp [ScalarType.isCompatible] at h3
  | inRowsNotNull he hs hr h =>
    obtain ⟨t, r', a, h0, h1, h2, h3⟩ := inSet_parts ha
    rw [he] at h0
    rw [rowsOf_set hs] at h1
    cases h0
    cases h1
    rw [hr] at h2
    cases h2
    simp [ScalarType.isCompatible, h.1, h.2] at h3
  | inTable h =>
    obtain ⟨t, r', a, _, h1, _⟩ := inSet_parts ha
    rw [inferSet] at h1
    exact unknown_not ht.1 h h1
  | columns hs h =>
    obtain ⟨t, ha⟩ := ha
    rw [inferExpr, hs] at ha
    replace ha : singleColumn _ _ = .ok t := ha
    unfold singleColumn at ha
    split at ha
    · rename_i hr
      rw [hr] at h
      exact h rfl
    · cases ha
  | table h =>
    obtain ⟨r, ha⟩ := ha
    rw [inferTable, bind_ok_iff] at ha
    obtain ⟨u, hu, _⟩ := ha
    exact unknown_not ht.1 h hu
  | @again sc q alias n m hn h =>
    obtain ⟨r, ha⟩ := ha
    rw [inferTable, bind_ok_iff] at ha
    obtain ⟨u, hu, ha⟩ := ha
    rw [bind_ok_iff] at ha
    obtain ⟨i, hi, ha⟩ := ha
    rw [bind_ok_iff] at ha
    obtain ⟨sc', hs, _⟩ := ha
    have : i = n := by
      unfold relationName at hi
      split at hi
      · cases hi
        simpa using hn
      · split at hi
        · rename_i hl
          cases hi
          rw [hl] at hn
          simpa using hn
        · cases hi
    subst this
    exact addRelation_not ht h hs
  | common hp h =>
    obtain ⟨r, ha⟩ := ha
    rw [inferSelect, bind_ok_iff] at ha
    obtain ⟨sc', hs, _⟩ := ha
    obtain ⟨typ, sc1, _, h1⟩ := addCommon_parts hs hp
    exact addRelation_not (addCommon_tidy hp (tidy_new ht)) h h1
  | commonColumn hq hc h =>
    obtain ⟨r, ha⟩ := ha
    rw [inferSelect, bind_ok_iff] at ha
    obtain ⟨sc', hs, _⟩ := ha
    obtain ⟨sc1, hp⟩ := addCommon_prefix hs
    obtain ⟨typ, _, h1, _⟩ := addCommon_parts hs hp
    rw [inferCte, hq] at h1
    obtain ⟨_, hk, h1⟩ := bind_ok_iff.1 h1
    cases hk
    obtain ⟨bs, hb, _⟩ := bind_ok_iff.1 h1
    obtain ⟨a, ha, hsame⟩ := selectColumns_parts hb _ hc
    exact h a ha hsame
  | order hc he h =>
    obtain ⟨r, ha⟩ := ha
    rw [inferSelect, hc] at ha
    obtain ⟨_, hk, ha⟩ := bind_ok_iff.1 ha
    cases hk
    rw [bind_ok_iff] at ha
    obtain ⟨u, hu, ha⟩ := ha
    rw [bind_ok_iff] at ha
    obtain ⟨_, ho, _⟩ := ha
    obtain ⟨t, h1, h2⟩ := checkOrder_parts ho _ _ _ (List.mem_append_right _ List.mem_cons_self)
    rw [he] at h1
    cases h1
    exact h2 h
  | limit he h =>
    have := (limit_parts ha).1
    rw [he] at this
    cases this
    exact h rfl
  | offset he h =>
    have := (limit_parts ha).2 _ rfl
    rw [he] at this
    cases this
    exact h rfl
  | value hm he h =>
    obtain ⟨r, ha⟩ := ha
    obtain ⟨ts, us, h1, _⟩ := values_accepted.1 ha
    obtain ⟨i, hi⟩ := List.mem_iff_getElem?.1 hm
    obtain ⟨a, _, h2⟩ := inferFirstRow_parts h1 i _ hi
    obtain ⟨ts', rfl⟩ := h
    rw [he] at h2
    cases h2
  | values h1 h2 hab he he' h =>
    obtain ⟨r, ha⟩ := ha
    obtain ⟨ts, us, hf, hr, rfl⟩ := values_accepted.1 ha
    obtain ⟨a, hta, ht1⟩ := inferFirstRow_parts hf _ _ h1
    rw [he] at ht1
    cases ht1
    obtain ⟨vs, ws, h3, h4⟩ := foldRows_append hr
    obtain ⟨b, hb, hal⟩ := foldRows_keeps h3 hta hab
    obtain ⟨u, _, hu, hua, _⟩ := unifyRow_parts h4 _ _ _ hb h2
    rw [he'] at hu
    cases hu
    exact h.not_alike (hua.trans' hal).symm'
  | «where» hf he h =>
    obtain ⟨sc, as, hf', hw, _⟩ := query_accepted.1 ha
    rw [hf] at hf'
    cases hf'
    exact predicate_not he h (checkPredicate_parts hw)
  | having hf he h =>
    obtain ⟨sc, as, hf', _, hg, _⟩ := query_accepted.1 ha
    rw [hf] at hf'
    cases hf'
    rw [checkGroupBy, bind_ok_iff] at hg
    obtain ⟨ts, _, hh⟩ := hg
    exact predicate_not he h (checkPredicate_parts hh)
  | column hf hm he h =>
    obtain ⟨sc, as, hf', _, _, r, hr⟩ := query_accepted.1 ha
    rw [hf] at hf'
    cases hf'
    rw [inferColumns, bind_ok_iff] at hr
    obtain ⟨bs, hb, _⟩ := hr
    obtain ⟨t, h1, h2⟩ := (inferColumnList_parts hb).1 _ _ hm
    rw [he] at h1
    cases h1
    exact h2 h
  | allOfNothing hf hm h =>
    obtain ⟨sc, as, hf', _, _, r, hr⟩ := query_accepted.1 ha
    rw [hf] at hf'
    cases hf'
    rw [inferColumns, bind_ok_iff] at hr
    obtain ⟨bs, hb, _⟩ := hr
    obtain ⟨m, hg⟩ := (inferColumnList_parts hb).2 _ hm
    exact h _ ((get_iff_entry up (inferFrom_tidy hf (tidy_new ht)).2).1 hg)
  | allOfColumn hf hm hs h =>
    obtain ⟨sc, as, hf', _, _, r, hr⟩ := query_accepted.1 ha
    rw [hf] at hf'
    cases hf'
    rw [inferColumns, bind_ok_iff] at hr
    obtain ⟨bs, hb, _⟩ := hr
    obtain ⟨m, hg⟩ := (inferColumnList_parts hb).2 _ hm
    have hsort := (inferFrom_tidy hf (tidy_new ht)).2
    exact h m (entry_same hsort hs ((get_iff_entry up hsort).1 hg))
  | operands hl hr h1 h2 h =>
    obtain ⟨v, ha⟩ := ha
    rw [inferSetExpr, hl, hr] at ha
    obtain ⟨_, hk, ha⟩ := bind_ok_iff.1 ha
    cases hk
    obtain ⟨_, hk, ha⟩ := bind_ok_iff.1 ha
    cases hk
    obtain ⟨cs, hc, _⟩ := bind_ok_iff.1 ha
    exact h (unifyAttributes_parts hc _ _ _ h1 h2)
  | insertTable h =>
    replace ha : Statement.validateType (nameOps up) _ _ = .ok () := ha
    rw [Statement.validateType, InsertStatement.validateType, bind_ok_iff] at ha
    obtain ⟨r, hr, _⟩ := ha
    exact unknown_not ht h hr
  | insertCount hs hc h =>
    have ha' : Statement.validateType (nameOps up) _ _ = .ok () := ha
    rw [Statement.validateType, InsertStatement.validateType, bind_ok_iff] at ha'
    obtain ⟨r, hr, _⟩ := ha'
    exact h ((insert_parts ha hr hs).1 _ hc)
  | insertTarget hr hs hc h =>
    obtain ⟨⟨a, ⟨pre, post, hl, hsame, _⟩, _⟩, h2⟩ := (insert_parts ha hr hs).2.1 _ _ hc
    rcases h with h | ⟨j, d, hj, hd, hs⟩
    · exact h a (by rw [hl]; simp) hsame
    · exact h2 j d hj hd hs
  | insertType hr hs hc hv hb h =>
    obtain ⟨⟨a, hl, h1⟩, _⟩ := (insert_parts ha hr hs).2.1 _ _ hc
    obtain ⟨h2, h3⟩ := h1 _ hv
    obtain ⟨e1, e2⟩ := last_same hl hb
    rw [e1] at h2
    rw [e2] at h3
    rcases h with h | h
    · exact h h2
    · exact h3 h
  | insertMissing hr hs hl hn h =>
    obtain ⟨c, hc, hsame⟩ := (insert_parts ha hr hs).2.2 _ hl hn
    exact h c hc hsame
  | updateTable h =>
    obtain ⟨r, sc, hr, _⟩ := update_tables ha
    exact unknown_not ht h hr
  | assigned hr hc hm he h =>
    obtain ⟨_, _, h1, _⟩ := (update_parts ha hr hc).1 _ hm
    obtain ⟨ts, rfl⟩ := h
    rw [he] at h1
    cases h1
  | twice h =>
    obtain ⟨r, sc, hr, hc⟩ := update_tables ha
    exact h (update_parts ha hr hc).2.1
  | noColumn hr hm hc h =>
    obtain ⟨r', sc, hr', hsc⟩ := update_tables ha
    rw [hr] at hr'
    cases hr'
    obtain ⟨_, _, _, h1⟩ := (update_parts ha hr hsc).1 _ hm
    obtain ⟨b, ⟨pre, post, hl, hsame, _⟩, _⟩ := h1 _ hc
    exact h b (by rw [hl]; simp) hsame
  | assignedType hr hc hm he hcm hb h =>
    obtain ⟨typ, n, h1, h2⟩ := (update_parts ha hr hc).1 _ hm
    obtain ⟨b', hb', h3, h4⟩ := h2 _ hcm
    rw [he] at h1
    cases h1
    obtain ⟨e1, e2⟩ := last_same hb' hb
    rcases h with h | ⟨h, hn⟩
    · exact h (e1.symm.trans h3)
    · have := h4 h
      rw [e2, hn] at this
      cases this
  | updateWhere hr hc he h => exact predicate_not he h ((update_parts ha hr hc).2.2 _ rfl)
  | deleteTable h =>
    replace ha : Statement.validateType (nameOps up) _ _ = .ok () := ha
    rw [Statement.validateType, DeleteStatement.validateType, bind_ok_iff] at ha
    obtain ⟨r, hr, _⟩ := ha
    exact unknown_not ht h hr
  | deleteWhere hr hc he h => exact predicate_not he h (delete_parts ha hr hc _ rfl)

theorem outside_accepted {w b : Work Name} (h : Outside (nameOps up) w b) (ht : w.Tidy up)
    (ha : w.Accepted (nameOps up)) : b.Tidy up ∧ b.Accepted (nameOps up) := by
  induction h with
  | here w => exact ⟨ht, ha⟩
  | step h hc _ ih => exact ih (next_tidy h ht) (next_accepted h hc ha)

end Verif.Sql
