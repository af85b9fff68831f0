import Verif.Proof.SqlFlaw
/-! # Errors of type checking have a reason: lists -/

namespace Verif.Sql

open Chk

variable {up : Char → List Char}

theorem inferExprs_err {sc : ScalarContext Name} {x : SqlError} {es : List (Expr Name)}
    (h : inferExprs (nameOps up) sc es = .error (.err x)) :
    ∃ pre e post, es = pre ++ e :: post ∧ (∃ ts, inferExprs (nameOps up) sc pre = .ok ts) ∧
      inferExpr (nameOps up) sc e = .error (.err x) := by
  induction es with
  | nil => rw [inferExprs] at h; cases h
  | cons y es ih =>
    rw [inferExprs, bind_err] at h
    rcases h with h | ⟨t, ht, h⟩
    · exact ⟨[], y, es, rfl, ⟨[], by rw [inferExprs]⟩, h⟩
    · rw [bind_err] at h
      rcases h with h | ⟨a, _, h⟩
      · obtain ⟨pre, e, post, rfl, ⟨ts, hts⟩, he⟩ := ih h
        refine ⟨y :: pre, e, post, rfl, ⟨t :: ts, ?_⟩, he⟩
        rw [inferExprs, ht, hts]
        rfl
      · cases h

/-! ## CASE -/

theorem thenStep_alike {t u v : ScalarType} (h : thenStep t u = .ok v) : Alike v t ∧ v.IsScalar := by
  unfold thenStep at h
  rw [bind_ok_iff] at h
  obtain ⟨n, hn, h⟩ := h
  have := (isCompatible_alike hn).1
  cases u with
  | tuple ts => cases h
  | scalar typ m =>
    cases h
    cases this
    exact ⟨.scalar, _, _, rfl⟩

theorem thenStep_err {t u : ScalarType} {x : SqlError} (h : thenStep t u = .error (.err x)) :
    Mismatch u t x ∨ x = .thenScalar ∧ u.IsTuple ∧ Alike u t := by
  unfold thenStep at h
  rw [bind_err] at h
  rcases h with h | ⟨n, hn, h⟩
  · exact .inl (isCompatible_err h)
  · cases u with
    | tuple ts => cases h; exact .inr ⟨rfl, ⟨ts, rfl⟩, (isCompatible_alike hn).1⟩
    | scalar typ m => cases h

theorem foldBodies_alike {sc : ScalarContext Name} {ws : List (When Name)} {t u : ScalarType}
    (h : foldBodies (nameOps up) sc t ws = .ok u) : Alike u t := by
  induction ws generalizing t with
  | nil =>
    rw [foldBodies] at h
    cases h
    exact alike_refl _
  | cons w ws ih =>
    obtain ⟨g, b⟩ := w
    rw [foldBodies, bind_ok_iff] at h
    obtain ⟨v, hv, h⟩ := h
    rw [bind_ok_iff] at h
    obtain ⟨w, hw, h⟩ := h
    exact (ih h).trans' (thenStep_alike hw).1

theorem foldBodies_err {sc : ScalarContext Name} {x : SqlError} {ws : List (When Name)} {t : ScalarType}
    (h : foldBodies (nameOps up) sc t ws = .error (.err x)) :
    (∃ pre guard body post, ws = pre ++ .mk guard body :: post ∧
      (∃ u, foldBodies (nameOps up) sc t pre = .ok u) ∧ inferExpr (nameOps up) sc body = .error (.err x)) ∨
    (∃ guard body u, .mk guard body ∈ ws ∧ inferExpr (nameOps up) sc body = .ok u ∧ Mismatch u t x) ∨
    (x = .thenScalar ∧ ∃ guard body post u, ws = .mk guard body :: post ∧ inferExpr (nameOps up) sc body = .ok u ∧
      u.IsTuple ∧ Alike u t) := by
  induction ws generalizing t with
  | nil => rw [foldBodies] at h; cases h
  | cons w ws ih =>
    obtain ⟨g, b⟩ := w
    rw [foldBodies, bind_err] at h
    rcases h with h | ⟨u, hu, h⟩
    · exact .inl ⟨[], g, b, ws, rfl, ⟨t, by rw [foldBodies]⟩, h⟩
    · rw [bind_err] at h
      rcases h with h | ⟨v, hv, h⟩
      · rcases thenStep_err h with h | ⟨rfl, h1, h2⟩
        · exact .inr (.inl ⟨g, b, u, List.mem_cons_self, hu, h⟩)
        · exact .inr (.inr ⟨rfl, g, b, ws, u, rfl, hu, h1, h2⟩)
      · obtain ⟨hva, hvs⟩ := thenStep_alike hv
        rcases ih h with ⟨pre, g', b', post, rfl, ⟨w, hw⟩, he⟩ | ⟨g', b', w, hm, hw, hmis⟩ |
          ⟨_, g', b', _, w, _, _, h1, h2⟩
        · refine .inl ⟨.mk g b :: pre, g', b', post, rfl, ⟨w, ?_⟩, he⟩
          rw [foldBodies, hu]
          show (thenStep t u >>= fun typ => foldBodies (nameOps up) sc typ pre) = _
          rw [hv]
          exact hw
        · exact .inr (.inl ⟨g', b', w, List.mem_cons_of_mem _ hm, hw, hmis.right hva⟩)
        · obtain ⟨ts, rfl⟩ := h1
          obtain ⟨_, _, rfl⟩ := hvs
          cases h2

theorem inferElse_err {sc : ScalarContext Name} {x : SqlError} {t : ScalarType} {els : Option (Expr Name)}
    (h : inferElse (nameOps up) sc t els = .error (.err x)) : t.IsScalar ∧ ∃ e, els = some e ∧
      (inferExpr (nameOps up) sc e = .error (.err x) ∨
        ∃ u, inferExpr (nameOps up) sc e = .ok u ∧ Mismatch u t x) := by
  cases els with
  | none => cases t <;> simp [inferElse, panics] at h
  | some e =>
    cases t with
    | tuple ts => simp [inferElse, panics] at h
    | scalar typ n =>
      refine ⟨⟨_, _, rfl⟩, e, rfl, ?_⟩
      rw [inferElse] at h
      simp only [bind_err] at h
      rcases h with h | ⟨u, hu, h | ⟨_, _, h⟩⟩
      · exact .inl h
      · exact .inr ⟨u, hu, isCompatible_err h⟩
      · cases h

/-! ## IN -/

theorem foldList_erred {sc : ScalarContext Name} {x y : SqlError} {es : List (Expr Name)}
    (h : foldList (nameOps up) sc (.error (.err y)) es = .error (.err x)) :
    x = y ∨ ∃ e ∈ es, inferExpr (nameOps up) sc e = .error (.err x) := by
  induction es generalizing y with
  | nil => rw [foldList] at h; cases h; exact .inl rfl
  | cons e es ih =>
    rw [foldList] at h
    cases he : inferExpr (nameOps up) sc e with
    | ok t =>
      rw [he] at h
      rcases ih h with h | ⟨e', hm, h⟩
      · exact .inl h
      · exact .inr ⟨e', List.mem_cons_of_mem _ hm, h⟩
    | error z =>
      rw [he] at h
      cases z with
      | panic =>
        have := (foldList_panic (ops := nameOps up) (sc := sc) (.error .panic) es).2 (.inl rfl)
        rw [show (do let _ ← (Except.error Stop.panic : Chk ScalarType); err y) =
            (.error .panic : Chk ScalarType) from rfl,
          this] at h
        cases h
      | err z =>
        rcases ih h with rfl | ⟨e', hm, h⟩
        · exact .inr ⟨e, List.mem_cons_self, he⟩
        · exact .inr ⟨e', List.mem_cons_of_mem _ hm, h⟩

theorem foldList_err {sc : ScalarContext Name} {x : SqlError} {es : List (Expr Name)} {t : ScalarType}
    (h : foldList (nameOps up) sc (.ok t) es = .error (.err x)) :
    (∃ e ∈ es, inferExpr (nameOps up) sc e = .error (.err x)) ∨
    ∃ e u, e ∈ es ∧ inferExpr (nameOps up) sc e = .ok u ∧ Mismatch t u x := by
  induction es generalizing t with
  | nil => rw [foldList] at h; cases h
  | cons e es ih =>
    rw [foldList] at h
    cases he : inferExpr (nameOps up) sc e with
    | ok u =>
      rw [he] at h
      have hb : (do t.unify (← (Except.ok u : Chk ScalarType))) = t.unify u := rfl
      rw [hb] at h
      cases hu : t.unify u with
      | ok v =>
        rw [hu] at h
        rcases ih h with ⟨e', hm, h⟩ | ⟨e', w, hm, hw, h⟩
        · exact .inl ⟨e', List.mem_cons_of_mem _ hm, h⟩
        · exact .inr ⟨e', w, List.mem_cons_of_mem _ hm, hw, h.left (unify_alike hu)⟩
      | error z =>
        rw [hu] at h
        cases z with
        | panic => exact absurd hu (post_ne (unify_post t u))
        | err z =>
          rcases foldList_erred h with rfl | ⟨e', hm, h⟩
          · exact .inr ⟨e, u, List.mem_cons_self, he, unify_err hu⟩
          · exact .inl ⟨e', List.mem_cons_of_mem _ hm, h⟩
    | error z =>
      rw [he] at h
      cases z with
      | panic =>
        have := (foldList_panic (ops := nameOps up) (sc := sc) (.error .panic) es).2 (.inl rfl)
        rw [show (do t.unify (← (Except.error Stop.panic : Chk ScalarType))) =
            (.error .panic : Chk ScalarType) from rfl,
          this] at h
        cases h
      | err z =>
        rcases foldList_erred h with rfl | ⟨e', hm, h⟩
        · exact .inl ⟨e, List.mem_cons_self, he⟩
        · exact .inl ⟨e', List.mem_cons_of_mem _ hm, h⟩

/-- An error so far is an error of the list. -/
theorem foldList_stays {sc : ScalarContext Name} {z : Stop} {es : List (Expr Name)} {v : ScalarType} :
    foldList (nameOps up) sc (.error z) es ≠ .ok v := by
  induction es generalizing z with
  | nil => rw [foldList]; simp
  | cons e es ih =>
    cases z with
    | panic => rw [foldList]; simp [panics]
    | err y =>
      rw [foldList]
      cases inferExpr (nameOps up) sc e with
      | ok t => exact ih
      | error z => exact ih

theorem foldList_same {sc : ScalarContext Name} {es : List (Expr Name)} {r : Chk ScalarType} {v : ScalarType}
    (h : foldList (nameOps up) sc r es = .ok v) : ∃ t, r = .ok t ∧ Alike v t ∧
      ∀ typ, v = .scalar typ false → t = .scalar typ false ∧
        ∀ e ∈ es, inferExpr (nameOps up) sc e = .ok (.scalar typ false) := by
  induction es generalizing r with
  | nil =>
    rw [foldList] at h
    exact ⟨v, h, alike_refl v, fun typ hv => ⟨hv, fun _ h => nomatch h⟩⟩
  | cons e es ih =>
    cases r with
    | error z => exact absurd h foldList_stays
    | ok t =>
      rw [foldList] at h
      obtain ⟨w, hw, ha, hn⟩ := ih h
      rw [bind_ok_iff] at hw
      obtain ⟨u, hu, hw⟩ := hw
      refine ⟨t, rfl, ha.trans' (unify_alike hw), fun typ hv => ?_⟩
      obtain ⟨rfl, hall⟩ := hn typ hv
      have : t = .scalar typ false ∧ u = .scalar typ false := by
        cases t with
        | tuple ts => cases unify_alike hw
        | scalar t1 n1 =>
          cases u with
          | tuple us =>
            rw [ScalarType.unify] at hw
            · cases hw
            · simp
            · simp
          | scalar t2 n2 =>
            rw [ScalarType.unify] at hw
            split at hw
            · rename_i heq
              subst heq
              cases n1 <;> cases n2 <;> simp at hw
              exact ⟨by rw [hw], by rw [hw]⟩
            · cases hw
      refine ⟨this.1, fun e' hm => ?_⟩
      rcases List.mem_cons.1 hm with rfl | hm
      · rw [hu, this.2]
      · exact hall e' hm

/-! ## Queries -/

theorem selectColumns_err {as : List (Attribute Name)} {cs : List Name} {x : SqlError}
    (h : selectColumns (nameOps up) as cs = .error (.err x)) :
    x = .cteColumnNotFound ∧ ∃ c ∈ cs, ∀ a ∈ as, ¬ SameName up a.name c := by
  induction cs with
  | nil => cases h
  | cons c cs ih =>
    unfold selectColumns at h
    split at h
    · rw [bind_err] at h
      rcases h with h | ⟨_, _, h⟩
      · obtain ⟨h1, c', hm, h2⟩ := ih h
        exact ⟨h1, c', List.mem_cons_of_mem _ hm, h2⟩
      · cases h
    · rename_i hf
      cases h
      refine ⟨rfl, c, List.mem_cons_self, fun a ha hs => ?_⟩
      have := List.find?_eq_none.1 hf a ha
      exact this ((iterEq_iff _ _).2 hs)

theorem addCommon_err {ctx : SetContext Name} {x : SqlError} {cs : List (Cte Name)} {sc : ScalarContext Name}
    (h : addCommon (nameOps up) ctx sc cs = .error (.err x)) :
    ∃ pre i names query post sc', cs = pre ++ .mk i names query :: post ∧
      addCommon (nameOps up) ctx sc pre = .ok sc' ∧
      (inferSelect (nameOps up) ctx query = .error (.err x) ∨
        (x = .cteColumnNotFound ∧ ∃ r ns c, inferSelect (nameOps up) ctx query = .ok r ∧ names = some ns ∧ c ∈ ns ∧
          ∀ a ∈ r.attributes, ¬ SameName up a.name c) ∨
        (x = .duplicateRelation ∧ ∃ m, Entry up sc'.symbols i (.relation m))) := by
  induction cs generalizing sc with
  | nil => rw [addCommon] at h; cases h
  | cons c cs ih =>
    obtain ⟨i, names, query⟩ := c
    rw [addCommon, bind_err] at h
    rcases h with h | ⟨r, hr, h⟩
    · refine ⟨[], i, names, query, cs, sc, rfl, by rw [addCommon], ?_⟩
      rw [inferCte, bind_err] at h
      rcases h with h | ⟨r, hr, h⟩
      · exact .inl h
      · cases names with
        | none => cases h
        | some ns =>
          simp only [bind_err] at h
          rcases h with h | ⟨_, _, h⟩
          · obtain ⟨h1, c, hc, h2⟩ := selectColumns_err h
            exact .inr (.inl ⟨h1, r, ns, c, hr, rfl, hc, h2⟩)
          · cases h
    · rw [bind_err] at h
      rcases h with h | ⟨sc1, h1, h⟩
      · exact ⟨[], i, names, query, cs, sc, rfl, by rw [addCommon], .inr (.inr (addRelation_err h))⟩
      · obtain ⟨pre, i', names', query', post, sc', rfl, hp, hx⟩ := ih h
        refine ⟨.mk i names query :: pre, i', names', query', post, sc', rfl, ?_, hx⟩
        rw [addCommon, hr]
        show (sc.addRelation (nameOps up) i r.attributes >>= fun sc => addCommon (nameOps up) ctx sc pre) = _
        rw [h1]
        exact hp

theorem checkOrder_err {sc : ScalarContext Name} {x : SqlError} {ts : List (OrderTerm Name)}
    (h : checkOrder (nameOps up) sc ts = .error (.err x)) :
    ∃ pre e collation direction post, ts = pre ++ .mk e collation direction :: post ∧
      checkOrder (nameOps up) sc pre = .ok () ∧
      (inferExpr (nameOps up) sc e = .error (.err x) ∨
        x = .orderScalar ∧ ∃ t, inferExpr (nameOps up) sc e = .ok t ∧ t.IsTuple) := by
  induction ts with
  | nil => rw [checkOrder] at h; cases h
  | cons y ts ih =>
    obtain ⟨e, c, d⟩ := y
    rw [checkOrder, bind_err] at h
    rcases h with h | ⟨t, ht, h⟩
    · exact ⟨[], e, c, d, ts, rfl, by rw [checkOrder], .inl h⟩
    · rw [bind_err] at h
      rcases h with h | ⟨⟨⟩, hm, h⟩
      · cases t with
        | scalar typ n => cases h
        | tuple us => cases h; exact ⟨[], e, c, d, ts, rfl, by rw [checkOrder], .inr ⟨rfl, _, ht, us, rfl⟩⟩
      · obtain ⟨pre, e', c', d', post, rfl, hp, hx⟩ := ih h
        refine ⟨.mk e c d :: pre, e', c', d', post, rfl, ?_, hx⟩
        rw [checkOrder, ht]
        show (mustBeScalar .orderScalar t >>= fun _ => checkOrder (nameOps up) sc pre) = _
        rw [hm]
        exact hp

theorem mustBeCount_err {m x : SqlError} {t : ScalarType} (h : mustBeCount m t = .error (.err x)) :
    x = m ∧ t ≠ .scalar .numeric false := by
  unfold mustBeCount at h
  split at h
  · cases h
  · rename_i hn
    cases h
    exact ⟨rfl, hn⟩

theorem checkPredicate_err {sc : ScalarContext Name} {m x : SqlError} {wher : Option (Expr Name)}
    (h : checkPredicate (nameOps up) sc m wher = .error (.err x)) :
    ∃ e, wher = some e ∧ (inferExpr (nameOps up) sc e = .error (.err x) ∨
      x = m ∧ ∃ t, inferExpr (nameOps up) sc e = .ok t ∧ ¬ t.Of .logical) := by
  cases wher with
  | none => rw [checkPredicate] at h; cases h
  | some e =>
    refine ⟨e, rfl, ?_⟩
    rw [checkPredicate, bind_err] at h
    rcases h with h | ⟨t, ht, h⟩
    · exact .inl h
    · unfold mustBeLogical at h
      split at h
      · cases h
      · rename_i hn
        cases h
        exact .inr ⟨rfl, t, ht, fun ⟨n, h⟩ => hn n h⟩

theorem inferFrom_err {x : SqlError} {ts : List (TableExpr Name)} {sc : ScalarContext Name}
    (h : inferFrom (nameOps up) sc ts = .error (.err x)) :
    ∃ pre t post, ts = pre ++ t :: post ∧ ∃ sc' as, inferFrom (nameOps up) sc pre = .ok (sc', as) ∧
      inferTable (nameOps up) sc' t = .error (.err x) := by
  induction ts generalizing sc with
  | nil => rw [inferFrom] at h; cases h
  | cons y ts ih =>
    rw [inferFrom, bind_err] at h
    rcases h with h | ⟨⟨sc1, as1⟩, ht, h⟩
    · exact ⟨[], y, ts, rfl, sc, [], by rw [inferFrom], h⟩
    · simp only [bind_err] at h
      rcases h with h | ⟨_, _, h⟩
      · obtain ⟨pre, t, post, rfl, sc', as, hp, he⟩ := ih h
        refine ⟨y :: pre, t, post, rfl, sc', as1 ++ as, ?_, he⟩
        rw [inferFrom, ht]
        show (inferFrom (nameOps up) sc1 pre >>= _) = _
        rw [hp]
        rfl
      · cases h

theorem relationAttributes_err {x : SqlError} {m : TMap Name ScalarType} :
    relationAttributes m ≠ .error (.err x) := by
  induction m with
  | nil => rw [relationAttributes]; simp
  | cons e m ih =>
    obtain ⟨n, t⟩ := e
    cases t with
    | tuple ts => rw [relationAttributes]; simp [panics]
    | scalar typ k =>
      rw [relationAttributes]
      intro h
      rw [bind_err] at h
      rcases h with h | ⟨_, _, h⟩
      · exact ih h
      · cases h

theorem inferColumnList_err {sc : ScalarContext Name} {x : SqlError} {cs : List (ResultColumn Name)}
    {generated : TMap Name Nat} (h : inferColumnList (nameOps up) sc generated cs = .error (.err x)) :
    (∃ pre e rename post, cs = pre ++ .expr e rename :: post ∧
      (∃ as, inferColumnList (nameOps up) sc generated pre = .ok as) ∧
      inferExpr (nameOps up) sc e = .error (.err x)) ∨
    (x = .resultScalar ∧ ∃ e rename t, .expr e rename ∈ cs ∧ inferExpr (nameOps up) sc e = .ok t ∧ t.IsTuple) ∨
    (x = .undefinedCollection ∧ ∃ n, .allFrom n ∈ cs ∧ ∀ s, ¬ Entry up sc.symbols n s) ∨
    (x = .notRangeVariable ∧ ∃ n s, .allFrom n ∈ cs ∧ Entry up sc.symbols n s ∧ ∀ m, s ≠ .relation m) := by
  induction cs generalizing generated with
  | nil => rw [inferColumnList] at h; cases h
  | cons c cs ih =>
    cases c with
    | allFrom n =>
      rw [inferColumnList] at h
      split at h
      · rename_i hg
        cases h
        exact .inr (.inr (.inl ⟨rfl, n, List.mem_cons_self, (get_none_iff up).1 hg⟩))
      · rename_i fields hg
        rw [bind_err] at h
        rcases h with h | ⟨new, hn, h⟩
        · exact absurd h relationAttributes_err
        · simp only [bind_err] at h
          rcases h with h | ⟨_, _, h⟩
          · rcases ih h with ⟨pre, e, r, post, rfl, ⟨as, hp⟩, he⟩ | ⟨h1, e, r, t, hm, h2⟩ | ⟨h1, m, hm, h2⟩ |
              ⟨h1, m, s, hm, h2⟩
            · refine .inl ⟨.allFrom n :: pre, e, r, post, rfl, ?_, he⟩
              rw [inferColumnList]
              simp only [hg, hn]
              simp only [bind, Except.bind, hp]
              exact ⟨_, rfl⟩
            · exact .inr (.inl ⟨h1, e, r, t, List.mem_cons_of_mem _ hm, h2⟩)
            · exact .inr (.inr (.inl ⟨h1, m, List.mem_cons_of_mem _ hm, h2⟩))
            · exact .inr (.inr (.inr ⟨h1, m, s, List.mem_cons_of_mem _ hm, h2⟩))
          · cases h
      · rename_i s hs hg
        cases h
        refine .inr (.inr (.inr ⟨rfl, n, s, List.mem_cons_self, entry_of_get up hg, fun m hm => hs m ?_⟩))
        rw [hm]
    | expr e0 r0 =>
      rw [inferColumnList, bind_err] at h
      rcases h with h | ⟨t, ht, h⟩
      · exact .inl ⟨[], e0, r0, cs, rfl, ⟨[], by rw [inferColumnList]⟩, h⟩
      · cases t with
        | tuple ts => cases h; exact .inr (.inl ⟨rfl, e0, r0, _, List.mem_cons_self, ht, ts, rfl⟩)
        | scalar typ k =>
          simp only [bind_err] at h
          rcases h with h | ⟨_, _, h⟩
          · rcases ih h with ⟨pre, e, r, post, rfl, ⟨as, hp⟩, he⟩ | ⟨h1, e, r, t, hm, h2⟩ | ⟨h1, m, hm, h2⟩ |
              ⟨h1, m, s, hm, h2⟩
            · refine .inl ⟨.expr e0 r0 :: pre, e, r, post, rfl, ?_, he⟩
              rw [inferColumnList, ht]
              simp only [bind, Except.bind, hp]
              exact ⟨_, rfl⟩
            · exact .inr (.inl ⟨h1, e, r, t, List.mem_cons_of_mem _ hm, h2⟩)
            · exact .inr (.inr (.inl ⟨h1, m, List.mem_cons_of_mem _ hm, h2⟩))
            · exact .inr (.inr (.inr ⟨h1, m, s, List.mem_cons_of_mem _ hm, h2⟩))
          · cases h

/-! ## VALUES and set operations -/

theorem inferFirstRow_err {sc : ScalarContext Name} {x : SqlError} {es : List (Expr Name)} {count : Nat}
    (h : inferFirstRow (nameOps up) sc count es = .error (.err x)) :
    (∃ pre e post, es = pre ++ e :: post ∧ (∃ ts, inferFirstRow (nameOps up) sc count pre = .ok ts) ∧
      inferExpr (nameOps up) sc e = .error (.err x)) ∨
    x = .valuesScalar ∧ ∃ e t, e ∈ es ∧ inferExpr (nameOps up) sc e = .ok t ∧ t.IsTuple := by
  induction es generalizing count with
  | nil => rw [inferFirstRow] at h; cases h
  | cons y es ih =>
    rw [inferFirstRow, bind_err] at h
    rcases h with h | ⟨t, ht, h⟩
    · exact .inl ⟨[], y, es, rfl, ⟨[], by rw [inferFirstRow]⟩, h⟩
    · cases t with
      | tuple ts => cases h; exact .inr ⟨rfl, y, _, List.mem_cons_self, ht, ts, rfl⟩
      | scalar typ n =>
        simp only [bind_err] at h
        rcases h with h | ⟨_, _, h⟩
        · rcases ih h with ⟨pre, e, post, rfl, ⟨ts, hts⟩, he⟩ | ⟨h1, e, t, hm, h2⟩
          · refine .inl ⟨y :: pre, e, post, rfl, ?_, he⟩
            rw [inferFirstRow, ht]
            simp only [bind, Except.bind, hts]
            exact ⟨_, rfl⟩
          · exact .inr ⟨h1, e, t, List.mem_cons_of_mem _ hm, h2⟩
        · cases h

theorem inferFirstRow_types {sc : ScalarContext Name} {es : List (Expr Name)} {count : Nat}
    {ts : List (Attribute Name)} (h : inferFirstRow (nameOps up) sc count es = .ok ts) :
    ∀ (i : Nat) a, ts[i]? = some a → ∃ e, es[i]? = some e ∧ inferExpr (nameOps up) sc e = .ok a.scalar := by
  induction es generalizing count ts with
  | nil =>
    rw [inferFirstRow] at h
    cases h
    intro i a ha
    simp at ha
  | cons y es ih =>
    rw [inferFirstRow, bind_ok_iff] at h
    obtain ⟨t, ht, h⟩ := h
    cases t with
    | tuple ts => cases h
    | scalar typ n =>
      simp only [bind_ok_iff] at h
      obtain ⟨us, hus, h⟩ := h
      cases h
      intro i a ha
      cases i with
      | zero => cases ha; exact ⟨y, rfl, ht⟩
      | succ i => exact ih hus i a ha

theorem unifyRow_types {sc : ScalarContext Name} {es : List (Expr Name)} {as us : List (Attribute Name)}
    (h : unifyRow (nameOps up) sc as es = .ok us) :
    ∀ (i : Nat) a, us[i]? = some a → ∃ b, as[i]? = some b ∧ Alike a.scalar b.scalar := by
  induction es generalizing as us with
  | nil =>
    rw [unifyRow] at h
    · cases h
      intro i a ha
      simp at ha
    · simp
  | cons y es ih =>
    cases as with
    | nil =>
      rw [unifyRow] at h
      · cases h
        intro i a ha
        simp at ha
      · simp
    | cons b as =>
      rw [unifyRow, bind_ok_iff] at h
      obtain ⟨t, _, h⟩ := h
      rw [bind_ok_iff] at h
      obtain ⟨u, hu, h⟩ := h
      cases u with
      | tuple ts => cases h
      | scalar typ n =>
        simp only [bind_ok_iff] at h
        obtain ⟨vs, hvs, h⟩ := h
        cases h
        intro i a ha
        cases i with
        | zero => cases ha; exact ⟨b, rfl, unify_alike hu⟩
        | succ i => exact ih hvs i a ha

theorem foldRows_types {sc : ScalarContext Name} {rows : List (List (Expr Name))} {as us : List (Attribute Name)}
    (h : foldRows (nameOps up) sc as rows = .ok us) :
    ∀ (i : Nat) a, us[i]? = some a → ∃ b, as[i]? = some b ∧ Alike a.scalar b.scalar := by
  induction rows generalizing as with
  | nil =>
    rw [foldRows] at h
    cases h
    exact fun i a ha => ⟨a, ha, alike_refl _⟩
  | cons r rows ih =>
    rw [foldRows, bind_ok_iff] at h
    obtain ⟨vs, hvs, h⟩ := h
    intro i a ha
    obtain ⟨b, hb, hab⟩ := ih h i a ha
    obtain ⟨c, hc, hbc⟩ := unifyRow_types hvs i b hb
    exact ⟨c, hc, hab.trans' hbc⟩

theorem unifyRow_err {sc : ScalarContext Name} {x : SqlError} {es : List (Expr Name)} {as : List (Attribute Name)}
    (h : unifyRow (nameOps up) sc as es = .error (.err x)) :
    (∃ pre e post, es = pre ++ e :: post ∧ pre.length < as.length ∧
      (∃ ts, unifyRow (nameOps up) sc as pre = .ok ts) ∧ inferExpr (nameOps up) sc e = .error (.err x)) ∨
    ∃ (i : Nat) (a : Attribute Name) (e : Expr Name) (u : ScalarType), as[i]? = some a ∧ es[i]? = some e ∧
      inferExpr (nameOps up) sc e = .ok u ∧ Mismatch a.scalar u x := by
  induction es generalizing as with
  | nil =>
    rw [unifyRow] at h
    · cases h
    · simp
  | cons y es ih =>
    cases as with
    | nil =>
      rw [unifyRow] at h
      · cases h
      · simp
    | cons b as =>
      rw [unifyRow, bind_err] at h
      rcases h with h | ⟨t, ht, h⟩
      · refine .inl ⟨[], y, es, rfl, by simp, ⟨[], ?_⟩, h⟩
        rw [unifyRow]
        simp
      · rw [bind_err] at h
        rcases h with h | ⟨u, hu, h⟩
        · exact .inr ⟨0, b, y, t, rfl, rfl, ht, unify_err h⟩
        · cases u with
          | tuple ts => cases h
          | scalar typ n =>
            simp only [bind_err] at h
            rcases h with h | ⟨_, _, h⟩
            · rcases ih h with ⟨pre, e, post, rfl, hl, ⟨ts, hts⟩, he⟩ | ⟨i, a, e, v, h1, h2, h3, h4⟩
              · refine .inl ⟨y :: pre, e, post, rfl, by simpa using hl, ?_, he⟩
                rw [unifyRow, ht]
                simp only [bind, Except.bind, hu, hts]
                exact ⟨_, rfl⟩
              · exact .inr ⟨i + 1, a, e, v, h1, h2, h3, h4⟩
            · cases h

theorem foldRows_err {sc : ScalarContext Name} {x : SqlError} {rows : List (List (Expr Name))}
    {types : List (Attribute Name)} (h : foldRows (nameOps up) sc types rows = .error (.err x)) :
    ∃ above row below types', rows = above ++ row :: below ∧ foldRows (nameOps up) sc types above = .ok types' ∧
      unifyRow (nameOps up) sc types' row = .error (.err x) := by
  induction rows generalizing types with
  | nil => rw [foldRows] at h; cases h
  | cons r rows ih =>
    rw [foldRows, bind_err] at h
    rcases h with h | ⟨t, ht, h⟩
    · exact ⟨[], r, rows, types, rfl, by rw [foldRows], h⟩
    · obtain ⟨above, row, below, types', rfl, ha, h⟩ := ih h
      refine ⟨r :: above, row, below, types', rfl, ?_, h⟩
      rw [foldRows, ht]
      exact ha

theorem unifyAttributes_err {x : SqlError} {as bs : List (Attribute Name)}
    (h : unifyAttributes as bs = .error (.err x)) : x = .incompatible ∧
      ∃ (i : Nat) (a b : Attribute Name), as[i]? = some a ∧ bs[i]? = some b ∧ a.typ ≠ b.typ := by
  induction as generalizing bs with
  | nil =>
    rw [unifyAttributes] at h
    · cases h
    · simp
  | cons a as ih =>
    cases bs with
    | nil =>
      rw [unifyAttributes] at h
      · cases h
      · simp
    | cons b bs =>
      rw [unifyAttributes, bind_err] at h
      rcases h with h | ⟨u, hu, h⟩
      · have := unify_err h
        unfold Attribute.scalar at this
        cases this with
        | types hne => exact ⟨rfl, 0, a, b, rfl, rfl, hne⟩
      · cases u with
        | tuple ts => cases unify_alike hu
        | scalar typ n =>
          simp only [bind_err] at h
          rcases h with h | ⟨_, _, h⟩
          · obtain ⟨h1, i, c, d, h2⟩ := ih h
            exact ⟨h1, i + 1, c, d, h2⟩
          · cases h

end Verif.Sql
