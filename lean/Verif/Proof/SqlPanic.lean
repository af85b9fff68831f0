import Verif.Proof.SqlSafe
import Verif.Spec.SqlPanic
/-! # Type inference panics exactly if a dead construction is reached -/

namespace Verif.Sql

namespace Chk
variable {α β : Type}

theorem bind_panic {r : Chk α} {f : α → Chk β} :
    (r >>= f) = .error .panic ↔ r = .error .panic ∨ ∃ a, r = .ok a ∧ f a = .error .panic := by
  cases r with
  | error x => simp [bind, Except.bind]
  | ok a => simp [bind, Except.bind]

theorem bind_ok_iff {r : Chk α} {f : α → Chk β} {b : β} :
    (r >>= f) = .ok b ↔ ∃ a, r = .ok a ∧ f a = .ok b := by
  cases r with
  | error x => simp [bind, Except.bind]
  | ok a => simp [bind, Except.bind]

theorem not_ok_panic {a : α} : ((Except.ok a : Chk α) = .error .panic) ↔ False := by simp

theorem not_pure_panic {a : α} : ((pure a : Chk α) = .error .panic) ↔ False := by simp [pure, Except.pure]

theorem not_err_panic {x : SqlError} : ((err x : Chk α) = .error .panic) ↔ False := by simp [err]

theorem ignored_panic {r : Chk α} : ignored r = .error .panic ↔ r = .error .panic := by
  match r with
  | .ok _ => simp [ignored]
  | .error (.err _) => simp [ignored]
  | .error .panic => simp [ignored]

theorem ignored_ok {r : Chk α} : ignored r = .ok () ↔ r ≠ .error .panic := by
  match r with
  | .ok _ => simp [ignored]
  | .error (.err _) => simp [ignored]
  | .error .panic => simp [ignored]

end Chk

open Chk

variable {N : Type} {ops : NameOps N}

/-! ## Lists -/

theorem inferExprs_panic {sc : ScalarContext N} (es : List (Expr N)) :
    inferExprs ops sc es = .error .panic ↔
      ∃ pre e post, es = pre ++ e :: post ∧ (∃ ts, inferExprs ops sc pre = .ok ts) ∧
        inferExpr ops sc e = .error .panic := by
  induction es with
  | nil => simp [inferExprs]
  | cons x es ih =>
    rw [inferExprs, bind_panic]
    constructor
    · rintro (h | ⟨t, ht, h⟩)
      · exact ⟨[], x, es, rfl, ⟨[], by rw [inferExprs]⟩, h⟩
      · rw [bind_panic] at h
        rcases h with h | ⟨a, _, h⟩
        · obtain ⟨pre, e, post, rfl, ⟨ts, hts⟩, he⟩ := ih.1 h
          refine ⟨x :: pre, e, post, rfl, ⟨t :: ts, ?_⟩, he⟩
          rw [inferExprs, ht, hts]
          rfl
        · simp [pure, Except.pure] at h
    · rintro ⟨pre, e, post, h, ⟨ts, hts⟩, he⟩
      match pre, h, hts with
      | [], h, _ => cases h; exact .inl he
      | y :: pre, h, hts =>
        cases h
        rw [inferExprs, bind_ok_iff] at hts
        obtain ⟨t, ht, hts⟩ := hts
        rw [bind_ok_iff] at hts
        obtain ⟨ts', hts, _⟩ := hts
        refine .inr ⟨t, ht, ?_⟩
        rw [bind_panic]
        exact .inl (ih.2 ⟨pre, e, post, rfl, ⟨ts', hts⟩, he⟩)

theorem checkGuards_panic {sc : ScalarContext N} {check : ScalarType → Chk Unit}
    (hc : ∀ t, check t ≠ .error .panic) (ws : List (When N)) :
    checkGuards ops sc check ws = .error .panic ↔
      ∃ pre guard body post, ws = pre ++ .mk guard body :: post ∧
        (∀ g b, .mk g b ∈ pre → ∃ u, inferExpr ops sc g = .ok u ∧ check u = .ok ()) ∧
        inferExpr ops sc guard = .error .panic := by
  induction ws with
  | nil => simp [checkGuards]
  | cons w ws ih =>
    obtain ⟨guard, body⟩ := w
    rw [checkGuards, bind_panic]
    constructor
    · rintro (h | ⟨t, ht, h⟩)
      · exact ⟨[], guard, body, ws, rfl, (fun _ _ h => nomatch h), h⟩
      · rw [bind_panic] at h
        rcases h with h | ⟨a, ha, h⟩
        · exact absurd h (hc t)
        · obtain ⟨pre, g, b, post, rfl, hp, he⟩ := ih.1 h
          refine ⟨.mk guard body :: pre, g, b, post, rfl, ?_, he⟩
          intro g' b' hm
          rcases List.mem_cons.1 hm with hm | hm
          · cases hm; exact ⟨t, ht, ha⟩
          · exact hp g' b' hm
    · rintro ⟨pre, g, b, post, h, hp, he⟩
      match pre, h, hp with
      | [], h, _ => cases h; exact .inl he
      | y :: pre, h, hp =>
        cases h
        obtain ⟨u, hu, hcu⟩ := hp guard body List.mem_cons_self
        refine .inr ⟨u, hu, ?_⟩
        rw [bind_panic]
        exact .inr ⟨(), hcu, ih.2 ⟨pre, g, b, post, rfl, fun g b h => hp g b (List.mem_cons_of_mem _ h), he⟩⟩

theorem foldBodies_panic {sc : ScalarContext N} (typ : ScalarType) (ws : List (When N)) :
    foldBodies ops sc typ ws = .error .panic ↔
      ∃ pre guard body post, ws = pre ++ .mk guard body :: post ∧
        (∃ t, foldBodies ops sc typ pre = .ok t) ∧ inferExpr ops sc body = .error .panic := by
  induction ws generalizing typ with
  | nil => simp [foldBodies]
  | cons w ws ih =>
    obtain ⟨guard, body⟩ := w
    rw [foldBodies, bind_panic]
    constructor
    · rintro (h | ⟨t, ht, h⟩)
      · exact ⟨[], guard, body, ws, rfl, ⟨typ, by rw [foldBodies]⟩, h⟩
      · rw [bind_panic] at h
        rcases h with h | ⟨a, ha, h⟩
        · exact absurd h (post_ne (thenStep_post typ t))
        · obtain ⟨pre, g, b, post, rfl, ⟨u, hu⟩, he⟩ := (ih a).1 h
          refine ⟨.mk guard body :: pre, g, b, post, rfl, ⟨u, ?_⟩, he⟩
          rw [foldBodies, ht]
          show (thenStep typ t >>= fun typ => foldBodies ops sc typ pre) = _
          rw [ha]
          exact hu
    · rintro ⟨pre, g, b, post, h, ⟨u, hu⟩, he⟩
      match pre, h, hu with
      | [], h, _ => cases h; exact .inl he
      | y :: pre, h, hu =>
        cases h
        rw [foldBodies, bind_ok_iff] at hu
        obtain ⟨t, ht, hu⟩ := hu
        rw [bind_ok_iff] at hu
        obtain ⟨a, ha, hu⟩ := hu
        refine .inr ⟨t, ht, ?_⟩
        rw [bind_panic]
        exact .inr ⟨a, ha, (ih a).2 ⟨pre, g, b, post, rfl, ⟨u, hu⟩, he⟩⟩

theorem foldList_panic {sc : ScalarContext N} (typ : Chk ScalarType) (es : List (Expr N)) :
    foldList ops sc typ es = .error .panic ↔
      typ = .error .panic ∨ ∃ e ∈ es, inferExpr ops sc e = .error .panic := by
  induction es generalizing typ with
  | nil => rw [foldList]; simp
  | cons x es ih =>
    rw [foldList.eq_def]
    simp only
    split
    · simp [panics]
    · rename_i t
      rw [ih, bind_panic]
      constructor
      · rintro ((h | ⟨a, _, h⟩) | ⟨e, he, h⟩)
        · exact .inr ⟨x, List.mem_cons_self, h⟩
        · exact absurd h (post_ne (unify_post t a))
        · exact .inr ⟨e, List.mem_cons_of_mem _ he, h⟩
      · rintro (h | ⟨e, he, h⟩)
        · cases h
        · rcases List.mem_cons.1 he with rfl | he
          · exact .inl (.inl h)
          · exact .inr ⟨e, he, h⟩
    · rename_i y
      rw [ih, bind_panic]
      constructor
      · rintro ((h | ⟨a, _, h⟩) | ⟨e, he, h⟩)
        · exact .inr ⟨x, List.mem_cons_self, h⟩
        · cases h
        · exact .inr ⟨e, List.mem_cons_of_mem _ he, h⟩
      · rintro (h | ⟨e, he, h⟩)
        · cases h
        · rcases List.mem_cons.1 he with rfl | he
          · exact .inl (.inl h)
          · exact .inr ⟨e, he, h⟩

theorem checkOrder_panic {sc : ScalarContext N} (ts : List (OrderTerm N)) :
    checkOrder ops sc ts = .error .panic ↔
      ∃ pre e collation direction post, ts = pre ++ .mk e collation direction :: post ∧
        checkOrder ops sc pre = .ok () ∧ inferExpr ops sc e = .error .panic := by
  induction ts with
  | nil => simp [checkOrder]
  | cons x ts ih =>
    obtain ⟨e0, c0, d0⟩ := x
    rw [checkOrder, bind_panic]
    constructor
    · rintro (h | ⟨t, ht, h⟩)
      · exact ⟨[], e0, c0, d0, ts, rfl, (by rw [checkOrder]), h⟩
      · rw [bind_panic] at h
        rcases h with h | ⟨a, ha, h⟩
        · exact absurd h (post_ne (mustBeScalar_post _ t))
        · obtain ⟨pre, e, c, d, post, rfl, hp, he⟩ := ih.1 h
          refine ⟨.mk e0 c0 d0 :: pre, e, c, d, post, rfl, ?_, he⟩
          rw [checkOrder, ht]
          show (mustBeScalar .orderScalar t >>= fun _ => checkOrder ops sc pre) = _
          rw [ha]
          exact hp
    · rintro ⟨pre, e, c, d, post, h, hp, he⟩
      match pre, h, hp with
      | [], h, _ => cases h; exact .inl he
      | y :: pre, h, hp =>
        cases h
        rw [checkOrder, bind_ok_iff] at hp
        obtain ⟨t, ht, hp⟩ := hp
        rw [bind_ok_iff] at hp
        obtain ⟨a, ha, hp⟩ := hp
        refine .inr ⟨t, ht, ?_⟩
        rw [bind_panic]
        exact .inr ⟨a, ha, ih.2 ⟨pre, e, c, d, post, rfl, hp, he⟩⟩

theorem addRelation_ne {sc : ScalarContext N} (name : N) (as : List (Attribute N)) :
    sc.addRelation ops name as ≠ .error .panic := by
  unfold ScalarContext.addRelation
  simp only
  split <;> simp [err]

theorem inferCte_panic {ctx : SetContext N} (i : N) (names : Option (List N)) (query : Select N) :
    inferCte ops ctx (.mk i names query) = .error .panic ↔ inferSelect ops ctx query = .error .panic := by
  rw [inferCte, bind_panic]
  constructor
  · rintro (h | ⟨t, ht, h⟩)
    · exact h
    · cases names with
      | none => simp [pure, Except.pure] at h
      | some cs =>
        simp only [bind_panic] at h
        rcases h with h | ⟨_, _, h⟩
        · exact absurd h (post_ne (selectColumns_post _ cs))
        · simp [pure, Except.pure] at h
  · exact .inl

theorem addCommon_panic {ctx : SetContext N} (sc : ScalarContext N) (cs : List (Cte N)) :
    addCommon ops ctx sc cs = .error .panic ↔
      ∃ pre i names query post, cs = pre ++ .mk i names query :: post ∧
        (∃ sc', addCommon ops ctx sc pre = .ok sc') ∧ inferSelect ops ctx query = .error .panic := by
  induction cs generalizing sc with
  | nil => simp [addCommon]
  | cons x cs ih =>
    obtain ⟨i0, n0, q0⟩ := x
    rw [addCommon, bind_panic, inferCte_panic]
    constructor
    · rintro (h | ⟨t, ht, h⟩)
      · exact ⟨[], i0, n0, q0, cs, rfl, ⟨sc, by rw [addCommon]⟩, h⟩
      · rw [bind_panic] at h
        rcases h with h | ⟨a, ha, h⟩
        · exact absurd h (addRelation_ne _ _)
        · obtain ⟨pre, i, n, q, post, rfl, ⟨sc', hp⟩, he⟩ := (ih a).1 h
          refine ⟨.mk i0 n0 q0 :: pre, i, n, q, post, rfl, ⟨sc', ?_⟩, he⟩
          rw [addCommon, ht]
          show (sc.addRelation ops i0 t.attributes >>= fun sc => addCommon ops ctx sc pre) = _
          rw [ha]
          exact hp
    · rintro ⟨pre, i, n, q, post, h, ⟨sc', hp⟩, he⟩
      match pre, h, hp with
      | [], h, _ => cases h; exact .inl he
      | y :: pre, h, hp =>
        cases h
        rw [addCommon, bind_ok_iff] at hp
        obtain ⟨t, ht, hp⟩ := hp
        rw [bind_ok_iff] at hp
        obtain ⟨a, ha, hp⟩ := hp
        refine .inr ⟨t, ht, ?_⟩
        rw [bind_panic]
        exact .inr ⟨a, ha, (ih a).2 ⟨pre, i, n, q, post, rfl, ⟨sc', hp⟩, he⟩⟩

theorem inferFrom_panic (sc : ScalarContext N) (ts : List (TableExpr N)) :
    inferFrom ops sc ts = .error .panic ↔
      ∃ pre t post, ts = pre ++ t :: post ∧
        ∃ sc' as, inferFrom ops sc pre = .ok (sc', as) ∧ inferTable ops sc' t = .error .panic := by
  induction ts generalizing sc with
  | nil => simp [inferFrom]
  | cons x ts ih =>
    rw [inferFrom, bind_panic]
    constructor
    · rintro (h | ⟨⟨sc1, as1⟩, ht, h⟩)
      · exact ⟨[], x, ts, rfl, sc, [], (by rw [inferFrom]), h⟩
      · simp only [bind_panic] at h
        rcases h with h | ⟨a, ha, h⟩
        · obtain ⟨pre, t, post, rfl, sc', as, hp, he⟩ := (ih sc1).1 h
          refine ⟨x :: pre, t, post, rfl, sc', as1 ++ as, ?_, he⟩
          rw [inferFrom, ht]
          show (inferFrom ops sc1 pre >>= _) = _
          rw [hp]
          rfl
        · simp [pure, Except.pure] at h
    · rintro ⟨pre, t, post, h, sc', as, hp, he⟩
      match pre, h, hp with
      | [], h, hp =>
        cases h
        rw [inferFrom] at hp
        cases hp
        exact .inl he
      | y :: pre, h, hp =>
        cases h
        rw [inferFrom, bind_ok_iff] at hp
        obtain ⟨⟨sc1, as1⟩, ht, hp⟩ := hp
        simp only [bind_ok_iff] at hp
        obtain ⟨⟨sc2, as2⟩, ha, hp⟩ := hp
        cases hp
        refine .inr ⟨(sc1, as1), ht, ?_⟩
        simp only [bind_panic]
        exact .inl ((ih sc1).2 ⟨pre, t, post, rfl, _, _, ha, he⟩)

theorem inferColumnList_panic {sc : ScalarContext N} (hs : sc.symbols.All Symbol.Plain) (generated : TMap N Nat)
    (cs : List (ResultColumn N)) :
    inferColumnList ops sc generated cs = .error .panic ↔
      ∃ pre e rename post, cs = pre ++ .expr e rename :: post ∧
        (∃ as, inferColumnList ops sc generated pre = .ok as) ∧ inferExpr ops sc e = .error .panic := by
  induction cs generalizing generated with
  | nil => simp [inferColumnList]
  | cons x cs ih =>
    cases x with
    | allFrom name =>
      rw [inferColumnList]
      constructor
      · intro h
        split at h
        · cases h
        · rename_i fields hg
          rw [bind_panic] at h
          rcases h with h | ⟨new, hn, h⟩
          · exact absurd h (post_ne (relationAttributes_post (hs.get hg)))
          · simp only [bind_panic] at h
            rcases h with h | ⟨_, _, h⟩
            · obtain ⟨pre, e, r, post, rfl, ⟨as, hp⟩, he⟩ := (ih _).1 h
              refine ⟨.allFrom name :: pre, e, r, post, rfl, ?_, he⟩
              rw [inferColumnList]
              simp only [hg, hn]
              simp only [bind, Except.bind, hp]
              exact ⟨_, rfl⟩
            · simp [pure, Except.pure] at h
        · cases h
      · rintro ⟨pre, e, r, post, h, ⟨as, hp⟩, he⟩
        match pre, h, hp with
        | [], h, _ => cases h
        | y :: pre, h, hp =>
          cases h
          rw [inferColumnList] at hp
          split at hp
          · cases hp
          · rename_i fields hg
            rw [bind_ok_iff] at hp
            obtain ⟨new, hn, hp⟩ := hp
            simp only [bind_ok_iff] at hp
            obtain ⟨as', hp, _⟩ := hp
            simp only
            rw [bind_panic]
            refine .inr ⟨new, hn, ?_⟩
            simp only [bind_panic]
            exact .inl ((ih _).2 ⟨pre, e, r, post, rfl, ⟨as', hp⟩, he⟩)
          · cases hp
    | expr e0 r0 =>
      rw [inferColumnList, bind_panic]
      constructor
      · rintro (h | ⟨t, ht, h⟩)
        · exact ⟨[], e0, r0, cs, rfl, ⟨[], by rw [inferColumnList]⟩, h⟩
        · cases t with
          | tuple _ => cases h
          | scalar typ n =>
            simp only [bind_panic] at h
            rcases h with h | ⟨a, ha, h⟩
            · obtain ⟨pre, e, r, post, rfl, ⟨as, hp⟩, he⟩ := (ih _).1 h
              refine ⟨.expr e0 r0 :: pre, e, r, post, rfl, ?_, he⟩
              rw [inferColumnList, ht]
              simp only [bind, Except.bind, hp]
              exact ⟨_, rfl⟩
            · simp [pure, Except.pure] at h
      · rintro ⟨pre, e, r, post, h, ⟨as, hp⟩, he⟩
        match pre, h, hp with
        | [], h, _ => cases h; exact .inl he
        | y :: pre, h, hp =>
          cases h
          rw [inferColumnList, bind_ok_iff] at hp
          obtain ⟨t, ht, hp⟩ := hp
          cases t with
          | tuple _ => cases hp
          | scalar typ n =>
            simp only [bind_ok_iff] at hp
            obtain ⟨a, ha, _⟩ := hp
            refine .inr ⟨_, ht, ?_⟩
            simp only [bind_panic]
            exact .inl ((ih _).2 ⟨pre, e, r, post, rfl, ⟨a, ha⟩, he⟩)

theorem updateAssignments_panic {sc : ScalarContext N} (map : TMap N (DataType × Bool)) (assigned : TMap N Unit)
    (as : List (Assignment N)) :
    updateAssignments ops sc map assigned as = .error .panic ↔
      ∃ pre columns e post, as = pre ++ ⟨columns, e⟩ :: post ∧
        (∃ m, updateAssignments ops sc map assigned pre = .ok m) ∧ inferExpr ops sc e = .error .panic := by
  induction as generalizing assigned with
  | nil => simp [updateAssignments]
  | cons x as ih =>
    obtain ⟨c0, e0⟩ := x
    rw [updateAssignments, bind_panic]
    constructor
    · rintro (h | ⟨t, ht, h⟩)
      · exact ⟨[], c0, e0, as, rfl, ⟨assigned, by rw [updateAssignments]⟩, h⟩
      · cases t with
        | tuple _ => cases h
        | scalar typ n =>
          simp only [bind_panic] at h
          rcases h with h | ⟨a, ha, h⟩
          · exact absurd h (post_ne (updateColumns_post _ _ _ _ _))
          · obtain ⟨pre, c, e, post, rfl, ⟨m, hp⟩, he⟩ := (ih a).1 h
            refine ⟨⟨c0, e0⟩ :: pre, c, e, post, rfl, ⟨m, ?_⟩, he⟩
            rw [updateAssignments, ht]
            simp only [bind, Except.bind, ha, hp]
    · rintro ⟨pre, c, e, post, h, ⟨m, hp⟩, he⟩
      match pre, h, hp with
      | [], h, _ => cases h; exact .inl he
      | y :: pre, h, hp =>
        cases h
        rw [updateAssignments, bind_ok_iff] at hp
        obtain ⟨t, ht, hp⟩ := hp
        cases t with
        | tuple _ => cases hp
        | scalar typ n =>
          simp only [bind_ok_iff] at hp
          obtain ⟨a, ha, hp⟩ := hp
          refine .inr ⟨_, ht, ?_⟩
          simp only [bind_panic]
          exact .inr ⟨a, ha, (ih a).2 ⟨pre, c, e, post, rfl, ⟨m, hp⟩, he⟩⟩

theorem inferFirstRow_panic {sc : ScalarContext N} (count : Nat) (es : List (Expr N)) :
    inferFirstRow ops sc count es = .error .panic ↔
      ∃ pre e post, es = pre ++ e :: post ∧ (∃ ts, inferFirstRow ops sc count pre = .ok ts) ∧
        inferExpr ops sc e = .error .panic := by
  induction es generalizing count with
  | nil => simp [inferFirstRow]
  | cons x es ih =>
    rw [inferFirstRow, bind_panic]
    constructor
    · rintro (h | ⟨t, ht, h⟩)
      · exact ⟨[], x, es, rfl, ⟨[], by rw [inferFirstRow]⟩, h⟩
      · cases t with
        | tuple _ => cases h
        | scalar typ n =>
          simp only [bind_panic] at h
          rcases h with h | ⟨a, _, h⟩
          · obtain ⟨pre, e, post, rfl, ⟨ts, hts⟩, he⟩ := (ih _).1 h
            refine ⟨x :: pre, e, post, rfl, ?_, he⟩
            rw [inferFirstRow, ht]
            simp only [bind, Except.bind, hts]
            exact ⟨_, rfl⟩
          · simp [pure, Except.pure] at h
    · rintro ⟨pre, e, post, h, ⟨ts, hts⟩, he⟩
      match pre, h, hts with
      | [], h, _ => cases h; exact .inl he
      | y :: pre, h, hts =>
        cases h
        rw [inferFirstRow, bind_ok_iff] at hts
        obtain ⟨t, ht, hts⟩ := hts
        cases t with
        | tuple _ => cases hts
        | scalar typ n =>
          simp only [bind_ok_iff] at hts
          obtain ⟨ts', hts, _⟩ := hts
          refine .inr ⟨_, ht, ?_⟩
          simp only [bind_panic]
          exact .inl ((ih _).2 ⟨pre, e, post, rfl, ⟨ts', hts⟩, he⟩)

theorem unifyRow_panic {sc : ScalarContext N} (as : List (Attribute N)) (es : List (Expr N)) :
    unifyRow ops sc as es = .error .panic ↔
      ∃ pre e post, es = pre ++ e :: post ∧ pre.length < as.length ∧
        (∃ ts, unifyRow ops sc as pre = .ok ts) ∧ inferExpr ops sc e = .error .panic := by
  induction es generalizing as with
  | nil => cases as <;> simp [unifyRow]
  | cons x es ih =>
    cases as with
    | nil => simp [unifyRow]
    | cons a as =>
      have hun : ∀ t, a.scalar.unify t ≠ .error .panic := fun t => post_ne (unify_post _ t)
      have hsc : ∀ t ts, a.scalar.unify t ≠ .ok (.tuple ts) := by
        intro t ts h
        have := unify_post a.scalar t
        rw [h] at this
        obtain ⟨_, _, h⟩ := this ⟨_, _, rfl⟩
        cases h
      rw [unifyRow, bind_panic]
      constructor
      · rintro (h | ⟨t, ht, h⟩)
        · exact ⟨[], x, es, rfl, by simp, ⟨[], by rw [unifyRow]; simp⟩, h⟩
        · rw [bind_panic] at h
          rcases h with h | ⟨u, hu, h⟩
          · exact absurd h (hun t)
          · cases u with
            | tuple ts => exact absurd hu (hsc t ts)
            | scalar typ n =>
              simp only [bind_panic] at h
              rcases h with h | ⟨_, _, h⟩
              · obtain ⟨pre, e, post, rfl, hl, ⟨ts, hts⟩, he⟩ := (ih as).1 h
                refine ⟨x :: pre, e, post, rfl, by simpa using hl, ?_, he⟩
                rw [unifyRow, ht]
                simp only [bind, Except.bind, hu, hts]
                exact ⟨_, rfl⟩
              · simp [pure, Except.pure] at h
      · rintro ⟨pre, e, post, h, hl, ⟨ts, hts⟩, he⟩
        match pre, h, hl, hts with
        | [], h, _, _ => cases h; exact .inl he
        | y :: pre, h, hl, hts =>
          cases h
          rw [unifyRow, bind_ok_iff] at hts
          obtain ⟨t, ht, hts⟩ := hts
          rw [bind_ok_iff] at hts
          obtain ⟨u, hu, hts⟩ := hts
          cases u with
          | tuple ts => exact absurd hu (hsc t ts)
          | scalar typ n =>
            simp only [bind_ok_iff] at hts
            obtain ⟨ts', hts, _⟩ := hts
            refine .inr ⟨t, ht, ?_⟩
            rw [bind_panic]
            refine .inr ⟨_, hu, ?_⟩
            simp only [bind_panic]
            exact .inl ((ih as).2 ⟨pre, e, post, rfl, by simpa using hl, ⟨ts', hts⟩, he⟩)

theorem foldRows_panic {sc : ScalarContext N} (types : List (Attribute N)) (rows : List (List (Expr N))) :
    foldRows ops sc types rows = .error .panic ↔
      ∃ above row below types', rows = above ++ row :: below ∧ foldRows ops sc types above = .ok types' ∧
        unifyRow ops sc types' row = .error .panic := by
  induction rows generalizing types with
  | nil => simp [foldRows]
  | cons x rows ih =>
    rw [foldRows, bind_panic]
    constructor
    · rintro (h | ⟨t, ht, h⟩)
      · exact ⟨[], x, rows, types, rfl, (by rw [foldRows]), h⟩
      · obtain ⟨above, row, below, types', rfl, ha, h⟩ := (ih t).1 h
        refine ⟨x :: above, row, below, types', rfl, ?_, h⟩
        rw [foldRows, ht]
        exact ha
    · rintro ⟨above, row, below, types', h, ha, he⟩
      match above, h, ha with
      | [], h, ha =>
        cases h
        rw [foldRows] at ha
        cases ha
        exact .inl he
      | y :: above, h, ha =>
        cases h
        rw [foldRows, bind_ok_iff] at ha
        obtain ⟨t, ht, ha⟩ := ha
        exact .inr ⟨t, ht, (ih t).2 ⟨above, row, below, types', rfl, ha, he⟩⟩

/-! ## Contexts -/

theorem scalars_iff {sc : ScalarContext N} : sc.Scalars ↔ sc.symbols.All Symbol.Plain := by
  constructor
  · rintro ⟨h1, h2⟩ e he
    have h1 := h1 e he
    have h2 := h2 e he
    cases hv : e.2 with
    | «attribute» t =>
      cases t with
      | tuple ts => exact absurd hv (h1 ts)
      | scalar typ n => exact ⟨typ, n, rfl⟩
    | attributeConflict => exact trivial
    | relation m =>
      intro f hf
      cases hfv : f.2 with
      | tuple ts => exact absurd hfv (h2 m hv f hf ts)
      | scalar typ n => exact ⟨typ, n, rfl⟩
  · intro h
    refine ⟨fun e he ts ht => ?_, fun e he m hm f hf ts ht => ?_⟩
    · have := h e he
      rw [ht] at this
      obtain ⟨_, _, h⟩ := this
      cases h
    · have := h e he
      rw [hm] at this
      obtain ⟨_, _, h⟩ := this f hf
      rw [ht] at h
      cases h

theorem scalars_new (ctx : SetContext N) : (ScalarContext.new ctx).Scalars :=
  scalars_iff.2 fun _ h => nomatch h

theorem addRelation_scalars {sc sc' : ScalarContext N} {name : N} {as : List (Attribute N)}
    (h : sc.addRelation ops name as = .ok sc') (hs : sc.Scalars) :
    sc'.Scalars ∧ sc'.setContext = sc.setContext := by
  unfold ScalarContext.addRelation at h
  simp only at h
  split at h
  · cases h
  · cases h
    refine ⟨scalars_iff.2 ?_, rfl⟩
    refine (addAttributes_plain (scalars_iff.1 hs) as).insert ?_
    refine TMap.All.collect ?_
    intro e he
    obtain ⟨a, _, rfl⟩ := List.mem_map.1 he
    exact ⟨_, _, rfl⟩

theorem addCommon_scalars {ctx : SetContext N} {sc sc' : ScalarContext N} {cs : List (Cte N)}
    (h : addCommon ops ctx sc cs = .ok sc') (hs : sc.Scalars) : sc'.Scalars ∧ sc'.setContext = sc.setContext := by
  induction cs generalizing sc with
  | nil => rw [addCommon] at h; cases h; exact ⟨hs, rfl⟩
  | cons c cs ih =>
    obtain ⟨i, n, q⟩ := c
    rw [addCommon, bind_ok_iff] at h
    obtain ⟨t, _, h⟩ := h
    rw [bind_ok_iff] at h
    obtain ⟨a, ha, h⟩ := h
    obtain ⟨h1, h2⟩ := addRelation_scalars ha hs
    obtain ⟨h3, h4⟩ := ih h h1
    exact ⟨h3, h4.trans h2⟩

theorem inferTable_scalars : (t : TableExpr N) → {sc sc' : ScalarContext N} → {as : List (Attribute N)} →
    inferTable ops sc t = .ok (sc', as) → sc.Scalars → sc'.Scalars ∧ sc'.setContext = sc.setContext
  | .named q alias, sc, sc', as, h, hs => by
    rw [inferTable, bind_ok_iff] at h
    obtain ⟨typ, _, h⟩ := h
    rw [bind_ok_iff] at h
    obtain ⟨i, _, h⟩ := h
    rw [bind_ok_iff] at h
    obtain ⟨a, ha, h⟩ := h
    cases h
    exact addRelation_scalars ha hs
  | .select s alias, sc, sc', as, h, hs => by
    rw [inferTable, bind_ok_iff] at h
    obtain ⟨typ, _, h⟩ := h
    cases h
    exact ⟨hs, rfl⟩
  | .join l r op c, sc, sc', as, h, hs => by
    rw [inferTable, bind_ok_iff] at h
    obtain ⟨⟨sc1, as1⟩, h1, h⟩ := h
    simp only [bind_ok_iff] at h
    obtain ⟨⟨sc2, as2⟩, h2, h⟩ := h
    cases h
    obtain ⟨a1, a2⟩ := inferTable_scalars l h1 hs
    obtain ⟨b1, b2⟩ := inferTable_scalars r h2 a1
    exact ⟨b1, b2.trans a2⟩

theorem inferFrom_scalars {sc sc' : ScalarContext N} {ts : List (TableExpr N)} {as : List (Attribute N)}
    (h : inferFrom ops sc ts = .ok (sc', as)) (hs : sc.Scalars) : sc'.Scalars ∧ sc'.setContext = sc.setContext := by
  induction ts generalizing sc as with
  | nil => rw [inferFrom] at h; cases h; exact ⟨hs, rfl⟩
  | cons t ts ih =>
    rw [inferFrom, bind_ok_iff] at h
    obtain ⟨⟨sc1, as1⟩, h1, h⟩ := h
    simp only [bind_ok_iff] at h
    obtain ⟨⟨sc2, as2⟩, h2, h⟩ := h
    cases h
    obtain ⟨a1, a2⟩ := inferTable_scalars t h1 hs
    obtain ⟨b1, b2⟩ := ih h2 a1
    exact ⟨b1, b2.trans a2⟩

theorem tableContext_scalars {ctx : SetContext N} {name : List N} {r : RowType N} {sc : ScalarContext N}
    (h : tableContext ops ctx name r = .ok sc) : sc.Scalars ∧ sc.setContext = ctx := by
  unfold tableContext at h
  split at h
  · exact addRelation_scalars h (scalars_new ctx)
  · cases h

theorem resolve_nowhere {ctx : SetContext N} {q : List N} :
    ctx.resolveTableName ops q = .error .panic ↔ Nowhere ops ctx q := by
  unfold SetContext.resolveTableName Nowhere
  constructor
  · intro h
    split at h
    · rename_i t
      split at h
      · cases h
      · rename_i h1
        split at h
        · rename_i h2
          exact ⟨t, rfl, h1, h2⟩
        · split at h <;> cases h
    · split at h
      · cases h
      · split at h
        · cases h
        · split at h <;> cases h
    · cases h
  · rintro ⟨t, rfl, h1, h2⟩
    simp [h1, h2, panics]

theorem resolve_nonempty {ctx : SetContext N} {q : List N} {r : RowType N}
    (h : ctx.resolveTableName ops q = .ok r) : q ≠ [] := by
  rintro rfl
  cases h

theorem tableContext_ne {ctx : SetContext N} {q : List N} {r : RowType N}
    (h : ctx.resolveTableName ops q = .ok r) : tableContext ops ctx q r ≠ .error .panic := by
  unfold tableContext
  split
  · exact addRelation_ne _ _
  · rename_i hn
    exact absurd (List.getLast?_eq_none_iff.1 hn) (resolve_nonempty h)

theorem inferElse_scalar {sc : ScalarContext N} {t u : ScalarType} {els : Option (Expr N)}
    (h : inferElse ops sc t els = .ok u) : u.IsScalar := by
  unfold inferElse at h
  split at h <;> split at h
  · cases h; exact ⟨_, _, rfl⟩
  · cases h
  · rw [bind_ok_iff] at h
    obtain ⟨_, _, h⟩ := h
    rw [bind_ok_iff] at h
    obtain ⟨_, _, h⟩ := h
    cases h
    exact ⟨_, _, rfl⟩
  · cases h

theorem Chk.post_of_ok {α : Type} {r : Chk α} {P : α → Prop} {a : α} (h : r.Post P) (ha : r = .ok a) : P a := by
  subst ha
  exact h

theorem Chk.scalar_of {r : Chk ScalarType} {ts : List ScalarType} (h : r.Post ScalarType.IsScalar)
    (ha : r = .ok (.tuple ts)) : False := by
  obtain ⟨_, _, h⟩ := Chk.post_of_ok h ha
  cases h

/-- Only tuples are tuples. -/
theorem tuple_of_ok {sc : ScalarContext N} (hs : sc.Scalars) {e : Expr N} {ts : List ScalarType}
    (h : inferExpr ops sc e = .ok (.tuple ts)) : ∃ es, e = .tuple es := by
  cases e with
  | tuple es => exact ⟨es, rfl⟩
  | literal l => rw [inferExpr] at h; cases l <;> cases h
  | ident q =>
    rw [inferExpr] at h
    have hs := scalars_iff.1 hs
    exfalso
    unfold ScalarContext.inferType at h
    split at h
    · split at h
      · cases h
      · rename_i hg
        cases h
        obtain ⟨_, _, h⟩ := hs.get hg
        cases h
      · cases h
      · cases h
    · split at h
      · rename_i hg
        split at h
        · rename_i hg'
          cases h
          obtain ⟨_, _, h⟩ := TMap.All.get (hs.get hg) hg'
          cases h
        · cases h
      · cases h
    · cases h
  | select s =>
    rw [inferExpr, bind_ok_iff] at h
    obtain ⟨r, _, h⟩ := h
    exact (scalar_of (singleColumn_post _ r) h).elim
  | unary op e =>
    rw [inferExpr, bind_ok_iff] at h
    obtain ⟨r, _, h⟩ := h
    exact (scalar_of (unaryType_post _ r) h).elim
  | binary op l r =>
    rw [inferExpr, bind_ok_iff] at h
    obtain ⟨r, _, h⟩ := h
    rw [bind_ok_iff] at h
    obtain ⟨r, _, h⟩ := h
    exact (scalar_of (binaryType_post _ _ _) h).elim
  | comparison op l r =>
    rw [inferExpr, bind_ok_iff] at h
    obtain ⟨r, _, h⟩ := h
    rw [bind_ok_iff] at h
    obtain ⟨r, _, h⟩ := h
    exact (scalar_of (comparisonType_post _ _ _) h).elim
  | between e l u =>
    rw [inferExpr, bind_ok_iff] at h
    obtain ⟨r, _, h⟩ := h
    rw [bind_ok_iff] at h
    obtain ⟨r, _, h⟩ := h
    rw [bind_ok_iff] at h
    obtain ⟨r, _, h⟩ := h
    exact (scalar_of (betweenType_post _ _ _) h).elim
  | inSet e set =>
    rw [inferExpr, bind_ok_iff] at h
    obtain ⟨r, _, h⟩ := h
    rw [bind_ok_iff] at h
    obtain ⟨r, _, h⟩ := h
    rw [bind_ok_iff] at h
    obtain ⟨r, _, h⟩ := h
    rw [bind_ok_iff] at h
    obtain ⟨b, _, h⟩ := h
    split at h <;> cases h
  | case operand ws els =>
    exfalso
    cases operand with
    | none =>
      rw [inferExpr, bind_ok_iff] at h
      obtain ⟨r, _, h⟩ := h
      rw [bind_ok_iff] at h
      obtain ⟨r, _, h⟩ := h
      obtain ⟨_, _, h⟩ := inferElse_scalar h
      cases h
    | some e =>
      rw [inferExpr, bind_ok_iff] at h
      obtain ⟨r, _, h⟩ := h
      rw [bind_ok_iff] at h
      obtain ⟨r, _, h⟩ := h
      rw [bind_ok_iff] at h
      obtain ⟨r, _, h⟩ := h
      obtain ⟨_, _, h⟩ := inferElse_scalar h
      cases h

/-! ## CASE -/

theorem foldBodies_tuple {sc : ScalarContext N} {t : ScalarType} {ws : List (When N)} {ts : List ScalarType}
    (h : foldBodies ops sc t ws = .ok (.tuple ts)) : ws = [] ∧ t = .tuple ts := by
  induction ws generalizing t with
  | nil => rw [foldBodies] at h; cases h; exact ⟨rfl, rfl⟩
  | cons w ws ih =>
    obtain ⟨g, b⟩ := w
    rw [foldBodies, bind_ok_iff] at h
    obtain ⟨u, _, h⟩ := h
    rw [bind_ok_iff] at h
    obtain ⟨v, hv, h⟩ := h
    obtain ⟨_, rfl⟩ := ih h
    exact (scalar_of (thenStep_post _ _) hv).elim

/-- What a CASE does after its operand. -/
def caseTail (ops : NameOps N) (sc : ScalarContext N) (check : ScalarType → Chk Unit) (ws : List (When N))
    (els : Option (Expr N)) : Chk ScalarType := do
  ignored (checkGuards ops sc check ws)
  let t ← inferBodies ops sc ws
  inferElse ops sc t els

theorem caseTail_panic {sc : ScalarContext N} {check : ScalarType → Chk Unit} {ws : List (When N)}
    {els : Option (Expr N)} :
    caseTail ops sc check ws els = .error .panic ↔
      checkGuards ops sc check ws = .error .panic ∨ inferBodies ops sc ws = .error .panic ∨
      (∃ ts, inferBodies ops sc ws = .ok (.tuple ts)) ∨
      checkGuards ops sc check ws ≠ .error .panic ∧ (∃ typ n, inferBodies ops sc ws = .ok (.scalar typ n)) ∧
        ∃ e, els = some e ∧ inferExpr ops sc e = .error .panic := by
  unfold caseTail
  by_cases hg : checkGuards ops sc check ws = .error .panic
  · rw [bind_panic, ignored_panic]
    simp [hg]
  · rw [ignored_ok.2 hg]
    show (inferBodies ops sc ws >>= fun t => inferElse ops sc t els) = .error .panic ↔ _
    rw [bind_panic]
    constructor
    · rintro (h | ⟨t, ht, h⟩)
      · exact .inr (.inl h)
      · cases t with
        | tuple ts => exact .inr (.inr (.inl ⟨ts, ht⟩))
        | scalar typ n =>
          refine .inr (.inr (.inr ⟨hg, ⟨typ, n, ht⟩, ?_⟩))
          cases els with
          | none => simp [inferElse] at h
          | some e =>
            refine ⟨e, rfl, ?_⟩
            rw [inferElse] at h
            simp only [bind_panic] at h
            rcases h with h | ⟨u, _, h⟩
            · exact h
            · rcases h with h | ⟨_, _, h⟩
              · exact absurd h (post_ne (isCompatible_post _ _))
              · simp [pure, Except.pure] at h
    · rintro (h | h | ⟨ts, h⟩ | ⟨_, ⟨typ, n, h⟩, e, rfl, he⟩)
      · exact absurd h hg
      · exact .inl h
      · refine .inr ⟨_, h, ?_⟩
        unfold inferElse
        cases els <;> rfl
      · refine .inr ⟨_, h, ?_⟩
        rw [inferElse]
        simp only [bind_panic]
        exact .inl he

theorem caseTail_ok {sc : ScalarContext N} {check : ScalarType → Chk Unit} {ws : List (When N)} :
    (∃ t, caseTail ops sc check ws none = .ok t) ↔
      checkGuards ops sc check ws ≠ .error .panic ∧ ∃ typ n, inferBodies ops sc ws = .ok (.scalar typ n) := by
  unfold caseTail
  simp only [bind_ok_iff]
  constructor
  · rintro ⟨t, ⟨⟩, h, b, hb, ht⟩
    have h := ignored_ok.1 h
    cases b with
    | tuple ts => simp [inferElse, panics] at ht
    | scalar typ n => exact ⟨h, typ, n, hb⟩
  · rintro ⟨h, typ, n, hb⟩
    exact ⟨.scalar typ true, (), ignored_ok.2 h, _, hb, by simp [inferElse]⟩

theorem inferBodies_tuple {sc : ScalarContext N} (hs : sc.Scalars) {ws : List (When N)} :
    (∃ ts, inferBodies ops sc ws = .ok (.tuple ts)) ↔
      ∃ guard es, ws = [.mk guard (.tuple es)] ∧ ∃ t, inferExpr ops sc (.tuple es) = .ok t := by
  constructor
  · rintro ⟨ts, h⟩
    cases ws with
    | nil => rw [inferBodies] at h; cases h
    | cons w ws =>
      obtain ⟨g, b⟩ := w
      rw [inferBodies, bind_ok_iff] at h
      obtain ⟨t, ht, h⟩ := h
      obtain ⟨rfl, rfl⟩ := foldBodies_tuple h
      obtain ⟨es, rfl⟩ := tuple_of_ok hs ht
      exact ⟨g, es, rfl, _, ht⟩
  · rintro ⟨g, es, rfl, t, ht⟩
    rw [inferBodies, ht]
    have : ∃ ts, t = .tuple ts := by
      rw [inferExpr, bind_ok_iff] at ht
      obtain ⟨ts, _, h⟩ := ht
      cases h
      exact ⟨_, rfl⟩
    obtain ⟨ts, rfl⟩ := this
    exact ⟨ts, rfl⟩

/-- A THEN part panics: the first, or another after those before it have a type. -/
theorem inferBodies_panic {sc : ScalarContext N} {ws : List (When N)} :
    inferBodies ops sc ws = .error .panic ↔ ws = [] ∨
      (∃ guard body post, ws = .mk guard body :: post ∧ inferExpr ops sc body = .error .panic) ∨
      ∃ pre guard body post, ws = pre ++ .mk guard body :: post ∧ (∃ t, inferBodies ops sc pre = .ok t) ∧
        inferExpr ops sc body = .error .panic := by
  cases ws with
  | nil => simp [inferBodies, panics]
  | cons w ws =>
    obtain ⟨g0, b0⟩ := w
    rw [inferBodies, bind_panic]
    constructor
    · rintro (h | ⟨t, ht, h⟩)
      · exact .inr (.inl ⟨g0, b0, ws, rfl, h⟩)
      · obtain ⟨pre, g, b, post, rfl, ⟨u, hu⟩, he⟩ := (foldBodies_panic t ws).1 h
        refine .inr (.inr ⟨.mk g0 b0 :: pre, g, b, post, rfl, ⟨u, ?_⟩, he⟩)
        rw [inferBodies, ht]
        exact hu
    · rintro (h | ⟨g, b, post, h, he⟩ | ⟨pre, g, b, post, h, ⟨u, hu⟩, he⟩)
      · cases h
      · cases h; exact .inl he
      · match pre, h, hu with
        | [], h, hu => rw [inferBodies] at hu; cases hu
        | y :: pre, h, hu =>
          cases h
          rw [inferBodies, bind_ok_iff] at hu
          obtain ⟨t, ht, hu⟩ := hu
          exact .inr ⟨t, ht, (foldBodies_panic t _).2 ⟨pre, g, b, post, rfl, ⟨u, hu⟩, he⟩⟩

theorem case_eq {sc : ScalarContext N} {operand : Option (Expr N)}
    (ho : ∀ e, operand = some e → (Work.expr sc e).Accepted ops) :
    ∃ check : ScalarType → Chk Unit, (∀ t, check t ≠ .error .panic) ∧
      (∀ ws els, inferExpr ops sc (.case operand ws els) = caseTail ops sc check ws els) ∧
      ∀ g b, Passes ops sc operand (.mk g b) ↔ ∃ u, inferExpr ops sc g = .ok u ∧ check u = .ok () := by
  cases operand with
  | none =>
    refine ⟨guardLogical, fun t => post_ne (guardLogical_post t), fun ws els => by rw [inferExpr]; rfl, fun g b => ?_⟩
    unfold Passes
    constructor
    · rintro ⟨n, h⟩
      exact ⟨_, h, rfl⟩
    · rintro ⟨u, h, hu⟩
      unfold guardLogical at hu
      split at hu
      · exact ⟨_, h⟩
      · cases hu
  | some e =>
    obtain ⟨t, ht⟩ := ho e rfl
    refine ⟨guardMatches t, fun u => post_ne (guardMatches_post t u), fun ws els => ?_, fun g b => ?_⟩
    · rw [inferExpr, ht]; rfl
    · unfold Passes
      constructor
      · rintro ⟨t', u, ht', hu, hc⟩
        rw [ht] at ht'
        cases ht'
        refine ⟨u, hu, ?_⟩
        simp [guardMatches, hc, bind, Except.bind, pure, Except.pure]
      · rintro ⟨u, hu, hc⟩
        refine ⟨t, u, ht, hu, ?_⟩
        rw [guardMatches, bind_ok_iff] at hc
        obtain ⟨b, hb, hc⟩ := hc
        cases b with
        | true => exact hb
        | false => simp [err] at hc

theorem case_accepted {sc : ScalarContext N} {operand : Option (Expr N)} {ws : List (When N)} {els : Option (Expr N)}
    (h : (Work.expr sc (.case operand ws els)).Accepted ops) :
    ∀ e, operand = some e → (Work.expr sc e).Accepted ops := by
  rintro e rfl
  obtain ⟨t, h⟩ := h
  rw [inferExpr, bind_ok_iff] at h
  obtain ⟨u, hu, _⟩ := h
  exact ⟨u, hu⟩

theorem exprs_accepted {sc : ScalarContext N} {es : List (Expr N)} :
    (Work.expr sc (.tuple es)).Accepted ops ↔ ∃ ts, inferExprs ops sc es = .ok ts := by
  unfold Work.Accepted
  simp only [inferExpr, bind_ok_iff, pure, Except.pure]
  constructor
  · rintro ⟨_, ts, h, _⟩; exact ⟨ts, h⟩
  · rintro ⟨ts, h⟩; exact ⟨_, ts, h, rfl⟩

theorem inferElement_panic {sc : ScalarContext N} {es : List (Expr N)} :
    inferSet ops sc (.list es) = .error .panic ↔ es = [] ∨ ∃ e ∈ es, inferExpr ops sc e = .error .panic := by
  rw [inferSet, bind_panic]
  cases es with
  | nil => simp [inferList, panics]
  | cons x es =>
    rw [inferList, foldList_panic]
    constructor
    · rintro ((h | ⟨e, he, h⟩) | ⟨t, _, h⟩)
      · exact .inr ⟨x, List.mem_cons_self, h⟩
      · exact .inr ⟨e, List.mem_cons_of_mem _ he, h⟩
      · cases t <;> simp [err, pure, Except.pure] at h
    · rintro (h | ⟨e, he, h⟩)
      · cases h
      · rcases List.mem_cons.1 he with rfl | he
        · exact .inl (.inl h)
        · exact .inl (.inr ⟨e, he, h⟩)

/-- After the operand, IN panics exactly if its right side does. -/
theorem inSet_panic {sc : ScalarContext N} {e : Expr N} {set : SetSpec N} :
    inferExpr ops sc (.inSet e set) = .error .panic ↔
      inferExpr ops sc e = .error .panic ∨
      (Work.expr sc e).Accepted ops ∧ inferSet ops sc set = .error .panic := by
  rw [inferExpr, bind_panic]
  constructor
  · rintro (h | ⟨t, ht, h⟩)
    · exact .inl h
    · rw [bind_panic] at h
      rcases h with h | ⟨r, _, h⟩
      · exact .inr ⟨⟨t, ht⟩, h⟩
      · rw [bind_panic] at h
        rcases h with h | ⟨c, _, h⟩
        · exact absurd h (post_ne (singleColumn_post _ _))
        · rw [bind_panic] at h
          rcases h with h | ⟨b, _, h⟩
          · exact absurd h (post_ne (isCompatible_post _ _))
          · cases b <;> simp [err, pure, Except.pure] at h
  · rintro (h | ⟨⟨t, ht⟩, h⟩)
    · exact .inl h
    · refine .inr ⟨t, ht, ?_⟩
      rw [bind_panic]
      exact .inl h

/-- A query up to a place: what is accepted of it. -/
theorem select_accepted {ctx : SetContext N} {common : List (Cte N)} {x : SetExpr N} {orderBy : List (OrderTerm N)} :
    (Work.query ctx (.mk common x orderBy none)).Accepted ops ↔
      ∃ sc, addCommon ops ctx (ScalarContext.new ctx) common = .ok sc ∧ (Work.rows ctx x).Accepted ops ∧
        checkOrder ops sc orderBy = .ok () := by
  unfold Work.Accepted
  simp only [inferSelect, bind_ok_iff, checkLimit]
  constructor
  · rintro ⟨_, sc, hc, r, hr, _, ho, _⟩
    exact ⟨sc, hc, ⟨r, hr⟩, ho⟩
  · rintro ⟨sc, hc, ⟨r, hr⟩, ho⟩
    exact ⟨r, sc, hc, r, hr, (), ho, (), trivial, rfl⟩

theorem limit_accepted {ctx : SetContext N} {common : List (Cte N)} {x : SetExpr N} {orderBy : List (OrderTerm N)}
    {n : Expr N} :
    (Work.query ctx (.mk common x orderBy (some (.mk n none)))).Accepted ops ↔
      (Work.query ctx (.mk common x orderBy none)).Accepted ops ∧
      ∃ t, inferExpr ops (ScalarContext.new ctx) n = .ok t ∧ mustBeCount .limitNumeric t = .ok () := by
  rw [select_accepted]
  unfold Work.Accepted
  simp only [inferSelect, bind_ok_iff, checkLimit, checkOffset]
  constructor
  · rintro ⟨_, sc, hc, r, hr, _, ho, _, ⟨t, ht, _, hm, _⟩, _⟩
    rw [(addCommon_scalars hc (scalars_new ctx)).2] at ht
    exact ⟨⟨sc, hc, ⟨r, hr⟩, ho⟩, t, ht, hm⟩
  · rintro ⟨⟨sc, hc, ⟨r, hr⟩, ho⟩, t, ht, hm⟩
    refine ⟨r, sc, hc, r, hr, (), ho, (), ⟨t, ?_, (), hm, trivial⟩, rfl⟩
    rw [(addCommon_scalars hc (scalars_new ctx)).2]
    exact ht

/-- The rows of VALUES up to a place. -/
theorem values_accepted {ctx : SetContext N} {row : List (Expr N)} {rows : List (List (Expr N))} {r : RowType N} :
    inferSetExpr ops ctx (.values (row :: rows)) = .ok r ↔
      ∃ ts us, inferFirstRow ops (ScalarContext.new ctx) 0 row = .ok ts ∧
        foldRows ops (ScalarContext.new ctx) ts rows = .ok us ∧ r = .plain us := by
  simp only [inferSetExpr, inferValues, bind_ok_iff, pure, Except.pure, Except.ok.injEq]
  constructor
  · rintro ⟨us, ⟨ts, h1, h2⟩, rfl⟩
    exact ⟨ts, us, h1, h2, rfl⟩
  · rintro ⟨ts, us, h1, h2, rfl⟩
    exact ⟨us, ⟨ts, h1, h2⟩, rfl⟩

theorem foldRows_snoc {sc : ScalarContext N} (ts : List (Attribute N)) (above : List (List (Expr N)))
    (row : List (Expr N)) :
    foldRows ops sc ts (above ++ [row]) = (do unifyRow ops sc (← foldRows ops sc ts above) row) := by
  induction above generalizing ts with
  | nil =>
    simp only [List.nil_append, foldRows]
    cases h : unifyRow ops sc ts row <;> simp [bind, Except.bind, h]
  | cons x above ih =>
    simp only [List.cons_append, foldRows]
    cases unifyRow ops sc ts x with
    | error _ => simp [bind, Except.bind]
    | ok us => simp only [bind, Except.bind]; exact ih us

theorem query_accepted {ctx : SetContext N} {mode : SelectMode} {columns : ResultColumns N}
    {froms : List (TableExpr N)} {wher : Option (Expr N)} {groupBy : Option (GroupBy N)} :
    (Work.rows ctx (.query mode columns froms wher groupBy)).Accepted ops ↔
      ∃ sc as, inferFrom ops (ScalarContext.new ctx) froms = .ok (sc, as) ∧
        checkPredicate ops sc .whereBoolean wher = .ok () ∧ checkGroupBy ops sc groupBy = .ok () ∧
        ∃ r, inferColumns ops sc as columns = .ok r := by
  unfold Work.Accepted
  simp only [inferSetExpr, bind_ok_iff]
  constructor
  · rintro ⟨r, ⟨sc, as⟩, h1, _, h2, _, h3, h4⟩
    exact ⟨sc, as, h1, h2, h3, r, h4⟩
  · rintro ⟨sc, as, h1, h2, h3, r, h4⟩
    exact ⟨r, (sc, as), h1, (), h2, (), h3, h4⟩

theorem checkPredicate_panic {sc : ScalarContext N} {msg : SqlError} {wher : Option (Expr N)} :
    checkPredicate ops sc msg wher = .error .panic ↔ ∃ e, wher = some e ∧ inferExpr ops sc e = .error .panic := by
  cases wher with
  | none => simp [checkPredicate]
  | some e =>
    rw [checkPredicate, bind_panic]
    constructor
    · rintro (h | ⟨t, _, h⟩)
      · exact ⟨e, rfl, h⟩
      · exact absurd h (post_ne (mustBeLogical_post _ t))
    · rintro ⟨_, h, he⟩
      cases h
      exact .inl he

theorem update_accepted {ctx : SetContext N} {name : List N} {as : List (Assignment N)} :
    (Work.statement ctx (.update ⟨name, as, none⟩)).Accepted ops ↔
      ∃ r sc m, ctx.resolveTableName ops name = .ok r ∧ tableContext ops ctx name r = .ok sc ∧
        updateAssignments ops sc (columnMap ops r) [] as = .ok m := by
  unfold Work.Accepted
  simp only [Statement.validateType, UpdateStatement.validateType, bind_ok_iff, checkPredicate]
  constructor
  · rintro ⟨r, hr, sc, hc, m, hm, _⟩
    exact ⟨r, sc, m, hr, hc, hm⟩
  · rintro ⟨r, sc, m, hr, hc, hm⟩
    exact ⟨r, hr, sc, hc, m, hm, trivial⟩

/-! ## One step -/

theorem dead_panics {w : Work N} (h : Dead ops w) : w.Panics ops := by
  cases h with
  | emptyList he => exact inSet_panic.2 (.inr ⟨he, inferElement_panic.2 (.inl rfl)⟩)
  | inTable he hq => exact inSet_panic.2 (.inr ⟨he, by rw [inferSet]; exact resolve_nowhere.2 hq⟩)
  | noBranch ho =>
    obtain ⟨check, _, h, _⟩ := case_eq ho
    show inferExpr ops _ _ = _
    rw [h]
    exact caseTail_panic.2 (.inr (.inl (inferBodies_panic.2 (.inl rfl))))
  | @tupleBranch sc operand els guard es ho ht =>
    obtain ⟨check, _, h, _⟩ := case_eq ho
    show inferExpr ops _ _ = _
    rw [h]
    refine caseTail_panic.2 (.inr (.inr (.inl ?_)))
    obtain ⟨t, ht⟩ := ht
    have : ∃ ts, t = .tuple ts := by
      rw [inferExpr, bind_ok_iff] at ht
      obtain ⟨ts, _, h⟩ := ht
      cases h
      exact ⟨_, rfl⟩
    obtain ⟨ts, rfl⟩ := this
    exact ⟨ts, by rw [inferBodies, ht]; rfl⟩
  | noRows => show inferSetExpr ops _ _ = _; rw [inferSetExpr]; rfl
  | table hq =>
    show inferTable ops _ _ = _
    rw [inferTable, bind_panic]
    exact .inl (resolve_nowhere.2 hq)
  | insert hq | update hq | delete hq =>
    show Statement.validateType ops _ _ = _
    first
    | rw [Statement.validateType, InsertStatement.validateType, bind_panic]; exact .inl (resolve_nowhere.2 hq)
    | rw [Statement.validateType, UpdateStatement.validateType, bind_panic]; exact .inl (resolve_nowhere.2 hq)
    | rw [Statement.validateType, DeleteStatement.validateType, bind_panic]; exact .inl (resolve_nowhere.2 hq)


theorem next_panics {w w' : Work N} (h : Next ops w w') (hp : w'.Panics ops) : w.Panics ops := by
  cases h with
  | tuple hpre =>
    show inferExpr ops _ _ = _
    rw [inferExpr, bind_panic]
    exact .inl ((inferExprs_panic _).2 ⟨_, _, _, rfl, exprs_accepted.1 hpre, hp⟩)
  | select =>
    show inferExpr ops _ _ = _
    rw [inferExpr, bind_panic]
    exact .inl hp
  | unary | binaryLeft | comparisonLeft | betweenOperand =>
    show inferExpr ops _ _ = _
    rw [inferExpr, bind_panic]
    exact .inl hp
  | binaryRight hl | comparisonRight hl | betweenLower hl =>
    obtain ⟨t, ht⟩ := hl
    show inferExpr ops _ _ = _
    rw [inferExpr, bind_panic]
    refine .inr ⟨t, ht, ?_⟩
    rw [bind_panic]
    exact .inl hp
  | betweenUpper he hl =>
    obtain ⟨t, ht⟩ := he
    obtain ⟨u, hu⟩ := hl
    show inferExpr ops _ _ = _
    rw [inferExpr, bind_panic]
    refine .inr ⟨t, ht, ?_⟩
    rw [bind_panic]
    refine .inr ⟨u, hu, ?_⟩
    rw [bind_panic]
    exact .inl hp
  | inOperand => exact inSet_panic.2 (.inl hp)
  | inElement he hx => exact inSet_panic.2 (.inr ⟨he, inferElement_panic.2 (.inr ⟨_, hx, hp⟩)⟩)
  | inSelect he => exact inSet_panic.2 (.inr ⟨he, by rw [inferSet]; exact hp⟩)
  | caseOperand =>
    show inferExpr ops _ _ = _
    rw [inferExpr, bind_panic]
    exact .inl hp
  | caseGuard ho hpre =>
    obtain ⟨check, hc, h, hpass⟩ := case_eq ho
    show inferExpr ops _ _ = _
    rw [h]
    refine caseTail_panic.2 (.inl ((checkGuards_panic hc _).2 ⟨_, _, _, _, rfl, ?_, hp⟩))
    intro g b hm
    exact (hpass g b).1 (hpre _ hm)
  | caseFirst ho =>
    obtain ⟨check, hc, h, hpass⟩ := case_eq ho
    show inferExpr ops _ _ = _
    rw [h]
    exact caseTail_panic.2 (.inr (.inl (inferBodies_panic.2 (.inr (.inl ⟨_, _, _, rfl, hp⟩)))))
  | @caseSecond sc operand first guard body guard' post els ho hf =>
    obtain ⟨check, hc, h, hpass⟩ := case_eq ho
    obtain ⟨t, ht⟩ := hf
    show inferExpr ops _ _ = _
    rw [h]
    refine caseTail_panic.2 (.inr (.inl (inferBodies_panic.2 (.inr (.inr
      ⟨[.mk guard first], guard', body, post, rfl, ⟨t, ?_⟩, hp⟩)))))
    rw [inferBodies, ht]
    simp [bind, Except.bind, foldBodies]
  | caseLater hpre =>
    obtain ⟨check, hc, h, hpass⟩ := case_eq (case_accepted hpre)
    show inferExpr ops _ _ = _
    rw [h]
    obtain ⟨t, ht⟩ := hpre
    rw [h] at ht
    obtain ⟨_, typ, n, hb⟩ := caseTail_ok.1 ⟨t, ht⟩
    exact caseTail_panic.2 (.inr (.inl (inferBodies_panic.2 (.inr (.inr ⟨_, _, _, _, rfl, ⟨_, hb⟩, hp⟩)))))
  | caseElse hpre =>
    obtain ⟨check, hc, h, hpass⟩ := case_eq (case_accepted hpre)
    show inferExpr ops _ _ = _
    rw [h]
    obtain ⟨t, ht⟩ := hpre
    rw [h] at ht
    obtain ⟨h1, h2⟩ := caseTail_ok.1 ⟨t, ht⟩
    exact caseTail_panic.2 (.inr (.inr (.inr ⟨h1, h2, _, rfl, hp⟩)))
  | joinLeft =>
    show inferTable ops _ _ = _
    rw [inferTable, bind_panic]
    exact .inl hp
  | joinRight hl =>
    show inferTable ops _ _ = _
    rw [inferTable, bind_panic]
    refine .inr ⟨_, hl, ?_⟩
    simp only [bind_panic]
    exact .inl hp
  | tableSelect =>
    show inferTable ops _ _ = _
    rw [inferTable, bind_panic]
    exact .inl hp
  | common hpre =>
    show inferSelect ops _ _ = _
    rw [inferSelect, bind_panic]
    exact .inl ((addCommon_panic _ _).2 ⟨_, _, _, _, _, rfl, ⟨_, hpre⟩, hp⟩)
  | body hc =>
    show inferSelect ops _ _ = _
    rw [inferSelect, bind_panic]
    refine .inr ⟨_, hc, ?_⟩
    rw [bind_panic]
    exact .inl hp
  | order hc hpre =>
    obtain ⟨sc', hc', ⟨r, hr⟩, ho⟩ := select_accepted.1 hpre
    rw [hc] at hc'
    cases hc'
    show inferSelect ops _ _ = _
    rw [inferSelect, bind_panic]
    refine .inr ⟨_, hc, ?_⟩
    rw [bind_panic]
    refine .inr ⟨r, hr, ?_⟩
    rw [bind_panic]
    exact .inl ((checkOrder_panic _).2 ⟨_, _, _, _, _, rfl, ho, hp⟩)
  | limit hpre =>
    obtain ⟨sc, hc, ⟨r, hr⟩, ho⟩ := select_accepted.1 hpre
    show inferSelect ops _ _ = _
    rw [inferSelect, bind_panic]
    refine .inr ⟨_, hc, ?_⟩
    rw [bind_panic]
    refine .inr ⟨r, hr, ?_⟩
    rw [bind_panic]
    refine .inr ⟨(), ho, ?_⟩
    rw [bind_panic, checkLimit, bind_panic, (addCommon_scalars hc (scalars_new _)).2]
    exact .inl (.inl hp)
  | offset hpre =>
    obtain ⟨hpre, t, ht, hm⟩ := limit_accepted.1 hpre
    obtain ⟨sc, hc, ⟨r, hr⟩, ho⟩ := select_accepted.1 hpre
    show inferSelect ops _ _ = _
    rw [inferSelect, bind_panic]
    refine .inr ⟨_, hc, ?_⟩
    rw [bind_panic]
    refine .inr ⟨r, hr, ?_⟩
    rw [bind_panic]
    refine .inr ⟨(), ho, ?_⟩
    rw [bind_panic, checkLimit, bind_panic, (addCommon_scalars hc (scalars_new _)).2]
    refine .inl (.inr ⟨t, ht, ?_⟩)
    rw [bind_panic]
    refine .inr ⟨(), hm, ?_⟩
    rw [checkOffset, bind_panic]
    exact .inl hp
  | firstRow hpre =>
    obtain ⟨r, hr⟩ := hpre
    obtain ⟨ts, us, h1, _, _⟩ := values_accepted.1 hr
    show inferSetExpr ops _ _ = _
    rw [inferSetExpr, bind_panic, inferValues, bind_panic]
    exact .inl (.inl ((inferFirstRow_panic _ _).2 ⟨_, _, _, rfl, ⟨ts, h1⟩, hp⟩))
  | @laterRow ctx above r pre e post rows ha hl hpre =>
    obtain ⟨r', hr'⟩ := hpre
    cases above with
    | nil => rw [inferSetExpr] at ha; cases ha
    | cons row above =>
      obtain ⟨ts, us, h1, h2, rfl⟩ := values_accepted.1 ha
      obtain ⟨ts', vs, h1', h2', rfl⟩ := values_accepted.1 hr'
      rw [h1] at h1'
      cases h1'
      have h2' : foldRows ops (ScalarContext.new ctx) ts (above ++ [pre]) = .ok vs := h2'
      rw [foldRows_snoc, h2] at h2'
      show inferSetExpr ops _ _ = _
      rw [List.cons_append, inferSetExpr, bind_panic, inferValues, bind_panic]
      refine .inl (.inr ⟨ts, h1, (foldRows_panic _ _).2 ⟨above, _, rows, us, rfl, h2, ?_⟩⟩)
      exact (unifyRow_panic _ _).2 ⟨_, _, _, rfl, hl, ⟨vs, h2'⟩, hp⟩
  | «from» hpre =>
    show inferSetExpr ops _ _ = _
    rw [inferSetExpr, bind_panic]
    exact .inl ((inferFrom_panic _ _).2 ⟨_, _, _, rfl, _, _, hpre, hp⟩)
  | «where» hf =>
    show inferSetExpr ops _ _ = _
    rw [inferSetExpr, bind_panic]
    refine .inr ⟨_, hf, ?_⟩
    simp only [bind_panic]
    exact .inl (checkPredicate_panic.2 ⟨_, rfl, hp⟩)
  | group hf hpre =>
    obtain ⟨sc', as', hf', hw, hg, _⟩ := query_accepted.1 hpre
    rw [hf] at hf'
    cases hf'
    rw [checkGroupBy, bind_ok_iff] at hg
    obtain ⟨ts, hts, _⟩ := hg
    show inferSetExpr ops _ _ = _
    rw [inferSetExpr, bind_panic]
    refine .inr ⟨_, hf, ?_⟩
    simp only [bind_panic]
    refine .inr ⟨(), hw, .inl ?_⟩
    rw [checkGroupBy, bind_panic]
    exact .inl ((inferExprs_panic _).2 ⟨_, _, _, rfl, ⟨ts, hts⟩, hp⟩)
  | having hf hpre =>
    obtain ⟨sc', as', hf', hw, hg, _⟩ := query_accepted.1 hpre
    rw [hf] at hf'
    cases hf'
    rw [checkGroupBy, bind_ok_iff] at hg
    obtain ⟨ts, hts, _⟩ := hg
    show inferSetExpr ops _ _ = _
    rw [inferSetExpr, bind_panic]
    refine .inr ⟨_, hf, ?_⟩
    simp only [bind_panic]
    refine .inr ⟨(), hw, .inl ?_⟩
    rw [checkGroupBy, bind_panic]
    exact .inr ⟨ts, hts, checkPredicate_panic.2 ⟨_, rfl, hp⟩⟩
  | column hf hpre =>
    obtain ⟨sc', as', hf', hw, hg, r, hr⟩ := query_accepted.1 hpre
    rw [hf] at hf'
    cases hf'
    rw [inferColumns, bind_ok_iff] at hr
    obtain ⟨cs, hcs, _⟩ := hr
    show inferSetExpr ops _ _ = _
    rw [inferSetExpr, bind_panic]
    refine .inr ⟨_, hf, ?_⟩
    simp only [bind_panic]
    refine .inr ⟨(), hw, .inr ⟨(), hg, ?_⟩⟩
    rw [inferColumns, bind_panic]
    exact .inl ((inferColumnList_panic (scalars_iff.1 (inferFrom_scalars hf (scalars_new _)).1) _ _).2
      ⟨_, _, _, _, rfl, ⟨cs, hcs⟩, hp⟩)
  | opLeft =>
    show inferSetExpr ops _ _ = _
    rw [inferSetExpr, bind_panic]
    exact .inl hp
  | opRight hl =>
    obtain ⟨r, hr⟩ := hl
    show inferSetExpr ops _ _ = _
    rw [inferSetExpr, bind_panic]
    refine .inr ⟨r, hr, ?_⟩
    rw [bind_panic]
    exact .inl hp
  | selectStatement =>
    show Statement.validateType ops _ _ = _
    rw [Statement.validateType, bind_panic]
    exact .inl hp
  | insertSource hn =>
    show Statement.validateType ops _ _ = _
    rw [Statement.validateType, InsertStatement.validateType, bind_panic]
    refine .inr ⟨_, hn, ?_⟩
    rw [bind_panic]
    exact .inl hp
  | assignment hn hc hpre =>
    obtain ⟨r', sc', m, hn', hc', hm⟩ := update_accepted.1 hpre
    rw [hn] at hn'
    cases hn'
    rw [hc] at hc'
    cases hc'
    show Statement.validateType ops _ _ = _
    rw [Statement.validateType, UpdateStatement.validateType, bind_panic]
    refine .inr ⟨_, hn, ?_⟩
    rw [bind_panic]
    refine .inr ⟨_, hc, ?_⟩
    rw [bind_panic]
    exact .inl ((updateAssignments_panic _ _ _).2 ⟨_, _, _, _, rfl, ⟨m, hm⟩, hp⟩)
  | updateWhere hn hc hpre =>
    obtain ⟨r', sc', m, hn', hc', hm⟩ := update_accepted.1 hpre
    rw [hn] at hn'
    cases hn'
    rw [hc] at hc'
    cases hc'
    show Statement.validateType ops _ _ = _
    rw [Statement.validateType, UpdateStatement.validateType, bind_panic]
    refine .inr ⟨_, hn, ?_⟩
    rw [bind_panic]
    refine .inr ⟨_, hc, ?_⟩
    rw [bind_panic]
    exact .inr ⟨m, hm, checkPredicate_panic.2 ⟨_, rfl, hp⟩⟩
  | deleteWhere hn hc =>
    show Statement.validateType ops _ _ = _
    rw [Statement.validateType, DeleteStatement.validateType, bind_panic]
    refine .inr ⟨_, hn, ?_⟩
    rw [bind_panic]
    exact .inr ⟨_, hc, checkPredicate_panic.2 ⟨_, rfl, hp⟩⟩

theorem next_scalars {w w' : Work N} (h : Next ops w w') (hs : w.Scalars) : w'.Scalars := by
  cases h with
  | joinRight hl => exact (inferTable_scalars _ hl hs).1
  | order hc _ => exact (addCommon_scalars hc (scalars_new _)).1
  | «from» hf | «where» hf | group hf _ | having hf _ | column hf _ => exact (inferFrom_scalars hf (scalars_new _)).1
  | assignment _ hc _ | updateWhere _ hc _ | deleteWhere _ hc => exact (tableContext_scalars hc).1
  | limit | offset | firstRow | laterRow => exact scalars_new _
  | _ => first | exact hs | exact trivial

/-- A panic is one of the part itself or of a part that is looked at. -/
def Explained (ops : NameOps N) (w : Work N) : Prop := Dead ops w ∨ ∃ w', Next ops w w' ∧ w'.Panics ops

theorem case_explained {sc : ScalarContext N} (hs : sc.Scalars) {operand : Option (Expr N)} {ws : List (When N)}
    {els : Option (Expr N)} (hp : inferExpr ops sc (.case operand ws els) = .error .panic) :
    Explained ops (.expr sc (.case operand ws els)) := by
  by_cases ho : ∀ e, operand = some e → (Work.expr sc e).Accepted ops
  · obtain ⟨check, hc, h, hpass⟩ := case_eq ho
    rw [h] at hp
    by_cases hg : checkGuards ops sc check ws = .error .panic
    · obtain ⟨pre, g, b, post, rfl, hpre, he⟩ := (checkGuards_panic hc ws).1 hg
      refine .inr ⟨_, .caseGuard ho ?_, he⟩
      rintro ⟨g', b'⟩ hm
      exact (hpass g' b').2 (hpre g' b' hm)
    · have hsub : ∀ pre post, ws = pre ++ post → checkGuards ops sc check pre ≠ .error .panic := by
        intro pre post hws hpan
        obtain ⟨p1, g, b, p2, rfl, hpre, he⟩ := (checkGuards_panic hc pre).1 hpan
        exact hg ((checkGuards_panic hc ws).2 ⟨p1, g, b, p2 ++ post, by simp [hws], hpre, he⟩)
      rcases caseTail_panic.1 hp with hp | hp | hp | ⟨_, hb, e, rfl, he⟩
      · exact absurd hp hg
      · rcases inferBodies_panic.1 hp with rfl | ⟨g, b, post, rfl, he⟩ | ⟨pre, g, b, post, rfl, ⟨t, ht⟩, he⟩
        · exact .inl (.noBranch ho)
        · exact .inr ⟨_, .caseFirst ho, he⟩
        · cases t with
          | tuple ts =>
            obtain ⟨g', es, rfl, hes⟩ := (inferBodies_tuple hs).1 ⟨ts, ht⟩
            exact .inr ⟨_, .caseSecond ho hes, he⟩
          | scalar typ n =>
            refine .inr ⟨_, .caseLater ?_, he⟩
            show ∃ t, inferExpr ops _ _ = _
            rw [h]
            exact caseTail_ok.2 ⟨hsub pre _ rfl, typ, n, ht⟩
      · obtain ⟨g, es, rfl, hes⟩ := (inferBodies_tuple hs).1 hp
        exact .inl (.tupleBranch ho hes)
      · refine .inr ⟨_, .caseElse ?_, he⟩
        show ∃ t, inferExpr ops _ _ = _
        rw [h]
        exact caseTail_ok.2 ⟨hg, hb⟩
  · cases operand with
    | none => exact absurd (fun e h => nomatch h) ho
    | some e =>
      rw [inferExpr, bind_panic] at hp
      rcases hp with hp | ⟨t, ht, _⟩
      · exact .inr ⟨_, .caseOperand, hp⟩
      · exact absurd (fun e' h => by cases h; exact ⟨t, ht⟩) ho

theorem expr_explained {sc : ScalarContext N} (hs : sc.Scalars) {e : Expr N}
    (hp : inferExpr ops sc e = .error .panic) : Explained ops (.expr sc e) := by
  cases e with
  | literal l => rw [inferExpr] at hp; cases hp
  | ident q =>
    rw [inferExpr] at hp
    exfalso
    unfold ScalarContext.inferType at hp
    split at hp
    · split at hp <;> cases hp
    · split at hp
      · split at hp <;> cases hp
      · cases hp
    · cases hp
  | tuple es =>
    rw [inferExpr, bind_panic] at hp
    rcases hp with hp | ⟨_, _, hp⟩
    · obtain ⟨pre, e, post, rfl, hpre, he⟩ := (inferExprs_panic es).1 hp
      exact .inr ⟨_, .tuple (exprs_accepted.2 hpre), he⟩
    · cases hp
  | select s =>
    rw [inferExpr, bind_panic] at hp
    rcases hp with hp | ⟨_, _, hp⟩
    · exact .inr ⟨_, .select, hp⟩
    · exact absurd hp (post_ne (singleColumn_post _ _))
  | unary op e =>
    rw [inferExpr, bind_panic] at hp
    rcases hp with hp | ⟨_, _, hp⟩
    · exact .inr ⟨_, .unary, hp⟩
    · exact absurd hp (post_ne (unaryType_post _ _))
  | binary op l r =>
    rw [inferExpr, bind_panic] at hp
    rcases hp with hp | ⟨t, ht, hp⟩
    · exact .inr ⟨_, .binaryLeft, hp⟩
    · rw [bind_panic] at hp
      rcases hp with hp | ⟨_, _, hp⟩
      · exact .inr ⟨_, .binaryRight ⟨t, ht⟩, hp⟩
      · exact absurd hp (post_ne (binaryType_post _ _ _))
  | comparison op l r =>
    rw [inferExpr, bind_panic] at hp
    rcases hp with hp | ⟨t, ht, hp⟩
    · exact .inr ⟨_, .comparisonLeft, hp⟩
    · rw [bind_panic] at hp
      rcases hp with hp | ⟨_, _, hp⟩
      · exact .inr ⟨_, .comparisonRight ⟨t, ht⟩, hp⟩
      · exact absurd hp (post_ne (comparisonType_post _ _ _))
  | between e l u =>
    rw [inferExpr, bind_panic] at hp
    rcases hp with hp | ⟨t, ht, hp⟩
    · exact .inr ⟨_, .betweenOperand, hp⟩
    · rw [bind_panic] at hp
      rcases hp with hp | ⟨t', ht', hp⟩
      · exact .inr ⟨_, .betweenLower ⟨t, ht⟩, hp⟩
      · rw [bind_panic] at hp
        rcases hp with hp | ⟨_, _, hp⟩
        · exact .inr ⟨_, .betweenUpper ⟨t, ht⟩ ⟨t', ht'⟩, hp⟩
        · exact absurd hp (post_ne (betweenType_post _ _ _))
  | inSet e set =>
    rcases inSet_panic.1 hp with hp | ⟨he, hp⟩
    · exact .inr ⟨_, .inOperand, hp⟩
    · cases set with
      | select s => rw [inferSet] at hp; exact .inr ⟨_, .inSelect he, hp⟩
      | name q => rw [inferSet] at hp; exact .inl (.inTable he (resolve_nowhere.1 hp))
      | list es =>
        rcases inferElement_panic.1 hp with rfl | ⟨x, hx, hp⟩
        · exact .inl (.emptyList he)
        · exact .inr ⟨_, .inElement he hx, hp⟩
  | case operand ws els => exact case_explained hs hp

theorem table_explained {sc : ScalarContext N} {t : TableExpr N}
    (hp : inferTable ops sc t = .error .panic) : Explained ops (.table sc t) := by
  cases t with
  | named q alias =>
    rw [inferTable, bind_panic] at hp
    rcases hp with hp | ⟨r, hr, hp⟩
    · exact .inl (.table (resolve_nowhere.1 hp))
    · rw [bind_panic] at hp
      rcases hp with hp | ⟨_, _, hp⟩
      · exact absurd hp (post_ne (relationName_post (resolve_nonempty hr) alias))
      · rw [bind_panic] at hp
        rcases hp with hp | ⟨_, _, hp⟩
        · exact absurd hp (addRelation_ne _ _)
        · cases hp
  | select s alias =>
    rw [inferTable, bind_panic] at hp
    rcases hp with hp | ⟨_, _, hp⟩
    · exact .inr ⟨_, .tableSelect, hp⟩
    · cases hp
  | join l r op c =>
    rw [inferTable, bind_panic] at hp
    rcases hp with hp | ⟨⟨sc', as⟩, hl, hp⟩
    · exact .inr ⟨_, .joinLeft, hp⟩
    · simp only [bind_panic] at hp
      rcases hp with hp | ⟨_, _, hp⟩
      · exact .inr ⟨_, .joinRight hl, hp⟩
      · cases hp

theorem query_explained {ctx : SetContext N} {s : Select N}
    (hp : inferSelect ops ctx s = .error .panic) : Explained ops (.query ctx s) := by
  obtain ⟨common, x, orderBy, limit⟩ := s
  rw [inferSelect, bind_panic] at hp
  rcases hp with hp | ⟨sc, hc, hp⟩
  · obtain ⟨pre, i, names, query, post, rfl, ⟨sc', hpre⟩, hq⟩ := (addCommon_panic _ _).1 hp
    exact .inr ⟨_, .common hpre, hq⟩
  · rw [bind_panic] at hp
    rcases hp with hp | ⟨r, hr, hp⟩
    · exact .inr ⟨_, .body hc, hp⟩
    · rw [bind_panic] at hp
      rcases hp with hp | ⟨⟨⟩, ho, hp⟩
      · obtain ⟨pre, e, c, d, post, rfl, hpre, he⟩ := (checkOrder_panic _).1 hp
        exact .inr ⟨_, .order hc (select_accepted.2 ⟨sc, hc, ⟨r, hr⟩, hpre⟩), he⟩
      · have hacc := select_accepted.2 ⟨sc, hc, ⟨r, hr⟩, ho⟩
        rw [bind_panic, (addCommon_scalars hc (scalars_new _)).2] at hp
        rcases hp with hp | ⟨_, _, hp⟩
        · cases limit with
          | none => rw [checkLimit] at hp; cases hp
          | some l =>
            obtain ⟨n, offset⟩ := l
            rw [checkLimit, bind_panic] at hp
            rcases hp with hp | ⟨t, ht, hp⟩
            · exact .inr ⟨_, .limit hacc, hp⟩
            · rw [bind_panic] at hp
              rcases hp with hp | ⟨⟨⟩, hm, hp⟩
              · exact absurd hp (post_ne (mustBeCount_post _ _))
              · cases offset with
                | none => rw [checkOffset] at hp; cases hp
                | some e =>
                  rw [checkOffset, bind_panic] at hp
                  rcases hp with hp | ⟨_, _, hp⟩
                  · exact .inr ⟨_, .offset (limit_accepted.2 ⟨hacc, t, ht, hm⟩), hp⟩
                  · exact absurd hp (post_ne (mustBeCount_post _ _))
        · cases hp

theorem rows_explained {ctx : SetContext N} {x : SetExpr N}
    (hp : inferSetExpr ops ctx x = .error .panic) : Explained ops (.rows ctx x) := by
  cases x with
  | values rows =>
    rw [inferSetExpr, bind_panic] at hp
    rcases hp with hp | ⟨_, _, hp⟩
    · cases rows with
      | nil => exact .inl .noRows
      | cons row rows =>
        rw [inferValues, bind_panic] at hp
        rcases hp with hp | ⟨ts, hts, hp⟩
        · obtain ⟨pre, e, post, rfl, ⟨us, hus⟩, he⟩ := (inferFirstRow_panic _ _).1 hp
          exact .inr ⟨_, .firstRow ⟨_, values_accepted.2 ⟨us, us, hus, by rw [foldRows], rfl⟩⟩, he⟩
        · obtain ⟨above, row', below, us, rfl, ha, hp⟩ := (foldRows_panic _ _).1 hp
          obtain ⟨pre, e, post, rfl, hl, ⟨vs, hvs⟩, he⟩ := (unifyRow_panic _ _).1 hp
          refine .inr ⟨_, .laterRow (above := row :: above) (r := .plain us)
            (values_accepted.2 ⟨ts, us, hts, ha, rfl⟩) hl ⟨.plain vs, ?_⟩, he⟩
          rw [List.cons_append]
          refine values_accepted.2 ⟨ts, vs, hts, ?_, rfl⟩
          rw [foldRows_snoc, ha]
          exact hvs
    · cases hp
  | query mode columns froms wher groupBy =>
    rw [inferSetExpr, bind_panic] at hp
    rcases hp with hp | ⟨⟨sc, as⟩, hf, hp⟩
    · obtain ⟨pre, t, post, rfl, sc', as, hpre, ht⟩ := (inferFrom_panic _ _).1 hp
      exact .inr ⟨_, .from hpre, ht⟩
    · have hall : ∀ g, checkPredicate ops sc .whereBoolean wher = .ok () → checkGroupBy ops sc g = .ok () →
          (Work.rows ctx (.query mode .all froms wher g)).Accepted ops :=
        fun g hw hg => query_accepted.2 ⟨sc, as, hf, hw, hg, _, by rw [inferColumns]⟩
      simp only [bind_panic] at hp
      rcases hp with hp | ⟨⟨⟩, hw, hp⟩
      · obtain ⟨e, rfl, he⟩ := checkPredicate_panic.1 hp
        exact .inr ⟨_, .where hf, he⟩
      · rcases hp with hp | ⟨⟨⟩, hg, hp⟩
        · cases groupBy with
          | none => rw [checkGroupBy] at hp; cases hp
          | some g =>
            obtain ⟨groupings, having⟩ := g
            rw [checkGroupBy, bind_panic] at hp
            rcases hp with hp | ⟨ts, hts, hp⟩
            · obtain ⟨pre, e, post, rfl, ⟨us, hus⟩, he⟩ := (inferExprs_panic _).1 hp
              refine .inr ⟨_, .group hf (hall _ hw ?_), he⟩
              rw [checkGroupBy, hus]
              simp [bind, Except.bind, checkPredicate]
            · obtain ⟨e, rfl, he⟩ := checkPredicate_panic.1 hp
              refine .inr ⟨_, .having hf (hall _ hw ?_), he⟩
              rw [checkGroupBy, hts]
              simp [bind, Except.bind, checkPredicate]
        · cases columns with
          | all => rw [inferColumns] at hp; cases hp
          | list cs =>
            rw [inferColumns, bind_panic] at hp
            rcases hp with hp | ⟨_, _, hp⟩
            · obtain ⟨pre, e, rename, post, rfl, ⟨us, hus⟩, he⟩ := (inferColumnList_panic
                (scalars_iff.1 (inferFrom_scalars hf (scalars_new _)).1) _ _).1 hp
              refine .inr ⟨_, .column hf (query_accepted.2 ⟨sc, as, hf, hw, hg, .plain us, ?_⟩), he⟩
              rw [inferColumns, hus]
              rfl
            · cases hp
  | op op l r =>
    rw [inferSetExpr, bind_panic] at hp
    rcases hp with hp | ⟨t, ht, hp⟩
    · exact .inr ⟨_, .opLeft, hp⟩
    · rw [bind_panic] at hp
      rcases hp with hp | ⟨_, _, hp⟩
      · exact .inr ⟨_, .opRight ⟨t, ht⟩, hp⟩
      · rw [bind_panic] at hp
        rcases hp with hp | ⟨_, _, hp⟩
        · exact absurd hp (post_ne (unifyAttributes_post _ _))
        · cases hp

theorem insertSource_ne {missing : TMap N (DataType × Bool)} {values : List (Attribute N)} {columns : Option (List N)} :
    insertSource ops missing values columns ≠ .error .panic := by
  unfold insertSource
  split
  · exact post_ne (insertColumns_post _ _)
  · split
    · simp [err]
    · exact post_ne (insertColumns_post _ _)

theorem statement_explained {ctx : SetContext N} {s : Statement N}
    (hp : s.validateType ops ctx = .error .panic) : Explained ops (.statement ctx s) := by
  cases s with
  | select s =>
    rw [Statement.validateType, bind_panic] at hp
    rcases hp with hp | ⟨_, _, hp⟩
    · exact .inr ⟨_, .selectStatement, hp⟩
    · cases hp
  | insert s =>
    rw [Statement.validateType, InsertStatement.validateType, bind_panic] at hp
    rcases hp with hp | ⟨r, hr, hp⟩
    · exact .inl (.insert (resolve_nowhere.1 hp))
    · rw [bind_panic] at hp
      rcases hp with hp | ⟨_, _, hp⟩
      · exact .inr ⟨_, .insertSource hr, hp⟩
      · rw [bind_panic] at hp
        rcases hp with hp | ⟨m, _, hp⟩
        · exact absurd hp insertSource_ne
        · unfold insertComplete at hp
          split at hp <;> cases hp
  | update s =>
    obtain ⟨name, assignments, wher⟩ := s
    rw [Statement.validateType, UpdateStatement.validateType, bind_panic] at hp
    rcases hp with hp | ⟨r, hr, hp⟩
    · exact .inl (.update (resolve_nowhere.1 hp))
    · rw [bind_panic] at hp
      rcases hp with hp | ⟨sc, hc, hp⟩
      · exact absurd hp (tableContext_ne hr)
      · rw [bind_panic] at hp
        rcases hp with hp | ⟨m, hm, hp⟩
        · obtain ⟨pre, cs, e, post, rfl, ⟨m, hm⟩, he⟩ := (updateAssignments_panic _ _ _).1 hp
          exact .inr ⟨_, .assignment hr hc (update_accepted.2 ⟨r, sc, m, hr, hc, hm⟩), he⟩
        · obtain ⟨e, rfl, he⟩ := checkPredicate_panic.1 hp
          exact .inr ⟨_, .updateWhere hr hc (update_accepted.2 ⟨r, sc, m, hr, hc, hm⟩), he⟩
  | delete s =>
    obtain ⟨name, wher⟩ := s
    rw [Statement.validateType, DeleteStatement.validateType, bind_panic] at hp
    rcases hp with hp | ⟨r, hr, hp⟩
    · exact .inl (.delete (resolve_nowhere.1 hp))
    · rw [bind_panic] at hp
      rcases hp with hp | ⟨sc, hc, hp⟩
      · exact absurd hp (tableContext_ne hr)
      · obtain ⟨e, rfl, he⟩ := checkPredicate_panic.1 hp
        exact .inr ⟨_, .deleteWhere hr hc, he⟩

theorem panics_explained {w : Work N} (hs : w.Scalars) (hp : w.Panics ops) : Explained ops w := by
  cases w with
  | expr sc e => exact expr_explained hs hp
  | table sc t => exact table_explained hp
  | query ctx s => exact query_explained hp
  | rows ctx x => exact rows_explained hp
  | statement ctx s => exact statement_explained hp

/-! ## The parts get smaller -/

/-- The size of the part. -/
noncomputable def Work.size : Work N → Nat
  | .expr _ e => sizeOf e
  | .table _ t => sizeOf t
  | .query _ s => sizeOf s
  | .rows _ x => sizeOf x
  | .statement _ s => match s with
    | .select s => sizeOf s + 1
    | .insert s => sizeOf s.source + 1
    | .update s => sizeOf s + 1
    | .delete s => sizeOf s + 1

theorem sizeOf_mid {α : Type} [SizeOf α] (pre : List α) (a : α) (post : List α) :
    sizeOf a < sizeOf (pre ++ a :: post) :=
  List.sizeOf_lt_of_mem (List.mem_append_right _ List.mem_cons_self)

theorem next_smaller {w w' : Work N} (h : Next ops w w') : w'.size < w.size := by
  cases h with
  | @tuple _ pre e post _ | @group _ _ _ _ _ _ _ pre e post _ _ _ | @«from» _ _ _ pre _ _ e post _ _ _ =>
    have := sizeOf_mid pre e post
    simp [Work.size]
    omega
  | @caseGuard _ _ pre guard body post _ _ _ | @caseLater _ _ pre guard body post _ _ =>
    have := sizeOf_mid pre (.mk guard body) post
    simp [Work.size] at this ⊢
    omega
  | @common _ pre _ i names query post _ _ _ _ =>
    have := sizeOf_mid pre (.mk i names query) post
    simp [Work.size] at this ⊢
    omega
  | @order _ _ _ _ pre e c d post _ _ _ =>
    have := sizeOf_mid pre (.mk e c d) post
    simp [Work.size] at this ⊢
    omega
  | @column _ _ pre e r post _ _ _ _ _ _ _ =>
    have := sizeOf_mid pre (.expr e r) post
    simp [Work.size] at this ⊢
    omega
  | @assignment _ _ _ _ pre columns e post _ _ _ _ =>
    have := sizeOf_mid pre ⟨columns, e⟩ post
    simp [Work.size] at this ⊢
    omega
  | @firstRow _ pre e post _ _ =>
    have := sizeOf_mid pre e post
    simp [Work.size] at this ⊢
    omega
  | @laterRow _ above _ pre e post rows _ _ _ =>
    have := sizeOf_mid above (pre ++ e :: post) rows
    have := sizeOf_mid pre e post
    simp [Work.size] at *
    omega
  | inElement _ hx =>
    have := List.sizeOf_lt_of_mem hx
    simp [Work.size]
    omega
  | _ => simp [Work.size] <;> omega

/-- Inference panics exactly if it comes to a dead construction. -/
theorem panics_iff {w : Work N} (hs : w.Scalars) : w.Panics ops ↔ ∃ b, Reaches ops w b ∧ Dead ops b := by
  constructor
  · have key : ∀ n (w : Work N), w.size < n → w.Scalars → w.Panics ops → ∃ b, Reaches ops w b ∧ Dead ops b := by
      intro n
      induction n with
      | zero => intro w h; cases h
      | succ n ih =>
        intro w hn hs hp
        rcases panics_explained hs hp with hd | ⟨w', h, hp'⟩
        · exact ⟨w, .here w, hd⟩
        · have := next_smaller h
          obtain ⟨b, hr, hb⟩ := ih w' (by omega) (next_scalars h hs) hp'
          exact ⟨b, .step h hr, hb⟩
    exact key _ w (Nat.lt_succ_self _) hs
  · rintro ⟨b, hr, hb⟩
    induction hr with
    | here w => exact dead_panics hb
    | step h _ ih => exact next_panics h (ih (next_scalars h hs) hb)

end Verif.Sql
