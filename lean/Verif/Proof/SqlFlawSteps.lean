import Verif.Proof.SqlFlawLists
/-! # Errors of type checking have a reason: statements -/

namespace Verif.Sql

open Chk

variable {up : Char → List Char}

/-- Inference or validation of the part gives this error. -/
def Work.Fails (up : Char → List Char) (x : SqlError) : Work Name → Prop
  | .expr sc e => inferExpr (nameOps up) sc e = .error (.err x)
  | .table sc t => inferTable (nameOps up) sc t = .error (.err x)
  | .query ctx s => inferSelect (nameOps up) ctx s = .error (.err x)
  | .rows ctx y => inferSetExpr (nameOps up) ctx y = .error (.err x)
  | .statement ctx s => s.validateType (nameOps up) ctx = .error (.err x)

/-- An error is about the part itself, or comes from a part that is looked at. -/
def Justified (up : Char → List Char) (x : SqlError) (w : Work Name) : Prop :=
  Flaw up w x ∨ ∃ w', Next (nameOps up) w w' ∧ w'.Fails up x

theorem singleColumn_err {r : RowType Name} {m x : SqlError} (h : singleColumn m r = .error (.err x)) :
    x = m ∧ r.attributes.length ≠ 1 := by
  unfold singleColumn at h
  split at h
  · cases h
  · rename_i hn
    cases h
    refine ⟨rfl, fun hl => ?_⟩
    obtain ⟨a, ha⟩ := List.length_eq_one_iff.1 hl
    exact hn a ha

theorem singleColumn_ok {r : RowType Name} {m : SqlError} {t : ScalarType} (h : singleColumn m r = .ok t) :
    ∃ a, r.attributes = [a] ∧ t = .scalar a.typ a.isNull := by
  unfold singleColumn at h
  split at h
  · rename_i a ha
    cases h
    exact ⟨a, ha, rfl⟩
  · cases h

theorem unary_justified {sc : ScalarContext Name} {op : UnaryOperator} {e : Expr Name} {t : ScalarType} {x : SqlError}
    (he : inferExpr (nameOps up) sc e = .ok t) (h : unaryType op t = .error (.err x)) :
    Flaw up (.expr sc (.unary op e)) x := by
  unfold unaryType at h
  split at h
  · cases h
  · rename_i hn
    cases h
    exact .negate he (fun ⟨n, hm⟩ => hn n hm)
  · cases h
  · rename_i hn
    cases h
    exact .not he (fun ⟨n, hm⟩ => hn n hm)
  · cases h
  · rename_i hn
    cases h
    cases t with
    | tuple ts => exact .isNull he ⟨ts, rfl⟩
    | scalar typ n => exact (hn typ n rfl).elim

theorem binary_justified {sc : ScalarContext Name} {op : BinaryOperator} {l r : Expr Name} {t u : ScalarType}
    {x : SqlError} (hl : inferExpr (nameOps up) sc l = .ok t) (hr : inferExpr (nameOps up) sc r = .ok u)
    (h : binaryType op t u = .error (.err x)) : Flaw up (.expr sc (.binary op l r)) x := by
  have key (typ : DataType) : ¬ (∃ n m, t = .scalar typ n ∧ u = .scalar typ m) → ¬ t.Of typ ∨ ¬ u.Of typ := by
    intro hn
    by_cases ht : t.Of typ
    · right
      rintro ⟨m, hm⟩
      obtain ⟨n, hn'⟩ := ht
      exact hn ⟨n, m, hn', hm⟩
    · exact .inl ht
  cases op with
  | multiply | divide | add | subtract =>
    simp only [binaryType] at h
    split at h
    · cases h
    · rename_i hn
      cases h
      exact .arithmetic (by simp [BinaryOperator.Arithmetic]) hl hr (key _ (fun ⟨n, m, h1, h2⟩ => hn n m h1 h2))
  | concat =>
    simp only [binaryType] at h
    split at h
    · cases h
    · rename_i hn
      cases h
      exact .concat hl hr (key _ (fun ⟨n, m, h1, h2⟩ => hn n m h1 h2))
  | and | or =>
    simp only [binaryType] at h
    split at h
    · cases h
    · rename_i hn
      cases h
      exact .logical (by simp) hl hr (key _ (fun ⟨n, m, h1, h2⟩ => hn n m h1 h2))

theorem comparison_justified {sc : ScalarContext Name} {op : ComparisonOperator} {l r : Expr Name} {t u : ScalarType}
    {x : SqlError} (hl : inferExpr (nameOps up) sc l = .ok t) (hr : inferExpr (nameOps up) sc r = .ok u)
    (h : comparisonType op t u = .error (.err x)) : Flaw up (.expr sc (.comparison op l r)) x := by
  cases op with
  | equal | notEqual =>
    simp only [comparisonType, bind_err] at h
    rcases h with h | ⟨_, _, h⟩
    · exact .equality (by simp) hl hr (isCompatible_err h)
    · cases h
  | lessThan | lessEqual | greaterThan | greaterEqual =>
    simp only [comparisonType] at h
    split at h
    · split at h
      · cases h
      · rename_i hn
        cases h
        refine .ordered (by simp [ComparisonOperator.Ordering]) hl hr ?_
        rw [isOrdered_iff] at hn
        rename_i t1 _ t2 _
        by_cases he : t1 = t2
        · exact .inr (fun ho => hn ⟨he, ho⟩)
        · exact .inl he
    · rename_i hn
      cases h
      refine .orderedTuple (by simp [ComparisonOperator.Ordering]) hl hr ?_
      cases t with
      | tuple ts => exact .inl ⟨ts, rfl⟩
      | scalar a n =>
        cases u with
        | tuple us => exact .inr ⟨us, rfl⟩
        | scalar b m => exact absurd rfl (hn a n b m rfl)
  | like =>
    simp only [comparisonType] at h
    split at h
    · cases h
    · rename_i hn
      cases h
      refine .like hl hr ?_
      by_cases ht : t.Of .varchar
      · right
        rintro ⟨m, hm⟩
        obtain ⟨n, hn'⟩ := ht
        exact hn n m hn' hm
      · exact .inl ht

theorem between_justified {sc : ScalarContext Name} {e l r : Expr Name} {t u v : ScalarType}
    {x : SqlError} (he : inferExpr (nameOps up) sc e = .ok t) (hl : inferExpr (nameOps up) sc l = .ok u)
    (hr : inferExpr (nameOps up) sc r = .ok v)
    (h : betweenType t u v = .error (.err x)) : Flaw up (.expr sc (.between e l r)) x := by
  unfold betweenType at h
  split at h
  · split at h
    · cases h
    · rename_i t1 n1 t2 n2 t3 n3 hn
      cases h
      refine .between he hl hr ?_
      rw [isOrdered_iff] at hn
      by_cases h1 : t1 = t2
      · by_cases h2 : t1 = t3
        · exact .inr (.inr (fun ho => hn ⟨h1, h2, ho⟩))
        · exact .inr (.inl h2)
      · exact .inl h1
  · rename_i hn
    cases h
    refine .betweenTuple he hl hr ?_
    cases t with
    | tuple ts => exact .inl ⟨ts, rfl⟩
    | scalar a n =>
      cases u with
      | tuple us => exact .inr (.inl ⟨us, rfl⟩)
      | scalar b m =>
        cases v with
        | tuple us => exact .inr (.inr ⟨us, rfl⟩)
        | scalar c k => exact absurd rfl (hn a n b m c k rfl rfl)

theorem inRows_justified {sc : ScalarContext Name} {e : Expr Name} {set : SetSpec Name} {t : ScalarType}
    {r : RowType Name} {x : SqlError} (he : inferExpr (nameOps up) sc e = .ok t) (hs : RowsOf up sc set r)
    (h : (do
      let ct ← singleColumn .inOneColumn r
      if ← t.isCompatible ct then return .scalar .logical false else err .inIncompatible) =
        (.error (.err x) : Chk ScalarType)) : Flaw up (.expr sc (.inSet e set)) x := by
  rw [bind_err] at h
  rcases h with h | ⟨ct, hct, h⟩
  · obtain ⟨rfl, hl⟩ := singleColumn_err h
    exact .inColumns hs hl
  · obtain ⟨a, ha, rfl⟩ := singleColumn_ok hct
    rw [bind_err] at h
    rcases h with h | ⟨b, hb, h⟩
    · exact .inRows he hs ha (isCompatible_err h)
    · cases b with
      | true => cases h
      | false =>
        cases h
        have hal := (isCompatible_alike hb).1
        cases t with
        | tuple ts => cases hal
        | scalar typ n =>
          cases hal
          rw [ScalarType.isCompatible, if_pos rfl] at hb
          simp only [Except.ok.injEq, Bool.or_eq_false_iff] at hb
          obtain ⟨rfl, hb⟩ := hb
          exact .inRowsNotNull he hs ha ⟨rfl, hb⟩

theorem inList_justified {sc : ScalarContext Name} {e : Expr Name} {es : List (Expr Name)} {t : ScalarType}
    {x : SqlError} (he : inferExpr (nameOps up) sc e = .ok t)
    (h : (do
      let r ← inferSet (nameOps up) sc (.list es)
      let ct ← singleColumn .inOneColumn r
      if ← t.isCompatible ct then return .scalar .logical false else err .inIncompatible) =
        (.error (.err x) : Chk ScalarType)) : Justified up x (.expr sc (.inSet e (.list es))) := by
  cases es with
  | nil =>
    rw [inferSet, inferList] at h
    cases h
  | cons first rest =>
    rw [bind_err] at h
    rcases h with h | ⟨r, hr, h⟩
    · rw [inferSet, bind_err] at h
      rcases h with h | ⟨u, hu, h⟩
      · rw [inferList] at h
        cases hf : inferExpr (nameOps up) sc first with
        | ok u =>
          rw [hf] at h
          rcases foldList_err h with ⟨o, hm, ho⟩ | ⟨o, v, hm, ho, hmis⟩
          · exact .inr ⟨_, .inElement ⟨t, he⟩ (List.mem_cons_of_mem _ hm), ho⟩
          · exact .inl (.elements hf hm ho hmis)
        | error z =>
          rw [hf] at h
          cases z with
          | panic =>
            rw [(foldList_panic (ops := nameOps up) (sc := sc) (.error .panic) rest).2 (.inl rfl)] at h
            cases h
          | err z =>
            rcases foldList_erred h with rfl | ⟨o, hm, ho⟩
            · exact .inr ⟨_, .inElement ⟨t, he⟩ List.mem_cons_self, hf⟩
            · exact .inr ⟨_, .inElement ⟨t, he⟩ (List.mem_cons_of_mem _ hm), ho⟩
      · rw [inferList] at hu
        obtain ⟨v, hv, ha, _⟩ := foldList_same hu
        cases u with
        | scalar typ n => cases h
        | tuple us =>
          cases h
          refine .inl (.elementTuple hv ?_)
          cases v with
          | tuple vs => exact ⟨vs, rfl⟩
          | scalar _ _ => cases ha
    · rw [inferSet, bind_ok_iff] at hr
      obtain ⟨u, hu, hr⟩ := hr
      rw [inferList] at hu
      obtain ⟨v, hv, ha, hnn⟩ := foldList_same hu
      cases u with
      | tuple us => cases hr
      | scalar typ n =>
        cases hr
        have hs : singleColumn .inOneColumn (RowType.plain
            [(⟨(nameOps up).numbered ((nameOps up).lit "_col") 0, typ, n⟩ : Attribute Name)]) =
              .ok (.scalar typ n) := rfl
        rw [hs] at h
        have h : (do
          if ← t.isCompatible (.scalar typ n) then return .scalar .logical false
          else err .inIncompatible) = (.error (.err x) : Chk ScalarType) := h
        rw [bind_err] at h
        rcases h with h | ⟨b, hb, h⟩
        · exact .inl (.inList he hv ((isCompatible_err h).right ha))
        · cases b with
          | true => cases h
          | false =>
            cases h
            have hal := (isCompatible_alike hb).1
            cases t with
            | tuple ts => cases hal
            | scalar typ' n' =>
              cases hal
              rw [ScalarType.isCompatible, if_pos rfl] at hb
              simp only [Except.ok.injEq, Bool.or_eq_false_iff] at hb
              obtain ⟨rfl, rfl⟩ := hb
              obtain ⟨rfl, hall⟩ := hnn _ rfl
              refine .inl (.inListNotNull he fun y hy => ?_)
              rcases List.mem_cons.1 hy with rfl | hy
              · exact hv
              · exact hall y hy

theorem counts_then {sc : ScalarContext Name} {operand els : Option (Expr Name)} {ws : List (When Name)}
    {guard body : Expr Name} (h : .mk guard body ∈ ws) :
    Counts (.expr sc (.case operand ws els)) (.expr sc body) := by
  intro _ _ _ _ he
  cases he
  exact ⟨_, rfl, .inr (.inr ⟨guard, h⟩)⟩

theorem counts_else {sc : ScalarContext Name} {operand : Option (Expr Name)} {ws : List (When Name)}
    {e : Expr Name} : Counts (.expr sc (.case operand ws (some e))) (.expr sc e) := by
  intro _ _ _ _ he
  cases he
  exact ⟨_, rfl, .inr (.inl rfl)⟩

theorem counts_operand {sc : ScalarContext Name} {els : Option (Expr Name)} {ws : List (When Name)}
    {e : Expr Name} : Counts (.expr sc (.case (some e) ws els)) (.expr sc e) := by
  intro _ _ _ _ he
  cases he
  exact ⟨_, rfl, .inl rfl⟩

theorem case_justified {sc : ScalarContext Name} (hs : sc.Scalars) {operand : Option (Expr Name)}
    {ws : List (When Name)} {els : Option (Expr Name)} {x : SqlError}
    (hp : inferExpr (nameOps up) sc (.case operand ws els) = .error (.err x)) :
    Flaw up (.expr sc (.case operand ws els)) x ∨ ∃ w', Next (nameOps up) (.expr sc (.case operand ws els)) w' ∧
      Counts (.expr sc (.case operand ws els)) w' ∧ w'.Fails up x := by
  by_cases ho : ∀ e, operand = some e → (Work.expr sc e).Accepted (nameOps up)
  · obtain ⟨check, hc, h, hpass⟩ := case_eq ho
    rw [h] at hp
    unfold caseTail at hp
    rw [bind_err] at hp
    rcases hp with hp | ⟨⟨⟩, hg, hp⟩
    · exfalso
      revert hp
      cases checkGuards (nameOps up) sc check ws with
      | ok _ => simp [ignored]
      | error z => cases z <;> simp [ignored]
    · have hg := ignored_ok.1 hg
      have hsub : ∀ pre post, ws = pre ++ post → checkGuards (nameOps up) sc check pre ≠ .error .panic := by
        intro pre post hws hpan
        obtain ⟨p1, g, b, p2, rfl, hpre, he⟩ := (checkGuards_panic hc pre).1 hpan
        exact hg ((checkGuards_panic hc ws).2 ⟨p1, g, b, p2 ++ post, by simp [hws], hpre, he⟩)
      cases ws with
      | nil => rw [inferBodies] at hp; cases hp
      | cons w ws =>
        obtain ⟨guard, first⟩ := w
        rw [bind_err] at hp
        rcases hp with hp | ⟨t, ht, hp⟩
        · rw [inferBodies, bind_err] at hp
          rcases hp with hp | ⟨t, ht, hp⟩
          · exact .inr ⟨_, .caseFirst ho, counts_then List.mem_cons_self, hp⟩
          · rcases foldBodies_err hp with ⟨pre, g, b, post, rfl, ⟨u, hu⟩, he⟩ | ⟨g, b, u, hm, hu, hmis⟩ |
              ⟨rfl, g, b, post, u, rfl, hu, h1, h2⟩
            · have hb : inferBodies (nameOps up) sc (.mk guard first :: pre) = .ok u := by
                rw [inferBodies, ht]
                exact hu
              cases u with
              | tuple ts =>
                obtain ⟨g', es, he', hes⟩ := (inferBodies_tuple hs).1 ⟨ts, hb⟩
                cases he'
                exact .inr ⟨_, .caseSecond ho hes, counts_then (guard := g) (by simp), he⟩
              | scalar typ n =>
                refine .inr ⟨_, .caseLater (pre := .mk guard first :: pre) ?_, counts_then (guard := g) (by simp), he⟩
                show ∃ t, inferExpr (nameOps up) _ _ = _
                rw [h]
                exact caseTail_ok.2 ⟨hsub (.mk guard first :: pre) _ rfl, typ, n, hb⟩
            · exact .inl (.thens ht hm hu hmis)
            · exact .inl (.thenTuples ht hu h1 h2)
        · obtain ⟨⟨typ, n, rfl⟩, e, rfl, hx⟩ := inferElse_err hp
          rcases hx with hx | ⟨u, hu, hmis⟩
          · refine .inr ⟨_, .caseElse ?_, counts_else, hx⟩
            show ∃ t, inferExpr (nameOps up) _ _ = _
            rw [h]
            exact caseTail_ok.2 ⟨hg, typ, n, ht⟩
          · rw [inferBodies, bind_ok_iff] at ht
            obtain ⟨v, hv, ht⟩ := ht
            exact .inl (.els hv hu (hmis.right (foldBodies_alike ht)))
  · cases operand with
    | none => exact absurd (fun e h => nomatch h) ho
    | some e =>
      rw [inferExpr, bind_err] at hp
      rcases hp with hp | ⟨t, ht, _⟩
      · exact .inr ⟨_, .caseOperand, counts_operand, hp⟩
      · exact absurd (fun e' h => by cases h; exact ⟨t, ht⟩) ho

theorem expr_justified {sc : ScalarContext Name} (hs : sc.Scalars) {e : Expr Name} {x : SqlError}
    (hp : inferExpr (nameOps up) sc e = .error (.err x)) : Justified up x (.expr sc e) := by
  cases e with
  | literal l => rw [inferExpr] at hp; cases hp
  | ident q => rw [inferExpr] at hp; exact .inl (.ident (column_err hp))
  | tuple es =>
    rw [inferExpr, bind_err] at hp
    rcases hp with hp | ⟨_, _, hp⟩
    · obtain ⟨pre, e, post, rfl, hpre, he⟩ := inferExprs_err hp
      exact .inr ⟨_, .tuple (exprs_accepted.2 hpre), he⟩
    · cases hp
  | select s =>
    rw [inferExpr, bind_err] at hp
    rcases hp with hp | ⟨r, hr, hp⟩
    · exact .inr ⟨_, .select, hp⟩
    · obtain ⟨rfl, hl⟩ := singleColumn_err hp
      exact .inl (.columns hr hl)
  | unary op e =>
    rw [inferExpr, bind_err] at hp
    rcases hp with hp | ⟨_, ht, hp⟩
    · exact .inr ⟨_, .unary, hp⟩
    · exact .inl (unary_justified ht hp)
  | binary op l r =>
    rw [inferExpr, bind_err] at hp
    rcases hp with hp | ⟨t, ht, hp⟩
    · exact .inr ⟨_, .binaryLeft, hp⟩
    · rw [bind_err] at hp
      rcases hp with hp | ⟨_, hu, hp⟩
      · exact .inr ⟨_, .binaryRight ⟨t, ht⟩, hp⟩
      · exact .inl (binary_justified ht hu hp)
  | comparison op l r =>
    rw [inferExpr, bind_err] at hp
    rcases hp with hp | ⟨t, ht, hp⟩
    · exact .inr ⟨_, .comparisonLeft, hp⟩
    · rw [bind_err] at hp
      rcases hp with hp | ⟨_, hu, hp⟩
      · exact .inr ⟨_, .comparisonRight ⟨t, ht⟩, hp⟩
      · exact .inl (comparison_justified ht hu hp)
  | between e l u =>
    rw [inferExpr, bind_err] at hp
    rcases hp with hp | ⟨t, ht, hp⟩
    · exact .inr ⟨_, .betweenOperand, hp⟩
    · rw [bind_err] at hp
      rcases hp with hp | ⟨t', ht', hp⟩
      · exact .inr ⟨_, .betweenLower ⟨t, ht⟩, hp⟩
      · rw [bind_err] at hp
        rcases hp with hp | ⟨_, hu, hp⟩
        · exact .inr ⟨_, .betweenUpper ⟨t, ht⟩ ⟨t', ht'⟩, hp⟩
        · exact .inl (between_justified ht ht' hu hp)
  | inSet e set =>
    rw [inferExpr, bind_err] at hp
    rcases hp with hp | ⟨t, ht, hp⟩
    · exact .inr ⟨_, .inOperand, hp⟩
    · cases set with
      | list es => exact inList_justified ht hp
      | select s =>
        rw [bind_err, inferSet] at hp
        rcases hp with hp | ⟨r, hr, hp⟩
        · exact .inr ⟨_, .inSelect ⟨t, ht⟩, hp⟩
        · exact .inl (inRows_justified ht (.select hr) hp)
      | name q =>
        rw [bind_err, inferSet] at hp
        rcases hp with hp | ⟨r, hr, hp⟩
        · exact .inl (.inTable (resolve_err hp))
        · exact .inl (inRows_justified ht (.name hr) hp)
  | case operand ws els =>
    rcases case_justified hs hp with h | ⟨w', h, _, h'⟩
    · exact .inl h
    · exact .inr ⟨w', h, h'⟩

theorem relationName_or {q : List Name} {alias : Option Name} {n : Name} (h : relationName q alias = .ok n) :
    alias.or q.getLast? = some n := by
  cases alias with
  | some a => cases h; rfl
  | none =>
    unfold relationName at h
    simp only at h
    split at h
    · rename_i heq
      cases h
      simpa using heq
    · cases h

theorem relationName_err {q : List Name} {alias : Option Name} {x : SqlError} :
    relationName q alias ≠ .error (.err x) := by
  unfold relationName
  split
  · simp
  · split <;> simp [panics]

theorem table_justified {sc : ScalarContext Name} {t : TableExpr Name} {x : SqlError}
    (hp : inferTable (nameOps up) sc t = .error (.err x)) : Justified up x (.table sc t) := by
  cases t with
  | named q alias =>
    rw [inferTable, bind_err] at hp
    rcases hp with hp | ⟨r, hr, hp⟩
    · exact .inl (.table (resolve_err hp))
    · rw [bind_err] at hp
      rcases hp with hp | ⟨n, hn, hp⟩
      · exact absurd hp relationName_err
      · rw [bind_err] at hp
        rcases hp with hp | ⟨_, _, hp⟩
        · obtain ⟨rfl, m, hm⟩ := addRelation_err hp
          exact .inl (.again (relationName_or hn) hm)
        · cases hp
  | select s alias =>
    rw [inferTable, bind_err] at hp
    rcases hp with hp | ⟨_, _, hp⟩
    · exact .inr ⟨_, .tableSelect, hp⟩
    · cases hp
  | join l r op c =>
    rw [inferTable, bind_err] at hp
    rcases hp with hp | ⟨⟨sc', as⟩, hl, hp⟩
    · exact .inr ⟨_, .joinLeft, hp⟩
    · simp only [bind_err] at hp
      rcases hp with hp | ⟨_, _, hp⟩
      · exact .inr ⟨_, .joinRight hl, hp⟩
      · cases hp

theorem query_justified {ctx : SetContext Name} {s : Select Name} {x : SqlError}
    (hp : inferSelect (nameOps up) ctx s = .error (.err x)) : Justified up x (.query ctx s) := by
  obtain ⟨common, y, orderBy, limit⟩ := s
  rw [inferSelect, bind_err] at hp
  rcases hp with hp | ⟨sc, hc, hp⟩
  · obtain ⟨pre, i, names, query, post, sc', rfl, hpre, hq⟩ := addCommon_err hp
    rcases hq with hq | ⟨rfl, r, ns, c, hr, rfl, hcn, hn⟩ | ⟨rfl, m, hm⟩
    · exact .inr ⟨_, .common hpre, hq⟩
    · exact .inl (.commonColumn hr hcn hn)
    · exact .inl (.common hpre hm)
  · rw [bind_err] at hp
    rcases hp with hp | ⟨r, hr, hp⟩
    · exact .inr ⟨_, .body hc, hp⟩
    · rw [bind_err] at hp
      rcases hp with hp | ⟨⟨⟩, ho, hp⟩
      · obtain ⟨pre, e, c, d, post, rfl, hpre, he⟩ := checkOrder_err hp
        rcases he with he | ⟨rfl, t, ht, htup⟩
        · exact .inr ⟨_, .order hc (select_accepted.2 ⟨sc, hc, ⟨r, hr⟩, hpre⟩), he⟩
        · exact .inl (.order hc ht htup)
      · have hacc := select_accepted.2 ⟨sc, hc, ⟨r, hr⟩, ho⟩
        rw [bind_err, (addCommon_scalars hc (scalars_new _)).2] at hp
        rcases hp with hp | ⟨_, _, hp⟩
        · cases limit with
          | none => rw [checkLimit] at hp; cases hp
          | some l =>
            obtain ⟨n, offset⟩ := l
            rw [checkLimit, bind_err] at hp
            rcases hp with hp | ⟨t, ht, hp⟩
            · exact .inr ⟨_, .limit hacc, hp⟩
            · rw [bind_err] at hp
              rcases hp with hp | ⟨⟨⟩, hm, hp⟩
              · obtain ⟨rfl, hn⟩ := mustBeCount_err hp
                exact .inl (.limit ht hn)
              · cases offset with
                | none => rw [checkOffset] at hp; cases hp
                | some e =>
                  rw [checkOffset, bind_err] at hp
                  rcases hp with hp | ⟨u, hu, hp⟩
                  · exact .inr ⟨_, .offset (limit_accepted.2 ⟨hacc, t, ht, hm⟩), hp⟩
                  · obtain ⟨rfl, hn⟩ := mustBeCount_err hp
                    exact .inl (.offset hu hn)
        · cases hp

theorem unifyRow_long {sc : ScalarContext Name} {es : List (Expr Name)} {as us : List (Attribute Name)}
    (h : unifyRow (nameOps up) sc as es = .ok us) : us.length ≤ es.length := by
  induction es generalizing as us with
  | nil =>
    rw [unifyRow] at h
    · cases h
      exact Nat.le_refl _
    · simp
  | cons e es ih =>
    cases as with
    | nil =>
      rw [unifyRow] at h
      · cases h
        exact Nat.zero_le _
      · simp
    | cons a as =>
      rw [unifyRow, bind_ok_iff] at h
      obtain ⟨t, _, h⟩ := h
      rw [bind_ok_iff] at h
      obtain ⟨u, _, h⟩ := h
      cases u with
      | tuple us => cases h
      | scalar typ n =>
        simp only [bind_ok_iff] at h
        obtain ⟨vs, hvs, h⟩ := h
        cases h
        exact Nat.succ_le_succ (ih hvs)

theorem foldRows_long {sc : ScalarContext Name} {rows : List (List (Expr Name))} {as us : List (Attribute Name)}
    (h : foldRows (nameOps up) sc as rows = .ok us) {i : Nat} (hi : i < us.length) :
    ∀ r ∈ rows, i < r.length := by
  induction rows generalizing as with
  | nil => exact fun _ h => nomatch h
  | cons r rows ih =>
    rw [foldRows, bind_ok_iff] at h
    obtain ⟨vs, hvs, h⟩ := h
    intro r' hr'
    rcases List.mem_cons.1 hr' with rfl | hr'
    · have h1 := unifyRow_long hvs
      obtain ⟨a, ha⟩ : ∃ a, us[i]? = some a := ⟨_, List.getElem?_eq_getElem hi⟩
      obtain ⟨b, hb, _⟩ := foldRows_types h i a ha
      have := (List.getElem?_eq_some_iff.1 hb).1
      omega
    · exact ih h r' hr'

theorem rows_justified {ctx : SetContext Name} {y : SetExpr Name} {x : SqlError}
    (hp : inferSetExpr (nameOps up) ctx y = .error (.err x)) : Justified up x (.rows ctx y) := by
  cases y with
  | values rows =>
    rw [inferSetExpr, bind_err] at hp
    rcases hp with hp | ⟨_, _, hp⟩
    · cases rows with
      | nil => rw [inferValues] at hp; cases hp
      | cons row rows =>
        rw [inferValues, bind_err] at hp
        rcases hp with hp | ⟨ts, hts, hp⟩
        · rcases inferFirstRow_err hp with ⟨pre, e, post, rfl, ⟨us, hus⟩, he⟩ | ⟨rfl, e, t, hm, he, ht⟩
          · exact .inr ⟨_, .firstRow ⟨_, values_accepted.2 ⟨us, us, hus, by rw [foldRows], rfl⟩⟩, he⟩
          · exact .inl (.value hm he ht)
        · obtain ⟨above, row', below, us, rfl, ha, hp⟩ := foldRows_err hp
          rcases unifyRow_err hp with ⟨pre, e, post, rfl, hl, ⟨vs, hvs⟩, he⟩ | ⟨i, a, e, u, h1, h2, h3, h4⟩
          · refine .inr ⟨_, .laterRow (above := row :: above) (r := .plain us)
              (values_accepted.2 ⟨ts, us, hts, ha, rfl⟩) hl ⟨.plain vs, ?_⟩, he⟩
            rw [List.cons_append]
            refine values_accepted.2 ⟨ts, vs, hts, ?_, rfl⟩
            rw [foldRows_snoc, ha]
            exact hvs
          · obtain ⟨b, hb, hab⟩ := foldRows_types ha i a h1
            obtain ⟨e0, h0, ht0⟩ := inferFirstRow_types hts i b hb
            exact .inl (.values h0 h2 (foldRows_long ha (List.getElem?_eq_some_iff.1 h1).1) ht0 h3 (h4.left hab))
    · cases hp
  | query mode columns froms wher groupBy =>
    rw [inferSetExpr, bind_err] at hp
    rcases hp with hp | ⟨⟨sc, as⟩, hf, hp⟩
    · obtain ⟨pre, t, post, rfl, sc', as, hpre, ht⟩ := inferFrom_err hp
      exact .inr ⟨_, .from hpre, ht⟩
    · have hall : ∀ g, checkPredicate (nameOps up) sc .whereBoolean wher = .ok () →
          checkGroupBy (nameOps up) sc g = .ok () →
          (Work.rows ctx (.query mode .all froms wher g)).Accepted (nameOps up) :=
        fun g hw hg => query_accepted.2 ⟨sc, as, hf, hw, hg, _, by rw [inferColumns]⟩
      simp only [bind_err] at hp
      rcases hp with hp | ⟨⟨⟩, hw, hp⟩
      · obtain ⟨e, rfl, he⟩ := checkPredicate_err hp
        rcases he with he | ⟨rfl, t, ht, hn⟩
        · exact .inr ⟨_, .where hf, he⟩
        · exact .inl (.where hf ht hn)
      · rcases hp with hp | ⟨⟨⟩, hg, hp⟩
        · cases groupBy with
          | none => rw [checkGroupBy] at hp; cases hp
          | some g =>
            obtain ⟨groupings, having⟩ := g
            rw [checkGroupBy, bind_err] at hp
            rcases hp with hp | ⟨ts, hts, hp⟩
            · obtain ⟨pre, e, post, rfl, ⟨us, hus⟩, he⟩ := inferExprs_err hp
              refine .inr ⟨_, .group hf (hall _ hw ?_), he⟩
              rw [checkGroupBy, hus]
              simp [bind, Except.bind, checkPredicate]
            · obtain ⟨e, rfl, he⟩ := checkPredicate_err hp
              rcases he with he | ⟨rfl, t, ht, hn⟩
              · refine .inr ⟨_, .having hf (hall _ hw ?_), he⟩
                rw [checkGroupBy, hts]
                simp [bind, Except.bind, checkPredicate]
              · exact .inl (.having hf ht hn)
        · cases columns with
          | all => rw [inferColumns] at hp; cases hp
          | list cs =>
            rw [inferColumns, bind_err] at hp
            rcases hp with hp | ⟨_, _, hp⟩
            · rcases inferColumnList_err hp with ⟨pre, e, rename, post, rfl, ⟨us, hus⟩, he⟩ |
                ⟨rfl, e, rename, t, hm, he, ht⟩ | ⟨rfl, n, hm, hn⟩ | ⟨rfl, n, s, hm, hs, hn⟩
              · refine .inr ⟨_, .column hf (query_accepted.2 ⟨sc, as, hf, hw, hg, .plain us, ?_⟩), he⟩
                rw [inferColumns, hus]
                rfl
              · exact .inl (.column hf hm he ht)
              · exact .inl (.allOfNothing hf hm hn)
              · exact .inl (.allOfColumn hf hm hs hn)
            · cases hp
  | op op l r =>
    rw [inferSetExpr, bind_err] at hp
    rcases hp with hp | ⟨t, ht, hp⟩
    · exact .inr ⟨_, .opLeft, hp⟩
    · rw [bind_err] at hp
      rcases hp with hp | ⟨u, hu, hp⟩
      · exact .inr ⟨_, .opRight ⟨t, ht⟩, hp⟩
      · rw [bind_err] at hp
        rcases hp with hp | ⟨_, _, hp⟩
        · obtain ⟨rfl, i, a, b, ha, hb, hn⟩ := unifyAttributes_err hp
          exact .inl (.operands ht hu ha hb hn)
        · cases hp

/-! ## INSERT -/

theorem insertColumns_err {ps : List (Attribute Name × Name)} {m : TMap Name (DataType × Bool)} {x : SqlError}
    (h : insertColumns (nameOps up) m ps = .error (.err x)) :
    ∃ pre v c post m', ps = pre ++ (v, c) :: post ∧ insertColumns (nameOps up) m pre = .ok m' ∧
      insertColumn (nameOps up) m' v c = .error (.err x) := by
  induction ps generalizing m with
  | nil => cases h
  | cons p ps ih =>
    obtain ⟨v, c⟩ := p
    rw [insertColumns, bind_err] at h
    rcases h with h | ⟨m1, h1, h⟩
    · exact ⟨[], v, c, ps, m, rfl, rfl, h⟩
    · obtain ⟨pre, v', c', post, m', rfl, h2, h3⟩ := ih h
      refine ⟨(v, c) :: pre, v', c', post, m', rfl, ?_, h3⟩
      rw [insertColumns, h1]
      exact h2

/-- What is missing when some columns have been given: what was missing before, without these. -/
theorem insertColumns_get {ps : List (Attribute Name × Name)} {m m' : TMap Name (DataType × Bool)}
    (h : insertColumns (nameOps up) m ps = .ok m') (k : Name) :
    (∀ v, m'.get (nameOps up) k = some v → m.get (nameOps up) k = some v ∧ ∀ p ∈ ps, ¬ SameName up p.2 k) ∧
      (m'.get (nameOps up) k = none → m.get (nameOps up) k = none ∨ ∃ p ∈ ps, SameName up p.2 k) := by
  induction ps generalizing m with
  | nil =>
    cases h
    exact ⟨fun v hv => ⟨hv, fun _ h => nomatch h⟩, .inl⟩
  | cons p ps ih =>
    obtain ⟨v, c⟩ := p
    rw [insertColumns, bind_ok_iff] at h
    obtain ⟨m1, h1, h⟩ := h
    have hm : m1 = m.remove (nameOps up) c := by
      unfold insertColumn at h1
      split at h1
      · cases h1
      · split at h1 <;> cases h1
        rfl
    subst hm
    obtain ⟨i1, i2⟩ := ih h
    rw [TMap.get_remove (keyed_nameOps up)] at i1 i2
    by_cases hk : k.upper up = c.upper up
    · rw [if_pos hk] at i1 i2
      exact ⟨fun v hv => (nomatch (i1 v hv).1), fun _ => .inr ⟨_, List.mem_cons_self, Eq.symm hk⟩⟩
    · rw [if_neg hk] at i1 i2
      constructor
      · intro v hv
        obtain ⟨h1, h2⟩ := i1 v hv
        refine ⟨h1, fun p hp => ?_⟩
        rcases List.mem_cons.1 hp with rfl | hp
        · exact fun hs => hk (Eq.symm hs)
        · exact h2 p hp
      · intro hn
        rcases i2 hn with h | ⟨p, hp, hs⟩
        · exact .inl h
        · exact .inr ⟨p, List.mem_cons_of_mem _ hp, hs⟩

theorem insertColumns_sorted {ps : List (Attribute Name × Name)} {m m' : TMap Name (DataType × Bool)}
    (h : insertColumns (nameOps up) m ps = .ok m') (hm : Sorted up m) : Sorted up m' := by
  induction ps generalizing m with
  | nil => cases h; exact hm
  | cons p ps ih =>
    obtain ⟨v, c⟩ := p
    rw [insertColumns, bind_ok_iff] at h
    obtain ⟨m1, h1, h⟩ := h
    unfold insertColumn at h1
    split at h1
    · cases h1
    · split at h1 <;> cases h1
      exact ih h (TMap.remove_increasing hm c)

theorem columnMap_iff {r : RowType Name} {c : Name} {v : DataType × Bool} :
    (columnMap (nameOps up) r).get (nameOps up) c = some v ↔
      ∃ a, LastNamed up r.attributes c a ∧ v = (a.typ, a.isNull) := by
  unfold columnMap
  rw [TMap.get_collect (keyed_nameOps up), ← List.map_reverse, List.find?_map, Option.map_map,
    Option.map_eq_some_iff]
  constructor
  · rintro ⟨a, ha, rfl⟩
    obtain ⟨hs, as, bs, he, hb⟩ := List.find?_eq_some_iff_append.1 ha
    have hs : a.name.upper up = c.upper up := by simpa using hs
    refine ⟨a, ⟨bs.reverse, as.reverse, ?_, hs, fun b hm h => ?_⟩, rfl⟩
    · have := congrArg List.reverse he
      simpa using this
    · have := hb b (List.mem_reverse.1 hm)
      simp only [Function.comp_apply, Bool.not_eq_true', decide_eq_false_iff_not] at this
      exact this h
  · rintro ⟨a, ⟨pre, post, he, hs, hn⟩, rfl⟩
    refine ⟨a, List.find?_eq_some_iff_append.2 ⟨decide_eq_true hs, post.reverse, pre.reverse, ?_, ?_⟩, rfl⟩
    · rw [he]
      simp
    · intro b hb
      simp only [Function.comp_apply, Bool.not_eq_true', decide_eq_false_iff_not]
      exact hn b (List.mem_reverse.1 hb)

theorem columnMap_some {r : RowType Name} {c : Name} {v : DataType × Bool}
    (h : (columnMap (nameOps up) r).get (nameOps up) c = some v) :
    ∃ a, LastNamed up r.attributes c a ∧ v = (a.typ, a.isNull) := columnMap_iff.1 h

theorem columnMap_none {r : RowType Name} {c : Name} (h : (columnMap (nameOps up) r).get (nameOps up) c = none) :
    ∀ a ∈ r.attributes, ¬ SameName up a.name c :=
  fun a ha => (TMap.get_collect_none (keyed_nameOps up)).1 h _ (List.mem_map.2 ⟨a, ha, rfl⟩)

/-- The values and their targets. -/
def pairsOf (columns : Option (List Name)) (values : List (Attribute Name)) : List (Attribute Name × Name) :=
  match columns with
  | none => values.map fun a => (a, a.name)
  | some cs => values.zip cs

theorem pairsOf_targets {columns : Option (List Name)} {values : List (Attribute Name)}
    (h : ∀ cs, columns = some cs → cs.length = values.length) :
    (pairsOf columns values).map (·.2) = targetsOf columns values ∧
      (pairsOf columns values).map (·.1) = values := by
  cases columns with
  | none => simp [pairsOf, targetsOf, Function.comp_def]
  | some cs =>
    have := h cs rfl
    constructor
    · exact List.map_snd_zip (by omega)
    · exact List.map_fst_zip (by omega)

theorem insertSource_pairs {m : TMap Name (DataType × Bool)} {values : List (Attribute Name)}
    {columns : Option (List Name)} (h : ∀ cs, columns = some cs → cs.length = values.length) :
    insertSource (nameOps up) m values columns = insertColumns (nameOps up) m (pairsOf columns values) := by
  cases columns with
  | none => rfl
  | some cs =>
    rw [insertSource, if_neg (by have := h cs rfl; simpa using this)]
    rfl

theorem insert_justified {ctx : SetContext Name} {s : InsertStatement Name} {x : SqlError}
    (hp : s.validateType (nameOps up) ctx = .error (.err x)) : Justified up x (.statement ctx (.insert s)) := by
  rw [InsertStatement.validateType, bind_err] at hp
  rcases hp with hp | ⟨r, hr, hp⟩
  · exact .inl (.insertTable (resolve_err hp))
  · rw [bind_err] at hp
    rcases hp with hp | ⟨v, hv, hp⟩
    · exact .inr ⟨_, .insertSource hr, hp⟩
    · by_cases hl : ∀ cs, s.columns = some cs → cs.length = v.attributes.length
      · rw [insertSource_pairs hl] at hp
        obtain ⟨htar, hval⟩ := pairsOf_targets hl
        rw [bind_err] at hp
        rcases hp with hp | ⟨m, hm, hp⟩
        · obtain ⟨pre, a, c, post, m', hps, hpre, ha⟩ := insertColumns_err hp
          have hc : (targetsOf s.columns v.attributes)[pre.length]? = some c := by
            rw [← htar, hps]
            simp
          have hb : v.attributes[pre.length]? = some a := by
            conv => lhs; rw [← hval, hps]
            simp
          obtain ⟨g1, g2⟩ := insertColumns_get hpre c
          unfold insertColumn at ha
          split at ha
          · rename_i hg
            cases ha
            refine .inl (.insertTarget hr hv hc ?_)
            rcases g2 hg with h | ⟨p, hp, hs⟩
            · exact .inl (columnMap_none h)
            · obtain ⟨j, hj, rfl⟩ := List.mem_iff_getElem.1 hp
              refine .inr ⟨j, pre[j].2, hj, ?_, hs⟩
              rw [← htar, hps]
              simp [List.getElem?_append_left, hj]
          · rename_i typ isNull hg
            split at ha
            · rename_i hbad
              cases ha
              obtain ⟨b, hb', he⟩ := columnMap_some (g1 _ hg).1
              cases he
              refine .inl (.insertType hr hv hc hb hb' ?_)
              simpa using hbad
            · cases ha
        · unfold insertComplete at hp
          split at hp
          · rename_i hany
            cases hp
            rw [List.any_eq_true] at hany
            obtain ⟨e, he, hn⟩ := hany
            have hsorted : Sorted up m := insertColumns_sorted hm (TMap.collect_increasing (keyed_nameOps up) _)
            have hg := TMap.get_of_mem (keyed_nameOps up) hsorted he rfl
            obtain ⟨h1, h2⟩ := (insertColumns_get hm e.1).1 _ hg
            obtain ⟨a, ⟨pre, post, ha, hs, hl⟩, hv'⟩ := columnMap_some h1
            refine .inl (.insertMissing hr hv ⟨pre, post, ha, rfl, fun b hb h => hl b hb (h.trans hs)⟩
              (by rw [hv'] at hn; simpa using hn) fun c hc hsame => ?_)
            rw [← htar] at hc
            obtain ⟨p, hp, rfl⟩ := List.mem_map.1 hc
            exact h2 p hp (hsame.symm.trans hs)
          · cases hp
      · cases hc : s.columns with
        | none => rw [hc] at hl; exact absurd (fun cs h => nomatch h) hl
        | some cs =>
          have hne : cs.length ≠ v.attributes.length := by
            intro h
            apply hl
            intro cs' hcs
            rw [hc] at hcs
            cases hcs
            exact h
          rw [hc, insertSource, if_pos hne] at hp
          cases hp
          exact .inl (.insertCount hv hc hne)

/-! ## UPDATE -/

theorem updateColumns_err {map : TMap Name (DataType × Bool)} {typ : DataType} {n : Bool} {m : TMap Name Unit}
    {cs : List Name} {x : SqlError} (h : updateColumns (nameOps up) map typ n m cs = .error (.err x)) :
    ∃ pre c post, cs = pre ++ c :: post ∧
      (x = .updateDuplicate ∧ (Has up m c ∨ ∃ d ∈ pre, SameName up d c) ∨
       x = .updateUndefined ∧ map.get (nameOps up) c = none ∨
       ∃ ct cn, x = .updateIncompatible ∧ map.get (nameOps up) c = some (ct, cn) ∧
         (ct ≠ typ ∨ n = true ∧ cn = false)) := by
  induction cs generalizing m with
  | nil => cases h
  | cons c cs ih =>
    rw [updateColumns] at h
    split at h
    · rename_i hh
      cases h
      exact ⟨[], c, cs, rfl, .inl ⟨rfl, .inl hh⟩⟩
    · split at h
      · rename_i hg
        cases h
        exact ⟨[], c, cs, rfl, .inr (.inl ⟨rfl, hg⟩)⟩
      · rename_i ct cn hg
        split at h
        · rename_i hb
          cases h
          exact ⟨[], c, cs, rfl, .inr (.inr ⟨ct, cn, rfl, hg, by simpa using hb⟩)⟩
        · obtain ⟨pre, c', post, rfl, hx⟩ := ih h
          clear h ih
          refine ⟨c :: pre, c', post, rfl, ?_⟩
          rcases hx with ⟨rfl, hx⟩ | h
          · refine .inl ⟨rfl, ?_⟩
            rcases hx with h | ⟨d, hd, hs⟩
            · rcases has_insert.1 h with h | h
              · exact .inl h
              · exact .inr ⟨c, List.mem_cons_self, h⟩
            · exact .inr ⟨d, List.mem_cons_of_mem _ hd, hs⟩
          · exact .inr h

theorem updateColumns_has {map : TMap Name (DataType × Bool)} {typ : DataType} {n : Bool} {m m' : TMap Name Unit}
    {cs : List Name} (h : updateColumns (nameOps up) map typ n m cs = .ok m') {k : Name} (hk : Has up m' k) :
    Has up m k ∨ ∃ c ∈ cs, SameName up c k := by
  induction cs generalizing m with
  | nil => cases h; exact .inl hk
  | cons c cs ih =>
    rw [updateColumns] at h
    split at h
    · cases h
    · split at h
      · cases h
      · split at h
        · cases h
        · rcases ih h with h | ⟨d, hd, hs⟩
          · rcases has_insert.1 h with h | h
            · exact .inl h
            · exact .inr ⟨c, List.mem_cons_self, h⟩
          · exact .inr ⟨d, List.mem_cons_of_mem _ hd, hs⟩

theorem updateAssignments_err {sc : ScalarContext Name} {map : TMap Name (DataType × Bool)} {m : TMap Name Unit}
    {as : List (Assignment Name)} {x : SqlError}
    (h : updateAssignments (nameOps up) sc map m as = .error (.err x)) :
    ∃ pre a post, as = pre ++ a :: post ∧ (∃ m', updateAssignments (nameOps up) sc map m pre = .ok m') ∧
      (inferExpr (nameOps up) sc a.expr = .error (.err x) ∨
       x = .updateScalar ∧ (∃ ts, inferExpr (nameOps up) sc a.expr = .ok (.tuple ts)) ∨
       ∃ typ n c1 c c2, inferExpr (nameOps up) sc a.expr = .ok (.scalar typ n) ∧ a.columns = c1 ++ c :: c2 ∧
        (x = .updateDuplicate ∧ (Has up m c ∨ ∃ d ∈ pre.flatMap (·.columns) ++ c1, SameName up d c) ∨
         x = .updateUndefined ∧ map.get (nameOps up) c = none ∨
         ∃ ct cn, x = .updateIncompatible ∧ map.get (nameOps up) c = some (ct, cn) ∧
           (ct ≠ typ ∨ n = true ∧ cn = false))) := by
  induction as generalizing m with
  | nil => cases h
  | cons a as ih =>
    rw [updateAssignments, bind_err] at h
    rcases h with h | ⟨t, ht, h⟩
    · exact ⟨[], a, as, rfl, ⟨m, rfl⟩, .inl h⟩
    · cases t with
      | tuple ts =>
        cases h
        exact ⟨[], a, as, rfl, ⟨m, rfl⟩, .inr (.inl ⟨rfl, ts, ht⟩)⟩
      | scalar typ n =>
        simp only [bind_err] at h
        rcases h with h | ⟨m1, hm1, h⟩
        · obtain ⟨c1, c, c2, hcs, h⟩ := updateColumns_err h
          exact ⟨[], a, as, rfl, ⟨m, rfl⟩, .inr (.inr ⟨typ, n, c1, c, c2, ht, hcs, by simpa using h⟩)⟩
        · obtain ⟨pre, a', post, rfl, ⟨m', hm'⟩, hx⟩ := ih h
          clear h ih
          refine ⟨a :: pre, a', post, rfl, ⟨m', ?_⟩, ?_⟩
          · rw [updateAssignments, ht]
            show (updateColumns (nameOps up) map typ n m a.columns >>= _) = _
            rw [hm1]
            exact hm'
          · rcases hx with h | h | ⟨typ', n', c1, c, c2, ht', hcs, h⟩
            · exact .inl h
            · exact .inr (.inl h)
            · refine .inr (.inr ⟨typ', n', c1, c, c2, ht', hcs, ?_⟩)
              rcases h with ⟨rfl, h⟩ | h
              · refine .inl ⟨rfl, ?_⟩
                rcases h with h | ⟨d, hd, hs⟩
                · rcases updateColumns_has hm1 h with h | ⟨d, hd, hs⟩
                  · exact .inl h
                  · exact .inr ⟨d, by simp [hd], hs⟩
                · refine .inr ⟨d, ?_, hs⟩
                  rw [List.flatMap_cons, List.append_assoc]
                  exact List.mem_append_right _ hd
              · exact .inr h

theorem not_distinct {l1 l2 : List Name} {c d : Name} (hd : d ∈ l1) (hs : SameName up d c) :
    ¬ DistinctNames up (l1 ++ c :: l2) :=
  fun h => (List.pairwise_append.1 h).2.2 d hd c List.mem_cons_self hs

theorem update_justified {ctx : SetContext Name} {s : UpdateStatement Name} {x : SqlError}
    (hp : s.validateType (nameOps up) ctx = .error (.err x)) : Justified up x (.statement ctx (.update s)) := by
  obtain ⟨name, assignments, wher⟩ := s
  rw [UpdateStatement.validateType, bind_err] at hp
  rcases hp with hp | ⟨r, hr, hp⟩
  · exact .inl (.updateTable (resolve_err hp))
  · rw [bind_err] at hp
    rcases hp with hp | ⟨sc, hc, hp⟩
    · exact absurd hp tableContext_err
    · rw [bind_err] at hp
      rcases hp with hp | ⟨m, hm, hp⟩
      · obtain ⟨pre, a, post, has, ⟨m, hm⟩, h⟩ := updateAssignments_err hp
        simp only at has
        subst has
        have hmem : a ∈ pre ++ a :: post := by simp
        rcases h with h | ⟨rfl, ts, h⟩ | ⟨typ, n, c1, c, c2, ht, hcs, h⟩
        · exact .inr ⟨_, .assignment hr hc (update_accepted.2 ⟨r, sc, m, hr, hc, hm⟩), h⟩
        · exact .inl (.assigned hr hc hmem h ⟨ts, rfl⟩)
        · have hcm : c ∈ a.columns := by simp [hcs]
          rcases h with ⟨rfl, h⟩ | ⟨rfl, h⟩ | ⟨ct, cn, rfl, hg, h⟩
          · refine .inl (.twice ?_)
            rcases h with h | ⟨d, hd, hs⟩
            · cases h
            · have : (pre ++ a :: post).flatMap (·.columns) =
                  (pre.flatMap (·.columns) ++ c1) ++ c :: (c2 ++ post.flatMap (·.columns)) := by
                simp [hcs]
              rw [this]
              exact not_distinct hd hs
          · exact .inl (.noColumn hr hmem hcm (columnMap_none h))
          · obtain ⟨b, hb, he⟩ := columnMap_some hg
            cases he
            exact .inl (.assignedType hr hc hmem ht hcm hb h)
      · obtain ⟨e, he, h⟩ := checkPredicate_err hp
        simp only at he
        subst he
        rcases h with h | ⟨rfl, t, ht, hn⟩
        · exact .inr ⟨_, .updateWhere hr hc (update_accepted.2 ⟨r, sc, m, hr, hc, hm⟩), h⟩
        · exact .inl (.updateWhere hr hc ht hn)

/-! ## The whole -/

theorem statement_justified {ctx : SetContext Name} {s : Statement Name} {x : SqlError}
    (hp : s.validateType (nameOps up) ctx = .error (.err x)) : Justified up x (.statement ctx s) := by
  cases s with
  | select s =>
    rw [Statement.validateType, bind_err] at hp
    rcases hp with hp | ⟨_, _, hp⟩
    · exact .inr ⟨_, .selectStatement, hp⟩
    · cases hp
  | insert s => exact insert_justified hp
  | update s => exact update_justified hp
  | delete s =>
    obtain ⟨name, wher⟩ := s
    rw [Statement.validateType, DeleteStatement.validateType, bind_err] at hp
    rcases hp with hp | ⟨r, hr, hp⟩
    · exact .inl (.deleteTable (resolve_err hp))
    · rw [bind_err] at hp
      rcases hp with hp | ⟨sc, hc, hp⟩
      · exact absurd hp tableContext_err
      · obtain ⟨e, he, h⟩ := checkPredicate_err hp
        simp only at he
        subst he
        rcases h with h | ⟨rfl, t, ht, hn⟩
        · exact .inr ⟨_, .deleteWhere hr hc, h⟩
        · exact .inl (.deleteWhere hr hc ht hn)

theorem fails_justified {w : Work Name} {x : SqlError} (hs : w.Scalars) (hp : w.Fails up x) :
    Flaw up w x ∨ ∃ w', Next (nameOps up) w w' ∧ Counts w w' ∧ w'.Fails up x := by
  have key (hj : Justified up x w) (hn : ∀ sc operand whens els, w ≠ .expr sc (.case operand whens els)) :
      Flaw up w x ∨ ∃ w', Next (nameOps up) w w' ∧ Counts w w' ∧ w'.Fails up x := by
    rcases hj with h | ⟨w', h, h'⟩
    · exact .inl h
    · exact .inr ⟨w', h, fun _ _ _ _ he => absurd he (hn _ _ _ _), h'⟩
  cases w with
  | expr sc e =>
    cases e with
    | case operand ws els => exact case_justified hs hp
    | _ => exact key (expr_justified hs hp) (fun _ _ _ _ h => nomatch h)
  | table sc t => exact key (table_justified hp) (fun _ _ _ _ h => nomatch h)
  | query ctx s => exact key (query_justified hp) (fun _ _ _ _ h => nomatch h)
  | rows ctx y => exact key (rows_justified hp) (fun _ _ _ _ h => nomatch h)
  | statement ctx s => exact key (statement_justified hp) (fun _ _ _ _ h => nomatch h)

/-- An error comes from a part that is looked at and has the flaw the error is about. -/
theorem fails_reason {w : Work Name} {x : SqlError} (hs : w.Scalars) (hp : w.Fails up x) :
    ∃ b, Outside (nameOps up) w b ∧ Flaw up b x := by
  have key : ∀ n (w : Work Name), w.size < n → w.Scalars → w.Fails up x →
      ∃ b, Outside (nameOps up) w b ∧ Flaw up b x := by
    intro n
    induction n with
    | zero => intro w h; cases h
    | succ n ih =>
      intro w hn hs hp
      rcases fails_justified hs hp with hd | ⟨w', h, hc, hp'⟩
      · exact ⟨w, .here w, hd⟩
      · have := next_smaller h
        obtain ⟨b, hr, hb⟩ := ih w' (by omega) (next_scalars h hs) hp'
        exact ⟨b, .step h hc hr, hb⟩
  exact key _ w (Nat.lt_succ_self _) hs hp

theorem Outside.reaches {N : Type} {ops : NameOps N} {w b : Work N} (h : Outside ops w b) : Reaches ops w b := by
  induction h with
  | here w => exact .here w
  | step h _ _ ih => exact .step h ih

theorem mismatch_reported {t u : ScalarType} {x : SqlError} (h : Mismatch t u x) : x ∉ Unreported := by
  induction h with
  | part _ _ _ _ ih => exact ih
  | _ => simp [Unreported]

theorem unknown_reported {ctx : SetContext Name} {q : List Name} {x : SqlError} (h : Unknown up ctx q x) :
    x ∉ Unreported := by
  cases h <;> simp [Unreported]

theorem flaw_reported {w : Work Name} {x : SqlError} (h : Flaw up w x) : x ∉ Unreported := by
  cases h <;> first
    | (simp [Unreported]; done)
    | exact mismatch_reported ‹_›
    | exact unknown_reported ‹_›
    | (rename_i h; cases h <;> simp [Unreported])

end Verif.Sql
