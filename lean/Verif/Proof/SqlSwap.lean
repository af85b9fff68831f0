import Verif.Proof.SqlSafe
import Verif.Proof.SqlRows
import Verif.Proof.SqlUnify
import Verif.Spec.SqlNotNull
import Verif.Spec.SqlSwap
/-! # Exchanged operands -/

namespace Verif.Sql

open Chk

/-- The outcomes are the same, except for which error is reported. -/
def Chk.Same {α : Type} (c c' : Chk α) : Prop := ∀ a, c = .ok a ↔ c' = .ok a

namespace Chk.Same

theorem refl {c : Chk α} : c.Same c := fun _ => Iff.rfl

theorem of_eq {c c' : Chk α} (h : c = c') : c.Same c' := h ▸ refl

theorem trans {a b c : Chk α} (h : a.Same b) (h' : b.Same c) : a.Same c := fun x => (h x).trans (h' x)

theorem symm {a b : Chk α} (h : a.Same b) : b.Same a := fun x => (h x).symm

theorem bind {c c' : Chk α} {f f' : α → Chk β} (h : c.Same c') (hf : ∀ a, c = .ok a → (f a).Same (f' a)) :
    (c >>= f).Same (c' >>= f') := by
  intro b
  rw [Chk.bind_eq_ok, Chk.bind_eq_ok]
  constructor
  · rintro ⟨a, h1, h2⟩
    exact ⟨a, (h a).1 h1, (hf a h1 b).1 h2⟩
  · rintro ⟨a, h1, h2⟩
    have h1 := (h a).2 h1
    exact ⟨a, h1, (hf a h1 b).2 h2⟩

/-- Two results that are used together can be asked for in either order. -/
theorem exchange {c : Chk α} {d : Chk β} {f : α → β → Chk γ} :
    (c >>= fun a => d >>= fun b => f a b).Same (d >>= fun b => c >>= fun a => f a b) := by
  intro x
  simp only [Chk.bind_eq_ok]
  constructor
  · rintro ⟨a, h1, b, h2, h3⟩; exact ⟨b, h2, a, h1, h3⟩
  · rintro ⟨b, h2, a, h1, h3⟩; exact ⟨a, h1, b, h2, h3⟩

end Chk.Same

theorem Chk.of_post {c : Chk α} {P : α → Prop} {a : α} (h : c.Post P) (ha : c = .ok a) : P a := by
  subst ha; exact h

theorem ignored_of_post {c : Chk α} {P : α → Prop} (h : c.Post P) : ignored c = .ok () := by
  match c, h with
  | .ok _, _ => rfl
  | .error (.err _), _ => rfl

/-! ## Types of operators -/

mutual
theorem isCompatible_comm : ∀ l r : ScalarType, l.isCompatible r = r.isCompatible l
  | .scalar t1 n1, .scalar t2 n2 => by
    rw [ScalarType.isCompatible, ScalarType.isCompatible]
    by_cases h : t1 = t2
    · rw [if_pos h, if_pos h.symm, Bool.or_comm]
    · rw [if_neg h, if_neg (Ne.symm h)]
  | .tuple ts, .tuple us => by
    rw [ScalarType.isCompatible, ScalarType.isCompatible, isCompatibleFold_comm]
    by_cases h : ts.length = us.length
    · rw [if_neg (not_not_intro h), if_neg (not_not_intro h.symm)]
    · rw [if_pos h, if_pos (Ne.symm h)]
  | .scalar _ _, .tuple _ => by simp [ScalarType.isCompatible]
  | .tuple _, .scalar _ _ => by simp [ScalarType.isCompatible]
theorem isCompatibleFold_comm : ∀ (ls rs : List ScalarType) (c : Chk Bool),
    ScalarType.isCompatibleFold c ls rs = ScalarType.isCompatibleFold c rs ls
  | [], [], _ => rfl
  | [], _ :: _, _ => by simp [ScalarType.isCompatibleFold]
  | _ :: _, [], _ => by simp [ScalarType.isCompatibleFold]
  | l :: ls, r :: rs, c => by
    simp only [ScalarType.isCompatibleFold]
    rw [isCompatible_comm l r, isCompatibleFold_comm ls rs]
end

theorem binaryType_comm (op : BinaryOperator) (l r : ScalarType) : binaryType op l r = binaryType op r l := by
  cases op <;> rcases l with _ | ⟨a, n⟩ <;> rcases r with _ | ⟨b, m⟩ <;> try rfl
  all_goals
    first
    | (cases a <;> cases b <;> simp [binaryType, Bool.or_comm])
    | (cases a <;> rfl)
    | (cases b <;> rfl)

theorem comparisonType_mirror (op : ComparisonOperator) (l r : ScalarType) :
    comparisonType op l r = comparisonType op.mirror r l := by
  cases op <;> simp only [ComparisonOperator.mirror, comparisonType]
  case equal | notEqual => rw [isCompatible_comm]
  case like =>
    rcases l with _ | ⟨a, n⟩ <;> rcases r with _ | ⟨b, m⟩ <;> try rfl
    all_goals
      first
      | (cases a <;> cases b <;> simp [Bool.or_comm])
      | (cases a <;> rfl)
      | (cases b <;> rfl)
  all_goals
    rcases l with _ | ⟨a, n⟩ <;> rcases r with _ | ⟨b, m⟩ <;> try rfl
    all_goals
      by_cases h : a = b
      · subst h; simp [Bool.or_comm]
      · simp [h, Ne.symm h]

theorem betweenType_swap (e l u : ScalarType) : betweenType e l u = betweenType e u l := by
  rcases e with _ | ⟨a, n⟩ <;> rcases l with _ | ⟨b, m⟩ <;> rcases u with _ | ⟨c, k⟩ <;> try rfl
  simp only [betweenType]
  by_cases h : a = b ∧ a = c ∧ a.isOrdered
  · rw [if_pos h, if_pos ⟨h.2.1, h.1, h.2.2⟩, Bool.or_assoc, Bool.or_comm m k, ← Bool.or_assoc]
  · rw [if_neg h, if_neg fun h' => h ⟨h'.2.1, h'.1, h'.2.2⟩]

theorem unify_comm_scalar (a b : DataType) (n m : Bool) :
    (ScalarType.scalar a n).unify (.scalar b m) = (ScalarType.scalar b m).unify (.scalar a n) := by
  simp only [ScalarType.unify]
  by_cases h : a = b
  · subst h; simp [Bool.or_comm]
  · rw [if_neg h, if_neg (Ne.symm h)]

theorem unifyAttributes_exchange {N : Type} : ∀ (ls rs as : List (Attribute N)), unifyAttributes ls rs = .ok as →
    ∃ bs, unifyAttributes rs ls = .ok bs ∧ bs.map Attribute.scalar = as.map Attribute.scalar
  | [], [], as, h => by cases h; exact ⟨[], rfl, rfl⟩
  | [], _ :: _, as, h => by cases h; exact ⟨[], rfl, rfl⟩
  | _ :: _, [], as, h => by cases h; exact ⟨[], rfl, rfl⟩
  | l :: ls, r :: rs, as, h => by
    rw [unifyAttributes] at h
    obtain ⟨t, h1, h2⟩ := Chk.bind_eq_ok.1 h
    cases t with
    | tuple ts => cases h2
    | scalar typ n =>
      obtain ⟨cs, h3, h4⟩ := Chk.bind_eq_ok.1 h2
      cases h4
      obtain ⟨bs, h5, h6⟩ := unifyAttributes_exchange ls rs cs h3
      refine ⟨⟨r.name, typ, n⟩ :: bs, ?_, by simp [h6, Attribute.scalar]⟩
      rw [unifyAttributes]
      simp only [Attribute.scalar] at h1 ⊢
      rw [unify_comm_scalar, h1]
      simp only [Chk.bind_ok, h5]
      rfl

/-! ## Lists after IN -/

section
variable {N : Type} {ops : NameOps N} {sc : ScalarContext N}

theorem inferList_ok_iff (es : List (Expr N)) (t : DataType) (n : Bool) :
    inferList ops sc es = .ok (.scalar t n) ↔ es ≠ [] ∧
      (∀ e ∈ es, ∃ b, inferExpr ops sc e = .ok (.scalar t b)) ∧
      (n = true ↔ ∃ e ∈ es, inferExpr ops sc e = .ok (.scalar t true)) := by
  cases es with
  | nil => simp [inferList, panics]
  | cons e es =>
    rw [inferList]
    have key : foldList ops sc (inferExpr ops sc e) es = .ok (.scalar t n) ↔
        ∃ a, inferExpr ops sc e = .ok (.scalar t a) ∧ ∃ ns : List Bool, ns.length = es.length ∧
          n = (a || ns.any id) ∧ ∀ (i : Nat) (e : Expr N) (b : Bool), es[i]? = some e → ns[i]? = some b →
            inferExpr ops sc e = .ok (.scalar t b) := by
      cases he : inferExpr ops sc e with
      | error x =>
        refine ⟨fun h => absurd h (foldList_error sc es x _), ?_⟩
        rintro ⟨a, h, _⟩
        cases h
      | ok u =>
        cases u with
        | tuple ts =>
          refine ⟨fun h => absurd h (foldList_tuple sc es ts t n), ?_⟩
          rintro ⟨a, h, _⟩
          cases h
        | scalar typ a =>
          rw [foldList_ok]
          constructor
          · rintro ⟨rfl, h⟩; exact ⟨a, rfl, h⟩
          · rintro ⟨a', h, h'⟩; cases h; exact ⟨rfl, h'⟩
    rw [key]
    constructor
    · rintro ⟨a, h1, ns, h2, h3, h4⟩
      have hall : ∀ x ∈ es, ∃ b, inferExpr ops sc x = .ok (.scalar t b) ∧ (b = true → ns.any id = true) := by
        intro x hx
        obtain ⟨i, hi⟩ := List.getElem?_of_mem hx
        have hlt := (List.getElem?_eq_some_iff.1 hi).1
        have hb : ns[i]? = some (ns[i]'(by omega)) := List.getElem?_eq_getElem _
        refine ⟨_, h4 i x _ hi hb, fun hbt => List.any_eq_true.2 ⟨_, List.mem_of_getElem? hb, hbt⟩⟩
      refine ⟨by simp, ?_, ?_⟩
      · intro x hx
        rcases List.mem_cons.1 hx with rfl | hx
        · exact ⟨a, h1⟩
        · obtain ⟨b, hb, _⟩ := hall x hx; exact ⟨b, hb⟩
      · rw [h3, Bool.or_eq_true]
        constructor
        · rintro (rfl | h)
          · exact ⟨e, by simp, h1⟩
          · obtain ⟨b, hb, hbt⟩ := List.any_eq_true.1 h
            obtain ⟨i, hi⟩ := List.getElem?_of_mem hb
            have hlt := (List.getElem?_eq_some_iff.1 hi).1
            have hx : es[i]? = some (es[i]'(by omega)) := List.getElem?_eq_getElem _
            have hbt : b = true := hbt
            subst hbt
            exact ⟨_, List.mem_cons_of_mem _ (List.mem_of_getElem? hx), h4 i _ _ hx hi⟩
        · rintro ⟨x, hx, hi⟩
          rcases List.mem_cons.1 hx with rfl | hx
          · rw [h1] at hi; cases hi; exact Or.inl rfl
          · obtain ⟨b, hb, hbt⟩ := hall x hx
            rw [hi] at hb; cases hb
            exact Or.inr (hbt rfl)
    · rintro ⟨_, h2, h3⟩
      obtain ⟨a, ha⟩ := h2 e (by simp)
      refine ⟨a, ha, ?_⟩
      have hall : ∀ es' : List (Expr N), (∀ x ∈ es', ∃ b, inferExpr ops sc x = .ok (.scalar t b)) →
          ∃ ns : List Bool, ns.length = es'.length ∧ (∀ (i : Nat) (e : Expr N) (b : Bool), es'[i]? = some e →
            ns[i]? = some b → inferExpr ops sc e = .ok (.scalar t b)) ∧
            (ns.any id = true ↔ ∃ x ∈ es', inferExpr ops sc x = .ok (.scalar t true)) := by
        intro es'
        induction es' with
        | nil => intro _; exact ⟨[], rfl, by simp, by simp⟩
        | cons x xs ih =>
          intro h
          obtain ⟨b, hb⟩ := h x (by simp)
          obtain ⟨ns, k1, k2, k3⟩ := ih fun y hy => h y (by simp [hy])
          refine ⟨b :: ns, by simp [k1], ?_, ?_⟩
          · intro i d c hd hc
            cases i with
            | zero => simp at hd hc; subst hd hc; exact hb
            | succ i => exact k2 i d c (by simpa using hd) (by simpa using hc)
          · rw [List.any_cons, Bool.or_eq_true, k3]
            constructor
            · rintro (h | ⟨y, hy, h⟩)
              · have h : b = true := h
                subst h; exact ⟨x, by simp, hb⟩
              · exact ⟨y, by simp [hy], h⟩
            · rintro ⟨y, hy, hi⟩
              rcases List.mem_cons.1 hy with rfl | hy
              · rw [hb] at hi; cases hi; exact Or.inl rfl
              · exact Or.inr ⟨y, hy, hi⟩
      obtain ⟨ns, k1, k2, k3⟩ := hall es fun x hx => h2 x (by simp [hx])
      refine ⟨ns, k1, ?_, k2⟩
      apply Bool.eq_iff_iff.2
      rw [h3, Bool.or_eq_true, k3]
      constructor
      · rintro ⟨y, hy, h⟩
        rcases List.mem_cons.1 hy with rfl | hy
        · rw [ha] at h; cases h; exact Or.inl rfl
        · exact Or.inr ⟨y, hy, h⟩
      · rintro (rfl | ⟨y, hy, h⟩)
        · exact ⟨e, by simp, ha⟩
        · exact ⟨y, by simp [hy], h⟩

theorem inferSet_list (es es' : List (Expr N))
    (h : ∀ t n, inferList ops sc es = .ok (.scalar t n) ↔ inferList ops sc es' = .ok (.scalar t n)) :
    (inferSet ops sc (.list es)).Same (inferSet ops sc (.list es')) := by
  intro r
  have half : ∀ {es es' : List (Expr N)},
      (∀ t n, inferList ops sc es = .ok (.scalar t n) → inferList ops sc es' = .ok (.scalar t n)) →
      inferSet ops sc (.list es) = .ok r → inferSet ops sc (.list es') = .ok r := by
    intro es es' h hr
    rw [inferSet] at hr ⊢
    obtain ⟨t, h1, h2⟩ := Chk.bind_eq_ok.1 hr
    cases t with
    | tuple ts => cases h2
    | scalar t n => rw [h t n h1]; exact h2
  exact ⟨half fun t n => (h t n).1, half fun t n => (h t n).2⟩

/-- The elements of a list after IN may be permuted. -/
theorem inferSet_perm {es es' : List (Expr N)} (h : es.Perm es') :
    (inferSet ops sc (.list es)).Same (inferSet ops sc (.list es')) := by
  refine inferSet_list _ _ fun t n => ?_
  rw [inferList_ok_iff, inferList_ok_iff]
  have hn : es ≠ [] ↔ es' ≠ [] := by
    constructor
    · rintro h1 rfl; exact h1 h.eq_nil
    · rintro h1 rfl; exact h1 h.symm.eq_nil
  rw [hn]
  simp only [h.mem_iff]

theorem Listwise.mem_left {R : α → β → Prop} {as : List α} {bs : List β} (h : Listwise R as bs) :
    ∀ a ∈ as, ∃ b ∈ bs, R a b := by
  induction h with
  | nil => simp
  | cons h _ ih =>
    intro a ha
    rcases List.mem_cons.1 ha with rfl | ha
    · exact ⟨_, by simp, h⟩
    · obtain ⟨b, hb, hr⟩ := ih a ha; exact ⟨b, by simp [hb], hr⟩

theorem Listwise.mem_right {R : α → β → Prop} {as : List α} {bs : List β} (h : Listwise R as bs) :
    ∀ b ∈ bs, ∃ a ∈ as, R a b := by
  induction h with
  | nil => simp
  | cons h _ ih =>
    intro b hb
    rcases List.mem_cons.1 hb with rfl | hb
    · exact ⟨_, by simp, h⟩
    · obtain ⟨a, ha, hr⟩ := ih b hb; exact ⟨a, by simp [ha], hr⟩

theorem inferSet_listwise {es es' : List (Expr N)}
    (h : Listwise (fun e e' => (inferExpr ops sc e).Same (inferExpr ops sc e')) es es') :
    (inferSet ops sc (.list es)).Same (inferSet ops sc (.list es')) := by
  refine inferSet_list _ _ fun t n => ?_
  rw [inferList_ok_iff, inferList_ok_iff]
  have hn : es ≠ [] ↔ es' ≠ [] := by cases h <;> simp
  have h1 : (∀ e ∈ es, ∃ b, inferExpr ops sc e = .ok (.scalar t b)) ↔
      (∀ e ∈ es', ∃ b, inferExpr ops sc e = .ok (.scalar t b)) := by
    constructor
    · intro k e he
      obtain ⟨d, hd, hs⟩ := h.mem_right e he
      obtain ⟨b, hb⟩ := k d hd
      exact ⟨b, (hs _).1 hb⟩
    · intro k e he
      obtain ⟨d, hd, hs⟩ := h.mem_left e he
      obtain ⟨b, hb⟩ := k d hd
      exact ⟨b, (hs _).2 hb⟩
  have h2 : (∃ e ∈ es, inferExpr ops sc e = .ok (.scalar t true)) ↔
      (∃ e ∈ es', inferExpr ops sc e = .ok (.scalar t true)) := by
    constructor
    · rintro ⟨e, he, k⟩
      obtain ⟨d, hd, hs⟩ := h.mem_left e he
      exact ⟨d, hd, (hs _).1 k⟩
    · rintro ⟨e, he, k⟩
      obtain ⟨d, hd, hs⟩ := h.mem_right e he
      exact ⟨d, hd, (hs _).2 k⟩
  rw [hn, h1, h2]

theorem allSafe_iff (es : List (Expr N)) : Expr.AllSafe es ↔ ∀ e ∈ es, e.Safe := by
  induction es with
  | nil => simp [Expr.AllSafe]
  | cons e es ih => simp [Expr.AllSafe, ih]

theorem rowsSafe_iff (rows : List (List (Expr N))) : Expr.RowsSafe rows ↔ ∀ r ∈ rows, Expr.AllSafe r := by
  induction rows with
  | nil => simp [Expr.RowsSafe]
  | cons e es ih => simp [Expr.RowsSafe, ih]

end

/-! ## Exchanging operands keeps statements safe -/

section
variable {N : Type}

theorem goodBranches_swap : ∀ (ws ws' : List (When N)), whensSwap ws ws' → GoodBranches ws → GoodBranches ws'
  | [], _, _, g => g.elim
  | [.mk g b], ws', h, hg => by
    match ws' with
    | [] => simp only [whensSwap] at h
    | [.mk g' b'] =>
      simp only [whensSwap] at h
      intro es hb
      subst hb
      cases b <;> simp only [Expr.Swap] at h
      case tuple => exact hg _ rfl
      all_goals exact h.2.1
    | .mk _ _ :: .mk _ _ :: _ => exact True.intro
  | .mk g b :: .mk g2 b2 :: ws, ws', h, _ => by
    match ws' with
    | [] => simp only [whensSwap] at h
    | [.mk g' b'] => simp only [whensSwap] at h; exact h.2.2.elim
    | .mk _ _ :: .mk _ _ :: _ => exact True.intro

theorem exprsSwap_nil {es es' : List (Expr N)} (h : exprsSwap es es') : es = [] ↔ es' = [] := by
  cases es <;> cases es' <;> simp [exprsSwap] at h ⊢

theorem rowsSwap_nil {es es' : List (List (Expr N))} (h : rowsSwap es es') : es = [] ↔ es' = [] := by
  cases es <;> cases es' <;> simp [rowsSwap] at h ⊢

mutual

theorem expr_safe : (e : Expr N) → (e' : Expr N) → e.Swap e' → e.Safe → e'.Safe
  | .literal _, e', h, _ | .ident _, e', h, _ => by cases e' <;> simp only [Expr.Swap] at h; trivial
  | .tuple es, e', h, s => by
    cases e' <;> simp only [Expr.Swap, Expr.Safe] at h s ⊢; exact exprs_safe es _ h s
  | .select q, e', h, s => by
    cases e' <;> simp only [Expr.Swap, Expr.Safe] at h s ⊢; exact select_safe q _ h s
  | .unary op e, e', h, s => by
    cases e' <;> simp only [Expr.Swap, Expr.Safe] at h s ⊢; exact expr_safe e _ h.2 s
  | .binary op l r, e', h, s => by
    cases e' <;> simp only [Expr.Swap, Expr.Safe] at h s ⊢
    rcases h with ⟨_, ⟨h1, h2⟩ | ⟨h1, h2⟩⟩
    · exact ⟨expr_safe l _ h1 s.1, expr_safe r _ h2 s.2⟩
    · exact ⟨expr_safe r _ h2 s.2, expr_safe l _ h1 s.1⟩
  | .comparison op l r, e', h, s => by
    cases e' <;> simp only [Expr.Swap, Expr.Safe] at h s ⊢
    rcases h with ⟨_, h1, h2⟩ | ⟨_, h1, h2⟩
    · exact ⟨expr_safe l _ h1 s.1, expr_safe r _ h2 s.2⟩
    · exact ⟨expr_safe r _ h2 s.2, expr_safe l _ h1 s.1⟩
  | .inSet e set, e', h, s => by
    cases e' <;> simp only [Expr.Swap, Expr.Safe] at h s ⊢
    exact ⟨expr_safe e _ h.1 s.1, set_safe set _ h.2 s.2⟩
  | .between e l u, e', h, s => by
    cases e' <;> simp only [Expr.Swap, Expr.Safe] at h s ⊢
    rcases h with ⟨h0, ⟨h1, h2⟩ | ⟨h1, h2⟩⟩
    · exact ⟨expr_safe e _ h0 s.1, expr_safe l _ h1 s.2.1, expr_safe u _ h2 s.2.2⟩
    · exact ⟨expr_safe e _ h0 s.1, expr_safe u _ h2 s.2.2, expr_safe l _ h1 s.2.1⟩
  | .case e ws els, e', h, s => by
    cases e' <;> simp only [Expr.Swap, Expr.Safe] at h s ⊢
    exact ⟨option_safe e _ h.1 s.1, goodBranches_swap ws _ h.2.1 s.2.1, whens_safe ws _ h.2.1 s.2.2.1,
      option_safe els _ h.2.2 s.2.2.2⟩
  termination_by structural x => x

theorem option_safe : (e : Option (Expr N)) → (e' : Option (Expr N)) → exprSwap e e' → Expr.OptionSafe e →
    Expr.OptionSafe e'
  | none, e', h, _ => by cases e' <;> simp only [exprSwap] at h; trivial
  | some e, e', h, s => by
    cases e' <;> simp only [exprSwap, Expr.OptionSafe] at h s ⊢; exact expr_safe e _ h s
  termination_by structural x => x

theorem exprs_safe : (es : List (Expr N)) → (es' : List (Expr N)) → exprsSwap es es' → Expr.AllSafe es →
    Expr.AllSafe es'
  | [], es', h, _ => by cases es' <;> simp only [exprsSwap] at h; trivial
  | e :: es, es', h, s => by
    cases es' <;> simp only [exprsSwap, Expr.AllSafe] at h s ⊢
    exact ⟨expr_safe e _ h.1 s.1, exprs_safe es _ h.2 s.2⟩
  termination_by structural x => x

theorem rows_safe : (rs : List (List (Expr N))) → (rs' : List (List (Expr N))) → rowsSwap rs rs' →
    Expr.RowsSafe rs → Expr.RowsSafe rs'
  | [], es', h, _ => by cases es' <;> simp only [rowsSwap] at h; trivial
  | e :: es, es', h, s => by
    cases es' <;> simp only [rowsSwap, Expr.RowsSafe] at h s ⊢
    exact ⟨exprs_safe e _ h.1 s.1, rows_safe es _ h.2 s.2⟩
  termination_by structural x => x

theorem whens_safe : (ws : List (When N)) → (ws' : List (When N)) → whensSwap ws ws' → When.AllSafe ws →
    When.AllSafe ws'
  | [], ws', h, _ => by
    cases ws' with
    | nil => trivial
    | cons w ws' => simp only [whensSwap] at h
  | .mk g b :: ws, ws', h, s => by
    cases ws' with
    | nil => simp only [whensSwap] at h
    | cons w ws' =>
      obtain ⟨g', b'⟩ := w
      simp only [whensSwap, When.AllSafe] at h s ⊢
      exact ⟨expr_safe g _ h.1 s.1, expr_safe b _ h.2.1 s.2.1, whens_safe ws _ h.2.2 s.2.2⟩
  termination_by structural x => x

theorem set_safe : (x : SetSpec N) → (x' : SetSpec N) → x.Swap x' → x.Safe → x'.Safe
  | .select q, x', h, s => by
    cases x' <;> simp only [SetSpec.Swap, SetSpec.Safe] at h s ⊢; exact select_safe q _ h s
  | .name _, x', h, _ => by cases x' <;> simp only [SetSpec.Swap] at h; trivial
  | .list es, x', h, s => by
    cases x' <;> simp only [SetSpec.Swap, SetSpec.Safe] at h s ⊢
    obtain ⟨ms, h1, h2⟩ := h
    have hs := exprs_safe es _ h1 s.2
    refine ⟨?_, (allSafe_iff _).2 fun e he => (allSafe_iff _).1 hs e (h2.mem_iff.2 he)⟩
    rintro rfl
    exact s.1 ((exprsSwap_nil h1).2 h2.eq_nil)
  termination_by structural x => x

theorem select_safe : (q : Select N) → (q' : Select N) → q.Swap q' → q.Safe → q'.Safe
  | .mk common x orderBy limit, .mk common' x' orderBy' limit', h, s => by
    simp only [Select.Swap, Select.Safe] at h s ⊢
    exact ⟨ctes_safe common _ h.1 s.1, setExpr_safe x _ h.2.1 s.2.1, terms_safe orderBy _ h.2.2.1 s.2.2.1,
      limit_safe limit _ h.2.2.2 s.2.2.2⟩
  termination_by structural x => x

theorem ctes_safe : (cs : List (Cte N)) → (cs' : List (Cte N)) → ctesSwap cs cs' → Cte.AllSafe cs → Cte.AllSafe cs'
  | [], ws', h, _ => by
    cases ws' with
    | nil => trivial
    | cons w ws' => simp only [ctesSwap] at h
  | .mk i ns q :: cs, ws', h, s => by
    cases ws' with
    | nil => simp only [ctesSwap] at h
    | cons w ws' =>
      obtain ⟨i', ns', q'⟩ := w
      simp only [ctesSwap, Cte.AllSafe] at h s ⊢
      exact ⟨select_safe q _ h.2.2.1 s.1, ctes_safe cs _ h.2.2.2 s.2⟩
  termination_by structural x => x

theorem terms_safe : (ts : List (OrderTerm N)) → (ts' : List (OrderTerm N)) → termsSwap ts ts' →
    OrderTerm.AllSafe ts → OrderTerm.AllSafe ts'
  | [], ws', h, _ => by
    cases ws' with
    | nil => trivial
    | cons w ws' => simp only [termsSwap] at h
  | .mk e c d :: ts, ws', h, s => by
    cases ws' with
    | nil => simp only [termsSwap] at h
    | cons w ws' =>
      obtain ⟨e', c', d'⟩ := w
      simp only [termsSwap, OrderTerm.AllSafe] at h s ⊢
      exact ⟨expr_safe e _ h.1 s.1, terms_safe ts _ h.2.2.2 s.2⟩
  termination_by structural x => x

theorem limit_safe : (l : Option (Limit N)) → (l' : Option (Limit N)) → limitSwap l l' → Limit.OptionSafe l →
    Limit.OptionSafe l'
  | none, l', h, _ => by
    cases l' with
    | none => trivial
    | some x => simp only [limitSwap] at h
  | some (.mk e o), l', h, s => by
    cases l' with
    | none => simp only [limitSwap] at h
    | some x =>
      obtain ⟨e', o'⟩ := x
      simp only [limitSwap, Limit.OptionSafe] at h s ⊢
      exact ⟨expr_safe e _ h.1 s.1, option_safe o _ h.2 s.2⟩
  termination_by structural x => x

theorem setExpr_safe : (x : SetExpr N) → (x' : SetExpr N) → x.Swap x' → x.Safe → x'.Safe
  | .values rows, x', h, s => by
    cases x' <;> simp only [SetExpr.Swap, SetExpr.Safe] at h s ⊢
    obtain ⟨ms, h1, h2⟩ := h
    have hs := rows_safe rows _ h1 s.2
    have hn : ms ≠ [] := fun h => s.1 ((rowsSwap_nil h1).2 h)
    rcases h2 with rfl | ⟨h2, _⟩
    · exact ⟨hn, hs⟩
    · refine ⟨?_, (rowsSafe_iff _).2 fun e he => (rowsSafe_iff _).1 hs e (h2.mem_iff.2 he)⟩
      rintro rfl
      exact hn h2.eq_nil
  | .query m columns froms wher groupBy, x', h, s => by
    cases x' <;> simp only [SetExpr.Swap, SetExpr.Safe] at h s ⊢
    exact ⟨columns_safe columns _ h.2.1 s.1, tables_safe froms _ h.2.2.1 s.2.1,
      option_safe wher _ h.2.2.2.1 s.2.2.1, group_safe groupBy _ h.2.2.2.2 s.2.2.2⟩
  | .op o l r, x', h, s => by
    cases x' <;> simp only [SetExpr.Swap, SetExpr.Safe] at h s ⊢
    exact ⟨setExpr_safe l _ h.2.1 s.1, setExpr_safe r _ h.2.2 s.2⟩
  termination_by structural x => x

theorem table_safe : (t : TableExpr N) → (t' : TableExpr N) → t.Swap t' → t.Safe → t'.Safe
  | .named _ _, t', h, _ => by cases t' <;> simp only [TableExpr.Swap] at h; trivial
  | .select q _, t', h, s => by
    cases t' <;> simp only [TableExpr.Swap, TableExpr.Safe] at h s ⊢; exact select_safe q _ h.1 s
  | .join l r _ _, t', h, s => by
    cases t' <;> simp only [TableExpr.Swap, TableExpr.Safe] at h s ⊢
    exact ⟨table_safe l _ h.1 s.1, table_safe r _ h.2.1 s.2⟩
  termination_by structural x => x

theorem tables_safe : (ts : List (TableExpr N)) → (ts' : List (TableExpr N)) → tablesSwap ts ts' →
    TableExpr.AllSafe ts → TableExpr.AllSafe ts'
  | [], es', h, _ => by cases es' <;> simp only [tablesSwap] at h; trivial
  | e :: es, es', h, s => by
    cases es' <;> simp only [tablesSwap, TableExpr.AllSafe] at h s ⊢
    exact ⟨table_safe e _ h.1 s.1, tables_safe es _ h.2 s.2⟩
  termination_by structural x => x

theorem columns_safe : (c : ResultColumns N) → (c' : ResultColumns N) → c.Swap c' → c.Safe → c'.Safe
  | .all, c', h, _ => by cases c' <;> simp only [ResultColumns.Swap] at h; trivial
  | .list cs, c', h, s => by
    cases c' <;> simp only [ResultColumns.Swap, ResultColumns.Safe] at h s ⊢; exact columnList_safe cs _ h s
  termination_by structural x => x

theorem columnList_safe : (cs : List (ResultColumn N)) → (cs' : List (ResultColumn N)) → columnsSwap cs cs' →
    ResultColumn.AllSafe cs → ResultColumn.AllSafe cs'
  | [], ws', h, _ => by
    cases ws' with
    | nil => trivial
    | cons w ws' => simp only [columnsSwap] at h
  | .allFrom n :: cs, ws', h, s => by
    match ws' with
    | [] | .expr _ _ :: _ => simp only [columnsSwap] at h
    | .allFrom n' :: cs' =>
      simp only [columnsSwap, ResultColumn.AllSafe] at h s ⊢
      exact columnList_safe cs _ h.2 s
  | .expr e a :: cs, ws', h, s => by
    match ws' with
    | [] | .allFrom _ :: _ => simp only [columnsSwap] at h
    | .expr e' a' :: cs' =>
      simp only [columnsSwap, ResultColumn.AllSafe] at h s ⊢
      exact ⟨expr_safe e _ h.1 s.1, columnList_safe cs _ h.2.2 s.2⟩
  termination_by structural x => x

theorem group_safe : (g : Option (GroupBy N)) → (g' : Option (GroupBy N)) → groupSwap g g' → GroupBy.OptionSafe g →
    GroupBy.OptionSafe g'
  | none, l', h, _ => by
    cases l' with
    | none => trivial
    | some x => simp only [groupSwap] at h
  | some (.mk e o), l', h, s => by
    cases l' with
    | none => simp only [groupSwap] at h
    | some x =>
      obtain ⟨e', o'⟩ := x
      simp only [groupSwap, GroupBy.OptionSafe] at h s ⊢
      exact ⟨exprs_safe e _ h.1 s.1, option_safe o _ h.2 s.2⟩
  termination_by structural x => x

end

theorem assignments_safe : ∀ (as as' : List (Assignment N)), assignmentsSwap as as' → (∀ a ∈ as, a.expr.Safe) →
    ∀ a ∈ as', a.expr.Safe
  | [], [], _, _ => by simp
  | [], _ :: _, h, _ => by simp only [assignmentsSwap] at h
  | _ :: _, [], h, _ => by simp only [assignmentsSwap] at h
  | a :: as, a' :: as', h, s => by
    simp only [assignmentsSwap] at h
    intro x hx
    rcases List.mem_cons.1 hx with rfl | hx
    · exact expr_safe _ _ h.2.1 (s a (by simp))
    · exact assignments_safe as as' h.2.2 (fun y hy => s y (by simp [hy])) x hx

theorem statement_safe {x x' : Statement N} (h : x.Swap x') (s : x.Safe) : x'.Safe := by
  cases x <;> cases x' <;> simp only [Statement.Swap, Statement.Safe] at h s ⊢
  · exact select_safe _ _ h s
  · exact setExpr_safe _ _ h.2.2 s
  · exact option_safe _ _ h.2 s
  · exact ⟨assignments_safe _ _ h.2.1 s.1, option_safe _ _ h.2.2 s.2⟩

theorem sqlStatement_safe {x x' : SqlStatement N} (h : x.Swap x') (s : x.Safe) : x'.Safe := by
  cases x <;> cases x' <;> simp only [SqlStatement.Swap, SqlStatement.Safe] at h s ⊢
  · exact statement_safe h s
  · exact statement_safe h s

end

/-! ## Rows of VALUES -/

section
variable {up : Char → List Char} {sc : ScalarContext Name}

theorem foldl_min_const {k : Nat} : ∀ (rows : List (List (Expr Name))), (∀ r ∈ rows, r.length = k) →
    rows.foldl (fun m row => min m row.length) k = k := by
  intro rows
  induction rows with
  | nil => intro _; rfl
  | cons r rs ih =>
    intro h
    rw [List.foldl_cons, h r (by simp), Nat.min_self]
    exact ih fun x hx => h x (by simp [hx])

/-- Rows of the same length may be permuted. -/
theorem inferValues_perm {rows rows' : List (List (Expr Name))} (h : rows.Perm rows') {k : Nat}
    (hk : ∀ r ∈ rows, r.length = k) :
    (inferValues (nameOps up) sc rows).Same (inferValues (nameOps up) sc rows') := by
  have half : ∀ {rows rows' : List (List (Expr Name))}, rows.Perm rows' → (∀ r ∈ rows, r.length = k) → ∀ as,
      inferValues (nameOps up) sc rows = .ok as → inferValues (nameOps up) sc rows' = .ok as := by
    intro rows rows' h hk as ha
    cases rows with
    | nil => cases ha
    | cons r rs =>
      cases rows' with
      | nil => exact absurd h.eq_nil (by simp)
      | cons r' rs' =>
        have hk' : ∀ x ∈ r' :: rs', x.length = k := fun x hx => hk x (h.mem_iff.2 hx)
        obtain ⟨h1, h2⟩ := inferValues_ok ha
        rw [hk r (by simp), foldl_min_const rs fun x hx => hk x (by simp [hx])] at h1
        obtain ⟨bs, hb⟩ := inferValues_complete (up := up) (sc := sc) (row := r') (rows := rs') (by
          intro i hi
          rw [hk' r' (by simp)] at hi
          have ha : as[i]? = some (as[i]'(by omega)) := List.getElem?_eq_getElem _
          obtain ⟨_, k2, k3⟩ := h2 i _ ha
          refine ⟨as[i].typ, as[i].isNull, ?_, ?_⟩
          · intro x hx
            exact k2 x (h.mem_iff.2 hx)
          · intro hn
            obtain ⟨x, hx, hr⟩ := k3 hn
            exact ⟨x, h.mem_iff.1 hx, hr⟩)
        obtain ⟨g1, g2⟩ := inferValues_ok hb
        rw [hk' r' (by simp), foldl_min_const rs' fun x hx => hk' x (by simp [hx])] at g1
        rw [hb]
        congr 1
        apply List.ext_getElem?
        intro i
        by_cases hi : i < k
        · have ha : as[i]? = some (as[i]'(by omega)) := List.getElem?_eq_getElem _
          have hb : bs[i]? = some (bs[i]'(by omega)) := List.getElem?_eq_getElem _
          rw [ha, hb]
          obtain ⟨a1, a2, a3⟩ := h2 i _ ha
          obtain ⟨b1, b2, b3⟩ := g2 i _ hb
          generalize as[i]'(by omega) = a at a1 a2 a3
          generalize bs[i]'(by omega) = b at b1 b2 b3
          obtain ⟨an, at', ai⟩ := a
          obtain ⟨bn, bt, bi⟩ := b
          simp only at a1 a2 a3 b1 b2 b3
          obtain ⟨e, n, c1, c2, c3⟩ := a2 r (by simp)
          obtain ⟨e', n', d1, d2, d3⟩ := b2 r (h.mem_iff.1 (by simp))
          rw [c1] at d1; cases d1
          rw [c2] at d2
          have ht : at' = bt := by cases d2; rfl
          subst ht
          have hn : ai = bi := by
            apply Bool.eq_iff_iff.2
            constructor
            · intro hn
              obtain ⟨x, hx, y, y1, y2⟩ := a3 hn
              obtain ⟨e2, n2, f1, f2, f3⟩ := b2 x (h.mem_iff.1 hx)
              rw [y1] at f1; cases f1
              rw [y2] at f2; cases f2
              exact f3 rfl
            · intro hn
              obtain ⟨x, hx, y, y1, y2⟩ := b3 hn
              obtain ⟨e2, n2, f1, f2, f3⟩ := a2 x (h.mem_iff.2 hx)
              rw [y1] at f1; cases f1
              rw [y2] at f2; cases f2
              exact f3 rfl
          rw [a1, b1, hn]
        · rw [List.getElem?_eq_none (by omega), List.getElem?_eq_none (by omega)]
  exact fun as => ⟨half h hk as, half h.symm (fun r hr => hk r (h.mem_iff.2 hr)) as⟩

theorem foldRows_listwise {types : List (Attribute Name)} {rows rows' : List (List (Expr Name))}
    (h : Listwise (Listwise fun e e' => (inferExpr (nameOps up) sc e).Same (inferExpr (nameOps up) sc e'))
      rows rows') : (foldRows (nameOps up) sc types rows).Same (foldRows (nameOps up) sc types rows') := by
  induction h generalizing types with
  | nil => exact .refl
  | cons h _ ih =>
    rw [foldRows, foldRows]
    refine .bind ?_ fun types _ => ih
    clear ih
    induction h generalizing types with
    | nil => exact .of_eq (by cases types <;> rfl)
    | cons h _ ih =>
      cases types with
      | nil => exact .of_eq (by rw [unifyRow, unifyRow] <;> simp)
      | cons a as =>
        rw [unifyRow, unifyRow]
        refine .bind h fun t _ => .bind .refl fun u _ => ?_
        cases u with
        | tuple ts => exact .refl
        | scalar typ n => exact .bind ih fun _ _ => .refl

theorem inferFirstRow_listwise {count : Nat} {es es' : List (Expr Name)}
    (h : Listwise (fun e e' => (inferExpr (nameOps up) sc e).Same (inferExpr (nameOps up) sc e')) es es') :
    (inferFirstRow (nameOps up) sc count es).Same (inferFirstRow (nameOps up) sc count es') := by
  induction h generalizing count with
  | nil => exact .refl
  | cons h _ ih =>
    rw [inferFirstRow, inferFirstRow]
    refine .bind h fun t _ => ?_
    cases t with
    | tuple ts => exact .refl
    | scalar typ n => exact .bind ih fun _ _ => .refl

theorem inferValues_listwise {rows rows' : List (List (Expr Name))}
    (h : Listwise (Listwise fun e e' => (inferExpr (nameOps up) sc e).Same (inferExpr (nameOps up) sc e'))
      rows rows') : (inferValues (nameOps up) sc rows).Same (inferValues (nameOps up) sc rows') := by
  cases h with
  | nil => exact .refl
  | cons h hs =>
    rw [inferValues, inferValues]
    exact .bind (inferFirstRow_listwise h) fun _ _ => foldRows_listwise hs

theorem inferExprs_listwise {es es' : List (Expr Name)}
    (h : Listwise (fun e e' => (inferExpr (nameOps up) sc e).Same (inferExpr (nameOps up) sc e')) es es') :
    (inferExprs (nameOps up) sc es).Same (inferExprs (nameOps up) sc es') := by
  induction h with
  | nil => exact .refl
  | cons h _ ih =>
    rw [inferExprs, inferExprs]
    exact .bind h fun _ _ => .bind ih fun _ _ => .refl

end

/-! ## The relation -/

section
variable {up : Char → List Char}

mutual

theorem expr_swap {sc : ScalarContext Name} (p : sc.Plain (nameOps up)) : (e : Expr Name) → (e' : Expr Name) →
    e.Swap e' → e.Safe → e'.Safe → (inferExpr (nameOps up) sc e).Same (inferExpr (nameOps up) sc e')
  | .literal l, e', h, _, _ => by
    cases e' <;> simp only [Expr.Swap] at h
    subst h; exact .refl
  | .ident q, e', h, _, _ => by
    cases e' <;> simp only [Expr.Swap] at h
    subst h; exact .refl
  | .tuple es, e', h, s, s' => by
    cases e' <;> simp only [Expr.Swap] at h
    simp only [Expr.Safe] at s s'
    rw [inferExpr, inferExpr]
    exact .bind (inferExprs_listwise (exprs_swap p es _ h s s')) fun _ _ => .refl
  | .select q, e', h, s, s' => by
    cases e' <;> simp only [Expr.Swap] at h
    simp only [Expr.Safe] at s s'
    rw [inferExpr, inferExpr]
    exact .bind (select_swap p.default q _ h s s') fun _ _ => .refl
  | .unary op e, e', h, s, s' => by
    cases e' <;> simp only [Expr.Swap] at h
    simp only [Expr.Safe] at s s'
    obtain ⟨rfl, h⟩ := h
    rw [inferExpr, inferExpr]
    exact .bind (expr_swap p e _ h s s') fun _ _ => .refl
  | .binary op l r, e', h, s, s' => by
    cases e' <;> simp only [Expr.Swap] at h
    simp only [Expr.Safe] at s s'
    obtain ⟨rfl, h⟩ := h
    rw [inferExpr, inferExpr]
    rcases h with ⟨h1, h2⟩ | ⟨h1, h2⟩
    · exact .bind (expr_swap p l _ h1 s.1 s'.1) fun _ _ => .bind (expr_swap p r _ h2 s.2 s'.2) fun _ _ => .refl
    · refine .trans (.bind (expr_swap p l _ h1 s.1 s'.2) fun _ _ => .bind (expr_swap p r _ h2 s.2 s'.1)
        fun _ _ => .of_eq (binaryType_comm _ _ _)) .exchange
  | .comparison op l r, e', h, s, s' => by
    cases e' <;> simp only [Expr.Swap] at h
    simp only [Expr.Safe] at s s'
    rw [inferExpr, inferExpr]
    rcases h with ⟨rfl, h1, h2⟩ | ⟨rfl, h1, h2⟩
    · exact .bind (expr_swap p l _ h1 s.1 s'.1) fun _ _ => .bind (expr_swap p r _ h2 s.2 s'.2) fun _ _ => .refl
    · refine .trans (.bind (expr_swap p l _ h1 s.1 s'.2) fun _ _ => .bind (expr_swap p r _ h2 s.2 s'.1)
        fun _ _ => .of_eq (comparisonType_mirror _ _ _)) .exchange
  | .inSet e set, e', h, s, s' => by
    cases e' <;> simp only [Expr.Swap] at h
    simp only [Expr.Safe] at s s'
    rw [inferExpr, inferExpr]
    exact .bind (expr_swap p e _ h.1 s.1 s'.1) fun _ _ => .bind (set_swap p set _ h.2 s.2 s'.2) fun _ _ => .refl
  | .between e l u, e', h, s, s' => by
    cases e' <;> simp only [Expr.Swap] at h
    simp only [Expr.Safe] at s s'
    obtain ⟨h0, h⟩ := h
    rw [inferExpr, inferExpr]
    refine .bind (expr_swap p e _ h0 s.1 s'.1) fun _ _ => ?_
    rcases h with ⟨h1, h2⟩ | ⟨h1, h2⟩
    · exact .bind (expr_swap p l _ h1 s.2.1 s'.2.1) fun _ _ =>
        .bind (expr_swap p u _ h2 s.2.2 s'.2.2) fun _ _ => .refl
    · refine .trans (.bind (expr_swap p l _ h1 s.2.1 s'.2.2) fun _ _ =>
        .bind (expr_swap p u _ h2 s.2.2 s'.2.1) fun _ _ => .of_eq (betweenType_swap _ _ _)) .exchange
  | .case none ws els, e', h, s, s' => by
    cases e' <;> simp only [Expr.Swap] at h
    simp only [Expr.Safe] at s s'
    obtain ⟨h0, h1, h2⟩ := h
    rename_i o ws' els'
    cases o <;> simp only [exprSwap] at h0
    rw [inferExpr, inferExpr, ignored_of_post (checkGuards_post p guardLogical_post ws s.2.2.1),
      ignored_of_post (checkGuards_post p guardLogical_post ws' s'.2.2.1)]
    exact .bind .refl fun _ _ => .bind (bodies_swap p ws _ h1 s.2.2.1 s'.2.2.1) fun t _ =>
      else_swap p t els _ h2 s.2.2.2 s'.2.2.2
  | .case (some e) ws els, e', h, s, s' => by
    cases e' <;> simp only [Expr.Swap] at h
    simp only [Expr.Safe] at s s'
    obtain ⟨h0, h1, h2⟩ := h
    rename_i o ws' els'
    cases o <;> simp only [exprSwap] at h0
    simp only [Expr.OptionSafe] at s s'
    rw [inferExpr, inferExpr]
    refine .bind (expr_swap p e _ h0 s.1 s'.1) fun t _ => ?_
    rw [ignored_of_post (checkGuards_post p (guardMatches_post t) ws s.2.2.1),
      ignored_of_post (checkGuards_post p (guardMatches_post t) ws' s'.2.2.1)]
    exact .bind .refl fun _ _ => .bind (bodies_swap p ws _ h1 s.2.2.1 s'.2.2.1) fun t _ =>
      else_swap p t els _ h2 s.2.2.2 s'.2.2.2
  termination_by structural x => x

theorem exprs_swap {sc : ScalarContext Name} (p : sc.Plain (nameOps up)) : (es : List (Expr Name)) →
    (es' : List (Expr Name)) → exprsSwap es es' → Expr.AllSafe es → Expr.AllSafe es' →
    Listwise (fun e e' => (inferExpr (nameOps up) sc e).Same (inferExpr (nameOps up) sc e')) es es'
  | [], es', h, _, _ => by
    cases es' <;> simp only [exprsSwap] at h
    exact .nil
  | e :: es, es', h, s, s' => by
    cases es' <;> simp only [exprsSwap] at h
    simp only [Expr.AllSafe] at s s'
    exact .cons (expr_swap p e _ h.1 s.1 s'.1) (exprs_swap p es _ h.2 s.2 s'.2)
  termination_by structural x => x

theorem rows_swap {sc : ScalarContext Name} (p : sc.Plain (nameOps up)) : (rows : List (List (Expr Name))) →
    (rows' : List (List (Expr Name))) → rowsSwap rows rows' → Expr.RowsSafe rows → Expr.RowsSafe rows' →
    Listwise (Listwise fun e e' => (inferExpr (nameOps up) sc e).Same (inferExpr (nameOps up) sc e')) rows rows'
  | [], es', h, _, _ => by
    cases es' <;> simp only [rowsSwap] at h
    exact .nil
  | e :: es, es', h, s, s' => by
    cases es' <;> simp only [rowsSwap] at h
    simp only [Expr.RowsSafe] at s s'
    exact .cons (exprs_swap p e _ h.1 s.1 s'.1) (rows_swap p es _ h.2 s.2 s'.2)
  termination_by structural x => x

theorem bodies_swap {sc : ScalarContext Name} (p : sc.Plain (nameOps up)) : (ws : List (When Name)) →
    (ws' : List (When Name)) → whensSwap ws ws' → When.AllSafe ws → When.AllSafe ws' →
    (inferBodies (nameOps up) sc ws).Same (inferBodies (nameOps up) sc ws')
  | [], ws', h, _, _ => by
    cases ws' with
    | nil => exact .refl
    | cons w ws' => simp only [whensSwap] at h
  | .mk g b :: ws, ws', h, s, s' => by
    cases ws' with
    | nil => simp only [whensSwap] at h
    | cons w ws' =>
      obtain ⟨g', b'⟩ := w
      simp only [whensSwap] at h
      simp only [When.AllSafe] at s s'
      rw [inferBodies, inferBodies]
      exact .bind (expr_swap p b _ h.2.1 s.2.1 s'.2.1) fun t _ => then_swap p t ws _ h.2.2 s.2.2 s'.2.2
  termination_by structural x => x

theorem then_swap {sc : ScalarContext Name} (p : sc.Plain (nameOps up)) (t : ScalarType) :
    (ws : List (When Name)) → (ws' : List (When Name)) → whensSwap ws ws' → When.AllSafe ws → When.AllSafe ws' →
    (foldBodies (nameOps up) sc t ws).Same (foldBodies (nameOps up) sc t ws')
  | [], ws', h, _, _ => by
    cases ws' with
    | nil => exact .refl
    | cons w ws' => simp only [whensSwap] at h
  | .mk g b :: ws, ws', h, s, s' => by
    cases ws' with
    | nil => simp only [whensSwap] at h
    | cons w ws' =>
      obtain ⟨g', b'⟩ := w
      simp only [whensSwap] at h
      simp only [When.AllSafe] at s s'
      rw [foldBodies, foldBodies]
      exact .bind (expr_swap p b _ h.2.1 s.2.1 s'.2.1) fun _ _ => .bind .refl fun t _ =>
        then_swap p t ws _ h.2.2 s.2.2 s'.2.2
  termination_by structural x => x

theorem else_swap {sc : ScalarContext Name} (p : sc.Plain (nameOps up)) (t : ScalarType) :
    (o : Option (Expr Name)) → (o' : Option (Expr Name)) → exprSwap o o' → Expr.OptionSafe o → Expr.OptionSafe o' →
    (inferElse (nameOps up) sc t o).Same (inferElse (nameOps up) sc t o')
  | none, o', h, _, _ => by
    cases o' <;> simp only [exprSwap] at h
    exact .refl
  | some e, o', h, s, s' => by
    cases o' <;> simp only [exprSwap] at h
    simp only [Expr.OptionSafe] at s s'
    cases t with
    | tuple ts => exact .of_eq (by simp only [inferElse])
    | scalar typ n =>
      simp only [inferElse]
      exact .bind (expr_swap p e _ h s s') fun _ _ => .refl
  termination_by structural x => x

theorem set_swap {sc : ScalarContext Name} (p : sc.Plain (nameOps up)) : (x : SetSpec Name) → (x' : SetSpec Name) →
    x.Swap x' → x.Safe → x'.Safe → (inferSet (nameOps up) sc x).Same (inferSet (nameOps up) sc x')
  | .select q, x', h, s, s' => by
    cases x' <;> simp only [SetSpec.Swap] at h
    simp only [SetSpec.Safe] at s s'
    rw [inferSet, inferSet]
    exact select_swap p.default q _ h s s'
  | .list es, x', h, s, s' => by
    cases x' <;> simp only [SetSpec.Swap] at h
    simp only [SetSpec.Safe] at s s'
    obtain ⟨ms, h1, h2⟩ := h
    have hm : Expr.AllSafe ms := (allSafe_iff _).2 fun e he => (allSafe_iff _).1 s'.2 e (h2.mem_iff.1 he)
    exact .trans (inferSet_listwise (exprs_swap p es _ h1 s.2 hm)) (inferSet_perm h2)
  | .name q, x', h, s, s' => by
    cases x' <;> simp only [SetSpec.Swap] at h
    subst h; exact .refl
  termination_by structural x => x

theorem select_swap {ctx : SetContext Name} (p : ctx.namespaces.get (nameOps up) ctx.defaultNamespace ≠ none) :
    (q : Select Name) → (q' : Select Name) → q.Swap q' → q.Safe → q'.Safe →
    (inferSelect (nameOps up) ctx q).Same (inferSelect (nameOps up) ctx q')
  | .mk common x orderBy limit, .mk common' x' orderBy' limit', h, s, s' => by
    simp only [Select.Swap] at h
    simp only [Select.Safe] at s s'
    rw [inferSelect, inferSelect]
    refine .bind (ctes_swap p (plain_new p) common _ h.1 s.1 s'.1) fun sc hsc => ?_
    have hp := Chk.of_post (addCommon_post p (plain_new p) common s.1) hsc
    exact .bind (setExpr_swap p x _ h.2.1 s.2.1 s'.2.1) fun _ _ =>
      .bind (order_swap hp orderBy _ h.2.2.1 s.2.2.1 s'.2.2.1) fun _ _ =>
        .bind (limit_swap hp.default limit _ h.2.2.2 s.2.2.2 s'.2.2.2) fun _ _ => .refl
  termination_by structural x => x

theorem ctes_swap {ctx : SetContext Name} (p : ctx.namespaces.get (nameOps up) ctx.defaultNamespace ≠ none)
    {sc : ScalarContext Name} (hsc : sc.Plain (nameOps up)) : (cs : List (Cte Name)) → (cs' : List (Cte Name)) →
    ctesSwap cs cs' → Cte.AllSafe cs → Cte.AllSafe cs' →
    (addCommon (nameOps up) ctx sc cs).Same (addCommon (nameOps up) ctx sc cs')
  | [], cs', h, _, _ => by
    cases cs' with
    | nil => exact .refl
    | cons w ws' => simp only [ctesSwap] at h
  | .mk i ns q :: cs, cs', h, s, s' => by
    cases cs' with
    | nil => simp only [ctesSwap] at h
    | cons c cs' =>
      obtain ⟨i', ns', q'⟩ := c
      simp only [ctesSwap] at h
      simp only [Cte.AllSafe] at s s'
      obtain ⟨rfl, rfl, h1, h2⟩ := h
      rw [addCommon, addCommon, inferCte, inferCte]
      refine .bind (.bind (select_swap p q _ h1 s.1 s'.1) fun _ _ => .refl) fun t _ => .bind .refl fun sc' hsc' => ?_
      exact ctes_swap p (Chk.of_post (addRelation_post hsc _ _) hsc').1 cs _ h2 s.2 s'.2
  termination_by structural x => x

theorem order_swap {sc : ScalarContext Name} (p : sc.Plain (nameOps up)) : (ts : List (OrderTerm Name)) →
    (ts' : List (OrderTerm Name)) → termsSwap ts ts' → OrderTerm.AllSafe ts → OrderTerm.AllSafe ts' →
    (checkOrder (nameOps up) sc ts).Same (checkOrder (nameOps up) sc ts')
  | [], ts', h, _, _ => by
    cases ts' with
    | nil => exact .refl
    | cons w ws' => simp only [termsSwap] at h
  | .mk e c d :: ts, ts', h, s, s' => by
    cases ts' with
    | nil => simp only [termsSwap] at h
    | cons t ts' =>
      obtain ⟨e', c', d'⟩ := t
      simp only [termsSwap] at h
      simp only [OrderTerm.AllSafe] at s s'
      rw [checkOrder, checkOrder]
      exact .bind (expr_swap p e _ h.1 s.1 s'.1) fun _ _ => .bind .refl fun _ _ =>
        order_swap p ts _ h.2.2.2 s.2 s'.2
  termination_by structural x => x

theorem limit_swap {ctx : SetContext Name} (p : ctx.namespaces.get (nameOps up) ctx.defaultNamespace ≠ none) :
    (l : Option (Limit Name)) → (l' : Option (Limit Name)) → limitSwap l l' → Limit.OptionSafe l →
    Limit.OptionSafe l' → (checkLimit (nameOps up) ctx l).Same (checkLimit (nameOps up) ctx l')
  | none, l', h, _, _ => by
    cases l' with
    | none => exact .refl
    | some x => simp only [limitSwap] at h
  | some (.mk e o), l', h, s, s' => by
    cases l' with
    | none => simp only [limitSwap] at h
    | some x =>
      obtain ⟨e', o'⟩ := x
      simp only [limitSwap] at h
      simp only [Limit.OptionSafe] at s s'
      rw [checkLimit, checkLimit]
      exact .bind (expr_swap (plain_new p) e _ h.1 s.1 s'.1) fun _ _ => .bind .refl fun _ _ =>
        offset_swap (plain_new p) o _ h.2 s.2 s'.2
  termination_by structural x => x

theorem offset_swap {sc : ScalarContext Name} (p : sc.Plain (nameOps up)) : (o : Option (Expr Name)) →
    (o' : Option (Expr Name)) → exprSwap o o' → Expr.OptionSafe o → Expr.OptionSafe o' →
    (checkOffset (nameOps up) sc o).Same (checkOffset (nameOps up) sc o')
  | none, o', h, _, _ => by
    cases o' <;> simp only [exprSwap] at h
    exact .refl
  | some e, o', h, s, s' => by
    cases o' <;> simp only [exprSwap] at h
    simp only [Expr.OptionSafe] at s s'
    rw [checkOffset, checkOffset]
    exact .bind (expr_swap p e _ h s s') fun _ _ => .refl
  termination_by structural x => x

theorem setExpr_swap {ctx : SetContext Name} (p : ctx.namespaces.get (nameOps up) ctx.defaultNamespace ≠ none) :
    (x : SetExpr Name) → (x' : SetExpr Name) → x.Swap x' → x.Safe → x'.Safe →
    (inferSetExpr (nameOps up) ctx x).Same (inferSetExpr (nameOps up) ctx x')
  | .values rows, x', h, s, s' => by
    cases x' <;> simp only [SetExpr.Swap] at h
    simp only [SetExpr.Safe] at s s'
    obtain ⟨ms, h1, h2⟩ := h
    have hm : Expr.RowsSafe ms := by
      rcases h2 with rfl | ⟨h2, _⟩
      · exact s'.2
      · exact (rowsSafe_iff _).2 fun e he => (rowsSafe_iff _).1 s'.2 e (h2.mem_iff.1 he)
    have hl := rows_swap (plain_new p) rows _ h1 s.2 hm
    rw [inferSetExpr, inferSetExpr]
    refine .bind (.trans (inferValues_listwise hl) ?_) fun _ _ => .refl
    rcases h2 with rfl | ⟨h2, k, hk⟩
    · exact .refl
    · exact inferValues_perm h2 hk
  | .query m columns froms wher groupBy, x', h, s, s' => by
    cases x' <;> simp only [SetExpr.Swap] at h
    simp only [SetExpr.Safe] at s s'
    rw [inferSetExpr, inferSetExpr]
    refine .bind (from_swap (plain_new p) froms _ h.2.2.1 s.2.1 s'.2.1) fun r hr => ?_
    have hp := Chk.of_post (inferFrom_post (plain_new p) froms s.2.1) hr
    obtain ⟨sc, as⟩ := r
    exact .bind (predicate_swap hp _ wher _ h.2.2.2.1 s.2.2.1 s'.2.2.1) fun _ _ =>
      .bind (group_swap hp groupBy _ h.2.2.2.2 s.2.2.2 s'.2.2.2) fun _ _ =>
        columns_swap hp as columns _ h.2.1 s.1 s'.1
  | .op o l r, x', h, s, s' => by
    cases x' <;> simp only [SetExpr.Swap] at h
    simp only [SetExpr.Safe] at s s'
    rw [inferSetExpr, inferSetExpr]
    exact .bind (setExpr_swap p l _ h.2.1 s.1 s'.1) fun _ _ =>
      .bind (setExpr_swap p r _ h.2.2 s.2 s'.2) fun _ _ => .refl
  termination_by structural x => x

theorem from_swap {sc : ScalarContext Name} (p : sc.Plain (nameOps up)) : (ts : List (TableExpr Name)) →
    (ts' : List (TableExpr Name)) → tablesSwap ts ts' → TableExpr.AllSafe ts → TableExpr.AllSafe ts' →
    (inferFrom (nameOps up) sc ts).Same (inferFrom (nameOps up) sc ts')
  | [], ts', h, _, _ => by
    cases ts' <;> simp only [tablesSwap] at h
    exact .refl
  | t :: ts, ts', h, s, s' => by
    cases ts' <;> simp only [tablesSwap] at h
    simp only [TableExpr.AllSafe] at s s'
    rw [inferFrom, inferFrom]
    refine .bind (table_swap p t _ h.1 s.1 s'.1) fun r hr => ?_
    have hp := Chk.of_post (inferTable_post p t s.1) hr
    obtain ⟨sc, as⟩ := r
    exact .bind (from_swap hp ts _ h.2 s.2 s'.2) fun _ _ => .refl
  termination_by structural x => x

theorem table_swap {sc : ScalarContext Name} (p : sc.Plain (nameOps up)) : (t : TableExpr Name) →
    (t' : TableExpr Name) → t.Swap t' → t.Safe → t'.Safe →
    (inferTable (nameOps up) sc t).Same (inferTable (nameOps up) sc t')
  | .named n a, t', h, _, _ => by
    cases t' <;> simp only [TableExpr.Swap] at h
    obtain ⟨rfl, rfl⟩ := h
    exact .refl
  | .select q a, t', h, s, s' => by
    cases t' <;> simp only [TableExpr.Swap] at h
    simp only [TableExpr.Safe] at s s'
    rw [inferTable, inferTable]
    exact .bind (select_swap p.default q _ h.1 s s') fun _ _ => .refl
  | .join l r o c, t', h, s, s' => by
    cases t' <;> simp only [TableExpr.Swap] at h
    simp only [TableExpr.Safe] at s s'
    rw [inferTable, inferTable]
    refine .bind (table_swap p l _ h.1 s.1 s'.1) fun x hx => ?_
    have hp := Chk.of_post (inferTable_post p l s.1) hx
    obtain ⟨sc, as⟩ := x
    exact .bind (table_swap hp r _ h.2.1 s.2 s'.2) fun _ _ => .refl
  termination_by structural x => x

theorem predicate_swap {sc : ScalarContext Name} (p : sc.Plain (nameOps up)) (msg : SqlError) :
    (o : Option (Expr Name)) → (o' : Option (Expr Name)) → exprSwap o o' → Expr.OptionSafe o → Expr.OptionSafe o' →
    (checkPredicate (nameOps up) sc msg o).Same (checkPredicate (nameOps up) sc msg o')
  | none, o', h, _, _ => by
    cases o' <;> simp only [exprSwap] at h
    exact .refl
  | some e, o', h, s, s' => by
    cases o' <;> simp only [exprSwap] at h
    simp only [Expr.OptionSafe] at s s'
    rw [checkPredicate, checkPredicate]
    exact .bind (expr_swap p e _ h s s') fun _ _ => .refl
  termination_by structural x => x

theorem group_swap {sc : ScalarContext Name} (p : sc.Plain (nameOps up)) : (g : Option (GroupBy Name)) →
    (g' : Option (GroupBy Name)) → groupSwap g g' → GroupBy.OptionSafe g → GroupBy.OptionSafe g' →
    (checkGroupBy (nameOps up) sc g).Same (checkGroupBy (nameOps up) sc g')
  | none, g', h, _, _ => by
    cases g' with
    | none => exact .refl
    | some x => simp only [groupSwap] at h
  | some (.mk es o), g', h, s, s' => by
    cases g' with
    | none => simp only [groupSwap] at h
    | some x =>
      obtain ⟨es', o'⟩ := x
      simp only [groupSwap] at h
      simp only [GroupBy.OptionSafe] at s s'
      rw [checkGroupBy, checkGroupBy]
      exact .bind (inferExprs_listwise (exprs_swap p es _ h.1 s.1 s'.1)) fun _ _ =>
        predicate_swap p _ o _ h.2 s.2 s'.2
  termination_by structural x => x

theorem columns_swap {sc : ScalarContext Name} (p : sc.Plain (nameOps up)) (as : List (Attribute Name)) :
    (c : ResultColumns Name) → (c' : ResultColumns Name) → c.Swap c' → c.Safe → c'.Safe →
    (inferColumns (nameOps up) sc as c).Same (inferColumns (nameOps up) sc as c')
  | .all, c', h, _, _ => by
    cases c' <;> simp only [ResultColumns.Swap] at h
    exact .refl
  | .list cs, c', h, s, s' => by
    cases c' <;> simp only [ResultColumns.Swap] at h
    simp only [ResultColumns.Safe] at s s'
    rw [inferColumns, inferColumns]
    exact .bind (columnList_swap p [] cs _ h s s') fun _ _ => .refl
  termination_by structural x => x

theorem columnList_swap {sc : ScalarContext Name} (p : sc.Plain (nameOps up)) (g : TMap Name Nat) :
    (cs : List (ResultColumn Name)) → (cs' : List (ResultColumn Name)) → columnsSwap cs cs' →
    ResultColumn.AllSafe cs → ResultColumn.AllSafe cs' →
    (inferColumnList (nameOps up) sc g cs).Same (inferColumnList (nameOps up) sc g cs')
  | [], cs', h, _, _ => by
    cases cs' with
    | nil => exact .refl
    | cons c cs' => simp only [columnsSwap] at h
  | .allFrom n :: cs, cs', h, s, s' => by
    cases cs' with
    | nil => simp only [columnsSwap] at h
    | cons c cs' =>
      cases c with
      | expr e a => simp only [columnsSwap] at h
      | allFrom n' =>
        simp only [columnsSwap] at h
        simp only [ResultColumn.AllSafe] at s s'
        obtain ⟨rfl, h⟩ := h
        rw [inferColumnList, inferColumnList]
        split
        · exact .refl
        · exact .bind .refl fun _ _ => .bind (columnList_swap p _ cs _ h s s') fun _ _ => .refl
        · exact .refl
  | .expr e a :: cs, cs', h, s, s' => by
    cases cs' with
    | nil => simp only [columnsSwap] at h
    | cons c cs' =>
      cases c with
      | allFrom n' => simp only [columnsSwap] at h
      | expr e' a' =>
        simp only [columnsSwap] at h
        simp only [ResultColumn.AllSafe] at s s'
        obtain ⟨h1, rfl, h⟩ := h
        rw [inferColumnList, inferColumnList]
        refine .bind (expr_swap p e _ h1 s.1 s'.1) fun t _ => ?_
        cases t with
        | tuple ts => exact .refl
        | scalar typ n => exact .bind (columnList_swap p _ cs _ h s.2 s'.2) fun _ _ => .refl
  termination_by structural x => x

end

theorem assignments_swap {sc : ScalarContext Name} (p : sc.Plain (nameOps up)) (map : TMap Name (DataType × Bool)) :
    ∀ (as as' : List (Assignment Name)) (done : TMap Name Unit), assignmentsSwap as as' → (∀ a ∈ as, a.expr.Safe) →
    (∀ a ∈ as', a.expr.Safe) →
    (updateAssignments (nameOps up) sc map done as).Same (updateAssignments (nameOps up) sc map done as')
  | [], [], _, _, _, _ => .refl
  | [], _ :: _, _, h, _, _ => by simp only [assignmentsSwap] at h
  | _ :: _, [], _, h, _, _ => by simp only [assignmentsSwap] at h
  | a :: as, a' :: as', done, h, s, s' => by
    simp only [assignmentsSwap] at h
    rw [updateAssignments, updateAssignments]
    refine .bind (expr_swap p _ _ h.2.1 (s a (by simp)) (s' a' (by simp))) fun t _ => ?_
    cases t with
    | tuple ts => exact .refl
    | scalar typ n =>
      simp only
      rw [h.1]
      exact .bind .refl fun _ _ => assignments_swap p map as as' _ h.2.2 (fun x hx => s x (by simp [hx]))
        fun x hx => s' x (by simp [hx])

theorem statement_swap {ctx : SetContext Name} (p : ctx.namespaces.get (nameOps up) ctx.defaultNamespace ≠ none)
    {x x' : Statement Name} (h : x.Swap x') (s : x.Safe) (s' : x'.Safe) :
    (x.validateType (nameOps up) ctx).Same (x'.validateType (nameOps up) ctx) := by
  cases x <;> cases x' <;> simp only [Statement.Swap] at h
  · exact .bind (select_swap p _ _ h s s') fun _ _ => .refl
  · simp only [Statement.validateType, InsertStatement.validateType, Statement.Safe] at s s' ⊢
    obtain ⟨h1, h2, h3⟩ := h
    rw [h1, h2]
    exact .bind .refl fun _ _ => .bind (setExpr_swap p _ _ h3 s s') fun _ _ => .refl
  · simp only [Statement.validateType, DeleteStatement.validateType, Statement.Safe] at s s' ⊢
    obtain ⟨h1, h3⟩ := h
    rw [h1]
    refine .bind .refl fun t ht => .bind .refl fun sc hsc => ?_
    have hn := Chk.of_post (resolve_post p _) ht
    have hp := Chk.of_post (tableContext_post p hn t) hsc
    exact predicate_swap hp _ _ _ h3 s s'
  · simp only [Statement.validateType, UpdateStatement.validateType, Statement.Safe] at s s' ⊢
    obtain ⟨h1, h2, h3⟩ := h
    rw [h1]
    refine .bind .refl fun t ht => .bind .refl fun sc hsc => ?_
    have hn := Chk.of_post (resolve_post p _) ht
    have hp := Chk.of_post (tableContext_post p hn t) hsc
    exact .bind (assignments_swap hp _ _ _ _ h2 s.1 s'.1) fun _ _ => predicate_swap hp _ _ _ h3 s.2 s'.2

theorem sqlStatement_swap {ctx : SetContext Name}
    (p : ctx.namespaces.get (nameOps up) ctx.defaultNamespace ≠ none) {x x' : SqlStatement Name} (h : x.Swap x')
    (s : x.Safe) (s' : x'.Safe) : (x.validateType (nameOps up) ctx).Same (x'.validateType (nameOps up) ctx) := by
  cases x <;> cases x' <;> simp only [SqlStatement.Swap] at h
  · exact statement_swap p h s s'
  · exact statement_swap p h s s'
  · exact .refl
  · subst h; exact .refl

end

end Verif.Sql
