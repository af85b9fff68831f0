import Verif.Spec.SqlRules
import Verif.Proof.SqlStatements
/-!
# Type inference follows the rules of operators
-/

namespace Verif.Sql

theorem isOrdered_iff {t : DataType} : t.isOrdered = true ↔ Orderable t := by
  cases t <;> simp [DataType.isOrdered, Orderable]

theorem isCompatibleFold_error {e : Stop} : ∀ {ls rs : List ScalarType},
    ScalarType.isCompatibleFold (.error e) ls rs = .error e
  | [], _ => by simp [ScalarType.isCompatibleFold]
  | _ :: _, [] => by simp [ScalarType.isCompatibleFold]
  | _ :: ls, _ :: rs => by
    rw [ScalarType.isCompatibleFold]
    exact isCompatibleFold_error

mutual

theorem isCompatible_alike : ∀ {a b : ScalarType} {n : Bool}, a.isCompatible b = .ok n → Alike a b ∧
    (n = false ∨ ∃ t x y, a = .scalar t x ∧ b = .scalar t y ∧ n = (x || y))
  | .scalar t1 n1, .scalar t2 n2, n, h => by
    rw [ScalarType.isCompatible] at h
    split at h
    · rename_i ht
      subst ht
      cases h
      exact ⟨.scalar, .inr ⟨_, _, _, rfl, rfl, rfl⟩⟩
    · cases h
  | .tuple ts, .tuple us, n, h => by
    rw [ScalarType.isCompatible] at h
    split at h
    · cases h
    · rename_i hl
      obtain ⟨h1, h2⟩ := isCompatibleFold_alike (by omega) h
      exact ⟨h1, .inl h2⟩
  | .scalar _ _, .tuple _, n, h => by
    rw [ScalarType.isCompatible] at h
    · cases h
    · simp
    · simp
  | .tuple _, .scalar _ _, n, h => by
    rw [ScalarType.isCompatible] at h
    · cases h
    · simp
    · simp

theorem isCompatibleFold_alike : ∀ {ts us : List ScalarType} {n : Bool}, ts.length = us.length →
    ScalarType.isCompatibleFold (.ok false) ts us = .ok n → Alike (.tuple ts) (.tuple us) ∧ n = false
  | [], [], n, _, h => by
    rw [ScalarType.isCompatibleFold] at h
    · cases h
      exact ⟨.unit, rfl⟩
    · simp
  | a :: ts, b :: us, n, hl, h => by
    rw [ScalarType.isCompatibleFold] at h
    cases hi : a.isCompatible b with
    | error e =>
      rw [hi] at h
      simp only at h
      rw [isCompatibleFold_error] at h
      cases h
    | ok m =>
      rw [hi] at h
      simp only [Bool.false_and] at h
      obtain ⟨h1, h2⟩ := isCompatibleFold_alike (Nat.succ.inj hl) h
      exact ⟨.tuple (isCompatible_alike hi).1 h1, h2⟩

end

theorem alike_compatible {a b : ScalarType} (h : Alike a b) : ∃ n, a.isCompatible b = .ok n ∧
    (∀ ts us, a = .tuple ts → b = .tuple us → ts.length = us.length ∧ n = false ∧
      ScalarType.isCompatibleFold (.ok false) ts us = .ok false) := by
  induction h with
  | @scalar t n m => exact ⟨n || m, by simp [ScalarType.isCompatible], fun _ _ h => by cases h⟩
  | unit =>
    refine ⟨false, by simp [ScalarType.isCompatible, ScalarType.isCompatibleFold], ?_⟩
    intro ts us h1 h2
    cases h1
    cases h2
    simp [ScalarType.isCompatibleFold]
  | @tuple a b as bs _ _ ih1 ih2 =>
    obtain ⟨n, h1, _⟩ := ih1
    obtain ⟨m, _, h2⟩ := ih2
    obtain ⟨hl, _, hf⟩ := h2 as bs rfl rfl
    have hfold : ScalarType.isCompatibleFold (.ok false) (a :: as) (b :: bs) = .ok false := by
      rw [ScalarType.isCompatibleFold, h1]
      simpa using hf
    refine ⟨false, ?_, ?_⟩
    · rw [ScalarType.isCompatible, if_neg (by simp [hl])]
      exact hfold
    · intro ts us e1 e2
      cases e1
      cases e2
      exact ⟨by simp [hl], rfl, hfold⟩

variable {N : Type} {ops : NameOps N} {sc : ScalarContext N}

theorem unary_rule {known : Expr N → ScalarType → Prop} {op e t u} (h : unaryType op t = .ok u) (he : Rule known e t) :
    Rule known (.unary op e) u := by
  unfold unaryType at h
  split at h
  all_goals (cases h)
  · exact .negate he
  · exact .not he
  · exact .isNull he

theorem binary_rule {known : Expr N → ScalarType → Prop} {op l r a b t} (h : binaryType op a b = .ok t)
    (hl : Rule known l a) (hr : Rule known r b) : Rule known (.binary op l r) t := by
  cases op <;> simp only [binaryType] at h <;> split at h <;> cases h
  · exact .arithmetic (by simp [BinaryOperator.Arithmetic]) hl hr
  · exact .arithmetic (by simp [BinaryOperator.Arithmetic]) hl hr
  · exact .arithmetic (by simp [BinaryOperator.Arithmetic]) hl hr
  · exact .arithmetic (by simp [BinaryOperator.Arithmetic]) hl hr
  · exact .concat hl hr
  · exact .and hl hr
  · exact .or hl hr

theorem equality_rule {known : Expr N → ScalarType → Prop} {op l r a b n}
    (hop : op = ComparisonOperator.equal ∨ op = .notEqual) (h : a.isCompatible b = .ok n)
    (hl : Rule known l a) (hr : Rule known r b) : Rule known (.comparison op l r) (.scalar .logical n) := by
  obtain ⟨h1, h2⟩ := isCompatible_alike h
  cases h1 with
  | scalar =>
    rw [ScalarType.isCompatible, if_pos rfl] at h
    cases h
    exact .equal hop hl hr
  | unit =>
    rcases h2 with rfl | ⟨_, _, _, h2, _⟩
    · exact .equalTuples hop hl hr .unit
    · cases h2
  | tuple h3 h4 =>
    rcases h2 with rfl | ⟨_, _, _, h2, _⟩
    · exact .equalTuples hop hl hr (.tuple h3 h4)
    · cases h2

theorem comparison_rule {known : Expr N → ScalarType → Prop} {op l r a b t} (h : comparisonType op a b = .ok t)
    (hl : Rule known l a) (hr : Rule known r b) : Rule known (.comparison op l r) t := by
  cases op <;> simp only [comparisonType] at h
  · obtain ⟨n, h1, h⟩ := Chk.bind_eq_ok.mp h
    cases h
    exact equality_rule (.inl rfl) h1 hl hr
  · obtain ⟨n, h1, h⟩ := Chk.bind_eq_ok.mp h
    cases h
    exact equality_rule (.inr rfl) h1 hl hr
  · split at h
    · split at h
      · rename_i hc
        obtain ⟨rfl, ho⟩ := hc
        cases h
        exact .order (by simp [ComparisonOperator.Ordering]) (isOrdered_iff.mp ho) hl hr
      · cases h
    · cases h
  · split at h
    · split at h
      · rename_i hc
        obtain ⟨rfl, ho⟩ := hc
        cases h
        exact .order (by simp [ComparisonOperator.Ordering]) (isOrdered_iff.mp ho) hl hr
      · cases h
    · cases h
  · split at h
    · split at h
      · rename_i hc
        obtain ⟨rfl, ho⟩ := hc
        cases h
        exact .order (by simp [ComparisonOperator.Ordering]) (isOrdered_iff.mp ho) hl hr
      · cases h
    · cases h
  · split at h
    · split at h
      · rename_i hc
        obtain ⟨rfl, ho⟩ := hc
        cases h
        exact .order (by simp [ComparisonOperator.Ordering]) (isOrdered_iff.mp ho) hl hr
      · cases h
    · cases h
  · split at h <;> cases h
    exact .like hl hr

theorem between_rule {known : Expr N → ScalarType → Prop} {e l u a b c t} (h : betweenType a b c = .ok t)
    (he : Rule known e a) (hl : Rule known l b) (hu : Rule known u c) : Rule known (.between e l u) t := by
  unfold betweenType at h
  split at h
  · split at h
    · rename_i hc
      obtain ⟨rfl, rfl, ho⟩ := hc
      cases h
      exact .between (isOrdered_iff.mp ho) he hl hu
    · cases h
  · cases h

/-- What inference says of names, subqueries, IN and CASE. -/
def Infers (ops : NameOps N) (sc : ScalarContext N) (e : Expr N) (t : ScalarType) : Prop := inferExpr ops sc e = .ok t

mutual

theorem infer_rule : ∀ (e : Expr N) {t}, inferExpr ops sc e = .ok t → Rule (Infers ops sc) e t
  | .literal l, t, h => by
    rw [inferExpr] at h
    cases l <;> rw [Literal.inferType] at h <;> cases h <;> first
      | exact .string | exact .number | exact .null | exact .currentDate | exact .currentTime
      | exact .currentTimestamp | exact .date | exact .time | exact .timestamp
  | .ident q, t, h => .given trivial h
  | .select s, t, h => .given trivial h
  | .inSet e s, t, h => .given trivial h
  | .case none ws o, t, h => .given trivial h
  | .case (some e) ws o, t, h => .given trivial h
  | .tuple es, t, h => by
    rw [inferExpr] at h
    obtain ⟨ts, h1, h⟩ := Chk.bind_eq_ok.mp h
    cases h
    exact infers_rule es h1
  | .unary op e, t, h => by
    rw [inferExpr] at h
    obtain ⟨a, h1, h⟩ := Chk.bind_eq_ok.mp h
    exact unary_rule h (infer_rule e h1)
  | .binary op l r, t, h => by
    rw [inferExpr] at h
    obtain ⟨a, h1, h⟩ := Chk.bind_eq_ok.mp h
    obtain ⟨b, h2, h⟩ := Chk.bind_eq_ok.mp h
    exact binary_rule h (infer_rule l h1) (infer_rule r h2)
  | .comparison op l r, t, h => by
    rw [inferExpr] at h
    obtain ⟨a, h1, h⟩ := Chk.bind_eq_ok.mp h
    obtain ⟨b, h2, h⟩ := Chk.bind_eq_ok.mp h
    exact comparison_rule h (infer_rule l h1) (infer_rule r h2)
  | .between e l u, t, h => by
    rw [inferExpr] at h
    obtain ⟨a, h1, h⟩ := Chk.bind_eq_ok.mp h
    obtain ⟨b, h2, h⟩ := Chk.bind_eq_ok.mp h
    obtain ⟨c, h3, h⟩ := Chk.bind_eq_ok.mp h
    exact between_rule h (infer_rule e h1) (infer_rule l h2) (infer_rule u h3)

theorem infers_rule : ∀ (es : List (Expr N)) {ts}, inferExprs ops sc es = .ok ts →
    Rule (Infers ops sc) (.tuple es) (.tuple ts)
  | [], ts, h => by
    rw [inferExprs] at h
    cases h
    exact .empty
  | e :: es, ts, h => by
    rw [inferExprs] at h
    obtain ⟨a, h1, h⟩ := Chk.bind_eq_ok.mp h
    obtain ⟨b, h2, h⟩ := Chk.bind_eq_ok.mp h
    cases h
    exact .tuple (infer_rule e h1) (infers_rule es h2)

end

theorem rule_infer {e : Expr N} {t} (h : Rule (Infers ops sc) e t) : inferExpr ops sc e = .ok t ∧
    ∀ es ts, e = .tuple es → t = .tuple ts → inferExprs ops sc es = .ok ts := by
  have plain {e : Expr N} {t} (h : inferExpr ops sc e = .ok t) (hn : ∀ es, e ≠ .tuple es) :
      inferExpr ops sc e = .ok t ∧ ∀ es ts, e = .tuple es → t = .tuple ts → inferExprs ops sc es = .ok ts :=
    ⟨h, fun es _ he => absurd he (hn es)⟩
  induction h with
  | given hg hk => exact plain hk (fun es he => by subst he; exact hg)
  | empty =>
    refine ⟨by simp [inferExpr, inferExprs, Chk.bind_ok, Chk.pure_eq], ?_⟩
    intro es ts h1 h2
    cases h1
    cases h2
    simp [inferExprs]
  | @tuple e es t ts _ _ ih1 ih2 =>
    have h2 := ih2.2 es ts rfl rfl
    have h : inferExprs ops sc (e :: es) = .ok (t :: ts) := by
      rw [inferExprs, ih1.1, Chk.bind_ok, h2]
      rfl
    refine ⟨by rw [inferExpr, h]; rfl, ?_⟩
    intro es' ts' h1 h2
    cases h1
    cases h2
    exact h
  | negate _ ih | not _ ih | isNull _ ih =>
    exact plain (by rw [inferExpr, ih.1]; rfl) (by simp)
  | arithmetic hop _ _ ih1 ih2 =>
    refine plain ?_ (by simp)
    rw [inferExpr, ih1.1, ih2.1]
    simp only [BinaryOperator.Arithmetic, List.mem_cons, List.not_mem_nil, or_false] at hop
    rcases hop with rfl | rfl | rfl | rfl <;> rfl
  | concat _ _ ih1 ih2 | and _ _ ih1 ih2 | or _ _ ih1 ih2 | like _ _ ih1 ih2 =>
    exact plain (by rw [inferExpr, ih1.1, ih2.1]; rfl) (by simp)
  | @equal op l r t n m hop _ _ ih1 ih2 =>
    refine plain ?_ (by simp)
    rw [inferExpr, ih1.1, ih2.1]
    rcases hop with rfl | rfl <;> simp [Chk.bind_ok, comparisonType, ScalarType.isCompatible, Chk.pure_eq]
  | @equalTuples op l r ts us hop _ _ ha ih1 ih2 =>
    refine plain ?_ (by simp)
    rw [inferExpr, ih1.1, ih2.1]
    obtain ⟨n, h1, h2⟩ := alike_compatible ha
    obtain ⟨_, rfl, _⟩ := h2 _ _ rfl rfl
    rcases hop with rfl | rfl <;> simp [Chk.bind_ok, comparisonType, h1, Chk.pure_eq]
  | @order op l r t n m hop ho _ _ ih1 ih2 =>
    refine plain ?_ (by simp)
    rw [inferExpr, ih1.1, ih2.1]
    simp only [ComparisonOperator.Ordering, List.mem_cons, List.not_mem_nil, or_false] at hop
    rcases hop with rfl | rfl | rfl | rfl <;> simp [Chk.bind_ok, comparisonType, isOrdered_iff.mpr ho]
  | @between e l u t n m k ho _ _ _ ih1 ih2 ih3 =>
    refine plain ?_ (by simp)
    rw [inferExpr, ih1.1, ih2.1, ih3.1]
    simp [Chk.bind_ok, betweenType, isOrdered_iff.mpr ho]
  | _ => exact plain (by rw [inferExpr, Literal.inferType]) (by simp)

end Verif.Sql
