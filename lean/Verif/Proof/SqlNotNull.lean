import Verif.Spec.SqlNotNull

/-! # Type checking with fewer NULLs -/

namespace Verif.Sql

variable {N : Type} {ops : NameOps N}

/-- If the second succeeds then the first panics or succeeds with a related result. -/
def NoWorse {α β : Type} (R : α → β → Prop) (x : Chk α) (y : Chk β) : Prop :=
  ∀ b, y = .ok b → x = .error .panic ∨ ∃ a, x = .ok a ∧ R a b

namespace NoWorse
variable {α β γ δ : Type} {R : α → β → Prop} {S : γ → δ → Prop}

theorem ok {a : α} {b : β} (h : R a b) : NoWorse R (.ok a) (.ok b) := fun _ hb => by
  cases hb; exact .inr ⟨a, rfl, h⟩

theorem stop {x : Chk α} {e : Stop} : NoWorse R x (.error e) := fun _ hb => nomatch hb

theorem dies {y : Chk β} : NoWorse R (.error .panic) y := fun _ _ => .inl rfl

theorem bind {x : Chk α} {y : Chk β} {f : α → Chk γ} {g : β → Chk δ} (h : NoWorse R x y)
    (hf : ∀ a b, R a b → NoWorse S (f a) (g b)) : NoWorse S (x >>= f) (y >>= g) := by
  cases y with
  | error e => exact stop
  | ok b =>
    rcases h b rfl with rfl | ⟨a, rfl, hr⟩
    · exact dies
    · exact hf a b hr

theorem ignore {x : Chk α} {y : Chk β} : NoWorse (fun _ _ => True) (ignored x) (ignored y) := by
  intro b _
  match x with
  | .ok _ => exact .inr ⟨(), rfl, trivial⟩
  | .error (.err _) => exact .inr ⟨(), rfl, trivial⟩
  | .error .panic => exact .inl rfl

theorem mono {R' : α → β → Prop} {x : Chk α} {y : Chk β} (h : NoWorse R x y) (hr : ∀ a b, R a b → R' a b) :
    NoWorse R' x y := fun b hb => (h b hb).imp_right fun ⟨a, ha, hab⟩ => ⟨a, ha, hr a b hab⟩

end NoWorse

/-! ## Lists and maps -/

theorem Listwise.refl {α : Type} {R : α → α → Prop} (h : ∀ a, R a a) : ∀ l : List α, Listwise R l l
  | [] => .nil
  | a :: l => .cons (h a) (refl h l)

theorem Listwise.append {α β : Type} {R : α → β → Prop} {as bs} (h : Listwise R as bs) {as' bs'}
    (h' : Listwise R as' bs') : Listwise R (as ++ as') (bs ++ bs') := by
  induction h with
  | nil => exact h'
  | cons hr _ ih => exact .cons hr ih

theorem Listwise.map {α β γ δ : Type} {R : α → β → Prop} {S : γ → δ → Prop} {f : α → γ} {g : β → δ}
    (hf : ∀ a b, R a b → S (f a) (g b)) {as bs} (h : Listwise R as bs) : Listwise S (as.map f) (bs.map g) := by
  induction h with
  | nil => exact .nil
  | cons hr _ ih => exact .cons (hf _ _ hr) ih

theorem Listwise.length {α β : Type} {R : α → β → Prop} {as bs} (h : Listwise R as bs) : as.length = bs.length := by
  induction h with
  | nil => rfl
  | cons _ _ ih => simp only [List.length_cons, ih]

theorem FinerList.length {ts ts'} : FinerList ts ts' → ts.length = ts'.length
  | .nil => rfl
  | .cons _ h => by simp only [List.length_cons, h.length]

/-- Maps with the same keys and related values. -/
abbrev SameKeys {V W : Type} (R : V → W → Prop) : TMap N V → TMap N W → Prop :=
  Listwise fun e f => e.1 = f.1 ∧ R e.2 f.2

theorem SameKeys.get {V W : Type} {R : V → W → Prop} {m : TMap N V} {m' : TMap N W} (h : SameKeys R m m') (k : N) :
    (m.get ops k = none ∧ m'.get ops k = none) ∨ ∃ v w, m.get ops k = some v ∧ m'.get ops k = some w ∧ R v w := by
  induction h with
  | nil => exact .inl ⟨rfl, rfl⟩
  | @cons a b as bs hr _ ih =>
    obtain ⟨k1, v⟩ := a
    obtain ⟨k2, w⟩ := b
    obtain ⟨rfl, hr⟩ := hr
    simp only [TMap.get]
    split
    · exact .inr ⟨v, w, rfl, rfl, hr⟩
    · exact ih

theorem SameKeys.insert {V W : Type} {R : V → W → Prop} {m : TMap N V} {m' : TMap N W} (h : SameKeys R m m') (k : N)
    {v : V} {w : W} (hv : R v w) : SameKeys R (m.insert ops k v) (m'.insert ops k w) := by
  induction h with
  | nil => exact .cons ⟨rfl, hv⟩ .nil
  | @cons a b as bs hr ht ih =>
    obtain ⟨k1, v1⟩ := a
    obtain ⟨k2, w1⟩ := b
    obtain ⟨rfl, hr⟩ := hr
    simp only [TMap.insert]
    split
    · exact .cons ⟨rfl, hv⟩ (.cons ⟨rfl, hr⟩ ht)
    · exact .cons ⟨rfl, hv⟩ ht
    · exact .cons ⟨rfl, hr⟩ ih

theorem SameKeys.collect {V W : Type} {R : V → W → Prop} {es : List (N × V)} {fs : List (N × W)}
    (h : SameKeys R es fs) :
    SameKeys R (TMap.collect ops es) (TMap.collect ops fs) := by
  suffices ∀ m m', SameKeys R m m' → SameKeys R (es.foldl (fun m e => TMap.insert ops m e.1 e.2) m)
      (fs.foldl (fun m e => TMap.insert ops m e.1 e.2) m') from this [] [] .nil
  induction h with
  | nil => intro m m' h; exact h
  | @cons a b as bs hr _ ih =>
    intro m m' hm
    simp only [List.foldl_cons]
    obtain ⟨k1, v1⟩ := a
    obtain ⟨k2, w1⟩ := b
    obtain ⟨rfl, hr⟩ := hr
    exact ih _ _ (hm.insert k1 hr)

/-! ## Types -/

mutual
theorem Finer.refl : ∀ t, Finer t t
  | .scalar _ _ => .scalar id
  | .tuple ts => .tuple (FinerList.refl ts)
theorem FinerList.refl : ∀ ts, FinerList ts ts
  | [] => .nil
  | t :: ts => .cons (Finer.refl t) (FinerList.refl ts)
end

theorem _root_.Verif.Sql.Attribute.Finer.refl (a : Attribute N) : a.Finer a := ⟨rfl, rfl, id⟩

theorem _root_.Verif.Sql.Attribute.Finer.scalar {a b : Attribute N} (h : a.Finer b) :
    Verif.Sql.Finer a.scalar b.scalar := by
  obtain ⟨n, t, i⟩ := a
  obtain ⟨n', t', i'⟩ := b
  obtain ⟨rfl, rfl, h⟩ := h
  exact .scalar h

theorem or_imp_or {a b a' b' : Bool} (ha : a = true → a' = true) (hb : b = true → b' = true) :
    (a || b) = true → (a' || b') = true := by
  revert ha hb; cases a <;> cases b <;> cases a' <;> cases b' <;> decide

/-- What `is_compatible` answers. -/
abbrev Answer (a b : Bool) : Prop := a = true → b = true

mutual
theorem isCompatible_finer : ∀ {l l' r r'}, Finer l l' → Finer r r' →
    NoWorse Answer (l.isCompatible r) (l'.isCompatible r')
  | .scalar t n, .scalar _ n', .scalar u m, .scalar _ m', .scalar h, .scalar h' => by
    simp only [ScalarType.isCompatible]
    split
    · exact .ok (or_imp_or h h')
    · exact .stop
  | .tuple ts, .tuple ts', .tuple us, .tuple us', .tuple h, .tuple h' => by
    simp only [ScalarType.isCompatible, h.length, h'.length]
    split
    · exact .stop
    · exact isCompatibleFold_finer (.ok id) h h'
  | .scalar .., .scalar .., .tuple _, .tuple _, .scalar _, .tuple _ => .stop
  | .tuple _, .tuple _, .scalar .., .scalar .., .tuple _, .scalar _ => .stop
theorem isCompatibleFold_finer : ∀ {x y : Chk Bool} {ls ls' rs rs'}, NoWorse Answer x y → FinerList ls ls' →
    FinerList rs rs' → NoWorse Answer (ScalarType.isCompatibleFold x ls rs) (ScalarType.isCompatibleFold y ls' rs')
  | x, y, [], [], _, _, hx, .nil, _ => by
    unfold ScalarType.isCompatibleFold; exact hx
  | x, y, _ :: _, _ :: _, [], [], hx, .cons _ _, .nil => by
    unfold ScalarType.isCompatibleFold; exact hx
  | x, y, l :: ls, l' :: ls', r :: rs, r' :: rs', hx, .cons h ht, .cons h' ht' => by
    simp only [ScalarType.isCompatibleFold]
    refine isCompatibleFold_finer ?_ ht ht'
    have hi := isCompatible_finer h h'
    cases y with
    | error e => exact .stop
    | ok b =>
      rcases hx b rfl with rfl | ⟨a, rfl, hab⟩
      · exact .dies
      · simp only
        cases hy : l'.isCompatible r' with
        | error e => exact .stop
        | ok d =>
          rcases hi d hy with hp | ⟨c, hc, hcd⟩
          · rw [hp]; exact .dies
          · rw [hc]
            refine .ok fun h => ?_
            simp only [Bool.and_eq_true] at h ⊢
            exact ⟨hab h.1, hcd h.2⟩
end

theorem unify_finer {t u : DataType} {n n' m m' : Bool} (h : n = true → n' = true) (h' : m = true → m' = true) :
    NoWorse Finer ((ScalarType.scalar t n).unify (.scalar u m)) ((ScalarType.scalar t n').unify (.scalar u m')) := by
  simp only [ScalarType.unify]
  split
  · exact .ok (.scalar (or_imp_or h h'))
  · exact .stop

theorem unaryType_finer (op : UnaryOperator) {t t'} (h : Finer t t') :
    NoWorse Finer (unaryType op t) (unaryType op t') := by
  cases h with
  | tuple h => cases op <;> exact .stop
  | @scalar d n n' h => cases op <;> cases d <;> first | exact .stop | exact .ok (.scalar h)

theorem binaryType_finer (op : BinaryOperator) {l l' r r'} (h : Finer l l') (h' : Finer r r') :
    NoWorse Finer (binaryType op l r) (binaryType op l' r') := by
  cases h with
  | tuple h => cases op <;> exact .stop
  | @scalar d n n' h =>
    cases h' with
    | tuple h' => cases op <;> cases d <;> exact .stop
    | @scalar d' m m' h' =>
      cases op <;> cases d <;> cases d' <;> first | exact .stop | exact .ok (.scalar (or_imp_or h h'))

theorem comparisonType_finer (op : ComparisonOperator) {l l' r r'} (h : Finer l l') (h' : Finer r r') :
    NoWorse Finer (comparisonType op l r) (comparisonType op l' r') := by
  have key : NoWorse Finer (do return .scalar .logical (← l.isCompatible r))
      (do return .scalar .logical (← l'.isCompatible r')) :=
    (isCompatible_finer h h').bind fun a b hab => .ok (.scalar hab)
  have ordered : NoWorse Finer (comparisonType .lessThan l r) (comparisonType .lessThan l' r') := by
    cases h with
    | tuple h => exact .stop
    | @scalar d n n' h =>
      cases h' with
      | tuple h' => exact .stop
      | @scalar d' m m' h' =>
        simp only [comparisonType]
        split
        · exact .ok (.scalar (or_imp_or h h'))
        · exact .stop
  cases op
  case equal => exact key
  case notEqual => exact key
  case like =>
    cases h with
    | tuple h => exact .stop
    | @scalar d n n' h =>
      cases h' with
      | tuple h' => cases d <;> exact .stop
      | @scalar d' m m' h' =>
        cases d <;> cases d' <;> first | exact .stop | exact .ok (.scalar (or_imp_or h h'))
  all_goals exact ordered

theorem betweenType_finer {e e' l l' u u'} (he : Finer e e') (hl : Finer l l') (hu : Finer u u') :
    NoWorse Finer (betweenType e l u) (betweenType e' l' u') := by
  cases he with
  | tuple _ => exact .stop
  | scalar he =>
    cases hl with
    | tuple _ => exact .stop
    | scalar hl =>
      cases hu with
      | tuple _ => exact .stop
      | scalar hu =>
        simp only [betweenType]
        split
        · exact .ok (.scalar (or_imp_or (or_imp_or he hl) hu))
        · exact .stop

theorem thenStep_finer {t t' b b'} (ht : Finer t t') (hb : Finer b b') :
    NoWorse Finer (thenStep t b) (thenStep t' b') := by
  refine (isCompatible_finer hb ht).bind fun x y hxy => ?_
  cases hb with
  | tuple _ => exact .stop
  | scalar hb => exact .ok (.scalar (or_imp_or hb hxy))

theorem mustBeLogical_finer (e : SqlError) {t t'} (h : Finer t t') :
    NoWorse (fun _ _ => True) (mustBeLogical e t) (mustBeLogical e t') := by
  cases h with
  | tuple h => exact .stop
  | @scalar d n n' h => cases d <;> first | exact .stop | exact .ok trivial

theorem mustBeCount_finer (e : SqlError) {t t'} (h : Finer t t') :
    NoWorse (fun _ _ => True) (mustBeCount e t) (mustBeCount e t') := by
  cases h with
  | tuple h => exact .stop
  | @scalar d n n' h =>
    cases n' with
    | true => cases d <;> exact .stop
    | false =>
      cases n with
      | true => exact nomatch h rfl
      | false => cases d <;> first | exact .stop | exact .ok trivial

theorem mustBeScalar_finer (e : SqlError) {t t'} (h : Finer t t') :
    NoWorse (fun _ _ => True) (mustBeScalar e t) (mustBeScalar e t') := by
  cases h with
  | tuple h => exact .stop
  | scalar h => exact .ok trivial

/-! ## Contexts -/

/-- Symbols that differ at most in that less can be NULL. -/
inductive Symbol.Finer : Symbol N → Symbol N → Prop where
  | column {t t'} : Verif.Sql.Finer t t' → Symbol.Finer (.attribute t) (.attribute t')
  | conflict : Symbol.Finer .attributeConflict .attributeConflict
  | relation {m m'} : SameKeys Verif.Sql.Finer m m' → Symbol.Finer (.relation m) (.relation m')

/-- The same for contexts. -/
def ScalarContext.Stricter (ops : NameOps N) (sc sc' : ScalarContext N) : Prop :=
  sc.setContext.Stricter ops sc'.setContext ∧ SameKeys Symbol.Finer sc.symbols sc'.symbols

theorem new_stricter {ctx ctx' : SetContext N} (h : ctx.Stricter ops ctx') :
    (ScalarContext.new ctx).Stricter ops (ScalarContext.new ctx') := ⟨h, .nil⟩

theorem addAttributes_finer {as bs : List (Attribute N)} (h : Listwise Attribute.Finer as bs) :
    ∀ {m m'}, SameKeys Symbol.Finer m m' →
      SameKeys Symbol.Finer (addAttributes ops m as) (addAttributes ops m' bs) := by
  induction h with
  | nil => intro m m' h; exact h
  | @cons a b as bs hr _ ih =>
    intro m m' hm
    simp only [addAttributes]
    rw [hr.1]
    rcases hm.get (ops := ops) b.name with ⟨h1, h2⟩ | ⟨v, w, h1, h2, hv⟩
    · rw [h1, h2]
      exact ih (hm.insert _ (.column hr.scalar))
    · rw [h1, h2]
      cases hv with
      | column _ => exact ih (hm.insert _ .conflict)
      | conflict => exact ih hm
      | relation _ => exact ih hm

theorem addRelation_finer {sc sc' : ScalarContext N} (h : sc.Stricter ops sc') (name : N) {as bs : List (Attribute N)}
    (ha : Listwise Attribute.Finer as bs) :
    NoWorse (ScalarContext.Stricter ops) (sc.addRelation ops name as) (sc'.addRelation ops name bs) := by
  have hm := addAttributes_finer (ops := ops) ha h.2
  have hc : SameKeys Finer (TMap.collect ops (as.map fun a => (a.name, a.scalar)))
      (TMap.collect ops (bs.map fun a => (a.name, a.scalar))) :=
    SameKeys.collect (ha.map fun a b hr => ⟨hr.1, hr.scalar⟩)
  have hi := hm.insert (ops := ops) name (.relation hc)
  simp only [ScalarContext.addRelation]
  rcases hm.get (ops := ops) name with ⟨h1, h2⟩ | ⟨v, w, h1, h2, hv⟩
  · rw [h1, h2]
    exact .ok ⟨h.1, hi⟩
  · rw [h1, h2]
    cases hv with
    | column _ => exact .ok ⟨h.1, hi⟩
    | conflict => exact .ok ⟨h.1, hi⟩
    | relation _ => exact .stop

theorem inferType_finer {sc sc' : ScalarContext N} (h : sc.Stricter ops sc') (q : List N) :
    NoWorse Finer (sc.inferType ops q) (sc'.inferType ops q) := by
  unfold ScalarContext.inferType
  split
  · rename_i a
    rcases h.2.get (ops := ops) a with ⟨h1, h2⟩ | ⟨v, w, h1, h2, hv⟩
    · rw [h1, h2]; exact .stop
    · rw [h1, h2]
      cases hv with
      | column ht => exact .ok ht
      | conflict => exact .stop
      | relation _ => exact .stop
  · rename_i r a
    rcases h.2.get (ops := ops) r with ⟨h1, h2⟩ | ⟨v, w, h1, h2, hv⟩
    · rw [h1, h2]; exact .stop
    · rw [h1, h2]
      cases hv with
      | column ht => exact .stop
      | conflict => exact .stop
      | relation hm =>
        simp only
        rcases hm.get (ops := ops) a with ⟨h3, h4⟩ | ⟨v, w, h3, h4, hv⟩
        · rw [h3, h4]; exact .stop
        · rw [h3, h4]; exact .ok hv
  · exact .stop

theorem resolve_finer {ctx ctx' : SetContext N} (h : ctx.Stricter ops ctx') (q : List N) :
    NoWorse RowType.Finer (ctx.resolveTableName ops q) (ctx'.resolveTableName ops q) := by
  rcases h q with ⟨r, r', h1, h2, hr⟩ | ⟨e, h1, h2⟩
  · rw [h1, h2]; exact .ok hr
  · rw [h2]; exact .stop

/-! ## Columns -/

theorem generateColumns_finer {as bs : List (Attribute N)} (h : Listwise Attribute.Finer as bs) :
    ∀ g : TMap N Nat, Listwise Attribute.Finer (generateColumns ops g as).1 (generateColumns ops g bs).1 ∧
      (generateColumns ops g as).2 = (generateColumns ops g bs).2 := by
  induction h with
  | nil => intro g; exact ⟨.nil, rfl⟩
  | @cons a b as bs hr _ ih =>
    intro g
    simp only [generateColumns, hr.1]
    exact ⟨.cons ⟨rfl, hr.2⟩ (ih _).1, (ih _).2⟩

theorem relationAttributes_finer {m m' : TMap N ScalarType} (h : SameKeys Finer m m') :
    NoWorse (Listwise Attribute.Finer) (relationAttributes m) (relationAttributes m') := by
  induction h with
  | nil => exact .ok .nil
  | @cons a b as bs hr _ ih =>
    obtain ⟨k1, v1⟩ := a
    obtain ⟨k2, w1⟩ := b
    obtain ⟨rfl, hr⟩ := hr
    cases hr with
    | tuple _ => exact .stop
    | scalar hs =>
      simp only [relationAttributes]
      exact ih.bind fun x y hxy => .ok (.cons ⟨rfl, rfl, hs⟩ hxy)

theorem singleColumn_finer (e : SqlError) {r r' : RowType N} (h : r.Finer r') :
    NoWorse Finer (singleColumn e r) (singleColumn e r') := by
  obtain ⟨as, k, o⟩ := r
  obtain ⟨bs, k', o'⟩ := r'
  cases h with
  | nil => exact .stop
  | cons hr ht =>
    cases ht with
    | nil => exact .ok hr.scalar
    | cons _ _ => exact .stop

theorem unifyAttributes_finer {as bs : List (Attribute N)} (h : Listwise Attribute.Finer as bs) :
    ∀ {cs ds}, Listwise Attribute.Finer cs ds →
      NoWorse (Listwise Attribute.Finer) (unifyAttributes as cs) (unifyAttributes bs ds) := by
  induction h with
  | nil => intro cs ds _; unfold unifyAttributes; exact .ok .nil
  | @cons a b as bs hr _ ih =>
    intro cs ds h'
    cases h' with
    | nil => exact .ok .nil
    | @cons c d cs ds hs ht =>
      simp only [unifyAttributes]
      obtain ⟨n, t, i⟩ := a
      obtain ⟨n', t', i'⟩ := b
      obtain ⟨rfl, rfl, hr⟩ := hr
      obtain ⟨m, u, j⟩ := c
      obtain ⟨m', u', j'⟩ := d
      obtain ⟨rfl, rfl, hs⟩ := hs
      refine (unify_finer hr hs).bind fun x y hxy => ?_
      cases hxy with
      | tuple _ => exact .stop
      | scalar hxy => exact (ih ht).bind fun x y h => .ok (.cons ⟨rfl, rfl, hxy⟩ h)

theorem find_finer {as bs : List (Attribute N)} (h : Listwise Attribute.Finer as bs) (p : N → Bool) :
    (as.find? (fun a => p a.name) = none ∧ bs.find? (fun a => p a.name) = none) ∨
    ∃ a b, as.find? (fun a => p a.name) = some a ∧ bs.find? (fun a => p a.name) = some b ∧ a.Finer b := by
  induction h with
  | nil => exact .inl ⟨rfl, rfl⟩
  | @cons a b as bs hr _ ih =>
    simp only [List.find?_cons, hr.1]
    split
    · exact .inr ⟨a, b, rfl, rfl, hr⟩
    · exact ih

theorem selectColumns_finer {as bs : List (Attribute N)} (h : Listwise Attribute.Finer as bs) (cs : List N) :
    NoWorse (Listwise Attribute.Finer) (selectColumns ops as cs) (selectColumns ops bs cs) := by
  induction cs with
  | nil => exact .ok .nil
  | cons c cs ih =>
    simp only [selectColumns]
    rcases find_finer h (fun n => ops.eq n c) with ⟨h1, h2⟩ | ⟨a, b, h1, h2, hr⟩
    · rw [h1, h2]; exact .stop
    · rw [h1, h2]
      exact ih.bind fun x y h => .ok (.cons ⟨rfl, hr.2⟩ h)

/-! ## Expressions and queries -/

mutual
theorem inferExpr_finer {sc sc' : ScalarContext N} (h : sc.Stricter ops sc') : ∀ e : Expr N, e.NoIn →
    NoWorse Finer (inferExpr ops sc e) (inferExpr ops sc' e)
  | .literal l, _ => by simp only [inferExpr]; exact .ok (.refl _)
  | .ident q, _ => by simp only [inferExpr]; exact inferType_finer h q
  | .tuple es, hn => by
    simp only [inferExpr]
    exact (inferExprs_finer h es (by simpa only [Expr.NoIn] using hn)).bind fun _ _ h => .ok (.tuple h)
  | .select s, hn => by
    simp only [inferExpr]
    exact (inferSelect_finer h.1 s (by simpa only [Expr.NoIn] using hn)).bind fun _ _ h => singleColumn_finer _ h
  | .unary op e, hn => by
    simp only [inferExpr]
    exact (inferExpr_finer h e (by simpa only [Expr.NoIn] using hn)).bind fun _ _ h => unaryType_finer op h
  | .binary op l r, hn => by
    simp only [Expr.NoIn] at hn
    simp only [inferExpr]
    exact (inferExpr_finer h l hn.1).bind fun _ _ h1 => (inferExpr_finer h r hn.2).bind fun _ _ h2 =>
      binaryType_finer op h1 h2
  | .comparison op l r, hn => by
    simp only [Expr.NoIn] at hn
    simp only [inferExpr]
    exact (inferExpr_finer h l hn.1).bind fun _ _ h1 => (inferExpr_finer h r hn.2).bind fun _ _ h2 =>
      comparisonType_finer op h1 h2
  | .inSet e set, hn => by simp only [Expr.NoIn] at hn
  | .between e l u, hn => by
    simp only [Expr.NoIn] at hn
    simp only [inferExpr]
    exact (inferExpr_finer h e hn.1).bind fun _ _ h0 => (inferExpr_finer h l hn.2.1).bind fun _ _ h1 =>
      (inferExpr_finer h u hn.2.2).bind fun _ _ h2 => betweenType_finer h0 h1 h2
  | .case none whens els, hn => by
    simp only [Expr.NoIn] at hn
    simp only [inferExpr]
    exact NoWorse.ignore.bind fun _ _ _ => (inferBodies_finer h whens hn.2.1).bind fun _ _ h1 =>
      inferElse_finer h h1 els hn.2.2
  | .case (some e) whens els, hn => by
    simp only [Expr.NoIn, Expr.NoInOption] at hn
    simp only [inferExpr]
    exact (inferExpr_finer h e hn.1).bind fun _ _ _ => NoWorse.ignore.bind fun _ _ _ =>
      (inferBodies_finer h whens hn.2.1).bind fun _ _ h1 => inferElse_finer h h1 els hn.2.2
theorem inferExprs_finer {sc sc' : ScalarContext N} (h : sc.Stricter ops sc') : ∀ es : List (Expr N), Expr.NoIns es →
    NoWorse FinerList (inferExprs ops sc es) (inferExprs ops sc' es)
  | [], _ => by simp only [inferExprs]; exact .ok .nil
  | e :: es, hn => by
    simp only [Expr.NoIns] at hn
    simp only [inferExprs]
    exact (inferExpr_finer h e hn.1).bind fun _ _ h1 => (inferExprs_finer h es hn.2).bind fun _ _ h2 =>
      .ok (.cons h1 h2)
theorem inferBodies_finer {sc sc' : ScalarContext N} (h : sc.Stricter ops sc') : ∀ ws : List (When N), When.NoIns ws →
    NoWorse Finer (inferBodies ops sc ws) (inferBodies ops sc' ws)
  | [], _ => by simp only [inferBodies]; exact .stop
  | .mk guard body :: ws, hn => by
    simp only [When.NoIns] at hn
    simp only [inferBodies]
    exact (inferExpr_finer h body hn.1).bind fun _ _ h1 => foldBodies_finer h h1 ws hn.2
theorem foldBodies_finer {sc sc' : ScalarContext N} (h : sc.Stricter ops sc') {t t'} (ht : Finer t t') :
    ∀ ws : List (When N), When.NoIns ws → NoWorse Finer (foldBodies ops sc t ws) (foldBodies ops sc' t' ws)
  | [], _ => by simp only [foldBodies]; exact .ok ht
  | .mk guard body :: ws, hn => by
    simp only [When.NoIns] at hn
    simp only [foldBodies]
    exact (inferExpr_finer h body hn.1).bind fun _ _ h1 => (thenStep_finer ht h1).bind fun _ _ h2 =>
      foldBodies_finer h h2 ws hn.2
theorem inferElse_finer {sc sc' : ScalarContext N} (h : sc.Stricter ops sc') {t t'} (ht : Finer t t') :
    ∀ e : Option (Expr N), Expr.NoInOption e → NoWorse Finer (inferElse ops sc t e) (inferElse ops sc' t' e)
  | none, _ => by
    simp only [inferElse]
    cases ht with
    | tuple _ => exact .stop
    | scalar _ => exact .ok (.scalar id)
  | some e, hn => by
    simp only [Expr.NoInOption] at hn
    simp only [inferElse]
    cases ht with
    | tuple _ => exact .stop
    | scalar hs =>
      exact (inferExpr_finer h e hn).bind fun _ _ h1 => (isCompatible_finer h1 (.scalar hs)).bind fun _ _ h2 =>
        .ok (.scalar (or_imp_or h2 hs))
theorem inferSelect_finer {ctx ctx' : SetContext N} (h : ctx.Stricter ops ctx') : ∀ s : Select N, s.NoIn →
    NoWorse RowType.Finer (inferSelect ops ctx s) (inferSelect ops ctx' s)
  | .mk common expr orderBy limit, hn => by
    simp only [Select.NoIn] at hn
    simp only [inferSelect]
    exact (addCommon_finer h (new_stricter h) common hn.1).bind fun _ _ h1 =>
      (inferSetExpr_finer h expr hn.2.1).bind fun _ _ h2 => (checkOrder_finer h1 orderBy hn.2.2.1).bind fun _ _ _ =>
        (checkLimit_finer h1.1 limit hn.2.2.2).bind fun _ _ _ => .ok h2
theorem addCommon_finer {ctx ctx' : SetContext N} (h : ctx.Stricter ops ctx') {sc sc' : ScalarContext N}
    (hs : sc.Stricter ops sc') : ∀ cs : List (Cte N), Cte.NoIns cs →
    NoWorse (ScalarContext.Stricter ops) (addCommon ops ctx sc cs) (addCommon ops ctx' sc' cs)
  | [], _ => by simp only [addCommon]; exact .ok hs
  | .mk n names query :: cs, hn => by
    simp only [Cte.NoIns] at hn
    simp only [addCommon]
    have key : NoWorse RowType.Finer (inferCte ops ctx (.mk n names query))
        (inferCte ops ctx' (.mk n names query)) := by
      simp only [inferCte]
      refine (inferSelect_finer h query hn.1).bind fun _ _ h1 => ?_
      cases names with
      | none => exact .ok h1
      | some ns => exact (selectColumns_finer h1 ns).bind fun _ _ h2 => .ok h2
    exact key.bind fun _ _ h1 => (addRelation_finer hs n h1).bind fun _ _ h2 => addCommon_finer h h2 cs hn.2
theorem checkOrder_finer {sc sc' : ScalarContext N} (h : sc.Stricter ops sc') : ∀ ts : List (OrderTerm N),
    OrderTerm.NoIns ts → NoWorse (fun _ _ => True) (checkOrder ops sc ts) (checkOrder ops sc' ts)
  | [], _ => by simp only [checkOrder]; exact .ok trivial
  | .mk e _ _ :: ts, hn => by
    simp only [OrderTerm.NoIns] at hn
    simp only [checkOrder]
    exact (inferExpr_finer h e hn.1).bind fun _ _ h1 => (mustBeScalar_finer _ h1).bind fun _ _ _ =>
      checkOrder_finer h ts hn.2
theorem checkLimit_finer {ctx ctx' : SetContext N} (h : ctx.Stricter ops ctx') : ∀ l : Option (Limit N),
    Limit.NoInOption l → NoWorse (fun _ _ => True) (checkLimit ops ctx l) (checkLimit ops ctx' l)
  | none, _ => by simp only [checkLimit]; exact .ok trivial
  | some (.mk rows offset), hn => by
    simp only [Limit.NoInOption] at hn
    simp only [checkLimit]
    exact (inferExpr_finer (new_stricter h) rows hn.1).bind fun _ _ h1 => (mustBeCount_finer _ h1).bind fun _ _ _ =>
      checkOffset_finer (new_stricter h) offset hn.2
theorem checkOffset_finer {sc sc' : ScalarContext N} (h : sc.Stricter ops sc') : ∀ e : Option (Expr N),
    Expr.NoInOption e → NoWorse (fun _ _ => True) (checkOffset ops sc e) (checkOffset ops sc' e)
  | none, _ => by simp only [checkOffset]; exact .ok trivial
  | some e, hn => by
    simp only [Expr.NoInOption] at hn
    simp only [checkOffset]
    exact (inferExpr_finer h e hn).bind fun _ _ h1 => mustBeCount_finer _ h1
theorem inferSetExpr_finer {ctx ctx' : SetContext N} (h : ctx.Stricter ops ctx') : ∀ s : SetExpr N, s.NoIn →
    NoWorse RowType.Finer (inferSetExpr ops ctx s) (inferSetExpr ops ctx' s)
  | .values rows, hn => by
    simp only [SetExpr.NoIn] at hn
    simp only [inferSetExpr]
    exact (inferValues_finer (new_stricter h) rows hn).bind fun _ _ h1 => .ok h1
  | .query _ columns froms wher groupBy, hn => by
    simp only [SetExpr.NoIn] at hn
    simp only [inferSetExpr]
    refine (inferFrom_finer (new_stricter h) froms hn.2.1).bind fun a b h1 => ?_
    obtain ⟨sc, as⟩ := a
    obtain ⟨sc', bs⟩ := b
    exact (checkPredicate_finer h1.1 _ wher hn.2.2.1).bind fun _ _ _ =>
      (checkGroupBy_finer h1.1 groupBy hn.2.2.2).bind fun _ _ _ => inferColumns_finer h1.1 h1.2 columns hn.1
  | .op _ l r, hn => by
    simp only [SetExpr.NoIn] at hn
    simp only [inferSetExpr]
    exact (inferSetExpr_finer h l hn.1).bind fun _ _ h1 => (inferSetExpr_finer h r hn.2).bind fun _ _ h2 =>
      (unifyAttributes_finer h1 h2).bind fun _ _ h3 => .ok h3
theorem inferValues_finer {sc sc' : ScalarContext N} (h : sc.Stricter ops sc') : ∀ rows : List (List (Expr N)),
    Expr.NoInRows rows → NoWorse (Listwise Attribute.Finer) (inferValues ops sc rows) (inferValues ops sc' rows)
  | [], _ => by simp only [inferValues]; exact .stop
  | row :: rows, hn => by
    simp only [Expr.NoInRows] at hn
    simp only [inferValues]
    exact (inferFirstRow_finer h 0 row hn.1).bind fun _ _ h1 => foldRows_finer h h1 rows hn.2
theorem inferFirstRow_finer {sc sc' : ScalarContext N} (h : sc.Stricter ops sc') (count : Nat) :
    ∀ es : List (Expr N), Expr.NoIns es →
    NoWorse (Listwise Attribute.Finer) (inferFirstRow ops sc count es) (inferFirstRow ops sc' count es)
  | [], _ => by simp only [inferFirstRow]; exact .ok .nil
  | e :: es, hn => by
    simp only [Expr.NoIns] at hn
    simp only [inferFirstRow]
    refine (inferExpr_finer h e hn.1).bind fun _ _ h1 => ?_
    cases h1 with
    | tuple _ => exact .stop
    | scalar hs => exact (inferFirstRow_finer h (count + 1) es hn.2).bind fun _ _ h2 => .ok (.cons ⟨rfl, rfl, hs⟩ h2)
theorem foldRows_finer {sc sc' : ScalarContext N} (h : sc.Stricter ops sc') {as bs : List (Attribute N)}
    (ha : Listwise Attribute.Finer as bs) : ∀ rows : List (List (Expr N)), Expr.NoInRows rows →
    NoWorse (Listwise Attribute.Finer) (foldRows ops sc as rows) (foldRows ops sc' bs rows)
  | [], _ => by simp only [foldRows]; exact .ok ha
  | row :: rows, hn => by
    simp only [Expr.NoInRows] at hn
    simp only [foldRows]
    exact (unifyRow_finer h ha row hn.1).bind fun _ _ h1 => foldRows_finer h h1 rows hn.2
theorem unifyRow_finer {sc sc' : ScalarContext N} (h : sc.Stricter ops sc') :
    ∀ {as bs : List (Attribute N)}, Listwise Attribute.Finer as bs → ∀ es : List (Expr N), Expr.NoIns es →
    NoWorse (Listwise Attribute.Finer) (unifyRow ops sc as es) (unifyRow ops sc' bs es)
  | _, _, .nil, es, _ => by unfold unifyRow; exact .ok .nil
  | _, _, .cons _ _, [], _ => by unfold unifyRow; exact .ok .nil
  | a :: as, b :: bs, .cons hr ha, e :: es, hn => by
    simp only [Expr.NoIns] at hn
    simp only [unifyRow]
    refine (inferExpr_finer h e hn.1).bind fun t t' h1 => ?_
    obtain ⟨n, u, i⟩ := a
    obtain ⟨n', u', i'⟩ := b
    obtain ⟨rfl, rfl, hr⟩ := hr
    cases h1 with
    | tuple _ => exact .stop
    | scalar hs =>
      refine (unify_finer hr hs).bind fun x y hxy => ?_
      cases hxy with
      | tuple _ => exact .stop
      | scalar hxy => exact (unifyRow_finer h ha es hn.2).bind fun _ _ h2 => .ok (.cons ⟨rfl, rfl, hxy⟩ h2)
theorem inferFrom_finer {sc sc' : ScalarContext N} (h : sc.Stricter ops sc') : ∀ ts : List (TableExpr N),
    TableExpr.NoIns ts →
    NoWorse (fun a b => a.1.Stricter ops b.1 ∧ Listwise Attribute.Finer a.2 b.2) (inferFrom ops sc ts)
      (inferFrom ops sc' ts)
  | [], _ => by simp only [inferFrom]; exact .ok ⟨h, .nil⟩
  | t :: ts, hn => by
    simp only [TableExpr.NoIns] at hn
    simp only [inferFrom]
    refine (inferTable_finer h t hn.1).bind fun a b h1 => ?_
    obtain ⟨sc1, as⟩ := a
    obtain ⟨sc1', bs⟩ := b
    refine (inferFrom_finer h1.1 ts hn.2).bind fun a b h2 => ?_
    exact .ok ⟨h2.1, h1.2.append h2.2⟩
theorem inferTable_finer {sc sc' : ScalarContext N} (h : sc.Stricter ops sc') : ∀ t : TableExpr N, t.NoIn →
    NoWorse (fun a b => a.1.Stricter ops b.1 ∧ Listwise Attribute.Finer a.2 b.2) (inferTable ops sc t)
      (inferTable ops sc' t)
  | .named name alias, _ => by
    simp only [inferTable]
    refine (resolve_finer h.1 name).bind fun _ _ h1 => ?_
    cases relationName name alias with
    | error e => exact .stop
    | ok n => exact (addRelation_finer h n h1).bind fun _ _ h2 => .ok ⟨h2, h1⟩
  | .select s _, hn => by
    simp only [TableExpr.NoIn] at hn
    simp only [inferTable]
    exact (inferSelect_finer h.1 s hn).bind fun _ _ h1 => .ok ⟨h, h1⟩
  | .join l r _ _, hn => by
    simp only [TableExpr.NoIn] at hn
    simp only [inferTable]
    refine (inferTable_finer h l hn.1).bind fun a b h1 => ?_
    obtain ⟨sc1, as⟩ := a
    obtain ⟨sc1', bs⟩ := b
    refine (inferTable_finer h1.1 r hn.2).bind fun a b h2 => ?_
    exact .ok ⟨h2.1, h1.2.append h2.2⟩
theorem checkPredicate_finer {sc sc' : ScalarContext N} (h : sc.Stricter ops sc') (msg : SqlError) :
    ∀ e : Option (Expr N), Expr.NoInOption e →
    NoWorse (fun _ _ => True) (checkPredicate ops sc msg e) (checkPredicate ops sc' msg e)
  | none, _ => by simp only [checkPredicate]; exact .ok trivial
  | some e, hn => by
    simp only [Expr.NoInOption] at hn
    simp only [checkPredicate]
    exact (inferExpr_finer h e hn).bind fun _ _ h1 => mustBeLogical_finer _ h1
theorem checkGroupBy_finer {sc sc' : ScalarContext N} (h : sc.Stricter ops sc') : ∀ g : Option (GroupBy N),
    GroupBy.NoInOption g → NoWorse (fun _ _ => True) (checkGroupBy ops sc g) (checkGroupBy ops sc' g)
  | none, _ => by simp only [checkGroupBy]; exact .ok trivial
  | some (.mk groupings having), hn => by
    simp only [GroupBy.NoInOption] at hn
    simp only [checkGroupBy]
    exact (inferExprs_finer h groupings hn.1).bind fun _ _ _ => checkPredicate_finer h _ having hn.2
theorem inferColumns_finer {sc sc' : ScalarContext N} (h : sc.Stricter ops sc') {as bs : List (Attribute N)}
    (ha : Listwise Attribute.Finer as bs) : ∀ c : ResultColumns N, c.NoIn →
    NoWorse RowType.Finer (inferColumns ops sc as c) (inferColumns ops sc' bs c)
  | .all, _ => by simp only [inferColumns]; exact .ok (generateColumns_finer ha []).1
  | .list cs, hn => by
    simp only [ResultColumns.NoIn] at hn
    simp only [inferColumns]
    exact (inferColumnList_finer h [] cs hn).bind fun _ _ h1 => .ok h1
theorem inferColumnList_finer {sc sc' : ScalarContext N} (h : sc.Stricter ops sc') (g : TMap N Nat) :
    ∀ cs : List (ResultColumn N), ResultColumn.NoIns cs →
    NoWorse (Listwise Attribute.Finer) (inferColumnList ops sc g cs) (inferColumnList ops sc' g cs)
  | [], _ => by simp only [inferColumnList]; exact .ok .nil
  | .allFrom n :: cs, hn => by
    simp only [ResultColumn.NoIns] at hn
    simp only [inferColumnList]
    rcases h.2.get (ops := ops) n with ⟨h1, h2⟩ | ⟨v, w, h1, h2, hv⟩
    · rw [h1, h2]; exact .stop
    · rw [h1, h2]
      cases hv with
      | column _ => exact .stop
      | conflict => exact .stop
      | relation hm =>
        refine (relationAttributes_finer hm).bind fun as bs ha => ?_
        have hg := generateColumns_finer (ops := ops) ha g
        simp only [hg.2]
        exact (inferColumnList_finer h _ cs hn).bind fun _ _ h3 => .ok (hg.1.append h3)
  | .expr e rename :: cs, hn => by
    simp only [ResultColumn.NoIns] at hn
    simp only [inferColumnList]
    refine (inferExpr_finer h e hn.1).bind fun _ _ h1 => ?_
    cases h1 with
    | tuple _ => exact .stop
    | scalar hs => exact (inferColumnList_finer h _ cs hn.2).bind fun _ _ h2 => .ok (.cons ⟨rfl, rfl, hs⟩ h2)
end

/-! ## Statements -/

theorem insertColumns_finer {es fs : List (Attribute N × N)}
    (h : Listwise (fun e f => Attribute.Finer e.1 f.1 ∧ e.2 = f.2) es fs) :
    ∀ m : TMap N (DataType × Bool), NoWorse Eq (insertColumns ops m es) (insertColumns ops m fs) := by
  induction h with
  | nil => intro m; exact .ok rfl
  | @cons a b as bs hr _ ih =>
    intro m
    obtain ⟨⟨n, t, i⟩, k⟩ := a
    obtain ⟨⟨n', t', i'⟩, k'⟩ := b
    obtain ⟨⟨rfl, rfl, hi⟩, rfl⟩ := hr
    simp only [insertColumns]
    refine NoWorse.bind (R := Eq) ?_ fun x y hxy => by subst hxy; exact ih x
    simp only [insertColumn]
    cases m.get ops k with
    | none => exact .stop
    | some c =>
      obtain ⟨u, j⟩ := c
      simp only
      split
      · rename_i hc
        split
        · exact .stop
        · rename_i hd
          refine absurd ?_ hd
          rcases hc with hc | ⟨h1, h2⟩
          · exact .inl hc
          · exact .inr ⟨h1, hi h2⟩
      · split
        · exact .stop
        · exact .ok rfl

theorem zip_finer {as bs : List (Attribute N)} (h : Listwise Attribute.Finer as bs) :
    ∀ cs : List N, Listwise (fun e f => Attribute.Finer e.1 f.1 ∧ e.2 = f.2) (as.zip cs) (bs.zip cs) := by
  induction h with
  | nil => intro cs; exact .nil
  | cons hr _ ih =>
    intro cs
    cases cs with
    | nil => exact .nil
    | cons c cs => exact .cons ⟨hr, rfl⟩ (ih cs)

theorem insertSource_finer {as bs : List (Attribute N)} (h : Listwise Attribute.Finer as bs)
    (m : TMap N (DataType × Bool)) (columns : Option (List N)) :
    NoWorse Eq (insertSource ops m as columns) (insertSource ops m bs columns) := by
  cases columns with
  | none => exact insertColumns_finer (h.map fun a b hr => ⟨hr, hr.1⟩) m
  | some cs =>
    simp only [insertSource, h.length]
    split
    · exact .stop
    · exact insertColumns_finer (zip_finer h cs) m

theorem updateColumns_finer (m : TMap N (DataType × Bool)) (t : DataType) {n n' : Bool} (h : n = true → n' = true)
    (cs : List N) : ∀ assigned : TMap N Unit,
    NoWorse Eq (updateColumns ops m t n assigned cs) (updateColumns ops m t n' assigned cs) := by
  induction cs with
  | nil => intro a; exact .ok rfl
  | cons c cs ih =>
    intro a
    simp only [updateColumns]
    split
    · exact .stop
    · cases m.get ops c with
      | none => exact .stop
      | some d =>
        obtain ⟨u, j⟩ := d
        simp only
        split
        · rename_i hc
          split
          · exact .stop
          · rename_i hd
            refine absurd ?_ hd
            rcases hc with hc | ⟨h1, h2⟩
            · exact .inl hc
            · exact .inr ⟨h h1, h2⟩
        · split
          · exact .stop
          · exact ih _

theorem updateAssignments_finer {sc sc' : ScalarContext N} (h : sc.Stricter ops sc') (m : TMap N (DataType × Bool))
    (as : List (Assignment N)) (hn : ∀ a ∈ as, a.expr.NoIn) : ∀ assigned : TMap N Unit,
    NoWorse Eq (updateAssignments ops sc m assigned as) (updateAssignments ops sc' m assigned as) := by
  induction as with
  | nil => intro a; exact .ok rfl
  | cons a as ih =>
    intro assigned
    simp only [updateAssignments]
    refine (inferExpr_finer h a.expr (hn a List.mem_cons_self)).bind fun _ _ h1 => ?_
    cases h1 with
    | tuple _ => exact .stop
    | scalar hs =>
      refine (updateColumns_finer m _ hs a.columns assigned).bind fun x y hxy => ?_
      subst hxy
      exact ih (fun b hb => hn b (List.mem_cons_of_mem _ hb)) x

theorem tableContext_finer {ctx ctx' : SetContext N} (h : ctx.Stricter ops ctx') (name : List N) {r r' : RowType N}
    (hr : r.Finer r') :
    NoWorse (ScalarContext.Stricter ops) (tableContext ops ctx name r) (tableContext ops ctx' name r') := by
  unfold tableContext
  split
  · exact addRelation_finer (new_stricter h) _ hr
  · exact .stop

theorem statement_finer {ctx ctx' : SetContext N} (h : ctx.Stricter ops ctx') (s : Statement N) (hn : s.NoIn)
    (ht : ∀ q, SqlStatement.target (.statement s) = some q →
      ctx.resolveTableName ops q = ctx'.resolveTableName ops q) :
    NoWorse (fun _ _ => True) (s.validateType ops ctx) (s.validateType ops ctx') := by
  cases s with
  | select s => exact (inferSelect_finer h s hn).bind fun _ _ _ => .ok trivial
  | insert s =>
    simp only [Statement.validateType, InsertStatement.validateType, ht s.tableName rfl]
    cases ctx'.resolveTableName ops s.tableName with
    | error e => exact .stop
    | ok r =>
      refine (inferSetExpr_finer h s.source hn).bind fun _ _ h1 => (insertSource_finer h1 _ _).bind fun x y hxy => ?_
      subst hxy
      intro b hb
      exact .inr ⟨b, hb, trivial⟩
  | delete s =>
    simp only [Statement.validateType, DeleteStatement.validateType]
    exact (resolve_finer h s.tableName).bind fun _ _ hr => (tableContext_finer h _ hr).bind fun _ _ hs =>
      checkPredicate_finer hs _ s.wher hn
  | update s =>
    simp only [Statement.validateType, UpdateStatement.validateType, ht s.tableName rfl]
    cases ctx'.resolveTableName ops s.tableName with
    | error e => exact .stop
    | ok r =>
      exact (tableContext_finer h s.tableName (Listwise.refl Attribute.Finer.refl _)).bind fun _ _ hs =>
        (updateAssignments_finer hs _ s.assignments hn.1 []).bind fun _ _ _ => checkPredicate_finer hs _ s.wher hn.2

theorem sqlStatement_finer {ctx ctx' : SetContext N} (h : ctx.Stricter ops ctx') (s : SqlStatement N) (hn : s.NoIn)
    (ht : ∀ q, s.target = some q → ctx.resolveTableName ops q = ctx'.resolveTableName ops q) :
    NoWorse (fun _ _ => True) (s.validateType ops ctx) (s.validateType ops ctx') := by
  cases s with
  | statement s => exact statement_finer h s hn ht
  | explainQueryPlan s => exact statement_finer h s hn fun q hq => ht q (by cases s <;> exact hq)
  | attach s => exact .ok trivial
  | describe s => exact (resolve_finer h s.qualifiedName).bind fun _ _ _ => .ok trivial

/-! ## Catalogues -/

theorem ofRowSet_finer {r r' : RowSet N} (h : Listwise Column.Stricter r.columns r'.columns) :
    (RowType.ofRowSet r).Finer (RowType.ofRowSet r') := by
  refine Listwise.map (fun c d hc => ?_) h
  obtain ⟨n, nn, p, t⟩ := c
  obtain ⟨n', nn', p', t'⟩ := d
  obtain ⟨rfl, rfl, rfl, hc⟩ := hc
  refine ⟨rfl, rfl, ?_⟩
  revert hc
  cases nn <;> cases nn' <;> simp

theorem namespaces_finer {db db' : Database N} (h : db.Stricter db') :
    SameKeys (SameKeys RowType.Finer) (namespacesOf ops db) (namespacesOf ops db') :=
  SameKeys.collect (Listwise.map (fun _ _ he => ⟨he.1, SameKeys.collect (Listwise.map
    (fun _ _ ho => ⟨ho.1, ofRowSet_finer ho.2⟩) he.2)⟩) h)

theorem database_stricter {db db' : Database N} (h : db.Stricter db') (d : N) :
    (SetContext.new ops db d).Stricter ops (SetContext.new ops db' d) := by
  have hm := namespaces_finer (ops := ops) h
  intro q
  unfold SetContext.resolveTableName
  simp only [SetContext.new, TMap.get]
  split
  · rename_i t
    rcases hm.get (ops := ops) d with ⟨h1, h2⟩ | ⟨v, w, h1, h2, hv⟩
    · rw [h1, h2]; exact .inr ⟨_, rfl, rfl⟩
    · rw [h1, h2]
      simp only
      rcases hv.get (ops := ops) t with ⟨h3, h4⟩ | ⟨r, r', h3, h4, hr⟩
      · rw [h3, h4]; exact .inr ⟨_, rfl, rfl⟩
      · rw [h3, h4]; exact .inl ⟨r, r', rfl, rfl, hr⟩
  · rename_i s t
    rcases hm.get (ops := ops) s with ⟨h1, h2⟩ | ⟨v, w, h1, h2, hv⟩
    · rw [h1, h2]; exact .inr ⟨_, rfl, rfl⟩
    · rw [h1, h2]
      simp only
      rcases hv.get (ops := ops) t with ⟨h3, h4⟩ | ⟨r, r', h3, h4, hr⟩
      · rw [h3, h4]; exact .inr ⟨_, rfl, rfl⟩
      · rw [h3, h4]; exact .inl ⟨r, r', rfl, rfl, hr⟩
  · exact .inr ⟨_, rfl, rfl⟩

end Verif.Sql
