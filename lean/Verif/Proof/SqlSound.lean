import Verif.Proof.SqlSafe
import Verif.Spec.SqlSound
/-! # Type inference is sound on the clear fragment -/

namespace Verif.Sql

/-! ## Inverting the two monads -/

theorem some_bind {α β : Type} {r : Option α} {f : α → Option β} {b : β} (h : (r >>= f) = some b) :
    ∃ a, r = some a ∧ f a = some b := by
  cases r with
  | none => cases h
  | some a => exact ⟨a, rfl, h⟩

theorem ok_bind {α β : Type} {r : Chk α} {f : α → Chk β} {b : β} (h : (r >>= f) = .ok b) :
    ∃ a, r = .ok a ∧ f a = .ok b := by
  cases r with
  | error e => cases h
  | ok a => exact ⟨a, rfl, h⟩

section values
variable {E : Engine} {strict : Bool}

theorem hasTypes_length : ∀ {vs : List (Value E.Carrier)} {ts : List ScalarType},
    HasTypes E strict vs ts → vs.length = ts.length
  | [], [], _ => rfl
  | v :: vs, t :: ts, h => by
    unfold HasTypes at h
    simp [hasTypes_length h.2]
  | [], _ :: _, h => by unfold HasTypes at h; exact h.elim
  | _ :: _, [], h => by unfold HasTypes at h; exact h.elim

theorem hasTypes_append : ∀ {vs ws : List (Value E.Carrier)} {ts us : List ScalarType},
    HasTypes E strict vs ts → HasTypes E strict ws us → HasTypes E strict (vs ++ ws) (ts ++ us)
  | [], _, [], _, _, h => h
  | v :: vs, _, t :: ts, _, h, h' => by
    unfold HasTypes at h
    simp only [List.cons_append]
    unfold HasTypes
    exact ⟨h.1, hasTypes_append h.2 h'⟩
  | [], _, _ :: _, _, h, _ => by unfold HasTypes at h; exact h.elim
  | _ :: _, _, [], _, h, _ => by unfold HasTypes at h; exact h.elim

theorem hasType_ofTruth {b : Option Bool} {n : Bool} (h : b = none → n = true ∨ strict = false) :
    HasType E strict (ofTruth E b) (.scalar .logical n) := by
  cases b with
  | none => unfold ofTruth HasType; exact h rfl
  | some b => unfold ofTruth HasType; rfl

/-- A value of a type that does not admit NULL is not NULL. -/
theorem null_of_type {t : DataType} {n : Bool} (h : HasType E strict .null (.scalar t n)) :
    n = true ∨ strict = false := by
  unfold HasType at h
  exact h

/-- A value of scalar type is no tuple. -/
theorem no_tuple {t : DataType} {n : Bool} {vs : List (Value E.Carrier)}
    (h : HasType E strict (.tuple vs) (.scalar t n)) : False := by
  unfold HasType at h
  exact h

/-- Values of one type are values of the other. -/
def Widens (E : Engine) (strict : Bool) (t u : ScalarType) : Prop :=
  ∀ v, HasType E strict v t → HasType E strict v u

theorem widens_scalar {t : DataType} {n m : Bool} (h : n = true → m = true) :
    Widens E strict (.scalar t n) (.scalar t m) := by
  intro v hv
  cases v with
  | null =>
    unfold HasType at hv ⊢
    exact hv.imp h id
  | scalar u x =>
    unfold HasType at hv ⊢
    exact hv
  | tuple vs => exact (no_tuple hv).elim

/-! ## Operations -/

theorem literal_sound {l : Literal} {v : Value E.Carrier} (h : evalLiteral E l = some v) :
    HasType E strict v l.inferType := by
  have key : ∀ {t : DataType} {o : Option (E.Carrier t)} {n : Bool},
      o.map (Value.scalar (C := E.Carrier) t ·) = some v → HasType E strict v (.scalar t n) := by
    intro t o n h
    rw [Option.map_eq_some_iff] at h
    obtain ⟨x, _, rfl⟩ := h
    unfold HasType
    rfl
  cases l <;> simp only [evalLiteral, Option.some.injEq] at h <;>
    first
    | exact key h
    | (subst h; unfold Literal.inferType HasType; first | rfl | exact Or.inl rfl)

theorem truth_none {v : Value E.Carrier} {b : Option Bool} (h : truth E v = some b) (hb : b = none) :
    v = .null := by
  subst hb
  unfold truth at h
  split at h
  · rfl
  · cases h
  · cases h

theorem unary_sound {op : UnaryOperator} {v w : Value E.Carrier} {t u : ScalarType}
    (hop : op = .isNull → ∃ n, t = .scalar .logical n)
    (ht : unaryType op t = .ok u) (hv : op ≠ .isNull → strict = true → HasType E strict v t)
    (h : evalUnary E op v = some w) : HasType E strict w u := by
  cases op with
  | isNull =>
    obtain ⟨n, rfl⟩ := hop rfl
    cases ht
    unfold evalUnary at h
    split at h <;> simp only [reduceCtorEq] at * <;> cases h <;> exact hasType_ofTruth fun h => nomatch h
  | negate =>
    unfold unaryType at ht
    split at ht <;> simp only [reduceCtorEq] at * <;> cases ht
    rename_i n
    unfold evalUnary at h
    split at h <;> simp only [reduceCtorEq] at * <;> cases h
    · cases strict with
      | false => unfold HasType; exact Or.inr rfl
      | true => exact hv nofun rfl
    · unfold HasType; rfl
  | not =>
    unfold unaryType at ht
    split at ht <;> simp only [reduceCtorEq] at * <;> cases ht
    rename_i n
    simp only [evalUnary, Option.map_eq_some_iff] at h
    obtain ⟨b, hb, rfl⟩ := h
    apply hasType_ofTruth
    intro hn
    have hb' : b = none := by simpa [not3] using hn
    cases strict with
    | false => exact Or.inr rfl
    | true =>
      have := hv nofun rfl
      rw [truth_none hb hb'] at this
      exact null_of_type this

theorem and3_none {a b : Option Bool} (h : and3 a b = none) : a = none ∨ b = none := by
  rcases a with _ | _ | _ <;> rcases b with _ | _ | _ <;> simp [and3] at h ⊢

theorem or3_none {a b : Option Bool} (h : or3 a b = none) : a = none ∨ b = none := by
  rcases a with _ | _ | _ <;> rcases b with _ | _ | _ <;> simp [or3] at h ⊢

/-- One of the two operands is NULL. -/
theorem null_or {v w : Value E.Carrier} {t u : DataType} {n m : Bool}
    (hv : strict = true → HasType E strict v (.scalar t n) ∧ HasType E strict w (.scalar u m))
    (h : v = .null ∨ w = .null) : (n || m) = true ∨ strict = false := by
  cases strict with
  | false => exact Or.inr rfl
  | true =>
    obtain ⟨h1, h2⟩ := hv rfl
    rcases h with rfl | rfl
    · rcases null_of_type h1 with rfl | h
      · exact Or.inl rfl
      · exact Or.inr h
    · rcases null_of_type h2 with rfl | h
      · exact Or.inl (by simp)
      · exact Or.inr h

theorem arithmetic_sound {op : BinaryOperator} {v w x : Value E.Carrier} {n m : Bool}
    (hv : strict = true → HasType E strict v (.scalar .numeric n) ∧ HasType E strict w (.scalar .numeric m))
    (h : evalArithmetic E op v w = some x) : HasType E strict x (.scalar .numeric (n || m)) := by
  unfold evalArithmetic at h
  split at h
  · rw [Option.map_eq_some_iff] at h
    obtain ⟨y, _, rfl⟩ := h
    unfold HasType; rfl
  · cases h; unfold HasType; exact null_or hv (Or.inl rfl)
  · cases h; unfold HasType; exact null_or hv (Or.inl rfl)
  · cases h; unfold HasType; exact null_or hv (Or.inr rfl)
  · cases h

theorem concat_sound {v w x : Value E.Carrier} {n m : Bool}
    (hv : strict = true → HasType E strict v (.scalar .varchar n) ∧ HasType E strict w (.scalar .varchar m))
    (h : evalConcat E v w = some x) : HasType E strict x (.scalar .varchar (n || m)) := by
  unfold evalConcat at h
  split at h
  · cases h; unfold HasType; rfl
  · cases h; unfold HasType; exact null_or hv (Or.inl rfl)
  · cases h; unfold HasType; exact null_or hv (Or.inl rfl)
  · cases h; unfold HasType; exact null_or hv (Or.inr rfl)
  · cases h

theorem binary_sound {op : BinaryOperator} {v w x : Value E.Carrier} {t u r : ScalarType}
    (ht : binaryType op t u = .ok r)
    (hv : strict = true → HasType E strict v t ∧ HasType E strict w u)
    (h : evalBinary E op v w = some x) : HasType E strict x r := by
  have logic : ∀ (f : Option Bool → Option Bool → Option Bool),
      (∀ a b, f a b = none → a = none ∨ b = none) → ∀ n m,
      (strict = true → HasType E strict v (.scalar .logical n) ∧ HasType E strict w (.scalar .logical m)) →
      (do return ofTruth E (f (← truth E v) (← truth E w))) = some x →
      HasType E strict x (.scalar .logical (n || m)) := by
    intro f hf n m hv h
    obtain ⟨a, ha, h⟩ := some_bind h
    obtain ⟨b, hb, h⟩ := some_bind h
    cases h
    apply hasType_ofTruth
    intro hn
    exact null_or hv ((hf a b hn).imp (truth_none ha) (truth_none hb))
  cases op <;> simp only [binaryType] at ht <;> split at ht <;> cases ht
  · exact arithmetic_sound hv h
  · exact arithmetic_sound hv h
  · exact arithmetic_sound hv h
  · exact arithmetic_sound hv h
  · exact concat_sound hv h
  · exact logic and3 (fun _ _ => and3_none) _ _ hv h
  · exact logic or3 (fun _ _ => or3_none) _ _ hv h

/-- Equality of scalars is unknown only with NULL. -/
theorem eq3_none {v w : Value E.Carrier} (hv : ∀ vs, v ≠ .tuple vs) (h : eq3 E v w = some none) :
    v = .null ∨ w = .null := by
  cases v with
  | null => exact Or.inl rfl
  | tuple vs => exact (hv vs rfl).elim
  | scalar t x =>
    cases w with
    | null => exact Or.inr rfl
    | tuple ws => simp [eq3] at h
    | scalar u y =>
      unfold eq3 at h
      split at h
      · simp at h
      · cases h

theorem order3_none {test : (t : DataType) → E.Carrier t → E.Carrier t → Bool} {v w : Value E.Carrier}
    (h : order3 E test v w = some none) : v = .null ∨ w = .null := by
  cases v with
  | null => exact Or.inl rfl
  | tuple vs => simp [order3] at h
  | scalar t x =>
    cases w with
    | null => exact Or.inr rfl
    | tuple ws => simp [order3] at h
    | scalar u y =>
      simp only [order3] at h
      split at h
      · simp at h
      · cases h

theorem like_none {v w : Value E.Carrier} (h : evalLike E v w = some none) : v = .null ∨ w = .null := by
  unfold evalLike at h
  split at h
  · simp at h
  · exact Or.inl rfl
  · exact Or.inl rfl
  · exact Or.inr rfl
  · cases h

theorem comparison_logical {op : ComparisonOperator} {t u r : ScalarType}
    (ht : comparisonType op t u = .ok r) : ∃ n, r = .scalar .logical n := by
  cases op <;> simp only [comparisonType] at ht
  case equal =>
    obtain ⟨n, _, h⟩ := ok_bind ht
    cases h
    exact ⟨n, rfl⟩
  case notEqual =>
    obtain ⟨n, _, h⟩ := ok_bind ht
    cases h
    exact ⟨n, rfl⟩
  case like =>
    split at ht
    · cases ht; exact ⟨_, rfl⟩
    · cases ht
  all_goals
    split at ht
    · split at ht
      · cases ht; exact ⟨_, rfl⟩
      · cases ht
    · cases ht

theorem comparison_sound {op : ComparisonOperator} {v w : Value E.Carrier} {x : Option Bool}
    {t u r : ScalarType} (ht : comparisonType op t u = .ok r)
    (hv : strict = true → HasType E strict v t ∧ HasType E strict w u)
    (hs : strict = true → op = .equal ∨ op = .notEqual → t.IsScalar)
    (h : evalComparison E op v w = some x) : HasType E strict (ofTruth E x) r := by
  obtain ⟨n, rfl⟩ := comparison_logical ht
  apply hasType_ofTruth
  rintro rfl
  cases strict with
  | false => exact Or.inr rfl
  | true =>
    obtain ⟨h1, h2⟩ := hv rfl
    have equality : ∀ {v w : Value E.Carrier}, op = .equal ∨ op = .notEqual →
        HasType E true v t → HasType E true w u → t.isCompatible u = .ok n → eq3 E v w = some none →
        n = true ∨ true = false := by
      intro v w hop h1 h2 ht h
      obtain ⟨t', n1, rfl⟩ := hs rfl hop
      cases u with
      | tuple us =>
        unfold ScalarType.isCompatible at ht
        cases ht
      | scalar u' n2 =>
        unfold ScalarType.isCompatible at ht
        split at ht
        · cases ht
          exact null_or (fun _ => ⟨h1, h2⟩)
            (eq3_none (fun vs hvs => by subst hvs; exact no_tuple h1) h)
        · cases ht
    have ordered : ∀ {v w : Value E.Carrier} {m1 m2 : Bool} {t1 t2 : DataType}
        {test : (t : DataType) → E.Carrier t → E.Carrier t → Bool},
        HasType E true v (.scalar t1 m1) → HasType E true w (.scalar t2 m2) →
        order3 E test v w = some none → (m1 || m2) = true ∨ true = false := by
      intro v w m1 m2 t1 t2 test h1 h2 h
      exact null_or (fun _ => ⟨h1, h2⟩) (order3_none h)
    cases op <;> simp only [comparisonType] at ht
    case equal =>
      obtain ⟨m, hm, h'⟩ := ok_bind ht
      cases h'
      exact equality (Or.inl rfl) h1 h2 hm h
    case notEqual =>
      obtain ⟨m, hm, h'⟩ := ok_bind ht
      cases h'
      simp only [evalComparison, Option.map_eq_some_iff] at h
      obtain ⟨b, hb, hn⟩ := h
      have : b = none := by simpa [not3] using hn
      subst this
      exact equality (Or.inr rfl) h1 h2 hm hb
    case like =>
      split at ht
      · cases ht
        exact null_or (fun _ => ⟨h1, h2⟩) (like_none h)
      · cases ht
    case lessThan =>
      split at ht
      · split at ht
        · cases ht; exact ordered h1 h2 h
        · cases ht
      · cases ht
    case lessEqual =>
      split at ht
      · split at ht
        · cases ht; exact ordered h1 h2 h
        · cases ht
      · cases ht
    case greaterThan =>
      split at ht
      · split at ht
        · cases ht; rw [Bool.or_comm]; exact ordered h2 h1 h
        · cases ht
      · cases ht
    case greaterEqual =>
      split at ht
      · split at ht
        · cases ht; rw [Bool.or_comm]; exact ordered h2 h1 h
        · cases ht
      · cases ht

theorem between_sound {v l u : Value E.Carrier} {x : Option Bool} {te tl tu r : ScalarType}
    (ht : betweenType te tl tu = .ok r)
    (hv : strict = true → HasType E strict v te ∧ HasType E strict l tl ∧ HasType E strict u tu)
    (h : evalBetween E v l u = some x) : HasType E strict (ofTruth E x) r := by
  unfold betweenType at ht
  split at ht
  · rename_i t1 n1 t2 n2 t3 n3
    split at ht
    · cases ht
      obtain ⟨a, ha, h⟩ := some_bind h
      obtain ⟨b, hb, h⟩ := some_bind h
      cases h
      apply hasType_ofTruth
      intro hn
      rcases and3_none hn with rfl | rfl
      · rcases null_or (n := n2) (m := n1) (fun hs => ⟨(hv hs).2.1, (hv hs).1⟩) (order3_none ha) with h | h
        · left
          revert h
          cases n1 <;> cases n2 <;> simp
        · exact Or.inr h
      · rcases null_or (n := n1) (m := n3) (fun hs => ⟨(hv hs).1, (hv hs).2.2⟩) (order3_none hb) with h | h
        · left
          revert h
          cases n1 <;> cases n3 <;> simp
        · exact Or.inr h
    · cases ht
  · cases ht

end values

/-! ## Names -/

section names
variable {E : Engine} {strict : Bool} {up : Char → List Char}

/-- A column with its type. -/
abbrev Known := List ((Option Name × Name) × ScalarType)

/-- The names in a context stand for columns among `known`. -/
structure Knows (up : Char → List Char) (sc : ScalarContext Name) (known : Known) : Prop where
  column : ∀ c t, sc.symbols.get (nameOps up) c = some (.attribute t) →
    ∃ k ∈ known, SameName up k.1.2 c ∧ k.2 = t
  qualified : ∀ r m c t, sc.symbols.get (nameOps up) r = some (.relation m) → m.get (nameOps up) c = some t →
    ∃ k ∈ known, (∃ r', k.1.1 = some r' ∧ SameName up r' r) ∧ SameName up k.1.2 c ∧ k.2 = t

theorem knows_new (ctx : SetContext Name) (known : Known) : Knows up (ScalarContext.new ctx) known :=
  ⟨(fun _ _ h => nomatch h), (fun _ _ _ _ h => nomatch h)⟩

theorem Knows.mono {sc : ScalarContext Name} {known known' : Known} (h : Knows up sc known)
    (hs : ∀ k ∈ known, k ∈ known') : Knows up sc known' := by
  refine ⟨fun c t hc => ?_, fun r m c t hr hc => ?_⟩
  · obtain ⟨k, hk, h'⟩ := h.column c t hc
    exact ⟨k, hs k hk, h'⟩
  · obtain ⟨k, hk, h'⟩ := h.qualified r m c t hr hc
    exact ⟨k, hs k hk, h'⟩

/-- The columns of a table under a name. -/
def knownOf (name : Option Name) (as : List (Attribute Name)) : Known :=
  as.map fun a => ((name, a.name), a.scalar)

theorem addAttributes_knows {sc : ScalarContext Name} {known : Known} (h : Knows up sc known)
    (as : List (Attribute Name)) (hs : ∀ a ∈ as, ∃ k ∈ known, k.1.2 = a.name ∧ k.2 = a.scalar) :
    Knows up ⟨sc.setContext, addAttributes (nameOps up) sc.symbols as⟩ known := by
  induction as generalizing sc with
  | nil => exact h
  | cons a as ih =>
    have hs' : ∀ a ∈ as, ∃ k ∈ known, k.1.2 = a.name ∧ k.2 = a.scalar :=
      fun b hb => hs b (List.mem_cons_of_mem _ hb)
    have key : ∀ s : Symbol Name, (∀ m, s ≠ .relation m) → (∀ t, s = .attribute t → t = a.scalar) →
        Knows up ⟨sc.setContext, sc.symbols.insert (nameOps up) a.name s⟩ known := by
      intro s h1 h2
      refine ⟨fun c t hc => ?_, fun r m c t hr hc => ?_⟩
      · simp only [TMap.get_insert (keyed_nameOps up)] at hc
        split at hc
        · rename_i heq
          simp only [Option.some.injEq] at hc
          obtain ⟨k, hk, hk1, hk2⟩ := hs a List.mem_cons_self
          refine ⟨k, hk, ?_, ?_⟩
          · rw [hk1]; exact heq.symm
          · rw [hk2, h2 t hc]
        · exact h.column c t hc
      · simp only [TMap.get_insert (keyed_nameOps up)] at hr
        split at hr
        · simp only [Option.some.injEq] at hr
          exact (h1 m hr).elim
        · exact h.qualified r m c t hr hc
    unfold addAttributes
    split
    · exact ih (sc := ⟨sc.setContext, _⟩) (key (.attribute a.scalar) (fun m h => nomatch h) (fun t h => by cases h; rfl)) hs'
    · exact ih (sc := ⟨sc.setContext, _⟩) (key .attributeConflict (fun m h => nomatch h) (fun t h => nomatch h)) hs'
    · exact ih h hs'
    · exact ih h hs'

theorem addRelation_knows {sc sc' : ScalarContext Name} {known : Known} (h : Knows up sc known)
    {name : Name} {as : List (Attribute Name)}
    (hr : sc.addRelation (nameOps up) name as = .ok sc') :
    Knows up sc' (known ++ knownOf (some name) as) ∧ sc'.setContext = sc.setContext := by
  have hmem : ∀ a ∈ as, ((some name, a.name), a.scalar) ∈ known ++ knownOf (some name) as := by
    intro a ha
    exact List.mem_append_right _ (List.mem_map.2 ⟨a, ha, rfl⟩)
  have h1 := addAttributes_knows (h.mono fun k hk => List.mem_append_left (knownOf (some name) as) hk) as
    (fun a ha => ⟨_, hmem a ha, rfl, rfl⟩)
  unfold ScalarContext.addRelation at hr
  simp only at hr
  split at hr
  · cases hr
  · cases hr
    refine ⟨⟨fun c t hc => ?_, fun r m c t hr hc => ?_⟩, rfl⟩
    · simp only [TMap.get_insert (keyed_nameOps up)] at hc
      split at hc
      · simp at hc
      · exact h1.column c t hc
    · simp only [TMap.get_insert (keyed_nameOps up)] at hr
      split at hr
      · rename_i heq
        simp only [Option.some.injEq, Symbol.relation.injEq] at hr
        subst hr
        obtain ⟨e, he, hk, rfl⟩ := TMap.get_collect_mem (keyed_nameOps up) hc
        obtain ⟨a, ha, rfl⟩ := List.mem_map.1 he
        exact ⟨_, hmem a ha, ⟨name, rfl, heq.symm⟩, hk, rfl⟩
      · exact h1.qualified r m c t hr hc

/-- What is needed of names: their types are scalar, and the values in scope have them. -/
def Covers (E : Engine) (strict : Bool) (up : Char → List Char) (sc : ScalarContext Name)
    (scope : Scope E) : Prop :=
  ∀ q t, sc.inferType (nameOps up) q = .ok t → t.IsScalar ∧
    ∀ v, lookup E up scope q = some v → HasType E strict v t

theorem covers_new (ctx : SetContext Name) (scope : Scope E) :
    Covers E strict up (ScalarContext.new ctx) scope := by
  intro q t h
  unfold ScalarContext.inferType at h
  split at h <;> first | cases h | (simp only [ScalarContext.new, TMap.get] at h; cases h)

/-- The value in the place of a known column. -/
theorem value_at : ∀ {known : Known} {row : Row E} {k : (Option Name × Name) × ScalarType},
    k ∈ known → HasTypes E strict row (known.map (·.2)) →
    ∃ v, (k.1, v) ∈ (known.map (·.1)).zip row ∧ HasType E strict v k.2
  | k' :: known, v :: row, k, hk, h => by
    simp only [List.map_cons] at h
    unfold HasTypes at h
    rcases List.mem_cons.1 hk with rfl | hk
    · exact ⟨v, by simp, h.1⟩
    · obtain ⟨w, hw, hw'⟩ := value_at hk h.2
      exact ⟨w, by simp [hw], hw'⟩
  | _ :: _, [], _, _, h => by
    simp only [List.map_cons] at h
    unfold HasTypes at h
    exact h.elim

theorem only_of_filter {α : Type} {p : α → Bool} {l : List α} {a e : α} (h : l.filter p = [e])
    (ha : a ∈ l) (hp : p a = true) : a = e := by
  have : a ∈ l.filter p := List.mem_filter.2 ⟨ha, hp⟩
  rw [h] at this
  exact List.mem_singleton.1 this

theorem Knows.covers {sc : ScalarContext Name} {known : Known} (h : Knows up sc known)
    (hk : ∀ k ∈ known, k.2.IsScalar) {row : Row E} (hr : HasTypes E strict row (known.map (·.2))) :
    Covers E strict up sc ((known.map (·.1)).zip row) := by
  intro q t ht
  unfold ScalarContext.inferType at ht
  split at ht
  · rename_i c
    split at ht
    · cases ht
    · rename_i t' hs
      cases ht
      obtain ⟨k, hm, hn, rfl⟩ := h.column c t hs
      refine ⟨hk k hm, fun v hv => ?_⟩
      obtain ⟨w, hw, hw'⟩ := value_at hm hr
      simp only [lookup] at hv
      split at hv
      · rename_i e he
        cases hv
        have := only_of_filter he hw (decide_eq_true hn)
        rw [← this]
        exact hw'
      · cases hv
    · cases ht
    · cases ht
  · rename_i r c
    split at ht
    · rename_i m hs
      split at ht
      · rename_i t' hs'
        cases ht
        obtain ⟨k, hm, ⟨r', hr', hn'⟩, hn, rfl⟩ := h.qualified r m c t hs hs'
        refine ⟨hk k hm, fun v hv => ?_⟩
        obtain ⟨w, hw, hw'⟩ := value_at hm hr
        simp only [lookup] at hv
        split at hv
        · rename_i e he
          cases hv
          have hn'' : (Name.upper up k.1.2 = Name.upper up c) := hn
          have := only_of_filter he hw (by
            simp only [hr', Option.any_some, sameName, Bool.and_eq_true, decide_eq_true_eq]
            exact ⟨hn', hn''⟩)
          rw [← this]
          exact hw'
        · cases hv
      · cases ht
    · cases ht
  · cases ht

end names

/-! ## Lists of rows -/

section rows
variable {E : Engine} {strict : Bool}

theorem mem_keep {α : Type} {test : α → Option Bool} : ∀ {l r : List α}, keep test l = some r →
    ∀ a ∈ r, a ∈ l
  | [], r, h, a, ha => by cases h; exact ha
  | b :: l, r, h, a, ha => by
    obtain ⟨x, _, h⟩ := some_bind h
    obtain ⟨rest, hr, h⟩ := some_bind h
    have ih := mem_keep hr
    split at h <;> cases h
    · rcases List.mem_cons.1 ha with rfl | ha
      · exact List.mem_cons_self
      · exact List.mem_cons_of_mem _ (ih a ha)
    · exact List.mem_cons_of_mem _ (ih a ha)

theorem mem_collectAll {α β : Type} {f : α → Option β} : ∀ {l : List α} {r : List β},
    collectAll f l = some r → ∀ b ∈ r, ∃ a ∈ l, f a = some b
  | [], r, h, b, hb => by cases h; cases hb
  | a :: l, r, h, b, hb => by
    obtain ⟨x, hx, h⟩ := some_bind h
    obtain ⟨rest, hr, h⟩ := some_bind h
    cases h
    rcases List.mem_cons.1 hb with rfl | hb
    · exact ⟨a, List.mem_cons_self, hx⟩
    · obtain ⟨a', ha', h'⟩ := mem_collectAll hr b hb
      exact ⟨a', List.mem_cons_of_mem _ ha', h'⟩

theorem mem_firstOfEach {α : Type} : ∀ {l : List (Row E × α)} {a : Row E × α}, a ∈ firstOfEach E l → a ∈ l
  | [], _, h => h
  | b :: l, a, h => by
    unfold firstOfEach at h
    rcases List.mem_cons.1 h with rfl | h
    · exact List.mem_cons_self
    · exact List.mem_cons_of_mem _ (mem_firstOfEach ((List.mem_filter.1 h).1))

theorem mem_distinctRows {l : List (Row E)} {r : Row E} (h : r ∈ distinctRows E l) : r ∈ l := by
  obtain ⟨a, ha, rfl⟩ := List.mem_map.1 h
  obtain ⟨r, hr, rfl⟩ := List.mem_map.1 (mem_firstOfEach ha)
  exact hr

theorem mem_setOperation {op : SetOperator} {l r : List (Row E)} {x : Row E}
    (h : x ∈ setOperation E op l r) : x ∈ l ∨ x ∈ r := by
  cases op with
  | unionAll => exact List.mem_append.1 h
  | union => exact List.mem_append.1 (mem_distinctRows h)
  | intersect => exact Or.inl ((List.mem_filter.1 (mem_distinctRows h)).1)
  | except => exact Or.inl ((List.mem_filter.1 (mem_distinctRows h)).1)

theorem mem_insertRow {α : Type} {x y : List (OrderingDirection × Value E.Carrier) × α} :
    ∀ {l : List (List (OrderingDirection × Value E.Carrier) × α)}, y ∈ insertRow E x l → y = x ∨ y ∈ l
  | [], h => by simpa [insertRow] using h
  | z :: zs, h => by
    unfold insertRow at h
    split at h
    · simpa using h
    · rcases List.mem_cons.1 h with h | h
      · exact Or.inr (h ▸ List.mem_cons_self)
      · exact (mem_insertRow h).imp id (List.mem_cons_of_mem _)

theorem mem_foldr_insertRow {α : Type} {y : List (OrderingDirection × Value E.Carrier) × α} :
    ∀ {l : List (List (OrderingDirection × Value E.Carrier) × α)}, y ∈ l.foldr (insertRow E) [] → y ∈ l
  | [], h => by simp at h
  | z :: zs, h => by
    rcases mem_insertRow h with h | h
    · exact h ▸ List.mem_cons_self
    · exact List.mem_cons_of_mem _ (mem_foldr_insertRow h)

theorem mem_sortRows {α : Type} {l : List (List (OrderingDirection × Value E.Carrier) × α)} {a : α}
    (h : a ∈ sortRows E l) : ∃ k, (k, a) ∈ l := by
  obtain ⟨e, he, rfl⟩ := List.mem_map.1 h
  exact ⟨e.1, mem_foldr_insertRow he⟩

theorem mem_product {l r : List (Row E)} {x : Row E} (h : x ∈ product E l r) :
    ∃ a ∈ l, ∃ b ∈ r, x = a ++ b := by
  obtain ⟨a, ha, h⟩ := List.mem_flatMap.1 h
  obtain ⟨b, hb, rfl⟩ := List.mem_map.1 h
  exact ⟨a, ha, b, hb, rfl⟩

theorem nulls_has {α : Type} (hs : strict = false) : ∀ {l : List α} {ts : List ScalarType},
    l.length = ts.length → (∀ t ∈ ts, t.IsScalar) → HasTypes E strict (nulls E l) ts
  | [], [], _, _ => by unfold nulls; simp only [List.map_nil]; unfold HasTypes; trivial
  | a :: l, t :: ts, h, ht => by
    unfold nulls
    simp only [List.map_cons]
    unfold HasTypes
    refine ⟨?_, nulls_has hs (by simpa using h) fun t h => ht t (List.mem_cons_of_mem _ h)⟩
    obtain ⟨typ, n, rfl⟩ := ht t List.mem_cons_self
    unfold HasType
    exact Or.inr hs
  | [], _ :: _, h, _ => by simp at h
  | _ :: _, [], h, _ => by simp at h

theorem joinRows_sound {t : JoinType} {test : Row E → Option Bool} {l r : Source E} {rows : List (Row E)}
    {ts us : List ScalarType} (hop : (JoinOperator.join t).Clear strict)
    (hts : ∀ t ∈ ts, t.IsScalar) (hus : ∀ t ∈ us, t.IsScalar)
    (hlc : l.columns.length = ts.length) (hrc : r.columns.length = us.length)
    (hl : ∀ row ∈ l.rows, HasTypes E strict row ts) (hr : ∀ row ∈ r.rows, HasTypes E strict row us)
    (h : joinRows E t test l r = some rows) : ∀ row ∈ rows, HasTypes E strict row (ts ++ us) := by
  obtain ⟨inner, hi, h⟩ := some_bind h
  obtain ⟨left, hle, h⟩ := some_bind h
  obtain ⟨right, hri, h⟩ := some_bind h
  have h1 : ∀ row ∈ inner, HasTypes E strict row (ts ++ us) := by
    intro row hrow
    obtain ⟨a, ha, b, hb, rfl⟩ := mem_product (mem_keep hi row hrow)
    exact hasTypes_append (hl a ha) (hr b hb)
  have h2 : strict = false → ∀ row ∈ left.map (fun x => x ++ nulls E r.columns),
      HasTypes E strict row (ts ++ us) := by
    intro hs row hrow
    obtain ⟨x, hx, rfl⟩ := List.mem_map.1 hrow
    exact hasTypes_append (hl x (mem_keep hle x hx)) (nulls_has hs hrc hus)
  have h3 : strict = false → ∀ row ∈ right.map (fun y => nulls E l.columns ++ y),
      HasTypes E strict row (ts ++ us) := by
    intro hs row hrow
    obtain ⟨y, hy, rfl⟩ := List.mem_map.1 hrow
    exact hasTypes_append (nulls_has hs hlc hts) (hr y (mem_keep hri y hy))
  intro row hrow
  cases t with
  | inner => cases h; exact h1 row hrow
  | left =>
    cases h
    rcases List.mem_append.1 hrow with h | h
    · exact h1 row h
    · exact h2 hop row h
  | right =>
    cases h
    rcases List.mem_append.1 hrow with h | h
    · exact h1 row h
    · exact h3 hop row h
  | full =>
    cases h
    rcases List.mem_append.1 hrow with h | h
    · rcases List.mem_append.1 h with h | h
      · exact h1 row h
      · exact h2 hop row h
    · exact h3 hop row h

/-- The types of columns. -/
abbrev typesOf (as : List (Attribute Name)) : List ScalarType := as.map Attribute.scalar

theorem typesOf_scalar {as : List (Attribute Name)} : ∀ t ∈ typesOf as, t.IsScalar := by
  intro t ht
  obtain ⟨a, _, rfl⟩ := List.mem_map.1 ht
  exact ⟨a.typ, a.isNull, rfl⟩

theorem generateColumns_types {ops : NameOps Name} (as : List (Attribute Name)) (g : TMap Name Nat) :
    typesOf (generateColumns ops g as).1 = typesOf as := by
  induction as generalizing g with
  | nil => rfl
  | cons a as ih =>
    unfold generateColumns
    simp only [typesOf, List.map_cons]
    exact congrArg (_ :: ·) (ih _)

theorem unify_sound {t u r : ScalarType} (hs : t.IsScalar) (h : t.unify u = .ok r) :
    Widens E strict t r ∧ Widens E strict u r := by
  obtain ⟨t', n, rfl⟩ := hs
  cases u with
  | tuple us => unfold ScalarType.unify at h; cases h
  | scalar u m =>
    unfold ScalarType.unify at h
    split at h
    · rename_i heq
      subst heq
      cases h
      exact ⟨widens_scalar (by simp +contextual), widens_scalar (by simp +contextual)⟩
    · cases h

theorem unifyAttributes_sound : ∀ {ls rs as : List (Attribute Name)}, ls.length = rs.length →
    unifyAttributes ls rs = .ok as → as.length = ls.length ∧
      (∀ row, HasTypes E strict row (typesOf ls) → HasTypes E strict row (typesOf as)) ∧
      (∀ row, HasTypes E strict row (typesOf rs) → HasTypes E strict row (typesOf as))
  | [], [], as, _, h => by
    unfold unifyAttributes at h
    cases h
    exact ⟨rfl, fun _ h => h, fun _ h => h⟩
  | l :: ls, r :: rs, as, hl, h => by
    unfold unifyAttributes at h
    obtain ⟨t, ht, h⟩ := ok_bind h
    obtain ⟨h1, h2⟩ := unify_sound (E := E) (strict := strict) ⟨_, _, rfl⟩ ht
    cases t with
    | tuple ts => cases h
    | scalar typ n =>
      obtain ⟨as', ha, h⟩ := ok_bind h
      cases h
      obtain ⟨h3, h4, h5⟩ := unifyAttributes_sound (by simpa using hl) ha
      refine ⟨by simp [h3], fun row hr => ?_, fun row hr => ?_⟩
      · cases row with
        | nil => simp only [typesOf, List.map_cons] at hr; unfold HasTypes at hr; exact hr.elim
        | cons v row =>
          simp only [typesOf, List.map_cons] at hr ⊢
          unfold HasTypes at hr ⊢
          exact ⟨h1 v hr.1, h4 row hr.2⟩
      · cases row with
        | nil => simp only [typesOf, List.map_cons] at hr; unfold HasTypes at hr; exact hr.elim
        | cons v row =>
          simp only [typesOf, List.map_cons] at hr ⊢
          unfold HasTypes at hr ⊢
          exact ⟨h2 v hr.1, h5 row hr.2⟩
  | [], _ :: _, _, h, _ => by simp at h
  | _ :: _, [], _, h, _ => by simp at h

theorem scalarOf_sound {t : Table E} {as : List (Attribute Name)} {a : Attribute Name} {v : Value E.Carrier}
    (hs : strict = false) (ht : t.Has E strict as) (ha : as = [a]) (h : scalarOf E t = some v) :
    HasType E strict v a.scalar := by
  subst ha
  unfold scalarOf at h
  split at h
  · cases h
  · split at h
    · cases h
      unfold Attribute.scalar HasType
      exact Or.inr hs
    · rename_i w heq
      cases h
      have := ht.2 [v] (by rw [heq]; exact List.mem_singleton_self _)
      unfold RowHas at this
      simp only [List.map_cons] at this
      unfold HasTypes at this
      exact this.1
    · cases h

end rows

/-! ## Expressions and queries -/

/-- A name that is resolved names a table of the type found. -/
def Served (E : Engine) (strict : Bool) (up : Char → List Char) (ctx : SetContext Name) (st : Store E) : Prop :=
  ∀ q typ t, ctx.resolveTableName (nameOps up) q = .ok typ → st q = some t →
    t.columns = typ.attributes.map (·.name) ∧ t.Has E strict typ.attributes

/-- A condition has the type LOGICAL, if it has one. -/
theorem condition_logical {up : Char → List Char} {sc : ScalarContext Name} {e : Expr Name} (he : e.IsCondition)
    {t : ScalarType} (h : inferExpr (nameOps up) sc e = .ok t) : ∃ n, t = .scalar .logical n := by
  induction he generalizing t with
  | not e =>
    unfold inferExpr at h
    obtain ⟨r, _, h⟩ := ok_bind h
    unfold unaryType at h
    split at h <;> simp only [reduceCtorEq] at * <;> cases h
    exact ⟨_, rfl⟩
  | isNull _ ih =>
    unfold inferExpr at h
    obtain ⟨r, hr, h⟩ := ok_bind h
    obtain ⟨n, rfl⟩ := ih hr
    cases h
    exact ⟨_, rfl⟩
  | and l r =>
    unfold inferExpr at h
    obtain ⟨lt, _, h⟩ := ok_bind h
    obtain ⟨rt, _, h⟩ := ok_bind h
    simp only [binaryType] at h
    split at h <;> cases h
    exact ⟨_, rfl⟩
  | or l r =>
    unfold inferExpr at h
    obtain ⟨lt, _, h⟩ := ok_bind h
    obtain ⟨rt, _, h⟩ := ok_bind h
    simp only [binaryType] at h
    split at h <;> cases h
    exact ⟨_, rfl⟩
  | comparison op l r =>
    unfold inferExpr at h
    obtain ⟨lt, _, h⟩ := ok_bind h
    obtain ⟨rt, _, h⟩ := ok_bind h
    exact comparison_logical h
  | inSet e set =>
    unfold inferExpr at h
    obtain ⟨et, _, h⟩ := ok_bind h
    obtain ⟨r, _, h⟩ := ok_bind h
    obtain ⟨ct, _, h⟩ := ok_bind h
    obtain ⟨b, _, h⟩ := ok_bind h
    split at h <;> cases h
    exact ⟨_, rfl⟩
  | between e l u =>
    unfold inferExpr at h
    obtain ⟨et, _, h⟩ := ok_bind h
    obtain ⟨lt, _, h⟩ := ok_bind h
    obtain ⟨ut, _, h⟩ := ok_bind h
    unfold betweenType at h
    split at h
    · split at h <;> cases h
      exact ⟨_, rfl⟩
    · cases h

/-- An expression not written as a tuple has a scalar type. -/
theorem infer_scalar {E : Engine} {strict : Bool} {up : Char → List Char} {sc : ScalarContext Name}
    {scope : Scope E} (hcov : Covers E strict up sc scope) {e : Expr Name} {t : ScalarType}
    (he : ¬ e.IsTuple) (h : inferExpr (nameOps up) sc e = .ok t) : t.IsScalar := by
  cases e with
  | literal l =>
    unfold inferExpr at h
    cases h
    cases l <;> exact ⟨_, _, rfl⟩
  | ident q =>
    unfold inferExpr at h
    exact (hcov q t h).1
  | tuple es => exact (he ⟨es, rfl⟩).elim
  | select s =>
    unfold inferExpr at h
    obtain ⟨r, _, h⟩ := ok_bind h
    unfold singleColumn at h
    split at h
    · cases h; exact ⟨_, _, rfl⟩
    · cases h
  | unary op e =>
    unfold inferExpr at h
    obtain ⟨r, _, h⟩ := ok_bind h
    unfold unaryType at h
    split at h <;> cases h <;> exact ⟨_, _, rfl⟩
  | binary op l r =>
    unfold inferExpr at h
    obtain ⟨lt, _, h⟩ := ok_bind h
    obtain ⟨rt, _, h⟩ := ok_bind h
    cases op <;> simp only [binaryType] at h <;> split at h <;> cases h <;> exact ⟨_, _, rfl⟩
  | comparison op l r =>
    unfold inferExpr at h
    obtain ⟨lt, _, h⟩ := ok_bind h
    obtain ⟨rt, _, h⟩ := ok_bind h
    obtain ⟨n, rfl⟩ := comparison_logical h
    exact ⟨_, _, rfl⟩
  | inSet e set =>
    unfold inferExpr at h
    obtain ⟨et, _, h⟩ := ok_bind h
    obtain ⟨r, _, h⟩ := ok_bind h
    obtain ⟨ct, _, h⟩ := ok_bind h
    obtain ⟨b, _, h⟩ := ok_bind h
    split at h <;> cases h
    exact ⟨_, _, rfl⟩
  | between e l u =>
    unfold inferExpr at h
    obtain ⟨et, _, h⟩ := ok_bind h
    obtain ⟨lt, _, h⟩ := ok_bind h
    obtain ⟨ut, _, h⟩ := ok_bind h
    unfold betweenType at h
    split at h
    · split at h <;> cases h
      exact ⟨_, _, rfl⟩
    · cases h
  | case e whens els =>
    have key : ∀ r, inferElse (nameOps up) sc r els = .ok t → t.IsScalar := by
      intro r h
      unfold inferElse at h
      split at h
      · split at h <;> cases h
        exact ⟨_, _, rfl⟩
      · split at h
        · obtain ⟨x, _, h⟩ := ok_bind h
          obtain ⟨y, _, h⟩ := ok_bind h
          cases h
          exact ⟨_, _, rfl⟩
        · cases h
    cases e with
    | none =>
      unfold inferExpr at h
      obtain ⟨_, _, h⟩ := ok_bind h
      obtain ⟨r, _, h⟩ := ok_bind h
      exact key r h
    | some e =>
      unfold inferExpr at h
      obtain ⟨_, _, h⟩ := ok_bind h
      obtain ⟨_, _, h⟩ := ok_bind h
      obtain ⟨r, _, h⟩ := ok_bind h
      exact key r h

/-- Same type, and the NULL of one makes the result nullable. -/
theorem compatible_scalar {b t : ScalarType} {typ : DataType} {n m : Bool} (ht : t = .scalar typ n)
    (h : b.isCompatible t = .ok m) : ∃ k, b = .scalar typ k ∧ m = (k || n) := by
  subst ht
  cases b with
  | tuple _ => unfold ScalarType.isCompatible at h; cases h
  | scalar u k =>
    unfold ScalarType.isCompatible at h
    split at h
    · rename_i heq
      subst heq
      cases h
      exact ⟨k, rfl, rfl⟩
    · cases h

theorem thenStep_sound {E : Engine} {strict : Bool} {typ body r : ScalarType}
    (h : thenStep typ body = .ok r) : Widens E strict typ r ∧ Widens E strict body r := by
  unfold thenStep at h
  obtain ⟨m, hm, h⟩ := ok_bind h
  cases body with
  | tuple _ => cases h
  | scalar t n =>
    cases h
    cases typ with
    | tuple _ => unfold ScalarType.isCompatible at hm; cases hm
    | scalar u k =>
      obtain ⟨k', h1, rfl⟩ := compatible_scalar rfl hm
      cases h1
      exact ⟨widens_scalar (by simp +contextual), widens_scalar (by simp +contextual)⟩

/-- The result of a FROM clause or one of its tables: columns of known types. -/
structure Ranges (E : Engine) (strict : Bool) (up : Char → List Char) (ctx : SetContext Name)
    (before : Known) (src : Source E) (sc : ScalarContext Name) (as : List (Attribute Name)) (new : Known) :
    Prop where
  columns : src.columns = new.map (·.1)
  types : typesOf as = new.map (·.2)
  rows : ∀ row ∈ src.rows, HasTypes E strict row (new.map (·.2))
  knows : Knows up sc (before ++ new)
  context : sc.setContext = ctx

theorem columnList_length {strict : Bool} {free : Name → Prop} {up : Char → List Char} {columns : List (Option Name × Name)}
    {sc : ScalarContext Name} : ∀ {cs : List (ResultColumn Name)} {g : TMap Name Nat}
    {as : List (Attribute Name)}, ResultColumn.AllClear strict free cs →
    inferColumnList (nameOps up) sc g cs = .ok as → (resultNames up columns (.list cs)).length = as.length
  | [], g, as, hc, h => by
    unfold inferColumnList at h
    cases h
    rfl
  | .allFrom _ :: _, g, as, hc, h => by
    unfold ResultColumn.AllClear at hc
    exact hc.elim
  | .expr e rename :: cs, g, as, hc, h => by
    unfold ResultColumn.AllClear at hc
    unfold inferColumnList at h
    obtain ⟨t, _, h⟩ := ok_bind h
    cases t with
    | tuple _ => cases h
    | scalar typ n =>
      obtain ⟨as', h', h⟩ := ok_bind h
      cases h
      have := columnList_length (columns := columns) hc.2 h'
      simp only [resultNames, List.flatMap_cons, List.length_append, List.length_cons, List.length_nil] at this ⊢
      omega

theorem columns_length {strict : Bool} {free : Name → Prop} {up : Char → List Char} {columns : List (Option Name × Name)}
    {sc : ScalarContext Name} {as : List (Attribute Name)} {r : RowType Name} (cs : ResultColumns Name)
    (hl : columns.length = as.length) (hc : cs.Clear strict free)
    (h : inferColumns (nameOps up) sc as cs = .ok r) :
    (resultNames up columns cs).length = r.attributes.length := by
  cases cs with
  | all =>
    unfold inferColumns at h
    cases h
    have := congrArg List.length (generateColumns_types (ops := nameOps up) as [])
    simp only [List.length_map] at this
    simp only [resultNames, List.length_map]
    rw [hl]
    exact this.symm
  | list cs =>
    unfold inferColumns at h
    unfold ResultColumns.Clear at hc
    obtain ⟨as', ha, h⟩ := ok_bind h
    cases h
    exact columnList_length hc ha

section sound
variable {E : Engine} {strict : Bool} {up : Char → List Char} {ctx : SetContext Name} {st : Store E}

theorem Ranges.covers {src : Source E} {sc : ScalarContext Name} {as : List (Attribute Name)} {new : Known}
    (h : Ranges E strict up ctx [] src sc as new) {row : Row E} (hr : row ∈ src.rows) :
    Covers E strict up sc (src.columns.zip row) := by
  rw [h.columns]
  refine Knows.covers h.knows ?_ (h.rows row hr)
  intro k hk
  apply typesOf_scalar (as := as)
  rw [h.types]
  exact List.mem_map.2 ⟨k, hk, rfl⟩

theorem same_of_sameName {a b : Name} (h : sameName up a b = true) : SameName up a b := by
  unfold sameName at h
  exact (of_decide_eq_true h : a.upper up = b.upper up)

theorem Entry.same {V : Type} {m : TMap Name V} {a b : Name} {v : V} (hs : SameName up a b)
    (h : Entry up m a v) : Entry up m b v := by
  obtain ⟨e, he, h1, h2⟩ := h
  exact ⟨e, he, Eq.trans h1 hs, h2⟩

theorem Resolves.same {a b : Name} {typ : RowType Name} (hs : SameName up a b)
    (h : Resolves up ctx [a] typ) : Resolves up ctx [b] typ := by
  cases h with
  | common h => exact .common (h.same hs)
  | default hc hn h => exact .default (fun r hr => hc r (hr.same (Eq.symm hs))) hn (h.same hs)

/-- Defining names that no table of the catalogue has leaves the tables of the catalogue. -/
theorem Served.common (hok : ctx.Ok up) : ∀ (cs : List (Cte Name)) {st st' : Store E},
    Served E strict up ctx st → (∀ c ∈ cs, Unlisted up ctx c.identifier) → runCommon E up st cs = some st' →
    Served E strict up ctx st'
  | [], st, st', hst, _, h => by
    unfold runCommon at h
    cases h
    exact hst
  | .mk identifier names query :: cs, st, st', hst, hf, h => by
    unfold runCommon at h
    obtain ⟨t0, _, h⟩ := some_bind h
    obtain ⟨t, _, h⟩ := some_bind h
    refine Served.common hok cs ?_ (fun c hc => hf c (List.mem_cons_of_mem _ hc)) h
    intro q typ u hq hu
    refine hst q typ u hq ?_
    unfold Store.define at hu
    split at hu
    · rename_i n
      split at hu
      · rename_i hs
        exact (hf _ List.mem_cons_self typ (((resolve_ok_iff hok _ _).1 hq).same (same_of_sameName hs))).elim
      · exact hu
    · exact hu

mutual

theorem expr_sound (hok : ctx.Ok up) {st : Store E} (hst : Served E strict up ctx st) : ∀ (e : Expr Name) {sc : ScalarContext Name}
    {scope : Scope E} {t : ScalarType} {v : Value E.Carrier}, sc.setContext = ctx →
    Covers E strict up sc scope → e.Clear strict (Unlisted up ctx) → inferExpr (nameOps up) sc e = .ok t →
    evalExpr E up st scope e = some v → HasType E strict v t
  | .literal l, sc, scope, t, v, hsc, hcov, hc, ht, hv => by
    unfold inferExpr at ht
    unfold evalExpr at hv
    cases ht
    exact literal_sound hv
  | .ident q, sc, scope, t, v, hsc, hcov, hc, ht, hv => by
    unfold inferExpr at ht
    unfold evalExpr at hv
    exact (hcov q t ht).2 v hv
  | .tuple es, sc, scope, t, v, hsc, hcov, hc, ht, hv => by
    unfold inferExpr at ht
    unfold evalExpr at hv
    unfold Expr.Clear at hc
    obtain ⟨ts, hts, ht⟩ := ok_bind ht
    obtain ⟨vs, hvs, hv⟩ := some_bind hv
    cases ht
    cases hv
    unfold HasType
    exact exprs_sound hok hst es hsc hcov hc hts hvs
  | .select s, sc, scope, t, v, hsc, hcov, hc, ht, hv => by
    unfold inferExpr at ht
    unfold evalExpr at hv
    unfold Expr.Clear at hc
    obtain ⟨r, hr, ht⟩ := ok_bind ht
    obtain ⟨tab, htab, hv⟩ := some_bind hv
    rw [hsc] at hr
    have := select_sound hok hst s hc.2 hr htab
    unfold singleColumn at ht
    split at ht
    · rename_i a heq
      cases ht
      exact scalarOf_sound hc.1 this heq hv
    · cases ht
  | .unary op e, sc, scope, t, v, hsc, hcov, hc, ht, hv => by
    unfold inferExpr at ht
    unfold evalExpr at hv
    unfold Expr.Clear at hc
    obtain ⟨r, hr, ht⟩ := ok_bind ht
    obtain ⟨w, hw, hv⟩ := some_bind hv
    exact unary_sound (fun hop => condition_logical (hc.1 hop) hr) ht
      (fun hop hs => expr_sound hok hst e hsc hcov (hc.2 hop hs) hr hw) hv
  | .binary op l r, sc, scope, t, v, hsc, hcov, hc, ht, hv => by
    unfold inferExpr at ht
    unfold evalExpr at hv
    unfold Expr.Clear at hc
    obtain ⟨lt, hlt, ht⟩ := ok_bind ht
    obtain ⟨rt, hrt, ht⟩ := ok_bind ht
    obtain ⟨lv, hlv, hv⟩ := some_bind hv
    obtain ⟨rv, hrv, hv⟩ := some_bind hv
    exact binary_sound ht (fun hs => ⟨expr_sound hok hst l hsc hcov (hc hs).1 hlt hlv,
      expr_sound hok hst r hsc hcov (hc hs).2 hrt hrv⟩) hv
  | .comparison op l r, sc, scope, t, v, hsc, hcov, hc, ht, hv => by
    unfold inferExpr at ht
    unfold evalExpr at hv
    unfold Expr.Clear at hc
    obtain ⟨lt, hlt, ht⟩ := ok_bind ht
    obtain ⟨rt, hrt, ht⟩ := ok_bind ht
    obtain ⟨lv, hlv, hv⟩ := some_bind hv
    obtain ⟨rv, hrv, hv⟩ := some_bind hv
    obtain ⟨b, hb, hv⟩ := some_bind hv
    cases hv
    exact comparison_sound ht (fun hs => ⟨expr_sound hok hst l hsc hcov (hc hs).1 hlt hlv,
      expr_sound hok hst r hsc hcov (hc hs).2.1 hrt hrv⟩)
      (fun hs hop => infer_scalar hcov ((hc hs).2.2 hop) hlt) hb
  | .inSet e set, sc, scope, t, v, hsc, hcov, hc, ht, hv => by
    unfold inferExpr at ht
    unfold evalExpr at hv
    unfold Expr.Clear at hc
    obtain ⟨et, _, ht⟩ := ok_bind ht
    obtain ⟨r, _, ht⟩ := ok_bind ht
    obtain ⟨rt, _, ht⟩ := ok_bind ht
    obtain ⟨b, _, ht⟩ := ok_bind ht
    obtain ⟨ev, _, hv⟩ := some_bind hv
    obtain ⟨vs, _, hv⟩ := some_bind hv
    obtain ⟨b, _, hv⟩ := some_bind hv
    split at ht <;> cases ht
    cases hv
    exact hasType_ofTruth fun _ => Or.inr hc
  | .between e l u, sc, scope, t, v, hsc, hcov, hc, ht, hv => by
    unfold inferExpr at ht
    unfold evalExpr at hv
    unfold Expr.Clear at hc
    obtain ⟨et, het, ht⟩ := ok_bind ht
    obtain ⟨lt, hlt, ht⟩ := ok_bind ht
    obtain ⟨ut, hut, ht⟩ := ok_bind ht
    obtain ⟨ev, hev, hv⟩ := some_bind hv
    obtain ⟨lv, hlv, hv⟩ := some_bind hv
    obtain ⟨uv, huv, hv⟩ := some_bind hv
    obtain ⟨b, hb, hv⟩ := some_bind hv
    cases hv
    exact between_sound ht (fun hs => ⟨expr_sound hok hst e hsc hcov (hc hs).1 het hev,
      expr_sound hok hst l hsc hcov (hc hs).2.1 hlt hlv, expr_sound hok hst u hsc hcov (hc hs).2.2 hut huv⟩) hb
  | .case none whens els, sc, scope, t, v, hsc, hcov, hc, ht, hv => by
    unfold inferExpr at ht
    unfold evalExpr at hv
    unfold Expr.Clear at hc
    obtain ⟨_, _, ht⟩ := ok_bind ht
    obtain ⟨r, hr, ht⟩ := ok_bind ht
    obtain ⟨o, ho, hv⟩ := some_bind hv
    obtain ⟨h1, h2⟩ := else_sound hok hst els hsc hcov hc.2 ht
    cases o with
    | some w =>
      cases hv
      exact h1 v (bodies_sound hok hst whens hsc hcov hc.1 hr ho)
    | none => exact h2 v hv
  | .case (some e) whens els, sc, scope, t, v, hsc, hcov, hc, ht, hv => by
    unfold inferExpr at ht
    unfold evalExpr at hv
    unfold Expr.Clear at hc
    obtain ⟨_, _, ht⟩ := ok_bind ht
    obtain ⟨_, _, ht⟩ := ok_bind ht
    obtain ⟨r, hr, ht⟩ := ok_bind ht
    obtain ⟨_, _, hv⟩ := some_bind hv
    obtain ⟨o, ho, hv⟩ := some_bind hv
    obtain ⟨h1, h2⟩ := else_sound hok hst els hsc hcov hc.2 ht
    cases o with
    | some w =>
      cases hv
      exact h1 v (bodies_sound hok hst whens hsc hcov hc.1 hr ho)
    | none => exact h2 v hv

theorem exprs_sound (hok : ctx.Ok up) {st : Store E} (hst : Served E strict up ctx st) : ∀ (es : List (Expr Name)) {sc : ScalarContext Name}
    {scope : Scope E} {ts : List ScalarType} {vs : List (Value E.Carrier)}, sc.setContext = ctx →
    Covers E strict up sc scope → Expr.AllClear strict (Unlisted up ctx) es → inferExprs (nameOps up) sc es = .ok ts →
    evalExprs E up st scope es = some vs → HasTypes E strict vs ts
  | [], sc, scope, ts, vs, hsc, hcov, hc, ht, hv => by
    unfold inferExprs at ht
    unfold evalExprs at hv
    cases ht
    cases hv
    unfold HasTypes
    trivial
  | e :: es, sc, scope, ts, vs, hsc, hcov, hc, ht, hv => by
    unfold inferExprs at ht
    unfold evalExprs at hv
    unfold Expr.AllClear at hc
    obtain ⟨t, h1, ht⟩ := ok_bind ht
    obtain ⟨ts', h2, ht⟩ := ok_bind ht
    obtain ⟨v, h3, hv⟩ := some_bind hv
    obtain ⟨vs', h4, hv⟩ := some_bind hv
    cases ht
    cases hv
    unfold HasTypes
    exact ⟨expr_sound hok hst e hsc hcov hc.1 h1 h3, exprs_sound hok hst es hsc hcov hc.2 h2 h4⟩

theorem bodies_sound (hok : ctx.Ok up) {st : Store E} (hst : Served E strict up ctx st) : ∀ (ws : List (When Name)) {sc : ScalarContext Name}
    {scope : Scope E} {t : ScalarType} {v : Value E.Carrier} {test : Value E.Carrier → Option (Option Bool)},
    sc.setContext = ctx → Covers E strict up sc scope → When.AllClear strict (Unlisted up ctx) ws →
    inferBodies (nameOps up) sc ws = .ok t → evalWhens E up st scope test ws = some (some v) →
    HasType E strict v t
  | [], sc, scope, t, v, test, hsc, hcov, hc, ht, hv => by
    unfold inferBodies at ht
    cases ht
  | .mk guard body :: ws, sc, scope, t, v, test, hsc, hcov, hc, ht, hv => by
    unfold inferBodies at ht
    unfold evalWhens at hv
    unfold When.AllClear at hc
    obtain ⟨t0, h0, ht⟩ := ok_bind ht
    obtain ⟨h1, h2⟩ := foldBodies_sound hok hst ws (test := test) hsc hcov hc.2 ht
    obtain ⟨g, _, hv⟩ := some_bind hv
    obtain ⟨b, _, hv⟩ := some_bind hv
    split at hv
    · obtain ⟨w, hw, hv⟩ := some_bind hv
      cases hv
      exact h1 v (expr_sound hok hst body hsc hcov hc.1 h0 hw)
    · exact h2 v hv

theorem foldBodies_sound (hok : ctx.Ok up) {st : Store E} (hst : Served E strict up ctx st) : ∀ (ws : List (When Name))
    {sc : ScalarContext Name} {scope : Scope E} {t0 t : ScalarType}
    {test : Value E.Carrier → Option (Option Bool)},
    sc.setContext = ctx → Covers E strict up sc scope → When.AllClear strict (Unlisted up ctx) ws →
    foldBodies (nameOps up) sc t0 ws = .ok t → Widens E strict t0 t ∧
      ∀ v, evalWhens E up st scope test ws = some (some v) → HasType E strict v t
  | [], sc, scope, t0, t, test, hsc, hcov, hc, ht => by
    unfold foldBodies at ht
    cases ht
    refine ⟨fun _ h => h, fun v hv => ?_⟩
    unfold evalWhens at hv
    cases hv
  | .mk guard body :: ws, sc, scope, t0, t, test, hsc, hcov, hc, ht => by
    unfold foldBodies at ht
    unfold When.AllClear at hc
    obtain ⟨tb, hb, ht⟩ := ok_bind ht
    obtain ⟨t1, h1, ht⟩ := ok_bind ht
    obtain ⟨h2, h3⟩ := thenStep_sound (E := E) (strict := strict) h1
    obtain ⟨h4, h5⟩ := foldBodies_sound hok hst ws (test := test) hsc hcov hc.2 ht
    refine ⟨fun v hv => h4 v (h2 v hv), fun v hv => ?_⟩
    unfold evalWhens at hv
    obtain ⟨g, _, hv⟩ := some_bind hv
    obtain ⟨b, _, hv⟩ := some_bind hv
    split at hv
    · obtain ⟨w, hw, hv⟩ := some_bind hv
      cases hv
      exact h4 v (h3 v (expr_sound hok hst body hsc hcov hc.1 hb hw))
    · exact h5 v hv

theorem else_sound (hok : ctx.Ok up) {st : Store E} (hst : Served E strict up ctx st) : ∀ (els : Option (Expr Name))
    {sc : ScalarContext Name} {scope : Scope E} {r t : ScalarType},
    sc.setContext = ctx → Covers E strict up sc scope → Expr.OptionClear strict (Unlisted up ctx) els →
    inferElse (nameOps up) sc r els = .ok t → Widens E strict r t ∧
      ∀ v, evalElse E up st scope els = some v → HasType E strict v t
  | none, sc, scope, r, t, hsc, hcov, hc, ht => by
    unfold inferElse at ht
    cases r with
    | tuple _ => cases ht
    | scalar typ n =>
      cases ht
      refine ⟨widens_scalar fun _ => rfl, fun v hv => ?_⟩
      unfold evalElse at hv
      cases hv
      unfold HasType
      exact Or.inl rfl
  | some body, sc, scope, r, t, hsc, hcov, hc, ht => by
    unfold inferElse at ht
    unfold Expr.OptionClear at hc
    cases r with
    | tuple _ => cases ht
    | scalar typ n =>
      obtain ⟨tb, hb, ht⟩ := ok_bind ht
      obtain ⟨m, hm, ht⟩ := ok_bind ht
      cases ht
      obtain ⟨k, rfl, rfl⟩ := compatible_scalar rfl hm
      refine ⟨widens_scalar (by simp +contextual), fun v hv => ?_⟩
      unfold evalElse at hv
      exact widens_scalar (by simp +contextual) v (expr_sound hok hst body hsc hcov hc hb hv)

theorem select_sound (hok : ctx.Ok up) {st : Store E} (hst : Served E strict up ctx st) : ∀ (s : Select Name) {r : RowType Name} {t : Table E},
    s.Clear strict (Unlisted up ctx) → inferSelect (nameOps up) ctx s = .ok r → runSelect E up st s = some t →
    t.Has E strict r.attributes
  | .mk common expr orderBy limit, r, t, hc, ht, hv => by
    unfold Select.Clear at hc
    obtain ⟨hfree, hc⟩ := hc
    unfold inferSelect at ht
    unfold runSelect at hv
    obtain ⟨_, _, ht⟩ := ok_bind ht
    obtain ⟨r', hr, ht⟩ := ok_bind ht
    obtain ⟨_, _, ht⟩ := ok_bind ht
    obtain ⟨_, _, ht⟩ := ok_bind ht
    cases ht
    obtain ⟨st', hst', hv⟩ := some_bind hv
    obtain ⟨t', ht', hv⟩ := some_bind hv
    obtain ⟨keyed, hk, hv⟩ := some_bind hv
    obtain ⟨rows, hrows, hv⟩ := some_bind hv
    cases hv
    obtain ⟨h1, h2⟩ := setExpr_sound hok (hst.common hok common hfree hst') expr hc hr ht'
    refine ⟨h1, fun row hrow => h2 row ?_⟩
    have hrow' : row ∈ sortRows E keyed := by
      cases limit with
      | none => unfold runLimit at hrows; cases hrows; exact hrow
      | some l =>
        cases l with
        | mk n offset =>
          unfold runLimit at hrows
          obtain ⟨_, _, hrows⟩ := some_bind hrows
          obtain ⟨_, _, hrows⟩ := some_bind hrows
          obtain ⟨_, _, hrows⟩ := some_bind hrows
          cases hrows
          exact List.mem_of_mem_drop (List.mem_of_mem_take hrow)
    obtain ⟨k, hk'⟩ := mem_sortRows hrow'
    obtain ⟨row', hrow'', he⟩ := mem_collectAll hk _ hk'
    obtain ⟨_, _, he⟩ := some_bind he
    cases he
    exact hrow''

theorem setExpr_sound (hok : ctx.Ok up) {st : Store E} (hst : Served E strict up ctx st) : ∀ (s : SetExpr Name) {r : RowType Name} {t : Table E},
    s.Clear strict (Unlisted up ctx) → inferSetExpr (nameOps up) ctx s = .ok r → runSetExpr E up st s = some t →
    t.Has E strict r.attributes
  | .values rows, r, t, hc, ht, hv => by
    unfold SetExpr.Clear at hc
    unfold inferSetExpr at ht
    unfold runSetExpr at hv
    obtain ⟨as, ha, ht⟩ := ok_bind ht
    obtain ⟨vs, hvs, hv⟩ := some_bind hv
    cases ht
    exact values_sound hok hst rows hc ha hvs hv
  | .query mode columns froms wher groupBy, r, t, hc, ht, hv => by
    unfold SetExpr.Clear at hc
    unfold inferSetExpr at ht
    unfold runSetExpr at hv
    obtain ⟨⟨sc, as⟩, hf, ht⟩ := ok_bind ht
    obtain ⟨_, _, ht⟩ := ok_bind ht
    obtain ⟨_, _, ht⟩ := ok_bind ht
    obtain ⟨src, hsrc, hv⟩ := some_bind hv
    obtain ⟨rows1, h1, hv⟩ := some_bind hv
    obtain ⟨rows2, h2, hv⟩ := some_bind hv
    obtain ⟨rows3, h3, hv⟩ := some_bind hv
    cases hv
    obtain ⟨new, hn⟩ := from_sound hok hst froms (before := []) hc.2 rfl (knows_new ctx []) hf hsrc
    have hlen : src.columns.length = as.length := by
      have := congrArg List.length hn.types
      simp only [List.length_map] at this
      rw [hn.columns, List.length_map, this]
    have hgroup : ∀ row ∈ rows2, row ∈ rows1 := by
      intro row hrow
      cases groupBy with
      | none => unfold runGroupBy at h2; cases h2; exact hrow
      | some g =>
        cases g with
        | mk groupings having =>
          unfold runGroupBy at h2
          obtain ⟨keyed, hk, h2⟩ := some_bind h2
          have := mem_keep h2 row hrow
          obtain ⟨e, he, rfl⟩ := List.mem_map.1 this
          obtain ⟨row', hr', he'⟩ := mem_collectAll hk _ (mem_firstOfEach he)
          obtain ⟨_, _, he'⟩ := some_bind he'
          cases he'
          exact hr'
    have hrow : ∀ row ∈ rows3, RowHas E strict row r.attributes := by
      intro row hrow
      obtain ⟨row', hr', he⟩ := mem_collectAll h3 _ hrow
      have hmem := mem_keep h1 row' (hgroup row' hr')
      exact columns_sound hok hst columns hn.context (hn.covers hmem) hc.1
        ⟨hlen, by rw [hn.types]; exact hn.rows row' hmem⟩ ht he
    refine ⟨columns_length columns hlen hc.1 ht, fun row hr => hrow row ?_⟩
    cases mode with
    | all => exact hr
    | distinct => exact mem_distinctRows hr
  | .op op l r, rt, t, hc, ht, hv => by
    unfold SetExpr.Clear at hc
    unfold inferSetExpr at ht
    unfold runSetExpr at hv
    obtain ⟨lt, hlt, ht⟩ := ok_bind ht
    obtain ⟨rt', hrt, ht⟩ := ok_bind ht
    obtain ⟨as, ha, ht⟩ := ok_bind ht
    cases ht
    obtain ⟨lv, hlv, hv⟩ := some_bind hv
    obtain ⟨rv, hrv, hv⟩ := some_bind hv
    split at hv
    · rename_i hlen
      cases hv
      obtain ⟨h1, h2⟩ := setExpr_sound hok hst l hc.1 hlt hlv
      obtain ⟨h3, h4⟩ := setExpr_sound hok hst r hc.2 hrt hrv
      obtain ⟨h5, h6, h7⟩ := unifyAttributes_sound (E := E) (strict := strict) (by rw [← h1, ← h3, hlen]) ha
      refine ⟨by rw [show (RowType.plain as).attributes = as from rfl, h5]; exact h1, fun row hrow => ?_⟩
      rcases mem_setOperation hrow with h | h
      · exact h6 row (h2 row h)
      · exact h7 row (h4 row h)
    · cases hv

theorem values_sound (hok : ctx.Ok up) {st : Store E} (hst : Served E strict up ctx st) : ∀ (rows : List (List (Expr Name)))
    {as : List (Attribute Name)} {vs : List (Row E)} {t : Table E}, Expr.RowsClear strict (Unlisted up ctx) rows →
    inferValues (nameOps up) (ScalarContext.new ctx) rows = .ok as → evalRows E up st rows = some vs →
    rectangle E vs = some t → t.Has E strict as
  | [], as, vs, t, hc, ha, hvs, ht => by
    unfold inferValues at ha
    cases ha
  | es :: rows, as, vs, t, hc, ha, hvs, ht => by
    unfold Expr.RowsClear at hc
    unfold inferValues at ha
    unfold evalRows at hvs
    obtain ⟨types, h1, ha⟩ := ok_bind ha
    obtain ⟨v, hv, hvs⟩ := some_bind hvs
    obtain ⟨vs', hvs', hvs⟩ := some_bind hvs
    cases hvs
    simp only [rectangle] at ht
    split at ht
    · rename_i hall
      cases ht
      have h2 := firstRow_sound hok hst es hc.1 h1 hv
      have hlen := hasTypes_length h2
      rw [List.length_map] at hlen
      obtain ⟨h3, h4, h5⟩ := foldRows_sound hok hst rows hc.2 ha hvs' (by
        intro row hrow
        have := List.all_eq_true.1 hall row hrow
        rw [← hlen]
        exact of_decide_eq_true this)
      refine ⟨by rw [h3, List.length_map]; exact hlen, fun row hrow => ?_⟩
      rcases List.mem_cons.1 hrow with rfl | hrow
      · exact h4 _ h2
      · exact h5 row hrow
    · cases ht

theorem firstRow_sound (hok : ctx.Ok up) {st : Store E} (hst : Served E strict up ctx st) : ∀ (es : List (Expr Name)) {count : Nat}
    {as : List (Attribute Name)} {vs : Row E}, Expr.AllClear strict (Unlisted up ctx) es →
    inferFirstRow (nameOps up) (ScalarContext.new ctx) count es = .ok as →
    evalExprs E up st [] es = some vs → HasTypes E strict vs (typesOf as)
  | [], count, as, vs, hc, ha, hv => by
    unfold inferFirstRow at ha
    unfold evalExprs at hv
    cases ha
    cases hv
    simp only [typesOf, List.map_nil]
    unfold HasTypes
    trivial
  | e :: es, count, as, vs, hc, ha, hv => by
    unfold Expr.AllClear at hc
    unfold inferFirstRow at ha
    unfold evalExprs at hv
    obtain ⟨t, h1, ha⟩ := ok_bind ha
    obtain ⟨v, h3, hv⟩ := some_bind hv
    obtain ⟨vs', h4, hv⟩ := some_bind hv
    cases hv
    have h5 := expr_sound hok hst e rfl (covers_new ctx []) hc.1 h1 h3
    cases t with
    | tuple _ => cases ha
    | scalar typ n =>
      obtain ⟨as', h2, ha⟩ := ok_bind ha
      cases ha
      simp only [typesOf, List.map_cons]
      unfold HasTypes
      exact ⟨h5, firstRow_sound hok hst es hc.2 h2 h4⟩

theorem foldRows_sound (hok : ctx.Ok up) {st : Store E} (hst : Served E strict up ctx st) : ∀ (rows : List (List (Expr Name)))
    {types as : List (Attribute Name)} {vs : List (Row E)}, Expr.RowsClear strict (Unlisted up ctx) rows →
    foldRows (nameOps up) (ScalarContext.new ctx) types rows = .ok as → evalRows E up st rows = some vs →
    (∀ row ∈ vs, row.length = types.length) →
    as.length = types.length ∧
      (∀ row, HasTypes E strict row (typesOf types) → HasTypes E strict row (typesOf as)) ∧
      ∀ row ∈ vs, HasTypes E strict row (typesOf as)
  | [], types, as, vs, hc, ha, hv, hl => by
    unfold foldRows at ha
    unfold evalRows at hv
    cases ha
    cases hv
    exact ⟨rfl, fun _ h => h, fun _ h => nomatch h⟩
  | es :: rows, types, as, vs, hc, ha, hv, hl => by
    unfold Expr.RowsClear at hc
    unfold foldRows at ha
    unfold evalRows at hv
    obtain ⟨types', h1, ha⟩ := ok_bind ha
    obtain ⟨v, h2, hv⟩ := some_bind hv
    obtain ⟨vs', h3, hv⟩ := some_bind hv
    cases hv
    obtain ⟨h4, h5, h6⟩ := unifyRow_sound hok hst es hc.1 h1 h2 (hl v List.mem_cons_self)
    obtain ⟨h7, h8, h9⟩ := foldRows_sound hok hst rows hc.2 ha h3 (by
      intro row hrow
      rw [h4]
      exact hl row (List.mem_cons_of_mem _ hrow))
    refine ⟨h7.trans h4, fun row h => h8 row (h5 row h), fun row hrow => ?_⟩
    rcases List.mem_cons.1 hrow with rfl | hrow
    · exact h8 _ h6
    · exact h9 row hrow

theorem unifyRow_sound (hok : ctx.Ok up) {st : Store E} (hst : Served E strict up ctx st) : ∀ (es : List (Expr Name))
    {types as : List (Attribute Name)} {vs : Row E}, Expr.AllClear strict (Unlisted up ctx) es →
    unifyRow (nameOps up) (ScalarContext.new ctx) types es = .ok as → evalExprs E up st [] es = some vs →
    vs.length = types.length →
    as.length = types.length ∧
      (∀ row, HasTypes E strict row (typesOf types) → HasTypes E strict row (typesOf as)) ∧
      HasTypes E strict vs (typesOf as)
  | [], types, as, vs, hc, ha, hv, hl => by
    unfold evalExprs at hv
    cases hv
    cases types with
    | cons _ _ => cases hl
    | nil =>
      unfold unifyRow at ha
      cases ha
      refine ⟨rfl, fun _ h => h, ?_⟩
      simp only [typesOf, List.map_nil]
      unfold HasTypes
      trivial
  | e :: es, types, as, vs, hc, ha, hv, hl => by
    unfold Expr.AllClear at hc
    unfold evalExprs at hv
    obtain ⟨v, h3, hv⟩ := some_bind hv
    obtain ⟨vs', h4, hv⟩ := some_bind hv
    cases hv
    cases types with
    | nil => cases hl
    | cons a types =>
      unfold unifyRow at ha
      obtain ⟨t, h1, ha⟩ := ok_bind ha
      obtain ⟨u, h2, ha⟩ := ok_bind ha
      have h5 := expr_sound hok hst e rfl (covers_new ctx []) hc.1 h1 h3
      obtain ⟨h6, h7⟩ := unify_sound (E := E) (strict := strict) ⟨_, _, rfl⟩ h2
      cases u with
      | tuple _ => cases ha
      | scalar typ n =>
        obtain ⟨as', h8, ha⟩ := ok_bind ha
        cases ha
        obtain ⟨h9, h10, h11⟩ := unifyRow_sound hok hst es hc.2 h8 h4 (by simpa using hl)
        refine ⟨by simp [h9], fun row hr => ?_, ?_⟩
        · cases row with
          | nil => simp only [typesOf, List.map_cons] at hr; unfold HasTypes at hr; exact hr.elim
          | cons w row =>
            simp only [typesOf, List.map_cons] at hr ⊢
            unfold HasTypes at hr ⊢
            exact ⟨h6 w hr.1, h10 row hr.2⟩
        · simp only [typesOf, List.map_cons]
          unfold HasTypes
          exact ⟨h7 v h5, h11⟩

theorem from_sound (hok : ctx.Ok up) {st : Store E} (hst : Served E strict up ctx st) : ∀ (ts : List (TableExpr Name)) {before : Known}
    {sc sc' : ScalarContext Name} {as : List (Attribute Name)} {src : Source E},
    TableExpr.AllClear strict (Unlisted up ctx) ts → sc.setContext = ctx → Knows up sc before →
    inferFrom (nameOps up) sc ts = .ok (sc', as) → runFrom E up st ts = some src →
    ∃ new, Ranges E strict up ctx before src sc' as new
  | [], before, sc, sc', as, src, hc, hsc, hk, ht, hv => by
    unfold inferFrom at ht
    unfold runFrom at hv
    cases ht
    cases hv
    refine ⟨[], rfl, rfl, fun row hrow => ?_, by rw [List.append_nil]; exact hk, hsc⟩
    cases List.mem_singleton.1 hrow
    simp only [List.map_nil]
    unfold HasTypes
    trivial
  | t :: ts, before, sc, sc', as, src, hc, hsc, hk, ht, hv => by
    unfold TableExpr.AllClear at hc
    unfold inferFrom at ht
    unfold runFrom at hv
    obtain ⟨⟨sc1, as1⟩, h1, ht⟩ := ok_bind ht
    obtain ⟨⟨sc2, as2⟩, h2, ht⟩ := ok_bind ht
    obtain ⟨src1, h3, hv⟩ := some_bind hv
    obtain ⟨src2, h4, hv⟩ := some_bind hv
    cases ht
    cases hv
    obtain ⟨new1, r1⟩ := table_sound hok hst t hc.1 hsc hk h1 h3
    obtain ⟨new2, r2⟩ := from_sound hok hst ts hc.2 r1.context r1.knows h2 h4
    refine ⟨new1 ++ new2, ?_, ?_, ?_, ?_, r2.context⟩
    · show src1.columns ++ src2.columns = _
      rw [r1.columns, r2.columns, List.map_append]
    · rw [typesOf, List.map_append, List.map_append]
      exact congr (congrArg _ r1.types) r2.types
    · intro row hrow
      obtain ⟨a, ha, b, hb, rfl⟩ := mem_product hrow
      rw [List.map_append]
      exact hasTypes_append (r1.rows a ha) (r2.rows b hb)
    · rw [← List.append_assoc]
      exact r2.knows

theorem table_sound (hok : ctx.Ok up) {st : Store E} (hst : Served E strict up ctx st) : ∀ (t : TableExpr Name) {before : Known}
    {sc sc' : ScalarContext Name} {as : List (Attribute Name)} {src : Source E},
    t.Clear strict (Unlisted up ctx) → sc.setContext = ctx → Knows up sc before →
    inferTable (nameOps up) sc t = .ok (sc', as) → runTable E up st t = some src →
    ∃ new, Ranges E strict up ctx before src sc' as new
  | .named q alias, before, sc, sc', as, src, hc, hsc, hk, ht, hv => by
    unfold inferTable at ht
    unfold runTable at hv
    obtain ⟨typ, h1, ht⟩ := ok_bind ht
    obtain ⟨name, h2, ht⟩ := ok_bind ht
    obtain ⟨sc1, h3, ht⟩ := ok_bind ht
    cases ht
    obtain ⟨t, h4, hv⟩ := some_bind hv
    cases hv
    rw [hsc] at h1
    obtain ⟨h5, h6⟩ := hst q typ t h1 h4
    obtain ⟨h7, h8⟩ := addRelation_knows hk h3
    have hname : boundName q alias = some name := by
      unfold relationName at h2
      unfold boundName
      split at h2
      · cases h2; rfl
      · split at h2
        · rename_i n hn
          cases h2
          exact hn
        · cases h2
    refine ⟨knownOf (some name) typ.attributes, ?_, ?_, ?_, h7, h8.trans hsc⟩
    · show t.columns.map _ = _
      rw [h5, hname]
      simp [knownOf]
    · simp [knownOf]
    · intro row hrow
      have := h6.2 row hrow
      unfold RowHas at this
      rw [knownOf, List.map_map]
      exact this
  | .select s alias, before, sc, sc', as, src, hc, hsc, hk, ht, hv => by
    unfold TableExpr.Clear at hc
    unfold inferTable at ht
    unfold runTable at hv
    obtain ⟨typ, h1, ht⟩ := ok_bind ht
    cases ht
    obtain ⟨t, h2, hv⟩ := some_bind hv
    cases hv
    rw [hsc] at h1
    obtain ⟨h3, h4⟩ := select_sound hok hst s hc h1 h2
    have hl : (t.columns.map fun c => (alias, c)).length = (typesOf typ.attributes).length := by
      simp [h3]
    refine ⟨(t.columns.map fun c => (alias, c)).zip (typesOf typ.attributes), ?_, ?_, ?_,
      hk.mono fun k h => List.mem_append_left _ h, hsc⟩
    · show t.columns.map _ = _
      rw [List.map_fst_zip (by omega)]
    · rw [List.map_snd_zip (by omega)]
    · intro row hrow
      rw [List.map_snd_zip (by omega)]
      exact h4 row hrow
  | .join l r op c, before, sc, sc', as, src, hc, hsc, hk, ht, hv => by
    unfold TableExpr.Clear at hc
    unfold inferTable at ht
    unfold runTable at hv
    obtain ⟨⟨sc1, as1⟩, h1, ht⟩ := ok_bind ht
    obtain ⟨⟨sc2, as2⟩, h2, ht⟩ := ok_bind ht
    obtain ⟨src1, h3, hv⟩ := some_bind hv
    obtain ⟨src2, h4, hv⟩ := some_bind hv
    cases ht
    obtain ⟨new1, r1⟩ := table_sound hok hst l hc.1 hsc hk h1 h3
    obtain ⟨new2, r2⟩ := table_sound hok hst r hc.2.1 r1.context r1.knows h2 h4
    have key : ∀ (jt : JoinType) (test : Row E → Option Bool) (rows : List (Row E)),
        (JoinOperator.join jt).Clear strict → joinRows E jt test src1 src2 = some rows →
        ∃ new, Ranges E strict up ctx before ⟨src1.columns ++ src2.columns, rows⟩ sc' (as1 ++ as2) new := by
      intro jt test rows hop hj
      refine ⟨new1 ++ new2, ?_, ?_, ?_, ?_, r2.context⟩
      · show src1.columns ++ src2.columns = _
        rw [r1.columns, r2.columns, List.map_append]
      · rw [typesOf, List.map_append, List.map_append]
        exact congr (congrArg _ r1.types) r2.types
      · rw [List.map_append]
        exact joinRows_sound hop (by rw [← r1.types]; exact typesOf_scalar)
          (by rw [← r2.types]; exact typesOf_scalar) (by rw [r1.columns]; simp)
          (by rw [r2.columns]; simp) r1.rows r2.rows hj
      · rw [← List.append_assoc]
        exact r2.knows
    cases op with
    | natural _ => exact hc.2.2.1.elim
    | cross =>
      obtain ⟨rows, hj, hv⟩ := some_bind hv
      cases hv
      exact key .inner _ rows trivial hj
    | join jt =>
      cases c with
      | columns _ => exact hc.2.2.2.elim
      | expr e =>
        obtain ⟨rows, hj, hv⟩ := some_bind hv
        cases hv
        exact key jt _ rows hc.2.2.1 hj

theorem columns_sound (hok : ctx.Ok up) {st : Store E} (hst : Served E strict up ctx st) : ∀ (cs : ResultColumns Name)
    {sc : ScalarContext Name} {as : List (Attribute Name)} {columns : List (Option Name × Name)}
    {row row' : Row E} {r : RowType Name}, sc.setContext = ctx →
    Covers E strict up sc (columns.zip row) → cs.Clear strict (Unlisted up ctx) →
    columns.length = as.length ∧ HasTypes E strict row (typesOf as) →
    inferColumns (nameOps up) sc as cs = .ok r →
    evalColumns E up st (columns.zip row) cs = some row' → RowHas E strict row' r.attributes
  | .all, sc, as, columns, row, row', r, hsc, hcov, hc, hrow, ht, hv => by
    unfold inferColumns at ht
    unfold evalColumns at hv
    cases ht
    cases hv
    have hlen := hasTypes_length hrow.2
    rw [List.length_map] at hlen
    rw [List.map_snd_zip (by omega)]
    show HasTypes E strict row (typesOf _)
    rw [show (RowType.plain (generateColumns (nameOps up) [] as).1).attributes
      = (generateColumns (nameOps up) [] as).1 from rfl, generateColumns_types]
    exact hrow.2
  | .list cs, sc, as, columns, row, row', r, hsc, hcov, hc, hrow, ht, hv => by
    unfold ResultColumns.Clear at hc
    unfold inferColumns at ht
    unfold evalColumns at hv
    obtain ⟨as', ha, ht⟩ := ok_bind ht
    cases ht
    exact (columnList_sound hok hst cs hsc hcov hc ha hv)

theorem columnList_sound (hok : ctx.Ok up) {st : Store E} (hst : Served E strict up ctx st) : ∀ (cs : List (ResultColumn Name))
    {sc : ScalarContext Name} {scope : Scope E} {g : TMap Name Nat} {as : List (Attribute Name)} {row : Row E},
    sc.setContext = ctx → Covers E strict up sc scope → ResultColumn.AllClear strict (Unlisted up ctx) cs →
    inferColumnList (nameOps up) sc g cs = .ok as →
    evalColumnList E up st scope cs = some row → HasTypes E strict row (typesOf as)
  | [], sc, scope, g, as, row, hsc, hcov, hc, ht, hv => by
    unfold inferColumnList at ht
    unfold evalColumnList at hv
    cases ht
    cases hv
    simp only [typesOf, List.map_nil]
    unfold HasTypes
    trivial
  | .allFrom _ :: cs, sc, scope, g, as, row, hsc, hcov, hc, ht, hv => by
    unfold ResultColumn.AllClear at hc
    exact hc.elim
  | .expr e rename :: cs, sc, scope, g, as, row, hsc, hcov, hc, ht, hv => by
    unfold ResultColumn.AllClear at hc
    unfold inferColumnList at ht
    unfold evalColumnList at hv
    obtain ⟨t, h1, ht⟩ := ok_bind ht
    obtain ⟨v, h2, hv⟩ := some_bind hv
    obtain ⟨vs, h3, hv⟩ := some_bind hv
    cases hv
    have h4 := expr_sound hok hst e hsc hcov hc.1 h1 h2
    cases t with
    | tuple _ => cases ht
    | scalar typ n =>
      obtain ⟨as', h5, ht⟩ := ok_bind ht
      cases ht
      simp only [typesOf, List.map_cons]
      unfold HasTypes
      exact ⟨h4, columnList_sound hok hst cs hsc hcov hc.2 h5 h3⟩

end

end sound

end Verif.Sql
