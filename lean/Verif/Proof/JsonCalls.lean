import Verif.Model.JsonCalls
import Verif.Spec.JsonCalls
import Verif.Proof.JsonDecoder

/-! # The calls of the decoder -/

namespace Verif

open Spec Json

/-! ## Bounds -/

/-- The outcome is `y`, and there are bounds for what it took. -/
structure Within {α : Type} (x : Costed α) (y : Parse α) (c d r : Nat) : Prop where
  result : x.result = y
  calls : x.calls ≤ c
  depth : x.depth ≤ d
  reads : x.reads ≤ r

theorem Within.bind {α β : Type} {x : Costed α} {y : Parse α} {f : α → Costed β} {g : α → Parse β}
    {c c' d r r' : Nat} (h : Within x y c d r) (h' : ∀ a, y = .ok a → Within (f a) (g a) c' d r') :
    Within (x >>= f) (y >>= g) (c + c') d (r + r') := by
  obtain ⟨h1, h2, h3, h4⟩ := h
  show Within (x.andThen f) _ _ _ _
  unfold Costed.andThen
  rw [h1]
  cases y with
  | error e => exact ⟨rfl, by simp only; omega, h3, by simp only; omega⟩
  | ok a =>
    obtain ⟨a1, a2, a3, a4⟩ := h' a rfl
    exact ⟨a1, by simp only; omega, by simp only; omega, by simp only; omega⟩

theorem Within.mono {α : Type} {x : Costed α} {y : Parse α} {c c' d d' r r' : Nat} (h : Within x y c d r)
    (hc : c ≤ c') (hd : d ≤ d') (hr : r ≤ r') : Within x y c' d' r' :=
  ⟨h.result, Nat.le_trans h.calls hc, Nat.le_trans h.depth hd, Nat.le_trans h.reads hr⟩

theorem within_free {α : Type} (x : Parse α) (c d r : Nat) : Within (.free x) x c d r :=
  ⟨rfl, Nat.zero_le _, Nat.zero_le _, Nat.zero_le _⟩

theorem within_call {α : Type} {x : Costed α} {y : Parse α} {c d r : Nat} (h : Within x y c d r) :
    Within (parseCall x) y (c + 1) (d + 1) r :=
  ⟨h.result, Nat.succ_le_succ h.calls, Nat.succ_le_succ h.depth, h.reads⟩

theorem within_advance (env : Env) (st : St) (c d r : Nat) : Within (advanceC env st) (advance env st) c d (r + 1) :=
  ⟨rfl, Nat.zero_le _, Nat.zero_le _, Nat.succ_le_succ (Nat.zero_le _)⟩

theorem within_mustBe (env : Env) (tok : Json.Tok) (st : St) (c d r : Nat) :
    Within (mustBeC env tok st) (mustBe env tok st) c d (r + 1) := by
  unfold mustBeC mustBe
  split
  · exact within_free _ _ _ _
  · exact within_advance _ _ _ _ _

theorem within_separator (env : Env) (first : Bool) (st : St) (c d : Nat) :
    Within (separatorC env first st) (separator env first st) c d (if first then 0 else 1) := by
  unfold separatorC separator
  cases first
  · exact within_mustBe _ _ _ _ _ 0
  · exact within_free _ _ _ _

/-- Every field is within the bounds that its type gives. -/
def Bounded (env : Env) (t : Ty) : Prop :=
  ∀ p st, Within (parserForC env p t st) (parserFor env p t st) (typeValues t) (typeDepth t) (typeToks t)

/-! ## Tuples -/

theorem within_tupleLoop {env : Env} {p : Path} : ∀ (cs : List Ty) (k : Nat) (first : Bool) (st : St),
    (∀ c ∈ cs, Bounded env c) →
    Within (tupleLoopC env (parsersLC env p cs k) first st) (tupleLoop env (parsersL env p cs k) first st)
      (typeValuesL cs) (typeDepthL cs) (typeToksL cs - if first then 1 else 0)
  | [], _, _, st, _ => by
    simp only [parsersL, parsersLC, tupleLoop, tupleLoopC]
    exact within_free _ _ _ _
  | c :: cs, k, first, st, ih => by
    simp only [parsersL, parsersLC, tupleLoop, tupleLoopC, typeValuesL, typeDepthL, typeToksL]
    have h1 := within_separator env first st 0 (max (typeDepth c) (typeDepthL cs))
    refine (h1.bind (c' := typeValues c + typeValuesL cs) (r' := typeToks c + typeToksL cs) fun st1 _ =>
      ((ih c (.head _) (p ++ [k]) st1).mono (Nat.le_refl _) (Nat.le_max_left _ _) (Nat.le_refl _)).bind
        fun st2 _ => ?_).mono ?_ (Nat.le_refl _) ?_
    · refine (within_tupleLoop cs (k + 1) false st2 fun c hc => ih c (.tail _ hc)).mono (Nat.le_refl _)
        (Nat.le_max_right _ _) ?_
      simp
    · omega
    · cases first <;> simp <;> omega

/-! ## Structs -/

/-- The sum of the weights of the fields in the set. -/
def budget (w : Ty → Nat) (set : Nat) : List (Str × Ty) → Nat → Nat
  | [], _ => 0
  | f :: fs, k => (if set.testBit k then w f.2 else 0) + budget w set fs (k + 1)

theorem budget_le (w : Ty → Nat) (set : Nat) : ∀ (fs : List (Str × Ty)) (k : Nat),
    budget w set fs k ≤ (fs.map fun f => w f.2).sum
  | [], _ => Nat.le_refl _
  | f :: fs, k => by
    have := budget_le w set fs (k + 1)
    simp only [budget, List.map_cons, List.sum_cons]
    split <;> omega

theorem budget_after {w : Ty → Nat} {set set' i : Nat} (h : ∀ j, set'.testBit j = (set.testBit j && decide (j ≠ i))) :
    ∀ (fs : List (Str × Ty)) (k : Nat), i < k → budget w set' fs k = budget w set fs k
  | [], _, _ => rfl
  | f :: fs, k, hk => by
    have hk' : k ≠ i := by omega
    rw [budget, budget, budget_after h fs (k + 1) (by omega), h k]
    simp [hk']

theorem budget_clear {w : Ty → Nat} {set set' i : Nat} (h : ∀ j, set'.testBit j = (set.testBit j && decide (j ≠ i)))
    (hi : set.testBit i = true) : ∀ (fs : List (Str × Ty)) (k n : Nat) (f : Str × Ty), i = k + n → fs[n]? = some f →
    budget w set fs k = w f.2 + budget w set' fs k
  | [], _, _, _, _, hf => by simp at hf
  | g :: fs, k, 0, f, hk, hf => by
    obtain rfl : i = k := by simpa using hk
    simp only [List.getElem?_cons_zero, Option.some.injEq] at hf
    subst hf
    rw [budget, budget, budget_after h fs (i + 1) (by omega), h i, hi]
    simp
  | g :: fs, k, n + 1, f, hk, hf => by
    have hk' : k ≠ i := by omega
    rw [budget, budget, budget_clear h hi fs (k + 1) n f (by omega) (by simpa using hf), h k]
    simp only [ne_eq, hk', not_false_eq_true, decide_true, Bool.and_true]
    omega

theorem clearElement_bits {set i : Nat} (hv : ∀ j, set.testBit j = true → j < 64) (hi : set.testBit i = true)
    (j : Nat) :
    (clearElement set i).testBit j = (set.testBit j && decide (j ≠ i)) := by
  by_cases hj : j < 64
  · exact clearElement_testBit (hv i hi) j hj
  · have : set.testBit j = false := by
      cases hb : set.testBit j with
      | false => rfl
      | true => exact absurd (hv j hb) hj
    rw [clearElement_high this, this]
    rfl

theorem parsersFC_get (env : Env) (p : Path) (i : Nat) : ∀ (fs : List (Str × Ty)) (k : Nat),
    (parsersFC env p fs k)[i]? = (fs[i]?).map fun f => parserForC env (p ++ [k + i]) f.2 := by
  induction i with
  | zero =>
    intro fs k
    rcases fs with _ | ⟨⟨l, t⟩, fs⟩
    · simp [parsersFC]
    · simp [parsersFC, parserPC]
  | succ i ih =>
    intro fs k
    rcases fs with _ | ⟨⟨l, t⟩, fs⟩
    · simp [parsersFC]
    · simp only [parsersFC, List.getElem?_cons_succ]
      rw [ih, show k + 1 + i = k + (i + 1) by omega]

theorem parsersFC_length (env : Env) (p : Path) : ∀ (fs : List (Str × Ty)) (k : Nat),
    (parsersFC env p fs k).length = fs.length
  | [], _ => rfl
  | f :: fs, k => by simp [parsersFC, parsersFC_length env p fs (k + 1)]

theorem typeDepthF_ge {f : Str × Ty} : ∀ {fs : List (Str × Ty)}, f ∈ fs → typeDepth f.2 ≤ typeDepthF fs
  | (_, t) :: fs, h => by
    rw [typeDepthF]
    rcases List.mem_cons.1 h with rfl | h
    · exact Nat.le_max_left _ _
    · exact Nat.le_trans (typeDepthF_ge h) (Nat.le_max_right _ _)

theorem within_structLoop {env : Env} {p : Path} {fs : List (Str × Ty)} (ih : ∀ f ∈ fs, Bounded env f.2)
    (hn : fs.length ≤ 64) :
    ∀ (n visited : Nat) (first : Bool) (st : St), (∀ i, visited.testBit i = true → i < fs.length) →
    Within (structLoopC env (numbered fs 0) (parsersFC env p fs 0) n visited first st)
      (structLoop env (numbered fs 0) (parsersF env p fs 0) n visited first st)
      (budget typeValues visited fs 0) (typeDepthF fs)
      (budget (fun t => 3 + typeToks t) visited fs 0 - if first then 1 else 0) := by
  intro n
  induction n with
  | zero =>
    intro visited first st _
    rw [structLoop, structLoopC]
    exact within_free _ _ _ _
  | succ n ihn =>
    intro visited first st hv
    rw [structLoop, structLoopC]
    split
    · exact within_free _ _ _ _
    have hb := within_separator env first st 0 (typeDepthF fs)
    refine (hb.bind (c' := budget typeValues visited fs 0)
      (r' := budget (fun t => 3 + typeToks t) visited fs 0 - 1) fun st1 _ => ?_).mono (by omega) (Nat.le_refl _) ?_
    · refine ((within_free _ 0 _ 0).bind (c' := budget typeValues visited fs 0)
        (r' := budget (fun t => 3 + typeToks t) visited fs 0 - 1) fun i hi => ?_).mono
        (by omega) (Nat.le_refl _) (by omega)
      split
      · next hbit =>
        rw [hasElement_eq] at hbit
        obtain ⟨l, hl, hi'⟩ := fieldIndex_ok.1 hi
        obtain ⟨f, hf, hfl, hlast⟩ := fieldIndex_iff.1 hi'
        have hcl := clearElement_bits (fun j hj => Nat.lt_of_lt_of_le (hv j hj) hn) hbit
        have e1 := budget_clear (w := typeValues) hcl hbit fs 0 i f (by omega) hf
        have e2 := budget_clear (w := fun t => 3 + typeToks t) hcl hbit fs 0 i f (by omega) hf
        rw [e1, e2]
        have hfm := List.mem_of_getElem? hf
        refine ((within_advance env st1 0 _ 0).bind fun st2 _ => (within_mustBe env .colon st2 0 _ 0).bind fun st3 _ =>
          (Within.bind (c := typeValues f.2) (r := typeToks f.2) ?_ fun st4 _ =>
            ihn _ false st4 ?_)).mono (by omega) (Nat.le_refl _) ?_
        · have hp : (parsersF env p fs 0)[i]? = some (parserFor env (p ++ [i]) f.2) := by
            rw [parsersF_get, hf]; simp
          have hpc : (parsersFC env p fs 0)[i]? = some (parserForC env (p ++ [i]) f.2) := by
            rw [parsersFC_get, hf]; simp
          simp only [fieldParser, fieldParserC, hp, hpc]
          exact (ih f hfm _ _).mono (Nat.le_refl _) (typeDepthF_ge hfm) (Nat.le_refl _)
        · intro j hj
          rw [hcl j, Bool.and_eq_true] at hj
          exact hv j hj.1
        · simp only [Bool.false_eq_true, if_false]
          omega
      · exact within_free _ _ _ _
    · next hne =>
      obtain ⟨i, hi⟩ : ∃ i, visited.testBit i = true := by
        apply Classical.byContradiction
        intro hno
        refine hne ((zero_iff_testBit _).2 fun i => ?_)
        cases hb : visited.testBit i with
        | false => rfl
        | true => exact absurd ⟨i, hb⟩ hno
      have h1 := budget_clear (w := fun t => 3 + typeToks t)
        (clearElement_bits (fun j hj => Nat.lt_of_lt_of_le (hv j hj) hn) hi) hi fs 0 i (fs[i]'(hv i hi)) (by omega)
        (List.getElem?_eq_getElem (hv i hi))
      cases first <;> simp <;> omega

theorem typeValuesF_eq : ∀ fs : List (Str × Ty), typeValuesF fs = (fs.map fun f => typeValues f.2).sum
  | [] => rfl
  | (_, t) :: fs => by rw [typeValuesF, typeValuesF_eq fs, List.map_cons, List.sum_cons]

theorem typeToksF_eq : ∀ fs : List (Str × Ty), typeToksF fs = (fs.map fun f => 3 + typeToks f.2).sum
  | [] => rfl
  | (_, t) :: fs => by rw [typeToksF, typeToksF_eq fs, List.map_cons, List.sum_cons]

theorem newWithElements_bits {chk : Bool} {n set : Nat} (h : newWithElements chk n = .ok set) :
    n ≤ 64 ∧ ∀ i, set.testBit i = true → i < n := by
  by_cases hn : n ≠ 64 ∨ chk = true
  · obtain ⟨h1, h2⟩ := newWithElements_ok h hn
    exact ⟨by omega, fun i hi => by rw [h2] at hi; exact of_decide_eq_true hi⟩
  · simp only [ne_eq, not_or, Decidable.not_not, Bool.not_eq_true] at hn
    obtain ⟨rfl, rfl⟩ := hn
    cases h
    exact ⟨Nat.le_refl _, fun i hi => by simp at hi⟩

theorem struct_bounded {env : Env} {fs : List (Str × Ty)} (ih : ∀ f ∈ fs, Bounded env f.2) :
    Bounded env (.struct fs) := by
  intro p st
  rw [parserFor, parserForC, typeValues, typeDepth, typeToks]
  unfold structParser structParserC
  refine within_call (((within_mustBe env _ st 0 _ 0).bind fun st1 _ =>
    (Within.bind (c := 0) (r := 0) (c' := typeValuesF fs) (r' := (typeToksF fs - 1) + 1) ?_ fun visited hv => ?_)).mono
      (by omega) (Nat.le_refl _) (by omega))
  · rw [parsersF_length, parsersFC_length]
    exact within_free _ _ _ _
  · rw [parsersF_length] at hv
    obtain ⟨hn, hb⟩ := newWithElements_bits hv
    refine ((within_structLoop ih hn 64 visited true st1 hb).bind fun st2 _ => within_mustBe env _ st2 0 _ 0).mono
      ?_ (Nat.le_refl _) ?_
    · have := budget_le typeValues visited fs 0
      rw [typeValuesF_eq]
      omega
    · have := budget_le (fun t => 3 + typeToks t) visited fs 0
      rw [typeToksF_eq]
      simp only [if_true]
      omega

/-! ## Enums -/

theorem parsersEC_get (env : Env) (p : Path) (i : Nat) : ∀ (fs : List (Str × Ty)) (k : Nat),
    (parsersEC env p fs k)[i]? =
      (fs[i]?).map fun f => (f.1, (k + i, parserForC env (p ++ [k + i]) f.2)) := by
  induction i with
  | zero =>
    intro fs k
    rcases fs with _ | ⟨⟨l, t⟩, fs⟩
    · simp [parsersEC]
    · simp [parsersEC, parserPC]
  | succ i ih =>
    intro fs k
    rcases fs with _ | ⟨⟨l, t⟩, fs⟩
    · simp [parsersEC]
    · simp only [parsersEC, List.getElem?_cons_succ]
      rw [ih, show k + 1 + i = k + (i + 1) by omega]

theorem findCaseC_iff {env : Env} {p : Path} {cs : List (Str × Ty)} {label : Str} {i : Nat} {P : CostedParser} :
    lastEntry label (parsersEC env p cs 0) = some (i, P) ↔
      ∃ c, cs[i]? = some c ∧ c.1 = label ∧ P = parserForC env (p ++ [i]) c.2 ∧
        ∀ (j : Nat) (g : Str × Ty), i < j → cs[j]? = some g → g.1 ≠ label := by
  rw [lastEntry_some]
  constructor
  · rintro ⟨j, h1, h2⟩
    rw [parsersEC_get, Option.map_eq_some_iff] at h1
    obtain ⟨c, hc, he⟩ := h1
    simp only [Nat.zero_add, Prod.mk.injEq] at he
    obtain ⟨rfl, rfl, rfl⟩ := he
    refine ⟨c, hc, rfl, rfl, fun j' g hj hg => ?_⟩
    exact h2 j' (g.1, (j', parserForC env (p ++ [j']) g.2)) hj (by rw [parsersEC_get, hg]; simp)
  · rintro ⟨c, hc, rfl, rfl, h2⟩
    refine ⟨i, by rw [parsersEC_get, hc]; simp, fun j e hj he => ?_⟩
    rw [parsersEC_get, Option.map_eq_some_iff] at he
    obtain ⟨g, hg, rfl⟩ := he
    exact h2 j g hj hg

theorem lastEntry_cases (env : Env) (p : Path) (cs : List (Str × Ty)) (l : Str) :
    (lastEntry l (parsersEC env p cs 0) = none ∧ lastEntry l (parsersE env p cs 0) = none) ∨
    ∃ i c, cs[i]? = some c ∧ c.1 = l ∧
      lastEntry l (parsersEC env p cs 0) = some (i, parserForC env (p ++ [i]) c.2) ∧
      lastEntry l (parsersE env p cs 0) = some (i, parserFor env (p ++ [i]) c.2) := by
  cases h : lastEntry l (parsersEC env p cs 0) with
  | some x =>
    obtain ⟨i, P⟩ := x
    obtain ⟨c, hc, hl, rfl, h2⟩ := findCaseC_iff.1 h
    exact .inr ⟨i, c, hc, hl, rfl, findCase_iff.2 ⟨c, hc, hl, rfl, h2⟩⟩
  | none =>
    refine .inl ⟨rfl, ?_⟩
    cases h' : lastEntry l (parsersE env p cs 0) with
    | none => rfl
    | some x =>
      obtain ⟨i, P⟩ := x
      obtain ⟨c, hc, hl, rfl, h2⟩ := findCase_iff.1 h'
      rw [findCaseC_iff.2 ⟨c, hc, hl, rfl, h2⟩] at h
      cases h

theorem typeE_ge {f : Str × Ty} : ∀ {fs : List (Str × Ty)}, f ∈ fs →
    typeValues f.2 ≤ typeValuesE fs ∧ typeToks f.2 ≤ typeToksE fs
  | (_, t) :: fs, h => by
    rw [typeValuesE, typeToksE]
    rcases List.mem_cons.1 h with rfl | h
    · exact ⟨Nat.le_max_left _ _, Nat.le_max_left _ _⟩
    · obtain ⟨h1, h2⟩ := typeE_ge h
      exact ⟨Nat.le_trans h1 (Nat.le_max_right _ _), Nat.le_trans h2 (Nat.le_max_right _ _)⟩

theorem Within.error {α β γ : Type} {f : α → Costed γ} {g : β → Parse γ} (e : Json.Stop) (c d r : Nat) :
    Within (Costed.free (.error e) >>= f) ((.error e : Parse β) >>= g) c d r :=
  ⟨rfl, Nat.zero_le _, Nat.zero_le _, Nat.zero_le _⟩

theorem free_ok {α β : Type} (a : α) (f : α → Costed β) : (Costed.free (.ok a) >>= f) = f a := by
  show (Costed.free (.ok a)).andThen f = _
  simp [Costed.free, Costed.andThen]

theorem enum_bounded {env : Env} {cs : List (Str × Ty)} (ih : ∀ f ∈ cs, Bounded env f.2) :
    Bounded env (.enum cs) := by
  intro p st
  rw [parserFor, parserForC, typeValues, typeDepth, typeToks]
  unfold enumParser enumParserC
  refine within_call (((within_mustBe env _ st 0 _ 0).bind fun st1 _ =>
    (within_mustBe env _ st1 0 _ 0).bind fun st2 _ =>
    (within_mustBe env _ st2 0 _ 0).bind (c' := typeValuesE cs) (r' := 4 + typeToksE cs + 1) fun st3 _ => ?_).mono
      (by omega) (Nat.le_refl _) (by omega))
  match ht : st3.tok with
  | .string l =>
    simp only [findCase, findCaseC]
    rcases lastEntry_cases env p cs l with ⟨h1, h2⟩ | ⟨i, c, hc, hl, h1, h2⟩
    · rw [h1, h2]
      exact Within.error _ _ _ _
    · rw [h1, h2]
      simp only [free_ok]
      have hm := List.mem_of_getElem? hc
      obtain ⟨hv, hk⟩ := typeE_ge hm
      refine ((within_advance env _ 0 _ 0).bind fun st4 _ => (within_mustBe env _ st4 0 _ 0).bind fun st5 _ =>
        (within_mustBe env _ st5 0 _ 0).bind fun st6 _ => (within_mustBe env _ st6 0 _ 0).bind fun st7 _ =>
        ((ih c hm (p ++ [i]) st7).mono (Nat.le_refl _) (typeDepthF_ge hm) (Nat.le_refl _)).bind fun st8 _ =>
        within_mustBe env _ st8 0 _ 0).mono (by omega) (Nat.le_refl _) (by omega)
  | .eof | .null | .true | .false | .number _ | .beginObject | .endObject | .beginArray | .endArray | .comma | .colon =>
    exact Within.error _ _ _ _

/-! ## All types -/

theorem prim_bounded {env : Env} {q : Prim} : Bounded env (.prim q) := by
  intro p st
  rw [parserFor, parserForC]
  have hnum : Within (parsePrimitiveNumberC env q p st) (parsePrimitiveNumber env q p st) 0 0 1 := by
    obtain ⟨tok, rest, out⟩ := st
    cases tok <;> simp only [parsePrimitiveNumberC, parsePrimitiveNumber]
    case string s =>
      cases fromStr env.floats q s with
      | none => exact within_free _ _ _ _
      | some v => exact within_advance _ _ _ _ 0
    case number s =>
      cases fromStr env.floats q s with
      | none => exact within_free _ _ _ _
      | some v => exact within_advance _ _ _ _ 0
    all_goals exact within_free _ _ _ _
  have hb : ∀ x : Costed St, ∀ y : Parse St, Within x y 0 0 1 → Within (parseCall x) y 1 1 1 := fun x y h =>
    within_call h
  cases q with
  | bool =>
    refine hb _ _ ?_
    obtain ⟨tok, rest, out⟩ := st
    cases tok <;> first | exact within_advance _ _ _ _ 0 | exact within_free _ _ _ _
  | char =>
    refine hb _ _ ?_
    obtain ⟨tok, rest, out⟩ := st
    cases tok <;> simp only [primitiveParser]
    case string s =>
      cases extractChar s with
      | none => exact (within_advance env _ 0 0 0).bind fun _ _ => within_free _ 0 _ 0
      | some c => exact within_advance _ _ _ _ 0
    all_goals exact within_free _ _ _ _
  | _ => exact hb _ _ hnum

theorem bounded (env : Env) (t : Ty) : Bounded env t := by
  induction t using Ty.ind with
  | unit =>
    intro p st
    rw [parserFor, parserForC]
    refine within_call ?_
    obtain ⟨tok, rest, out⟩ := st
    cases tok <;> first | exact within_advance _ _ _ _ 0 | exact within_free _ _ _ _
  | prim q => exact prim_bounded
  | string =>
    intro p st
    rw [parserFor, parserForC]
    refine within_call ?_
    obtain ⟨tok, rest, out⟩ := st
    cases tok <;> first | exact within_advance _ _ _ _ 0 | exact within_free _ _ _ _
  | tuple cs ih =>
    intro p st
    rw [parserFor, parserForC, typeValues, typeDepth, typeToks]
    unfold tupleParser tupleParserC
    exact within_call (((within_mustBe env _ st 0 _ 0).bind fun st1 _ =>
      (within_tupleLoop cs 0 true st1 ih).bind fun st2 _ => within_mustBe env _ st2 0 _ 0).mono
        (by omega) (Nat.le_refl _) (by simp only [if_true]; omega))
  | struct fs ih => exact struct_bounded ih
  | enum cs ih => exact enum_bounded ih

theorem decode_within (env : Env) (t : Ty) (input : Str) :
    Within (decodeC env t input) (decode env t input) (typeValues t) (typeDepth t) (typeToks t + 1) := by
  unfold decodeC decode
  refine (Within.bind (c := 0) (r := 1) ⟨rfl, Nat.le_refl _, Nat.zero_le _, Nat.le_refl _⟩ fun x _ =>
    (bounded env t [] _).bind fun st _ => within_free _ 0 _ 0).mono (by omega) (Nat.le_refl _) (by omega)

/-! ## Accepted documents -/

/-- After something that took this much. -/
def after {α : Type} (c d r : Nat) (y : Costed α) : Costed α := ⟨y.result, c + y.calls, max d y.depth, r + y.reads⟩

theorem seq {α β : Type} {x : Costed α} {a : α} {c d r : Nat} (f : α → Costed β) (h : x = ⟨.ok a, c, d, r⟩) :
    (x >>= f) = after c d r (f a) := by
  subst h
  rfl

theorem advanceC_ok {env : Env} {st st' : St} (h : advance env st = .ok st') :
    advanceC env st = ⟨.ok st', 0, 0, 1⟩ := by
  unfold advanceC
  rw [h]

theorem mustBeC_ok {env : Env} {tok : Json.Tok} {st st' : St} (h : mustBe env tok st = .ok st') :
    mustBeC env tok st = ⟨.ok st', 0, 0, 1⟩ := by
  unfold mustBe at h
  unfold mustBeC
  split
  · next hne => rw [if_pos hne] at h; cases h
  · next hne => rw [if_neg hne] at h; unfold advanceC; rw [h]

theorem mustBeC_reads {env : Env} {tok k1 k : Json.Tok} {s1 s : Str} (o : IntermediateDataSource)
    (h : Reads env.alnum k1 s1 [tok] k s) : mustBeC env tok ⟨k1, s1, o⟩ = ⟨.ok ⟨k, s, o⟩, 0, 0, 1⟩ :=
  mustBeC_ok (mustBe_iff.2 ⟨h, rfl⟩)

theorem separatorC_ok {env : Env} {first : Bool} {st st' : St} (h : separator env first st = .ok st') :
    separatorC env first st = ⟨.ok st', 0, 0, if first then 0 else 1⟩ := by
  cases first with
  | false => exact mustBeC_ok h
  | true => cases h; rfl

/-- The parser accepts what denotes a value, with a call for each value in it. -/
def Exactly (env : Env) (t : Ty) : Prop :=
  ∀ p st tr v k s, Reads env.alnum st.tok st.rest tr.toks k s → Takes env.floats (env.chk = false) t tr v →
    ∃ d, parserForC env p t st = ⟨.ok ⟨k, s, d⟩, valSize v, valDepth v, tr.toks.length⟩

theorem tupleLoop_exactly {env : Env} {p : Path} : ∀ (cs : List Ty) (k : Nat) (first : Bool) (st : St)
    (ts : List Tree) (vs : List Val) (tok : Json.Tok) (s : Str),
    (∀ c ∈ cs, Exactly env c) → ts.length = cs.length → vs.length = cs.length →
    (∀ (i : Nat) (c : Ty) (t : Tree) (v : Val), cs[i]? = some c → ts[i]? = some t → vs[i]? = some v →
        Takes env.floats (env.chk = false) c t v) →
    Reads env.alnum st.tok st.rest (sepToks .comma first (ts.map Tree.toks)) tok s →
    ∃ d, tupleLoopC env (parsersLC env p cs k) first st =
      ⟨.ok ⟨tok, s, d⟩, valSizeL vs, valDepthL vs, (sepToks .comma first (ts.map Tree.toks)).length⟩
  | [], k, first, st, ts, vs, tok, s, _, l1, l2, _, h => by
    obtain rfl := List.eq_nil_of_length_eq_zero l1
    obtain rfl := List.eq_nil_of_length_eq_zero l2
    have e : sepToks Tok.comma first (List.map Tree.toks []) = [] := by cases first <;> rfl
    rw [e] at h ⊢
    cases h
    exact ⟨st.out, by simp [parsersLC, tupleLoopC, Costed.free, valSizeL, valDepthL]⟩
  | c :: cs, k, first, st, [], vs, tok, s, _, l1, _, _, _ => by simp at l1
  | c :: cs, k, first, st, t :: ts, [], tok, s, _, _, l2, _, _ => by simp at l2
  | c :: cs, k, first, st, t :: ts, v :: vs, tok, s, ih, l1, l2, hd, h => by
    rw [List.map_cons, sepToks_cons] at h ⊢
    obtain ⟨k2, s2, h, h3⟩ := Spec.Reads.split h
    obtain ⟨k1, s1, h1, h2⟩ := Spec.Reads.split h
    obtain ⟨d1, e1⟩ := ih c (.head _) (p ++ [k]) ⟨k1, s1, st.out⟩ t v k2 s2 h2 (hd 0 c t v rfl rfl rfl)
    obtain ⟨d2, e2⟩ := tupleLoop_exactly (p := p) cs (k + 1) false ⟨k2, s2, d1⟩ ts vs tok s
      (fun c hc => ih c (.tail _ hc)) (by simpa using l1) (by simpa using l2)
      (fun i c t v hc ht hv => hd (i + 1) c t v (by simpa using hc) (by simpa using ht) (by simpa using hv)) h3
    refine ⟨d2, ?_⟩
    simp only [parsersLC, tupleLoopC]
    rw [seq _ (separatorC_ok (st' := ⟨k1, s1, st.out⟩) (separator_iff.2 ⟨h1, rfl⟩)), seq _ e1, e2]
    cases first <;> simp [after, valSizeL, valDepthL] <;> omega

/-- The deepest of the members. -/
def memDepth : List Mem → Nat
  | [] => 0
  | m :: ms => max (valDepth m.val) (memDepth ms)

theorem structLoop_exactly {env : Env} {p : Path} {fs : List (Str × Ty)}
    (ih : ∀ f ∈ fs, Exactly env f.2) :
    ∀ (ms : List Mem) (n visited : Nat) (first : Bool) (st : St) (tok : Json.Tok) (s : Str),
      ms.length ≤ n → (∀ i, visited.testBit i = true → i < 64) → (ms.map (·.idx)).Nodup →
      (∀ i, visited.testBit i = true ↔ i ∈ ms.map (·.idx)) → (∀ m ∈ ms, MemOk env fs m) →
      Reads env.alnum st.tok st.rest (sepToks .comma first (ms.map memToks)) tok s →
      ∃ d, structLoopC env (numbered fs 0) (parsersFC env p fs 0) n visited first st =
        ⟨.ok ⟨tok, s, d⟩, (ms.map fun m => valSize m.val).sum, memDepth ms,
          (sepToks .comma first (ms.map memToks)).length⟩
  | [], n, visited, first, st, tok, s, _, _, _, hbits, _, h => by
    have h0 : visited = 0 := (zero_iff_testBit _).2 (fun i => by
      cases hb : visited.testBit i with
      | false => rfl
      | true => exact absurd ((hbits i).1 hb) (by simp))
    have e : sepToks Tok.comma first (List.map memToks []) = [] := by cases first <;> rfl
    rw [e] at h ⊢
    cases h
    refine ⟨st.out, ?_⟩
    cases n <;> simp [structLoopC, h0, Costed.free, memDepth]
  | m :: ms, 0, visited, first, st, tok, s, hn, _, _, _, _, _ => by simp at hn
  | m :: ms, n + 1, visited, first, st, tok, s, hn, hv, hnd, hbits, hok, h => by
    simp only [List.map_cons, sepToks_cons] at h ⊢
    obtain ⟨k2, s2, h, h3⟩ := Spec.Reads.split h
    obtain ⟨k1, s1, h1, h2⟩ := Spec.Reads.split h
    obtain ⟨c, hc, hlast, hd⟩ := hok m (.head _)
    have hbit : visited.testBit m.idx = true := (hbits m.idx).2 (by simp)
    have hne : visited ≠ 0 := by rintro rfl; simp at hbit
    unfold memToks memberToks at h2
    cases h2 with
    | cons hn1 h2 =>
      cases h2 with
      | cons hn2 h2 =>
        rename_i s3 k4 s4
        obtain ⟨d1, e1⟩ := ih _ (List.mem_of_getElem? hc) (p ++ [m.idx]) ⟨k4, s4, st.out⟩ _ _ k2 s2 h2 hd
        rw [List.map_cons, List.nodup_cons] at hnd
        have hcl := clearElement_bits hv hbit
        have hv' : ∀ j, (clearElement visited m.idx).testBit j = true → j < 64 := by
          intro j hj
          rw [hcl, Bool.and_eq_true] at hj
          exact hv j hj.1
        have hbits' : ∀ j, (clearElement visited m.idx).testBit j = true ↔ j ∈ ms.map (·.idx) := by
          intro j
          have := hbits j
          rw [List.map_cons, List.mem_cons] at this
          rw [hcl, Bool.and_eq_true, this]
          constructor
          · rintro ⟨h | h, h'⟩
            · simp [h] at h'
            · exact h
          · intro h
            refine ⟨.inr h, ?_⟩
            have : j ≠ m.idx := by rintro rfl; exact hnd.1 h
            simpa using this
        obtain ⟨d2, e2⟩ := structLoop_exactly (p := p) ih ms n (clearElement visited m.idx) false ⟨k2, s2, d1⟩
          tok s (by simpa using hn) hv' hnd.2 hbits' (fun m hm => hok m (.tail _ hm)) h3
        refine ⟨d2, ?_⟩
        rw [structLoopC, if_neg hne,
          seq _ (separatorC_ok (st' := ⟨.string m.label, s1, st.out⟩) (separator_iff.2 ⟨h1, rfl⟩))]
        rw [fieldIndex_ok.2 ⟨m.label, rfl, fieldIndex_iff.2 ⟨_, hc, rfl, hlast⟩⟩, free_ok, hasElement_eq, hbit]
        simp only [if_true]
        have ha : advance env ⟨.string m.label, s1, st.out⟩ = .ok ⟨.colon, s3, st.out⟩ :=
          advance_iff.2 ⟨.cons hn1 .nil, rfl⟩
        have hm : mustBe env .colon ⟨.colon, s3, st.out⟩ = .ok ⟨k4, s4, st.out⟩ :=
          mustBe_iff.2 ⟨.cons hn2 .nil, rfl⟩
        rw [seq _ (advanceC_ok ha), seq _ (mustBeC_ok hm)]
        have hp : (parsersFC env p fs 0)[m.idx]? = some (parserForC env (p ++ [m.idx]) c) := by
          rw [parsersFC_get, hc]; simp
        simp only [fieldParserC, hp]
        rw [seq _ e1, e2]
        cases first <;> simp [after, memDepth, memToks, memberToks] <;> omega

theorem valSizeL_eq : ∀ vs : List Val, valSizeL vs = (vs.map valSize).sum
  | [] => rfl
  | v :: vs => by rw [valSizeL, valSizeL_eq vs, List.map_cons, List.sum_cons]

theorem valDepthL_le {n : Nat} : ∀ {vs : List Val}, valDepthL vs ≤ n ↔ ∀ v ∈ vs, valDepth v ≤ n
  | [] => by simp [valDepthL]
  | v :: vs => by rw [valDepthL, Nat.max_le, valDepthL_le]; simp

theorem memDepth_le {n : Nat} : ∀ {ms : List Mem}, memDepth ms ≤ n ↔ ∀ m ∈ ms, valDepth m.val ≤ n
  | [] => by simp [memDepth]
  | m :: ms => by rw [memDepth, Nat.max_le, memDepth_le]; simp

/-- Sum and maximum over the members in the order of the document, or of the fields. -/
theorem members_order {vs : List Val} {ms : List Mem} (hnd : (ms.map (·.idx)).Nodup)
    (hall : ∀ i, i ∈ ms.map (·.idx) ↔ i < vs.length) (hval : ∀ m ∈ ms, vs[m.idx]? = some m.val) :
    (ms.map fun m => valSize m.val).sum = valSizeL vs ∧ memDepth ms = valDepthL vs := by
  have hperm : (ms.map (·.idx)).Perm (List.range vs.length) :=
    (List.perm_ext_iff_of_nodup hnd List.nodup_range).2 fun i => by rw [hall, List.mem_range]
  constructor
  · have h1 := (hperm.map fun i => valSize ((vs[i]?).getD .unit)).sum_nat
    rw [List.map_map] at h1
    have h2 : ms.map ((fun i => valSize ((vs[i]?).getD .unit)) ∘ (·.idx)) = ms.map fun m => valSize m.val := by
      refine List.map_congr_left fun m hm => ?_
      simp [hval m hm]
    rw [h2] at h1
    rw [h1, valSizeL_eq]
    congr 1
    refine List.ext_getElem (by simp) fun i h3 h4 => ?_
    simp at h3
    simp [h3]
  · refine Nat.le_antisymm (memDepth_le.2 fun m hm => ?_) (valDepthL_le.2 fun v hv => ?_)
    · exact valDepthL_le.1 (Nat.le_refl _) _ (List.mem_of_getElem? (hval m hm))
    · obtain ⟨i, hi, rfl⟩ := List.getElem_of_mem hv
      obtain ⟨m, hm, rfl⟩ := List.mem_map.1 ((hall i).2 hi)
      have h1 := hval m hm
      rw [List.getElem?_eq_getElem hi, Option.some.injEq] at h1
      rw [h1]
      exact memDepth_le.1 (Nat.le_refl _) m hm

theorem struct_exactly {env : Env} {fs : List (Str × Ty)} (ih : ∀ f ∈ fs, Exactly env f.2) :
    Exactly env (.struct fs) := by
  intro p ⟨k0, s0, o⟩ tr v k s h hden
  cases hden with
  | gap hc hn =>
    have e : (Tree.obj []).toks = [.beginObject] ++ [.endObject] := by simp [Tree.toks, toksM, sepBy]
    rw [e] at h ⊢
    obtain ⟨k1, s1, h1, h2⟩ := Spec.Reads.split h
    refine ⟨o, ?_⟩
    rw [parserForC]
    unfold structParserC
    have hw : newWithElements env.chk (parsersFC env p fs 0).length = .ok 0 := by
      rw [parsersFC_length]
      unfold newWithElements
      rw [if_neg (by omega), if_pos hn, hc]
      rfl
    rw [seq _ (mustBeC_reads o h1), hw, free_ok, structLoopC, if_pos rfl,
      free_ok, mustBeC_reads o h2]
    rfl
  | @struct _ ms vs hn hnd hperm hlen hpt =>
    rw [Tree.toks] at h ⊢
    obtain ⟨k2, s2, h, h3⟩ := Spec.Reads.split h
    obtain ⟨k1, s1, h1, h2⟩ := Spec.Reads.split h
    let mem : Str × Tree → Mem := fun m =>
      ⟨labelIdx m.1 fs, m.1, m.2, (vs[labelIdx m.1 fs]?).getD .unit⟩
    have hmem : ∀ m ∈ ms, ∃ c, fs[labelIdx m.1 fs]? = some (m.1, c) := fun m hm =>
      labelIdx_get (hperm.mem_iff.1 (List.mem_map_of_mem hm))
    have hmi : ∀ m ∈ ms, ∀ (i : Nat) (f : Str × Ty), fs[i]? = some f → f.1 = m.1 →
        labelIdx m.1 fs = i := by
      intro m hm i f hf hl
      obtain ⟨c, hc⟩ := hmem m hm
      exact nodup_get_inj hnd hc hf hl.symm
    have hmsnd : (ms.map (·.1)).Nodup := hperm.nodup_iff.2 hnd
    have hidxnd : ((ms.map mem).map (·.idx)).Nodup := by
      rw [List.map_map, List.nodup_iff_pairwise_ne, List.pairwise_map]
      rw [List.nodup_iff_pairwise_ne, List.pairwise_map] at hmsnd
      refine List.Pairwise.imp_of_mem ?_ hmsnd
      intro a b ha hb hab he
      obtain ⟨c, hc⟩ := hmem a ha
      obtain ⟨c', hc'⟩ := hmem b hb
      simp only [Function.comp_apply, mem] at he
      rw [he, hc'] at hc
      exact hab (congrArg Prod.fst (Option.some.inj hc)).symm
    have hall : ∀ i, i ∈ (ms.map mem).map (·.idx) ↔ i < fs.length := by
      intro i
      rw [List.map_map, List.mem_map]
      constructor
      · rintro ⟨m, hm, rfl⟩
        obtain ⟨c, hc⟩ := hmem m hm
        exact (List.getElem?_eq_some_iff.1 hc).1
      · intro hi
        have : (fs[i]).1 ∈ ms.map (·.1) :=
          hperm.mem_iff.2 (List.mem_map_of_mem (List.getElem_mem hi))
        obtain ⟨m, hm, he⟩ := List.mem_map.1 this
        exact ⟨m, hm, hmi m hm i _ (List.getElem?_eq_getElem hi) he.symm⟩
    have hval : ∀ m ∈ ms, vs[labelIdx m.1 fs]? = some (mem m).val := by
      intro m hm
      obtain ⟨c, hc⟩ := hmem m hm
      have : labelIdx m.1 fs < vs.length := by
        rw [hlen]; exact (List.getElem?_eq_some_iff.1 hc).1
      simp [mem, List.getElem?_eq_getElem this]
    have hok : ∀ m ∈ ms.map mem, MemOk env fs m := by
      intro m' hm'
      obtain ⟨m, hm, rfl⟩ := List.mem_map.1 hm'
      obtain ⟨c, hc⟩ := hmem m hm
      refine ⟨c, hc, ?_, ?_⟩
      · intro j g hj hg he
        have := hmi m hm j g hg he
        simp only [mem] at hj
        omega
      · exact hpt _ _ m.2 _ hc hm (hval m hm)
    have hbits : ∀ i, (2 ^ fs.length - 1).testBit i = true ↔ i ∈ (ms.map mem).map (·.idx) := by
      intro i
      rw [Nat.testBit_two_pow_sub_one, hall]; simp
    have hmsl : (ms.map mem).length ≤ 64 := by
      have := hperm.length_eq
      simp only [List.length_map] at this ⊢
      omega
    have htk : (ms.map mem).map memToks = toksM ms := by
      rw [memToks_map, List.map_map]
      congr 1
      have : ((fun m : Mem => (m.label, m.tree)) ∘ mem) = id := by
        funext m; rfl
      rw [this, List.map_id]
    obtain ⟨d, e⟩ := structLoop_exactly (p := p) ih (ms.map mem) 64 (2 ^ fs.length - 1) true
      ⟨k1, s1, o⟩ k2 s2 hmsl
      (fun i hi => by rw [Nat.testBit_two_pow_sub_one] at hi; have := of_decide_eq_true hi; omega)
      hidxnd hbits hok (by rw [htk]; exact h2)
    obtain ⟨q1, q2⟩ := members_order hidxnd (fun i => by rw [hall, hlen]) (fun m' hm' => by
      obtain ⟨m, hm, rfl⟩ := List.mem_map.1 hm'
      exact hval m hm)
    refine ⟨d, ?_⟩
    rw [parserForC]
    unfold structParserC
    have hw : newWithElements env.chk (parsersFC env p fs 0).length = .ok (2 ^ fs.length - 1) := by
      rw [parsersFC_length]
      exact newWithElements_small hn
    rw [seq _ (mustBeC_reads o h1), hw, free_ok, seq _ e,
      mustBeC_reads d h3, q1, q2, htk]
    simp [after, parseCall, valSize, valDepth, sepToks]
    omega

theorem findCaseC_ok {cases : List (Str × (Nat × CostedParser))} {l : Str} {c : Nat × CostedParser}
    (h : lastEntry l cases = some c) : findCaseC cases (.string l) = .ok c := by
  simp only [findCaseC, h]

theorem enum_exactly {env : Env} {cs : List (Str × Ty)} (ih : ∀ c ∈ cs, Exactly env c.2) :
    Exactly env (.enum cs) := by
  intro p ⟨k0, s0, o⟩ tr v k s h hden
  cases hden with
  | @enum _ i l c t v hc hlast hd =>
    have e : (Tree.obj [("kind".toList, .str l), ("value".toList, t)]).toks =
        [.beginObject] ++ ([.string ['k', 'i', 'n', 'd']] ++ ([.colon] ++ ([.string l] ++ ([.comma] ++
          ([.string ['v', 'a', 'l', 'u', 'e']] ++ ([.colon] ++ (t.toks ++ [.endObject]))))))) := by
      simp [Tree.toks, toksM, sepBy, memberToks]
    rw [e] at h ⊢
    obtain ⟨k1, s1, h1, h⟩ := Spec.Reads.split h
    obtain ⟨k2, s2, h2, h⟩ := Spec.Reads.split h
    obtain ⟨k3, s3, h3, h⟩ := Spec.Reads.split h
    obtain ⟨k4, s4, h4, h⟩ := Spec.Reads.split h
    obtain ⟨k5, s5, h5, h⟩ := Spec.Reads.split h
    obtain ⟨k6, s6, h6, h⟩ := Spec.Reads.split h
    obtain ⟨k7, s7, h7, h⟩ := Spec.Reads.split h
    obtain ⟨k8, s8, h8, h9⟩ := Spec.Reads.split h
    obtain ⟨d, e⟩ := ih _ (List.mem_of_getElem? hc) (p ++ [i]) ⟨k7, s7, o.addCaseTag p i⟩ t v k8 s8 h8 hd
    obtain rfl := Spec.Reads.head h4
    refine ⟨d, ?_⟩
    rw [parserForC]
    unfold enumParserC
    rw [seq _ (mustBeC_reads o h1),
      seq _ (mustBeC_reads o h2),
      seq _ (mustBeC_reads o h3),
      findCaseC_ok (findCaseC_iff.2 ⟨_, hc, rfl, rfl, hlast⟩), free_ok]
    simp only
    have h4' : advance env { (⟨.string l, s3, o⟩ : St) with out := o.addCaseTag p i } =
        .ok ⟨k4, s4, o.addCaseTag p i⟩ := advance_out_iff.2 ⟨h4, rfl⟩
    rw [seq _ (advanceC_ok h4'),
      seq _ (mustBeC_reads (o.addCaseTag p i) h5),
      seq _ (mustBeC_reads (o.addCaseTag p i) h6),
      seq _ (mustBeC_reads (o.addCaseTag p i) h7), seq _ e,
      mustBeC_reads d h9]
    simp [after, parseCall, valSize, valDepth]
    omega

/-- A parser that takes one token: by what the plain parser does. -/
theorem leaf_exactly {env : Env} {t : Ty} (h1 : typeValues t = 1 ∧ typeDepth t = 1 ∧ typeToks t = 1)
    (hc : ∀ p st st', (parserForC env p t st).result = .ok st' →
      1 ≤ (parserForC env p t st).calls ∧ 1 ≤ (parserForC env p t st).depth ∧ 1 ≤ (parserForC env p t st).reads)
    (hv : ∀ tr v, Takes env.floats (env.chk = false) t tr v → valSize v = 1 ∧ valDepth v = 1 ∧ tr.toks.length = 1) :
    Exactly env t := by
  intro p st tr v k s h hden
  obtain ⟨d, e, _⟩ := parser_complete t p st tr v k s h hden
  obtain ⟨b1, b2, b3, b4⟩ := bounded env t p st
  obtain ⟨a1, a2, a3⟩ := hc p st ⟨k, s, d⟩ (by rw [b1, e])
  obtain ⟨v1, v2, v3⟩ := hv tr v hden
  refine ⟨d, ?_⟩
  rw [v1, v2, v3]
  rw [e] at b1
  revert a1 a2 a3 b1 b2 b3 b4
  obtain ⟨r, c, d, n⟩ := parserForC env p t st
  simp only
  intro b1 b2 b3 b4 a1 a2 a3
  subst b1
  simp only [Costed.mk.injEq, true_and]
  omega

theorem numberC_reads {env : Env} {q : Prim} {p : Path} {st st' : St}
    (h : (parsePrimitiveNumberC env q p st).result = .ok st') : 1 ≤ (parsePrimitiveNumberC env q p st).reads := by
  obtain ⟨tok, rest, out⟩ := st
  revert h
  cases tok <;> simp only [parsePrimitiveNumberC]
  case string s =>
    cases fromStr env.floats q s with
    | none => intro h; cases h
    | some v => exact fun _ => Nat.le_refl _
  case number s =>
    cases fromStr env.floats q s with
    | none => intro h; cases h
    | some v => exact fun _ => Nat.le_refl _
  all_goals intro h; cases h

theorem prim_exactly {env : Env} {q : Prim} : Exactly env (.prim q) := by
  refine leaf_exactly ⟨rfl, rfl, rfl⟩ (fun p st st' h => ⟨?_, ?_, ?_⟩) fun tr v h => ?_
  · rw [parserForC]; exact Nat.succ_le_succ (Nat.zero_le _)
  · rw [parserForC]; exact Nat.succ_le_succ (Nat.zero_le _)
  · rw [parserForC] at h ⊢
    cases q with
    | bool =>
      obtain ⟨tok, rest, out⟩ := st
      revert h
      cases tok <;> first | exact fun _ => Nat.le_refl _ | (intro h; cases h)
    | char =>
      obtain ⟨tok, rest, out⟩ := st
      revert h
      cases tok <;> simp only [primitiveParserC]
      case string s =>
        cases extractChar s with
        | none =>
          intro h
          simp only [parseCall, Bind.bind, Costed.andThen, advanceC] at h
          split at h <;> cases h
        | some c => exact fun _ => Nat.le_refl _
      all_goals intro h; cases h
    | _ => exact numberC_reads h
  · cases h <;> exact ⟨rfl, rfl, rfl⟩

theorem exactly (env : Env) (t : Ty) : Exactly env t := by
  induction t using Ty.ind with
  | unit =>
    refine leaf_exactly ⟨rfl, rfl, rfl⟩ (fun p st st' h => ⟨?_, ?_, ?_⟩) fun tr v h => ?_
    · rw [parserForC]; exact Nat.succ_le_succ (Nat.zero_le _)
    · rw [parserForC]; exact Nat.succ_le_succ (Nat.zero_le _)
    · rw [parserForC] at h ⊢
      obtain ⟨tok, rest, out⟩ := st
      revert h
      cases tok <;> first | exact fun _ => Nat.le_refl _ | (intro h; cases h)
    · cases h
      exact ⟨rfl, rfl, rfl⟩
  | prim q => exact prim_exactly
  | string =>
    refine leaf_exactly ⟨rfl, rfl, rfl⟩ (fun p st st' h => ⟨?_, ?_, ?_⟩) fun tr v h => ?_
    · rw [parserForC]; exact Nat.succ_le_succ (Nat.zero_le _)
    · rw [parserForC]; exact Nat.succ_le_succ (Nat.zero_le _)
    · rw [parserForC] at h ⊢
      obtain ⟨tok, rest, out⟩ := st
      revert h
      cases tok <;> first | exact fun _ => Nat.le_refl _ | (intro h; cases h)
    · cases h
      exact ⟨rfl, rfl, rfl⟩
  | tuple cs ih =>
    intro p ⟨k0, s0, o⟩ tr v k s h hd
    cases hd with
    | tuple l1 l2 hd =>
      rw [Tree.toks, toksL_map] at h ⊢
      obtain ⟨k2, s2, h, h3⟩ := Spec.Reads.split h
      obtain ⟨k1, s1, h1, h2⟩ := Spec.Reads.split h
      obtain ⟨d, e⟩ := tupleLoop_exactly (p := p) cs 0 true ⟨k1, s1, o⟩ _ _ k2 s2 ih l1 l2 hd h2
      refine ⟨d, ?_⟩
      rw [parserForC]
      unfold tupleParserC
      rw [seq _ (mustBeC_reads o h1), seq _ e, mustBeC_reads d h3]
      simp [after, parseCall, valSize, valDepth, sepToks]
      omega
  | struct fs ih => exact struct_exactly ih
  | enum cs ih => exact enum_exactly ih

end Verif
