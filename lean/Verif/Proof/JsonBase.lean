import Verif.Spec.Json
import Verif.Proof.DataSource
import Verif.Proof.Unroll
import Verif.Proof.Util
import Verif.Proof.Types

/-! # Basic facts for the JSON decoder: results, token streams, stored leaves, bit sets -/

namespace Verif

open Spec Json

@[simp] theorem Parse.bind_ok {α β : Type} (x : α) (f : α → Parse β) :
    ((Except.ok x : Parse α) >>= f) = f x := rfl

@[simp] theorem Parse.bind_error {α β : Type} (e : Stop) (f : α → Parse β) :
    ((Except.error e : Parse α) >>= f) = .error e := rfl

theorem Parse.bind_eq_ok {α β : Type} {m : Parse α} {f : α → Parse β} {b : β} :
    (m >>= f) = .ok b ↔ ∃ a, m = .ok a ∧ f a = .ok b := by
  cases m with
  | ok a => simp
  | error e => simp

/-! ## Token streams -/

theorem Spec.Reads.append {u : Char → Bool} {k k1 k2 : Json.Tok} {s s1 s2 : Str} {a b : List Json.Tok}
    (h : Reads u k s a k1 s1) (h' : Reads u k1 s1 b k2 s2) : Reads u k s (a ++ b) k2 s2 := by
  induction h with
  | nil => exact h'
  | cons hn _ ih => exact .cons hn (ih h')

theorem Spec.Reads.split {u : Char → Bool} {k k2 : Json.Tok} {s s2 : Str} {a b : List Json.Tok}
    (h : Reads u k s (a ++ b) k2 s2) : ∃ k1 s1, Reads u k s a k1 s1 ∧ Reads u k1 s1 b k2 s2 := by
  induction a generalizing k s with
  | nil => exact ⟨k, s, .nil, h⟩
  | cons c a ih =>
    cases h with
    | cons hn h =>
      obtain ⟨k1, s1, h1, h2⟩ := ih h
      exact ⟨k1, s1, .cons hn h1, h2⟩

theorem Spec.Reads.head {u : Char → Bool} {k k2 t : Json.Tok} {s s2 : Str} {a : List Json.Tok}
    (h : Reads u k s (t :: a) k2 s2) : k = t := by
  cases h; rfl

/-- The tokenizer of `st` reads `ks` and is then that of `st'`. -/
def Goes (env : Env) (st : St) (ks : List Json.Tok) (st' : St) : Prop :=
  Reads env.alnum st.tok st.rest ks st'.tok st'.rest

theorem Goes.append {env : Env} {a b c : St} {ks ls : List Json.Tok} (h : Goes env a ks b)
    (h' : Goes env b ls c) : Goes env a (ks ++ ls) c := Reads.append h h'

theorem advance_iff {env : Env} {st st' : St} :
    advance env st = .ok st' ↔ Goes env st [st.tok] st' ∧ st'.out = st.out := by
  unfold advance Goes
  rw [Parse.bind_eq_ok]
  constructor
  · rintro ⟨⟨k, s⟩, h1, h2⟩
    cases h2
    exact ⟨.cons h1 .nil, rfl⟩
  · rintro ⟨h1, h2⟩
    cases h1 with
    | cons hn h =>
      cases h with
      | nil => exact ⟨_, hn, by rw [← h2]⟩

theorem mustBe_iff {env : Env} {k : Json.Tok} {st st' : St} :
    mustBe env k st = .ok st' ↔ Goes env st [k] st' ∧ st'.out = st.out := by
  unfold mustBe
  split
  · next h =>
    constructor
    · intro h'; cases h'
    · rintro ⟨h1, _⟩; exact absurd (Reads.head h1) h
  · next h =>
    have h : st.tok = k := Decidable.not_not.1 h
    rw [advance_iff, h]

/-! ## Stored leaves -/

/-- `d'` is `d` with these leaves stored. -/
def Stored (d d' : IntermediateDataSource) (L : List (Path × Leaf)) : Prop :=
  (∀ q l, (q, l) ∈ L → (mapGet Path.cmp q d').map leafOf = some l) ∧
  (∀ q, (∀ l, (q, l) ∉ L) → mapGet Path.cmp q d' = mapGet Path.cmp q d)

theorem Stored.nil (d : IntermediateDataSource) : Stored d d [] :=
  ⟨by simp, fun _ _ => rfl⟩

theorem Stored.insert (d : IntermediateDataSource) (p : Path) (x : Value) :
    Stored d (mapInsert Path.cmp p x d) [(p, leafOf x)] := by
  refine ⟨?_, ?_⟩
  · intro q l h
    simp only [List.mem_singleton, Prod.mk.injEq] at h
    obtain ⟨rfl, rfl⟩ := h
    rw [mapGet_path_insert, if_pos rfl]; rfl
  · intro q h
    have : q ≠ p := by
      rintro rfl
      exact h (leafOf x) (.head _)
    rw [mapGet_path_insert, if_neg this]

theorem Stored.append {d d1 d2 : IntermediateDataSource} {L1 L2 : List (Path × Leaf)}
    (h1 : Stored d d1 L1) (h2 : Stored d1 d2 L2) (hd : ∀ q l l', (q, l) ∈ L1 → (q, l') ∉ L2) :
    Stored d d2 (L1 ++ L2) := by
  refine ⟨?_, ?_⟩
  · intro q l h
    rcases List.mem_append.1 h with h | h
    · rw [h2.2 q (fun l' => hd q l l' h)]
      exact h1.1 q l h
    · exact h2.1 q l h
  · intro q h
    rw [h2.2 q (fun l hl => h l (List.mem_append.2 (.inr hl))),
      h1.2 q (fun l hl => h l (List.mem_append.2 (.inl hl)))]

theorem Stored.congr {d d' : IntermediateDataSource} {L L' : List (Path × Leaf)}
    (h : Stored d d' L) (he : ∀ x, x ∈ L ↔ x ∈ L') : Stored d d' L' :=
  ⟨fun q l hm => h.1 q l ((he _).2 hm), fun q hm => h.2 q (fun l hl => hm l ((he _).1 hl))⟩

/-! ## Leaves -/

theorem leavesFrom_mem (p : Path) (x : Path × Leaf) : ∀ (vs : List Val) (k : Nat),
    x ∈ leavesFrom vs p k ↔ ∃ (i : Nat) (v : Val), vs[i]? = some v ∧ x ∈ leaves v (p ++ [k + i])
  | [], k => by simp [leavesFrom]
  | v :: vs, k => by
    rw [leavesFrom, List.mem_append, leavesFrom_mem p x vs (k + 1)]
    constructor
    · rintro (h | ⟨i, w, h1, h2⟩)
      · exact ⟨0, v, rfl, by simpa using h⟩
      · exact ⟨i + 1, w, by simpa using h1, by rwa [show k + (i + 1) = k + 1 + i by omega]⟩
    · rintro ⟨i, w, h1, h2⟩
      cases i with
      | zero => left; simp at h1; subst h1; simpa using h2
      | succ i => right; exact ⟨i, w, by simpa using h1, by rwa [show k + 1 + i = k + (i + 1) by omega]⟩

mutual
theorem leaves_under : ∀ (v : Val) (p : Path) (x : Path × Leaf), x ∈ leaves v p → p <+: x.1
  | .unit, p, x, h => by simp [leaves] at h
  | .prim v, p, x, h => by simp [leaves] at h; subst h; exact List.prefix_refl _
  | .str bs, p, x, h => by simp [leaves] at h; subst h; exact List.prefix_refl _
  | .seq vs, p, x, h => by rw [leaves] at h; exact leavesFrom_under vs p 0 x h
  | .case i v, p, x, h => by
    rw [leaves, List.mem_cons] at h
    rcases h with rfl | h
    · exact List.prefix_refl _
    · exact List.IsPrefix.trans (List.prefix_append p [i]) (leaves_under v _ x h)
theorem leavesFrom_under : ∀ (vs : List Val) (p : Path) (i : Nat) (x : Path × Leaf),
    x ∈ leavesFrom vs p i → p <+: x.1
  | [], p, i, x, h => by simp [leavesFrom] at h
  | v :: vs, p, i, x, h => by
    rw [leavesFrom, List.mem_append] at h
    rcases h with h | h
    · exact List.IsPrefix.trans (List.prefix_append p [i]) (leaves_under v _ x h)
    · exact leavesFrom_under vs p (i + 1) x h
end

theorem prefix_last_unique {p q : Path} {i j : Nat} (h1 : p ++ [i] <+: q) (h2 : p ++ [j] <+: q) :
    i = j := by
  obtain ⟨a, rfl⟩ := h1
  obtain ⟨b, h⟩ := h2
  rw [List.append_assoc, List.append_assoc] at h
  have := List.append_cancel_left h
  simp at this
  exact this.1.symm

/-- Leaves below different components are at different paths. -/
theorem leaves_disjoint {v w : Val} {p q : Path} {i j : Nat} {l l' : Leaf} (hij : i ≠ j)
    (h : (q, l) ∈ leaves v (p ++ [i])) : (q, l') ∉ leaves w (p ++ [j]) := fun h' =>
  hij (prefix_last_unique (q := q) (leaves_under v _ (q, l) h) (leaves_under w _ (q, l') h'))

/-! ## Bit sets -/

theorem hasElement_eq (set i : Nat) : hasElement set i = set.testBit i := by
  unfold hasElement
  rw [Nat.one_shiftLeft]
  cases h : set.testBit i with
  | true =>
    have : set &&& 2 ^ i ≠ 0 := by
      intro h0
      have := congrArg (·.testBit i) h0
      simp [h] at this
    simpa using this
  | false =>
    have : set &&& 2 ^ i = 0 := by
      apply Nat.eq_of_testBit_eq
      intro j
      rw [Nat.testBit_and, Nat.testBit_two_pow]
      by_cases hj : i = j
      · subst hj; simp [h]
      · simp [hj]
    simp [this]

theorem clearElement_testBit {set i : Nat} (hi : i < 64) (j : Nat) (hj : j < 64) :
    (clearElement set i).testBit j = (set.testBit j && decide (j ≠ i)) := by
  unfold clearElement notW
  rw [Nat.one_shiftLeft, Nat.testBit_and]
  have h1 : (2 : Nat) ^ i < 2 ^ 64 := Nat.pow_lt_pow_right (by omega) hi
  have h2 : W64 - 1 - 2 ^ i = 2 ^ 64 - (2 ^ i + 1) := by
    have : (2 : Nat) ^ 64 = W64 := by decide
    omega
  rw [h2, Nat.testBit_two_pow_sub_succ h1, Nat.testBit_two_pow]
  by_cases h : i = j
  · simp [h]
  · simp [h, hj, Ne.symm h]

theorem clearElement_high {set i j : Nat} (h : set.testBit j = false) :
    (clearElement set i).testBit j = false := by
  unfold clearElement
  rw [Nat.testBit_and, h]; rfl

theorem zero_iff_testBit (set : Nat) : set = 0 ↔ ∀ i, set.testBit i = false := by
  constructor
  · rintro rfl i; simp
  · intro h; exact Nat.eq_of_testBit_eq (by simpa using h)

theorem newWithElements_ok {chk : Bool} {n set : Nat} (h : newWithElements chk n = .ok set)
    (hn : n ≠ 64 ∨ chk = true) : n ≤ 63 ∧ ∀ i, set.testBit i = decide (i < n) := by
  unfold newWithElements at h
  split at h
  · cases h
  · split at h
    · next h1 =>
      rcases hn with hn | hn
      · exact absurd h1 hn
      · rw [hn] at h; cases h
    · cases h
      refine ⟨by omega, fun i => ?_⟩
      rw [Nat.one_shiftLeft, Nat.testBit_two_pow_sub_one]

theorem newWithElements_small {chk : Bool} {n : Nat} (h : n ≤ 63) :
    newWithElements chk n = .ok (2 ^ n - 1) := by
  unfold newWithElements
  rw [if_neg (by omega), if_neg (by omega), Nat.one_shiftLeft]

/-! ## Label tables -/

theorem lastEntry_none {α : Type} {label : Str} : ∀ {es : List (Str × α)},
    lastEntry label es = none ↔ ∀ e ∈ es, e.1 ≠ label
  | [] => by simp [lastEntry]
  | e :: es => by
    rw [lastEntry]
    cases h : lastEntry label es with
    | some x =>
      have : ¬ ∀ e ∈ es, e.1 ≠ label := fun h' => by
        rw [lastEntry_none.2 h'] at h; cases h
      simp only [reduceCtorEq, List.mem_cons, forall_eq_or_imp, false_iff, not_and]
      exact fun _ => this
    | none =>
      have := lastEntry_none.1 h
      by_cases he : e.1 = label
      · simp [he]
      · simp [he]; simpa using this

theorem lastEntry_some {α : Type} {label : Str} {a : α} : ∀ {es : List (Str × α)},
    lastEntry label es = some a ↔
      ∃ i, es[i]? = some (label, a) ∧ ∀ (j : Nat) (e : Str × α), i < j → es[j]? = some e → e.1 ≠ label
  | [] => by simp [lastEntry]
  | e :: es => by
    rw [lastEntry]
    cases h : lastEntry label es with
    | some x =>
      obtain ⟨i, h1, h2⟩ := lastEntry_some.1 h
      constructor
      · intro hx
        cases hx
        refine ⟨i + 1, by simpa using h1, ?_⟩
        intro j e' hj he'
        cases j with
        | zero => omega
        | succ j => exact h2 j e' (by omega) (by simpa using he')
      · rintro ⟨j, h3, h4⟩
        cases j with
        | zero => exact absurd rfl (h4 (i + 1) (label, x) (by omega) (by simpa using h1))
        | succ j =>
          have : lastEntry label es = some a := lastEntry_some.2
            ⟨j, by simpa using h3, fun j' e' hj he' => h4 (j' + 1) e' (by omega) (by simpa using he')⟩
          rw [← h, this]
    | none =>
      have hn := lastEntry_none.1 h
      constructor
      · intro hx
        simp only at hx
        split at hx
        · next he =>
          cases hx
          refine ⟨0, by rw [← he]; rfl, ?_⟩
          intro j e' hj he'
          cases j with
          | zero => omega
          | succ j => exact hn e' (List.mem_of_getElem? (by simpa using he'))
        · cases hx
      · rintro ⟨j, h3, h4⟩
        cases j with
        | zero => simp at h3; simp [h3]
        | succ j => exact absurd rfl (hn (label, a) (List.mem_of_getElem? (by simpa using h3)))

theorem numbered_get (i : Nat) : ∀ (fs : List (Str × Ty)) (k : Nat),
    (numbered fs k)[i]? = (fs[i]?).map fun f => (f.1, k + i) := by
  induction i with
  | zero => intro fs k; cases fs <;> simp [numbered]
  | succ i ih =>
    intro fs k
    cases fs with
    | nil => simp [numbered]
    | cons f fs =>
      simp only [numbered, List.getElem?_cons_succ, ih]
      cases fs[i]? with
      | none => rfl
      | some f => simp; omega

theorem fieldIndex_iff {fs : List (Str × Ty)} {label : Str} {i : Nat} :
    lastEntry label (numbered fs 0) = some i ↔
      ∃ f, fs[i]? = some f ∧ f.1 = label ∧
        ∀ (j : Nat) (g : Str × Ty), i < j → fs[j]? = some g → g.1 ≠ label := by
  rw [lastEntry_some]
  constructor
  · rintro ⟨j, h1, h2⟩
    rw [numbered_get] at h1
    cases hf : fs[j]? with
    | none => simp [hf] at h1
    | some f =>
      simp [hf] at h1
      obtain ⟨h3, rfl⟩ := h1
      refine ⟨f, hf, h3, ?_⟩
      intro j' g hj hg
      exact h2 j' (g.1, j') hj (by rw [numbered_get, hg]; simp)
  · rintro ⟨f, h1, h2, h3⟩
    refine ⟨i, by rw [numbered_get, h1]; simp [h2], ?_⟩
    intro j e hj he
    rw [numbered_get] at he
    cases hg : fs[j]? with
    | none => simp [hg] at he
    | some g => simp [hg] at he; subst he; exact h3 j g hj hg

theorem parsersF_get (env : Env) (p : Path) (i : Nat) : ∀ (fs : List (Str × Ty)) (k : Nat),
    (parsersF env p fs k)[i]? = (fs[i]?).map fun f => parserFor env (p ++ [k + i]) f.2 := by
  induction i with
  | zero =>
    intro fs k
    rcases fs with _ | ⟨⟨l, t⟩, fs⟩
    · simp [parsersF]
    · simp [parsersF, parserP]
  | succ i ih =>
    intro fs k
    cases fs with
    | nil => simp [parsersF]
    | cons f fs =>
      simp only [parsersF, List.getElem?_cons_succ, ih]
      rw [show k + 1 + i = k + (i + 1) by omega]

theorem parsersF_length (env : Env) (p : Path) : ∀ (fs : List (Str × Ty)) (k : Nat),
    (parsersF env p fs k).length = fs.length
  | [], _ => by simp [parsersF]
  | f :: fs, k => by simp [parsersF, parsersF_length env p fs]

theorem parsersE_get (env : Env) (p : Path) (i : Nat) : ∀ (fs : List (Str × Ty)) (k : Nat),
    (parsersE env p fs k)[i]? =
      (fs[i]?).map fun f => (f.1, (k + i, parserFor env (p ++ [k + i]) f.2)) := by
  induction i with
  | zero =>
    intro fs k
    rcases fs with _ | ⟨⟨l, t⟩, fs⟩
    · simp [parsersE]
    · simp [parsersE, parserP]
  | succ i ih =>
    intro fs k
    cases fs with
    | nil => simp [parsersE]
    | cons f fs =>
      simp only [parsersE, List.getElem?_cons_succ, ih]
      rw [show k + 1 + i = k + (i + 1) by omega]

theorem findCase_iff {env : Env} {p : Path} {cs : List (Str × Ty)} {label : Str} {i : Nat} {P : Parser} :
    lastEntry label (parsersE env p cs 0) = some (i, P) ↔
      ∃ c, cs[i]? = some c ∧ c.1 = label ∧ P = parserFor env (p ++ [i]) c.2 ∧
        ∀ (j : Nat) (g : Str × Ty), i < j → cs[j]? = some g → g.1 ≠ label := by
  rw [lastEntry_some]
  constructor
  · rintro ⟨j, h1, h2⟩
    rw [parsersE_get] at h1
    cases hf : cs[j]? with
    | none => simp [hf] at h1
    | some f =>
      simp [hf] at h1
      obtain ⟨h3, rfl, h4⟩ := h1
      refine ⟨f, hf, h3, h4.symm, ?_⟩
      intro j' g hj hg
      exact h2 j' (g.1, _) hj (by rw [parsersE_get, hg]; rfl)
  · rintro ⟨f, h1, h2, h4, h3⟩
    refine ⟨i, by rw [parsersE_get, h1]; simp [h2, h4], ?_⟩
    intro j e hj he
    rw [parsersE_get] at he
    cases hg : cs[j]? with
    | none => simp [hg] at he
    | some g => simp [hg] at he; subst he; exact h3 j g hj hg

/-! ## Separators -/

theorem sepBy_cons {α : Type} (sep : α) : ∀ (x : List α) (xs : List (List α)),
    sepBy sep (x :: xs) = x ++ xs.flatMap (sep :: ·)
  | x, [] => by simp [sepBy]
  | x, y :: ys => by rw [sepBy, sepBy_cons sep y ys]; simp

/-- Items with separators between them, or before each. -/
def sepToks {α : Type} (sep : α) (first : Bool) (xs : List (List α)) : List α :=
  bif first then sepBy sep xs else xs.flatMap (sep :: ·)

theorem sepToks_cons {α : Type} (sep : α) (first : Bool) (x : List α) (xs : List (List α)) :
    sepToks sep first (x :: xs) = (bif first then [] else [sep]) ++ x ++ sepToks sep false xs := by
  cases first
  · simp [sepToks]
  · simp [sepToks, sepBy_cons]

theorem separator_iff {env : Env} {first : Bool} {st st' : St} :
    separator env first st = .ok st' ↔
      Goes env st (bif first then [] else [.comma]) st' ∧ st'.out = st.out := by
  unfold separator
  cases first with
  | false => simp only [Bool.false_eq_true, if_false, cond_false]; exact mustBe_iff
  | true =>
    simp only [if_true, cond_true]
    constructor
    · intro h; cases h; exact ⟨.nil, rfl⟩
    · rintro ⟨h1, h2⟩
      unfold Goes at h1
      cases st; cases st'
      simp only at h1 h2
      cases h1
      rw [h2]

theorem toksL_map (ts : List Tree) : toksL ts = ts.map Tree.toks := by
  induction ts with
  | nil => rfl
  | cons t ts ih => simp [toksL, ih]

theorem toksM_map (ms : List (Str × Tree)) : toksM ms = ms.map memberToks := by
  induction ms with
  | nil => rfl
  | cons m ms ih => simp [toksM, ih]

/-! ## Numbers -/

theorem parseSigned_iff (lo hi : Int) (s : Str) (i : Int) :
    parseSigned lo hi s = some i ↔ SignedNumeral s i ∧ lo ≤ i ∧ i ≤ hi := by
  have plain : ∀ (c : Char) (cs : Str), c ≠ '-' → (parseSigned lo hi (c :: cs) = some i ↔
      (∃ n : Nat, Numeral (c :: cs) n ∧ i = n) ∧ lo ≤ i ∧ i ≤ hi) := by
    intro c cs hc
    have hu : ∀ n, parseUnsigned n (c :: cs) = some n ↔ Numeral (c :: cs) n := fun n => by
      rw [parseUnsigned_iff]; simp
    unfold parseSigned
    simp only [hc, if_false]
    unfold parseUnsigned at hu
    by_cases he : (stripPlus (c :: cs)).isEmpty = true
    · simp only [he, if_true] at hu ⊢
      constructor
      · intro h; cases h
      · rintro ⟨⟨n, hn, _⟩, _⟩; exact absurd ((hu n).2 hn) (by simp)
    · simp only [he] at hu ⊢
      cases hp : parseDigits 0 (stripPlus (c :: cs)) with
      | none =>
        simp only [hp] at hu ⊢
        constructor
        · intro h; simp at h
        · rintro ⟨⟨n, hn, _⟩, _⟩; exact absurd ((hu n).2 hn) (by simp)
      | some m =>
        simp only [hp] at hu ⊢
        have hm : ∀ n, Numeral (c :: cs) n ↔ n = m := fun n => by
          rw [← hu n]
          simp only [Bool.false_eq_true, if_false]
          constructor
          · intro h; split at h
            · exact (Option.some.inj h).symm
            · cases h
          · rintro rfl; simp
        simp only [Bool.false_eq_true, if_false]
        constructor
        · intro h
          split at h
          · next hb => cases h; exact ⟨⟨m, (hm m).2 rfl, rfl⟩, hb⟩
          · cases h
        · rintro ⟨⟨n, hn, rfl⟩, hb⟩
          rw [(hm n).1 hn] at hb ⊢
          rw [if_pos hb]
  have noMinus : ∀ (cs : Str) (n : Nat), ¬ Numeral ('-' :: cs) n := by
    rintro cs n ⟨ds, h0, h1, h2 | h2, _⟩
    · cases ds with
      | nil => exact h0 rfl
      | cons d ds =>
        simp only [List.map_cons, List.cons.injEq] at h2
        exact absurd h2.1.symm (digitChar_ne (h1 d (by simp)) (by decide))
    · simp at h2
  have minus : ∀ cs : Str, (parseSigned lo hi ('-' :: cs) = some i ↔
      (∃ n : Nat, cs.head? ≠ some '+' ∧ Numeral cs n ∧ i = -(n : Int)) ∧ lo ≤ i ∧ i ≤ hi) := by
    intro cs
    have hu : ∀ n, cs.head? ≠ some '+' → (parseUnsigned n cs = some n ↔ Numeral cs n) := fun n _ => by
      rw [parseUnsigned_iff]; simp
    have hs : cs.head? ≠ some '+' → stripPlus cs = cs := by
      intro h
      cases cs with
      | nil => rfl
      | cons c cs => simp at h; simp [stripPlus, h]
    have hplus : cs.head? = some '+' → parseDigits 0 cs = none := by
      intro h
      cases cs with
      | nil => simp at h
      | cons c cs => simp at h; subst h; simp [parseDigits, isDigit]
    unfold parseSigned
    simp only [if_true]
    by_cases hh : cs.head? = some '+'
    · have hne : cs.isEmpty = false := by cases cs <;> simp at hh ⊢
      simp only [hplus hh, hne, hh, ne_eq, not_true, false_and, exists_false, iff_false,
        Bool.false_eq_true, if_false]
      simp
    · unfold parseUnsigned at hu
      rw [hs hh] at hu
      by_cases he : cs.isEmpty = true
      · simp only [he, if_true] at hu ⊢
        constructor
        · intro h; cases h
        · rintro ⟨⟨n, hc, hn, _⟩, _⟩; exact absurd ((hu n hc).2 hn) (by simp)
      · simp only [he] at hu ⊢
        cases hp : parseDigits 0 cs with
        | none =>
          simp only [hp] at hu ⊢
          constructor
          · intro h; simp at h
          · rintro ⟨⟨n, hc, hn, _⟩, _⟩; exact absurd ((hu n hc).2 hn) (by simp)
        | some m =>
          simp only [hp] at hu ⊢
          have hm : ∀ n, Numeral cs n ↔ n = m := fun n => by
            rw [← hu n hh]
            simp only [Bool.false_eq_true, if_false]
            constructor
            · intro h; split at h
              · exact (Option.some.inj h).symm
              · cases h
            · rintro rfl; simp
          simp only [Bool.false_eq_true, if_false]
          constructor
          · intro h
            split at h
            · next hb => cases h; exact ⟨⟨m, hh, (hm m).2 rfl, rfl⟩, hb⟩
            · cases h
          · rintro ⟨⟨n, _, hn, rfl⟩, hb⟩
            rw [(hm n).1 hn] at hb ⊢
            rw [if_pos hb]
  cases s with
  | nil =>
    constructor
    · intro h; cases h
    · rintro ⟨⟨n, ⟨ds, h0, _, h2 | h2, _⟩, _⟩ | ⟨s', n, h, _⟩, _⟩
      · cases ds with
        | nil => exact absurd rfl h0
        | cons d ds => simp at h2
      · cases h2
      · cases h
  | cons c cs =>
    by_cases hc : c = '-'
    · subst hc
      rw [minus cs]
      constructor
      · rintro ⟨⟨n, h1, h2, h3⟩, hb⟩; exact ⟨.inr ⟨cs, n, rfl, h1, h2, h3⟩, hb⟩
      · rintro ⟨⟨n, hn, _⟩ | ⟨s', n, h, h1, h2, h3⟩, hb⟩
        · exact absurd hn (noMinus cs n)
        · cases h; exact ⟨⟨n, h1, h2, h3⟩, hb⟩
    · rw [plain c cs hc]
      constructor
      · rintro ⟨h, hb⟩; exact ⟨.inl h, hb⟩
      · rintro ⟨h | ⟨s', n, h, _⟩, hb⟩
        · exact ⟨h, hb⟩
        · cases h; exact absurd rfl hc

theorem map_unsigned_iff {w : Nat} {mk : BitVec w → PrimVal} (hmk : ∀ x y, mk x = mk y → x = y)
    (s : Str) (v : BitVec w) :
    (parseUnsigned (2 ^ w - 1) s).map (fun n => mk (BitVec.ofNat w n)) = some (mk v) ↔
      Numeral s v.toNat := by
  have hb : 0 < 2 ^ w := Nat.two_pow_pos w
  constructor
  · intro h
    rw [Option.map_eq_some_iff] at h
    obtain ⟨n, h1, h2⟩ := h
    obtain ⟨h3, h4⟩ := (parseUnsigned_iff _ _ _).1 h1
    have := hmk _ _ h2
    subst this
    rw [BitVec.toNat_ofNat, Nat.mod_eq_of_lt (by omega)]
    exact h3
  · intro h
    have hl := v.isLt
    rw [(parseUnsigned_iff _ _ _).2 ⟨h, by omega⟩]
    simp

theorem map_signed_iff {w : Nat} {mk : BitVec (w + 1) → PrimVal}
    (hmk : ∀ x y, mk x = mk y → x = y) (s : Str) (v : BitVec (w + 1)) :
    (parseSigned (-2 ^ w) (2 ^ w - 1) s).map (fun i => mk (BitVec.ofInt (w + 1) i)) = some (mk v) ↔
      SignedNumeral s v.toInt := by
  have hr := @BitVec.toInt_lt (w + 1) v
  have hl := @BitVec.le_toInt (w + 1) v
  simp only [Nat.add_sub_cancel] at hr hl
  constructor
  · intro h
    rw [Option.map_eq_some_iff] at h
    obtain ⟨i, h1, h2⟩ := h
    obtain ⟨h3, h4, h5⟩ := (parseSigned_iff _ _ _ _).1 h1
    have := hmk _ _ h2
    subst this
    rw [BitVec.toInt_ofInt, Int.bmod_eq_of_le]
    · exact h3
    · have : ((2 ^ (w + 1) : Nat) : Int) / 2 = 2 ^ w := by
        rw [Nat.pow_succ]; push_cast; omega
      omega
    · have : (((2 ^ (w + 1) : Nat) : Int) + 1) / 2 = 2 ^ w := by
        rw [Nat.pow_succ]; push_cast; omega
      omega
  · intro h
    rw [(parseSigned_iff _ _ _ _).2 ⟨h, hl, by omega⟩]
    simp

theorem primVal_inj {p : Prim} (x y : p.Val) (h : (⟨p, x⟩ : PrimVal) = ⟨p, y⟩) : x = y := by
  cases h; rfl

theorem map_float_iff {p : Prim} {o : Option p.Val} {v : p.Val} :
    o.map (fun x => (⟨p, x⟩ : PrimVal)) = some ⟨p, v⟩ ↔ o = some v := by
  cases o with
  | none => simp
  | some x =>
    constructor
    · intro h; rw [primVal_inj _ _ (Option.some.inj h)]
    · intro h; rw [Option.some.inj h]; rfl

theorem fromStr_val_iff {F : FloatText} {s : Str} : ∀ {v : PrimVal},
    fromStr F v.kind s = some v ↔ NumText F s v
  | ⟨.u8, v⟩ => map_unsigned_iff (mk := fun x => ⟨.u8, x⟩) (primVal_inj (p := .u8)) s v
  | ⟨.u16, v⟩ => map_unsigned_iff (mk := fun x => ⟨.u16, x⟩) (primVal_inj (p := .u16)) s v
  | ⟨.u32, v⟩ => map_unsigned_iff (mk := fun x => ⟨.u32, x⟩) (primVal_inj (p := .u32)) s v
  | ⟨.u64, v⟩ => map_unsigned_iff (mk := fun x => ⟨.u64, x⟩) (primVal_inj (p := .u64)) s v
  | ⟨.u128, v⟩ => map_unsigned_iff (mk := fun x => ⟨.u128, x⟩) (primVal_inj (p := .u128)) s v
  | ⟨.i8, v⟩ => map_signed_iff (mk := fun x => ⟨.i8, x⟩) (primVal_inj (p := .i8)) s v
  | ⟨.i16, v⟩ => map_signed_iff (mk := fun x => ⟨.i16, x⟩) (primVal_inj (p := .i16)) s v
  | ⟨.i32, v⟩ => map_signed_iff (mk := fun x => ⟨.i32, x⟩) (primVal_inj (p := .i32)) s v
  | ⟨.i64, v⟩ => map_signed_iff (mk := fun x => ⟨.i64, x⟩) (primVal_inj (p := .i64)) s v
  | ⟨.i128, v⟩ => map_signed_iff (mk := fun x => ⟨.i128, x⟩) (primVal_inj (p := .i128)) s v
  | ⟨.f32, v⟩ => map_float_iff (p := .f32)
  | ⟨.f64, v⟩ => map_float_iff (p := .f64)
  | ⟨.bool, v⟩ => by simp [fromStr, NumText]
  | ⟨.char, v⟩ => by simp [fromStr, NumText]

theorem map_kind {α : Type} {p : Prim} {o : Option α} {g : α → p.Val} {v : PrimVal}
    (h : o.map (fun x => (⟨p, g x⟩ : PrimVal)) = some v) : v.kind = p := by
  cases o with
  | none => cases h
  | some x => cases h; rfl

theorem fromStr_kind {F : FloatText} {p : Prim} {s : Str} {v : PrimVal} (h : fromStr F p s = some v) :
    v.kind = p := by
  cases p <;> unfold fromStr at h <;> first | (cases h; done) | exact map_kind h

theorem fromStr_iff {F : FloatText} {p : Prim} {s : Str} {v : PrimVal} :
    fromStr F p s = some v ↔ v.kind = p ∧ NumText F s v := by
  constructor
  · intro h
    have := fromStr_kind h
    subst this
    exact ⟨rfl, fromStr_val_iff.1 h⟩
  · rintro ⟨rfl, h⟩
    exact fromStr_val_iff.2 h

theorem Spec.Denotes.typed {F : FloatText} {t : Ty} {tr : Tree} {v : Val} (h : Denotes F t tr v) :
    Typed t v := by
  induction h with
  | unit => exact .unit
  | bool b => exact .prim ⟨.bool, b⟩
  | char c => exact .prim ⟨.char, c⟩
  | num h _ => subst h; exact .prim _
  | numStr h _ => subst h; exact .prim _
  | string s => exact .str _
  | tuple h1 h2 _ ih =>
    refine .tuple h2 ?_
    intro i c v hc hv
    have hi : i < _ := (List.getElem?_eq_some_iff.1 hc).1
    exact ih i c _ v hc (List.getElem?_eq_getElem (by omega)) hv
  | struct hn hp hl _ ih =>
    refine .struct hl ?_
    intro i f v hf hv
    have hm : f.1 ∈ _ := (hp.mem_iff).2 (List.mem_map_of_mem (List.mem_of_getElem? hf))
    obtain ⟨⟨l, t⟩, h1, h2⟩ := List.mem_map.1 hm
    exact ih i f t v hf (h2 ▸ h1) hv
  | enum hc _ _ ih => exact .enum hc ih

end Verif
