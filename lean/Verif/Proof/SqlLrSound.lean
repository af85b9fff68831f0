import Verif.Proof.SqlGrammarSem
/-!
# Soundness and termination of the parser

The values on the stack of the parser stand for the words read so far, in the sense of the grammar; no reduction
fails; and a weight of stack and input decreases with every round.
-/

namespace Verif.Sql.Parser
open Grammar

/-- Tokens as the lexer makes them: a known pattern, and quotes around strings. -/
structure Good (t : Token) : Prop where
  index : t.index < 83
  quoted : Quoted (lexeme t)

/-- States, values and symbols on the stack fit together, and the values stand for the words `w`. -/
inductive Stack : List Nat → List Symbol → List Sym → List Lexeme → Prop where
  | base : Stack [0] [] [] []
  | push {s ss vs Xs w x s' u v} : Stack (s :: ss) vs Xs w → Edge s x s' → Sem x u v →
      Stack (s' :: s :: ss) (v :: vs) (x :: Xs) (w ++ u)

theorem Stack.lt {s ss vs Xs w} (h : Stack (s :: ss) vs Xs w) : s < 329 := by
  cases h with
  | base => omega
  | push _ e _ => exact e.lt

theorem Stack.zero {ss vs Xs w} (h : Stack (0 :: ss) vs Xs w) : ss = [] ∧ vs = [] ∧ Xs = [] ∧ w = [] := by
  cases h with
  | base => exact ⟨rfl, rfl, rfl, rfl⟩
  | push _ e _ => exact absurd e.pos (by omega)

theorem Sems.snoc : ∀ {xs u args x u' v}, Sems xs u args → Sem x u' v → Sems (xs ++ [x]) (u ++ u') (args ++ [v])
  | [], _, _, _, u', v, h, h' => by
    obtain ⟨rfl, rfl⟩ := h
    exact ⟨u', [], v, [], by simp, rfl, h', rfl, rfl⟩
  | _ :: xs, _, _, _, u', v, h, h' => by
    obtain ⟨w₁, w₂, v₁, vs, rfl, rfl, h1, h2⟩ := h
    exact ⟨w₁, w₂ ++ u', v₁, vs ++ [v], by simp, rfl, h1, Sems.snoc h2 h'⟩

/-- Below the symbols of an item the stack has the item with nothing before the dot. -/
theorem Stack.pop : ∀ {d p s ss vs Xs w}, Stack (s :: ss) vs Xs w → Item s p d →
    ∃ s₀ ss₀ vs₀ Xs₀ w₀ args u, Stack (s₀ :: ss₀) vs₀ Xs₀ w₀ ∧ (s :: ss).drop d = s₀ :: ss₀ ∧ d ≤ ss.length ∧
      Item s₀ p 0 ∧ vs = args.reverse ++ vs₀ ∧ Xs = ((rhs p).take d).reverse ++ Xs₀ ∧ Sems ((rhs p).take d) u args ∧
      w = w₀ ++ u
  | 0, p, s, ss, vs, Xs, w, h, hi =>
    ⟨s, ss, vs, Xs, w, [], [], h, rfl, Nat.zero_le _, hi, rfl, rfl, ⟨rfl, rfl⟩, by simp⟩
  | d + 1, p, s, ss, vs, Xs, w, h, hi => by
    cases h with
    | base => exact absurd (hi.facts.2.2.2 (by omega)) (by omega)
    | @push s₁ ss vs Xs w x _ u v h e hsem =>
      obtain ⟨hx, hi'⟩ := e.back p d hi
      obtain ⟨s₀, ss₀, vs₀, Xs₀, w₀, args, u', h1, h2, h3, h4, h5, h6, h7, h8⟩ := Stack.pop h hi'
      have ht : (rhs p).take (d + 1) = (rhs p).take d ++ [x] := by rw [List.take_add_one, hx]; rfl
      exact ⟨s₀, ss₀, vs₀, Xs₀, w₀, args ++ [v], u' ++ u, h1, by simpa using h2, by simp; omega, h4, by simp [h5],
        by simp [ht, h6], by rw [ht]; exact h7.snoc hsem, by rw [h8, List.append_assoc]⟩

theorem lhs_start : lhs 223 = 79 := by decide

/-- The start item is in the start state only; the other items with nothing before the dot come with a transition. -/
theorem item_zero {s p : Nat} (h : Item s p 0) : (p = 223 ∧ s = 0) ∨ (p < 223 ∧
    Edge s (.n (lhs p)) (goto s (lhs p)) ∧ bonus (goto s (lhs p)) ≤ ntBonus[lhs p]?.getD 0) := by
  have hf := h.facts
  obtain ⟨x, hx, rfl, hd⟩ := h
  obtain ⟨pre, post, hs⟩ := List.append_of_mem hx
  rcases item_origin hs hd with h | ⟨y, hy, β, hb⟩
  · exact .inl h
  · refine .inr ?_
    have hi : Item s (y % 256) (y / 256 % 16) := ⟨y, by rw [hs]; exact List.mem_append_left _ hy, rfl, rfl⟩
    have hmem : Sym.n (lhs (x % 256)) ∈ rhs (y % 256) := List.mem_of_mem_drop (by rw [hb]; exact List.mem_cons_self)
    have hlt : lhs (x % 256) < 79 := by
      by_cases hy2 : y % 256 < 223
      · exact ((rule_facts hy2).symbols hi.facts.2.1 _ hmem).1
      · have : y % 256 = 223 := by have := hi.facts.1; omega
        rw [this, rhs_start] at hmem
        simp at hmem
        omega
    have hne : x % 256 ≠ 223 := fun he => by rw [he, lhs_start] at hlt; omega
    exact ⟨by have := hf.1; omega, hi.edge hb⟩

/-! ## One round -/

/-- Weight of a stack. -/
def stackWeight (s : Nat) (Xs : List Sym) : Nat := (Xs.map weight).sum + bonus s

/-- The end of the last of some tokens. -/
def lastStop : Nat → List Token → Nat
  | l, [] => l
  | _, t :: ts => lastStop t.stop ts

theorem lastStop_append : ∀ (r r' : List Token) (l : Nat), lastStop l (r ++ r') = lastStop (lastStop l r) r'
  | [], _, _ => rfl
  | t :: r, r', _ => lastStop_append r r' t.stop

/-- The result of one round, for a stack standing for `w` with weight `m`. -/
inductive RoundOk (c : Config) (w : List Lexeme) (m : Nat) : Round → Prop where
  | more {s ss vs Xs w' input last} : Stack (s :: ss) vs Xs w' →
      (∃ r, c.input = r ++ input ∧ w' = w ++ r.map lexeme ∧ last = lastStop c.last r) →
      19 * input.length + stackWeight s Xs < 19 * c.input.length + m →
      RoundOk c w m (.more ⟨s :: ss, vs, input, c.invalid, last⟩)
  | accept {x : SqlStatement Name} : c.input = [] → c.invalid = none → Gr .sqlStatement w x →
      RoundOk c w m (.done (.ok x))
  | refuse {s ss t rest} : c.states = s :: ss → c.input = t :: rest → act s (code (lexeme t).1) = 0 →
      RoundOk c w m (.done (.error (.unrecognizedToken t (expectedTokens s))))
  | refuseEof {s ss} : c.states = s :: ss → c.input = [] → c.invalid = none → act s 83 = 0 →
      RoundOk c w m (.done (.error (.unrecognizedEof c.last (expectedTokens s))))
  | invalid {l} : c.input = [] → c.invalid = some l → RoundOk c w m (.done (.error (.invalidToken l)))

theorem sum_append (xs ys : List Sym) : ((xs ++ ys).map weight).sum = (xs.map weight).sum + (ys.map weight).sum := by
  simp

theorem sum_reverse (xs : List Sym) : (xs.reverse.map weight).sum = (xs.map weight).sum := by
  induction xs with
  | nil => rfl
  | cons x xs ih => simp at ih ⊢; omega

/-- A reduction other than that of the start production. -/
theorem reduce_round {s ss vs Xs w t p input inv last} (hst : Stack (s :: ss) vs Xs w)
    (hla : la input inv = some t) (hlt : input ≠ [] → t < 83) (ha : act s t = .negSucc p) (hp : p < 223) :
    ∃ c', round ⟨s :: ss, vs, input, inv, last⟩ = .ok (.more c') ∧
      RoundOk ⟨s :: ss, vs, input, inv, last⟩ w (stackWeight s Xs) (.more c') := by
  obtain ⟨_, _, hitem, hempty⟩ := act_reduce hst.lt ha
  obtain ⟨s₀, ss₀, vs₀, Xs₀, w₀, args, u, h1, h2, h3, h4, h5, h6, h7, h8⟩ := hst.pop hitem
  rw [List.take_length] at h6 h7
  rcases item_zero h4 with ⟨he, _⟩ | ⟨_, hedge, hbonus⟩
  · omega
  · have hused := hitem.facts.2.1
    obtain ⟨v, ⟨f, n, A, hr1, hr2⟩, hsem⟩ := prods_ok p hp hused u args h7
    obtain ⟨f', hf'⟩ := (rule_facts hp).red
    rw [hr1] at hf'
    simp only [Option.some.injEq, Prod.mk.injEq] at hf'
    obtain ⟨_, rfl, rfl⟩ := hf'
    have happ : f vs = .ok (v :: vs₀) := by rw [h5]; exact hr2 vs₀
    have hround := round_reduce (last := last) hst.lt hla hlt ha hp hr1 happ (by simp; omega) h2
    refine ⟨_, hround, ?_⟩
    have hnew := Stack.push h1 hedge hsem
    refine RoundOk.more (last := last) hnew ⟨[], rfl, by rw [h8]; simp, rfl⟩ ?_
    refine Nat.add_lt_add_left (k := 19 * input.length) ?_
    simp only [stackWeight, h6, sum_append, sum_reverse, List.map_cons, List.sum_cons]
    by_cases hnil : rhs p = []
    · obtain ⟨hb1, hb2, hb3⟩ := hempty hnil
      have hs0 : s₀ = s := by
        rw [hnil] at h2
        simp only [List.length_nil, List.drop_zero, List.cons.injEq] at h2
        exact h2.1.symm
      subst hs0
      rw [hb3, hb1]
      simp only [weight, hb2]
      omega
    · have := (rule_facts hp).weights hused hnil
      omega

/-- A round in a good configuration. -/
theorem round_ok {s ss vs Xs w input inv last} (hst : Stack (s :: ss) vs Xs w) (hg : ∀ t ∈ input, Good t) :
    ∃ r, round ⟨s :: ss, vs, input, inv, last⟩ = .ok r ∧
      RoundOk ⟨s :: ss, vs, input, inv, last⟩ w (stackWeight s Xs) r := by
  cases input with
  | cons tk rest =>
    have hgt := hg tk List.mem_cons_self
    obtain ⟨hk1, hk2⟩ := code_lexeme hgt.index
    generalize hk : code (lexeme tk).1 = k at hk1 hk2
    cases ha : act s k with
    | negSucc p =>
      have hp : p < 223 := by
        obtain ⟨h1, h2, _⟩ := act_reduce hst.lt ha
        have : p ≠ 223 := fun he => by have := h2 he; omega
        omega
      obtain ⟨c', h1, h2⟩ := reduce_round (last := last) (inv := inv) hst (input := tk :: rest) hk1 (fun _ => hk2) ha hp
      exact ⟨_, h1, h2⟩
    | ofNat n =>
      cases n with
      | zero =>
        refine ⟨_, ?_, .refuse rfl rfl (by rw [hk]; exact ha)⟩
        simp only [round, roundToken, hk1, action_ok hst.lt hk2, ha, bind, Except.bind]
        rfl
      | succ s' =>
        obtain ⟨_, hedge, hw⟩ := act_shift (s' := s') hst.lt ha
        refine ⟨_, round_shift hst.lt hk2 hk1 ha, ?_⟩
        have hsem : Sem (.t k) [lexeme tk] (.variant0 tk.text) := ⟨lexeme tk, rfl, hk, rfl, hgt.quoted⟩
        refine RoundOk.more (last := tk.stop) (hst.push hedge hsem) ⟨[tk], rfl, rfl, rfl⟩ ?_
        simp only [stackWeight, List.map_cons, List.sum_cons, List.length_cons, weight]
        omega
  | nil =>
    cases inv with
    | some l => exact ⟨_, rfl, .invalid rfl rfl⟩
    | none =>
      cases ha : act s 83 with
      | ofNat n =>
        cases n with
        | zero =>
          refine ⟨_, ?_, .refuseEof rfl rfl rfl ha⟩
          simp only [round, roundEof, eofAction_ok hst.lt, ha, bind, Except.bind]
          rfl
        | succ s' => exact absurd (act_shift (s' := s') hst.lt ha).1 (by omega)
      | negSucc p =>
        obtain ⟨hp, _, hitem, _⟩ := act_reduce hst.lt ha
        by_cases hp' : p < 223
        · obtain ⟨c', h1, h2⟩ := reduce_round (last := last) (inv := none) (input := []) hst rfl (fun h => absurd rfl h)
            ha hp'
          exact ⟨_, h1, h2⟩
        · have : p = 223 := by omega
          subst this
          obtain ⟨s₀, ss₀, vs₀, Xs₀, w₀, args, u, h1, h2, h3, h4, h5, h6, h7, h8⟩ := hst.pop hitem
          rw [List.take_length, rhs_start] at h7
          rcases item_zero h4 with ⟨_, hs0⟩ | ⟨hlt, _⟩
          · subst hs0
            obtain ⟨rfl, rfl, rfl, rfl⟩ := h1.zero
            obtain ⟨u', _, _, _, rfl, rfl, ⟨x, rfl, hx⟩, rfl, rfl⟩ := h7
            refine ⟨.done (.ok x), ?_, .accept rfl rfl (by rw [h8]; simpa using hx)⟩
            have hn1 : (Int.negSucc 223) < 0 := by omega
            have hn2 : (-(Int.negSucc 223) - 1).toNat = 223 := by omega
            subst h5
            simp only [round, roundEof, eofAction_ok hst.lt, ha, bind, Except.bind, hn1, hn2, reduce, wrap,
              List.reverse_cons, List.reverse_nil, List.nil_append, List.append_nil, pop41, action0, if_true]
          · omega

/-! ## All rounds -/

/-- Some rounds that do not return. -/
inductive Steps : Config → Config → Prop where
  | refl {c} : Steps c c
  | head {c c' c''} : round c = .ok (.more c') → Steps c' c'' → Steps c c''

/-- Within as many rounds as the weight the parser gets to a configuration in which it returns. -/
theorem run_ok : ∀ {n : Nat} {s ss vs Xs w input inv last}, Stack (s :: ss) vs Xs w → (∀ t ∈ input, Good t) →
    19 * input.length + stackWeight s Xs < n →
    ∃ o s' ss' vs' Xs' w' r input' last', run n ⟨s :: ss, vs, input, inv, last⟩ = some (.ok o) ∧
      Steps ⟨s :: ss, vs, input, inv, last⟩ ⟨s' :: ss', vs', input', inv, last'⟩ ∧
      round ⟨s' :: ss', vs', input', inv, last'⟩ = .ok (.done o) ∧
      RoundOk ⟨s' :: ss', vs', input', inv, last'⟩ w' (stackWeight s' Xs') (.done o) ∧
      Stack (s' :: ss') vs' Xs' w' ∧ input = r ++ input' ∧ w' = w ++ r.map lexeme ∧ last' = lastStop last r
  | 0, _, _, _, _, _, _, _, _, _, _, hn => absurd hn (by omega)
  | n + 1, s, ss, vs, Xs, w, input, inv, last, hst, hg, hn => by
    obtain ⟨r, hr, hok⟩ := round_ok (inv := inv) (last := last) hst hg
    cases r with
    | done o =>
      exact ⟨o, s, ss, vs, Xs, w, [], input, last, by simp only [run, hr], .refl, hr, hok, hst, rfl, by simp, rfl⟩
    | more c' =>
      cases hok with
      | @more s₁ ss₁ vs₁ Xs₁ w₁ input₁ last₁ h1 h2 h3 =>
        obtain ⟨r₁, hr1, hr2, hr3⟩ := h2
        simp only at hr1 hr3 h3
        subst hr1
        obtain ⟨o, s', ss', vs', Xs', w', r', input', last', e1, e2, e3, e4, e5, e6, e7, e8⟩ :=
          run_ok (n := n) (inv := inv) (last := last₁) h1 (fun t ht => hg t (List.mem_append_right _ ht)) (by omega)
        refine ⟨o, s', ss', vs', Xs', w', r₁ ++ r', input', last', by simp only [run, hr]; exact e1, .head hr e2, e3, e4,
          e5, by rw [e6, List.append_assoc], by rw [e7, hr2]; simp, by rw [e8, hr3, lastStop_append]⟩

theorem Steps.run {c c' : Config} (h : Steps c c') : ∃ n, ∀ m, Parser.run (n + m) c = Parser.run m c' := by
  induction h with
  | refl => exact ⟨0, fun m => by rw [Nat.zero_add]⟩
  | head h _ ih =>
    obtain ⟨n, hn⟩ := ih
    exact ⟨n + 1, fun m => by rw [show n + 1 + m = n + m + 1 by omega, Parser.run, h]; exact hn m⟩

theorem run_add : ∀ {n : Nat} {c : Config} {o}, run n c = some o → ∀ m, run (n + m) c = some o
  | 0, _, _, h, _ => by simp [run] at h
  | n + 1, c, o, h, m => by
    rw [show n + 1 + m = n + m + 1 by omega]
    simp only [run] at h ⊢
    cases hr : round c with
    | error f => simpa [hr] using h
    | ok r =>
      cases r with
      | done o' => simpa [hr] using h
      | more c' =>
        simp only [hr] at h ⊢
        exact run_add h m

theorem run_unique {n m : Nat} {c : Config} {o o'} (h : run n c = some o) (h' : run m c = some o') : o = o' := by
  have h1 := run_add h m
  have h2 := run_add h' n
  rw [Nat.add_comm m n, h1] at h2
  exact Option.some.inj h2

/-! ## The tokens not yet read do not matter -/

theorem roundToken_more {S V t q inv l c'} (h : roundToken ⟨S, V, t :: q, inv, l⟩ t q = .ok (.more c')) :
    (∃ S' V' l', c' = ⟨S', V', q, inv, l'⟩ ∧
      ∀ q' inv', roundToken ⟨S, V, t :: q', inv', l⟩ t q' = .ok (.more ⟨S', V', q', inv', l'⟩)) ∨
    (∃ S' V', c' = ⟨S', V', t :: q, inv, l⟩ ∧
      ∀ q' inv', roundToken ⟨S, V, t :: q', inv', l⟩ t q' = .ok (.more ⟨S', V', t :: q', inv', l⟩)) := by
  simp only [roundToken] at h ⊢
  cases S with
  | nil => simp at h
  | cons s ss =>
    simp only at h ⊢
    cases ht : tokenToInteger t with
    | none => simp [ht] at h
    | some i =>
      simp only [ht, bind, Except.bind] at h ⊢
      cases ha : action s i with
      | error f => simp [ha] at h
      | ok a =>
        simp only [ha] at h ⊢
        by_cases h0 : 0 < a
        · simp only [h0, if_true, Except.ok.injEq, Round.more.injEq] at h ⊢
          exact .inl ⟨_, _, _, h.symm, fun _ _ => rfl⟩
        · simp only [h0, if_false] at h ⊢
          by_cases h1 : a < 0
          · simp only [h1, if_true] at h ⊢
            cases hr : reduce (-a - 1).toNat (s :: ss) V with
            | error f => simp only [hr, reduceCtorEq] at h
            | ok r =>
              simp only [hr] at h ⊢
              cases r with
              | inr v => simp at h
              | inl p =>
                simp only [Except.ok.injEq, Round.more.injEq] at h ⊢
                exact .inr ⟨_, _, h.symm, fun _ _ => rfl⟩
          · simp [h1] at h

theorem roundToken_refuse {S V t q inv l o} (h : roundToken ⟨S, V, t :: q, inv, l⟩ t q = .ok (.done o)) (q' inv') :
    roundToken ⟨S, V, t :: q', inv', l⟩ t q' = .ok (.done o) := by
  simp only [roundToken] at h ⊢
  cases S with
  | nil => simp at h
  | cons s ss =>
    simp only at h ⊢
    cases ht : tokenToInteger t with
    | none => simpa [ht] using h
    | some i =>
      simp only [ht, bind, Except.bind] at h ⊢
      cases ha : action s i with
      | error f => simp [ha] at h
      | ok a =>
        simp only [ha] at h ⊢
        by_cases h0 : 0 < a
        · simp [h0] at h
        · simp only [h0, if_false] at h ⊢
          by_cases h1 : a < 0
          · simp only [h1, if_true] at h ⊢
            cases hr : reduce (-a - 1).toNat (s :: ss) V with
            | error f => simp only [hr, reduceCtorEq] at h
            | ok r =>
              simp only [hr] at h ⊢
              cases r with
              | inr v => simpa using h
              | inl p => simp at h
          · simpa [h1] using h

theorem Steps.swap {c c' : Config} (h : Steps c c') : ∀ {S V i t r inv l}, c = ⟨S, V, i ++ t :: r, inv, l⟩ →
    (t :: r).length ≤ c'.input.length →
    ∃ S' V' i' l', c' = ⟨S', V', i' ++ t :: r, inv, l'⟩ ∧
      ∀ r' inv', Steps ⟨S, V, i ++ t :: r', inv', l⟩ ⟨S', V', i' ++ t :: r', inv', l'⟩ := by
  induction h with
  | refl => intro S V i t r inv l hc hl; exact ⟨S, V, i, l, hc, fun _ _ => .refl⟩
  | @head c c₁ c'' h1 h2 ih =>
    intro S V i t r inv l hc hl
    subst hc
    cases i with
    | nil =>
      rcases roundToken_more (show roundToken _ t r = _ from h1) with ⟨S', V', l', rfl, h3⟩ | ⟨S', V', rfl, h3⟩
      · exfalso
        have : ∀ {a b : Config}, Steps a b → b.input.length ≤ a.input.length := by
          intro a b hab
          induction hab with
          | refl => exact Nat.le_refl _
          | @head a a' b ha _ ih =>
            refine Nat.le_trans ih ?_
            obtain ⟨S, V, input, inv, l⟩ := a
            cases input with
            | nil =>
              cases inv with
              | some _ => simp [round] at ha
              | none =>
                simp only [round, roundEof] at ha
                cases S with
                | nil => simp at ha
                | cons s ss =>
                  simp only [bind, Except.bind] at ha
                  cases he : eofAction s with
                  | error _ => simp [he] at ha
                  | ok e =>
                    simp only [he] at ha
                    by_cases h0 : e < 0
                    · simp only [h0, if_true] at ha
                      cases hr : reduce (-e - 1).toNat (s :: ss) V with
                      | error _ => simp only [hr, reduceCtorEq] at ha
                      | ok r =>
                        simp only [hr] at ha
                        cases r with
                        | inr _ => simp at ha
                        | inl p =>
                          simp only [Except.ok.injEq, Round.more.injEq] at ha
                          subst ha
                          simp
                    · simp [h0] at ha
            | cons t' q =>
              rcases roundToken_more (show roundToken _ t' q = _ from ha) with ⟨_, _, _, rfl, _⟩ | ⟨_, _, rfl, _⟩ <;>
                simp
        have := this h2
        simp only [List.length_cons] at this hl
        omega
      · obtain ⟨S2, V2, i2, l2, e1, e2⟩ := ih (i := []) rfl hl
        exact ⟨S2, V2, i2, l2, e1, fun r' inv' => .head (h3 r' inv') (e2 r' inv')⟩
    | cons a i =>
      rcases roundToken_more (show roundToken _ a (i ++ t :: r) = _ from h1) with ⟨S', V', l', rfl, h3⟩ | ⟨S', V', rfl, h3⟩
      · obtain ⟨S2, V2, i2, l2, e1, e2⟩ := ih (i := i) rfl hl
        exact ⟨S2, V2, i2, l2, e1, fun r' inv' => .head (h3 (i ++ t :: r') inv') (e2 r' inv')⟩
      · obtain ⟨S2, V2, i2, l2, e1, e2⟩ := ih (i := a :: i) rfl hl
        exact ⟨S2, V2, i2, l2, e1, fun r' inv' => .head (h3 (i ++ t :: r') inv') (e2 r' inv')⟩

end Verif.Sql.Parser
