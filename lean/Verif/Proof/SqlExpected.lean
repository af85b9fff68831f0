import Verif.Proof.SqlParse
/-!
# The list of expected words

After most keywords, operators and opening signs the generated parser only shifts.  There the list of expected words
is computed from the state the text before the error leads to.
-/

namespace Verif.Sql.Parser
open Grammar Lexing

/-- All entries of the state are shifts. -/
def onlyShifts (s : Nat) : Bool := ((actionRows[s]?).getD []).all (fun e => decide (0 < e.2)) && decide ((eofActions[s]?).getD 0 = 0)

theorem mem_of_lookup {k : Nat} {a : Int} : ∀ {row : List (Nat × Int)}, row.lookup k = some a → (k, a) ∈ row
  | [], h => by simp at h
  | e :: row, h => by
    rw [List.lookup_cons] at h
    split at h
    · rename_i he
      simp only [beq_iff_eq] at he
      cases h
      subst he
      exact List.mem_cons_self
    · exact List.mem_cons_of_mem _ (mem_of_lookup h)

theorem onlyShifts_act {s k : Nat} (h : onlyShifts s = true) : 0 ≤ act s k := by
  simp only [onlyShifts, Bool.and_eq_true, List.all_eq_true, decide_eq_true_eq] at h
  unfold act
  split
  · omega
  · cases hl : ((actionRows[s]?).getD []).lookup k with
    | none => simp
    | some a =>
      have := h.1 _ (mem_of_lookup hl)
      simp only [Option.getD_some]
      omega

/-- The kinds of words after which the parser only shifts. -/
def opening : List Kind :=
  [.ne, .lpar, .plus, .comma, .minus, .slash, .lt, .le, .eq, .gt, .ge, .AND, .AS, .ATTACH, .BETWEEN, .BY, .CASE,
   .COLLATE, .CROSS, .DATE, .DELETE, .DESCRIBE, .ELSE, .EXPLAIN, .FILE, .FROM, .GROUP, .HAVING, .IN, .INSERT, .INTO,
   .IS, .LIKE, .LIMIT, .NATURAL, .NOT, .OFFSET, .ON, .OR, .ORDER, .PLAN, .QUERY, .SET, .THEN, .TIME, .TIMESTAMP,
   .UPDATE, .USING, .VALUES, .WHEN, .WHERE, .WITH, .bars]

theorem opening_shifts : actionRows.all (fun row => row.all fun e =>
    !(opening.map code).contains e.1 || decide (e.2 ≤ 0) || onlyShifts (e.2 - 1).toNat) = true := by decide +kernel

theorem opening_onlyShifts {s k s' : Nat} {K : Kind} (hs : s < 329) (hK : K ∈ opening) (hk : code K = k)
    (h : act s k = (s' : Int) + 1) : onlyShifts s' = true := by
  obtain ⟨row, e, nts, hr, _, _⟩ := state_ok hs
  have hlt := (act_shift hs h).1
  simp only [act, if_neg (show ¬ k = 83 by omega), hr, Option.getD_some] at h
  cases hl : row.lookup k with
  | none => rw [hl] at h; simp at h; omega
  | some a =>
    rw [hl, Option.getD_some] at h
    have hmem := mem_of_lookup hl
    have := List.all_eq_true.mp (List.all_eq_true.mp opening_shifts row (List.mem_of_getElem? hr)) _ hmem
    have hc : (opening.map code).contains k = true := by
      rw [List.contains_iff_mem, ← hk]; exact List.mem_map_of_mem hK
    simp only [hc, Bool.not_true, Bool.false_or, Bool.or_eq_true, decide_eq_true_eq] at this
    rcases this with h' | h'
    · omega
    · rw [h, show ((s' : Int) + 1 - 1).toNat = s' by omega] at h'
      exact h'

theorem onlyShifts_zero : onlyShifts 0 = true := by decide +kernel

/-! ## Rounds -/

theorem Steps.trans {a b c : Config} (h : Steps a b) (h' : Steps b c) : Steps a c := by
  induction h with
  | refl => exact h'
  | head h1 _ ih => exact .head h1 (ih h')

/-- A round that does not return shifts the next token or leaves the input alone. -/
theorem round_more {c c' : Config} (h : round c = .ok (.more c')) :
    (∃ s ss t q k a, c.states = s :: ss ∧ c.input = t :: q ∧ tokenToInteger t = some k ∧ action s k = .ok a ∧ 0 < a ∧
      c' = ⟨(a - 1).toNat :: s :: ss, .variant0 t.text :: c.symbols, q, c.invalid, t.stop⟩) ∨
    (c'.input = c.input ∧ ∃ s ss, c.states = s :: ss ∧
      ((∃ t q k a, c.input = t :: q ∧ tokenToInteger t = some k ∧ action s k = .ok a ∧ a < 0) ∨
       ∃ a, eofAction s = .ok a ∧ a < 0)) := by
  obtain ⟨S, V, input, inv, l⟩ := c
  cases input with
  | nil =>
    cases inv with
    | some _ => simp [round] at h
    | none =>
      simp only [round, roundEof] at h
      cases S with
      | nil => simp at h
      | cons s ss =>
        simp only [bind, Except.bind] at h
        cases he : eofAction s with
        | error _ => simp [he] at h
        | ok e =>
          simp only [he] at h
          by_cases h0 : e < 0
          · simp only [h0, if_true] at h
            cases hr : reduce (-e - 1).toNat (s :: ss) V with
            | error _ => simp only [hr, reduceCtorEq] at h
            | ok r =>
              simp only [hr] at h
              cases r with
              | inr _ => simp at h
              | inl p =>
                simp only [Except.ok.injEq, Round.more.injEq] at h
                subst h
                exact .inr ⟨rfl, s, ss, rfl, .inr ⟨e, he, h0⟩⟩
          · simp [h0] at h
  | cons t q =>
    simp only [round, roundToken] at h
    cases S with
    | nil => simp at h
    | cons s ss =>
      simp only at h
      cases ht : tokenToInteger t with
      | none => simp [ht] at h
      | some i =>
        simp only [ht, bind, Except.bind] at h
        cases ha : action s i with
        | error f => simp [ha] at h
        | ok a =>
          simp only [ha] at h
          by_cases h0 : 0 < a
          · simp only [h0, if_true, Except.ok.injEq, Round.more.injEq] at h
            exact .inl ⟨s, ss, t, q, i, a, rfl, rfl, ht, ha, h0, h.symm⟩
          · simp only [h0, if_false] at h
            by_cases h1 : a < 0
            · simp only [h1, if_true] at h
              cases hr : reduce (-a - 1).toNat (s :: ss) V with
              | error f => simp only [hr, reduceCtorEq] at h
              | ok r =>
                simp only [hr] at h
                cases r with
                | inr v => simp at h
                | inl p =>
                  simp only [Except.ok.injEq, Round.more.injEq] at h
                  subst h
                  exact .inr ⟨rfl, s, ss, rfl, .inl ⟨t, q, i, a, rfl, ht, ha, h1⟩⟩
            · simp [h1] at h

theorem Steps.input_le {a b : Config} (h : Steps a b) : b.input.length ≤ a.input.length := by
  induction h with
  | refl => exact Nat.le_refl _
  | head h1 _ ih =>
    refine Nat.le_trans ih ?_
    rcases round_more h1 with ⟨_, _, _, _, _, _, _, h2, _, _, _, rfl⟩ | ⟨h2, _⟩
    · simp [h2]
    · rw [h2]; exact Nat.le_refl _

/-- The round in which a token is shifted. -/
theorem Steps.split {c c' : Config} (h : Steps c c') : ∀ {i t q}, c.input = i ++ t :: q → c'.input.length ≤ q.length →
    ∃ S V l s', Steps c ⟨S, V, t :: q, c.invalid, l⟩ ∧
      round ⟨S, V, t :: q, c.invalid, l⟩ = .ok (.more ⟨s' :: S, .variant0 t.text :: V, q, c.invalid, t.stop⟩) ∧
      (∃ s ss k, S = s :: ss ∧ tokenToInteger t = some k ∧ action s k = .ok ((s' : Int) + 1)) ∧
      Steps ⟨s' :: S, .variant0 t.text :: V, q, c.invalid, t.stop⟩ c' := by
  induction h with
  | refl =>
    intro i t q h1 h2
    rw [h1] at h2
    simp only [List.length_append, List.length_cons] at h2
    omega
  | @head c c₁ c'' h1 h2 ih =>
    intro i t q h3 h4
    rcases round_more h1 with ⟨s, ss, t', q', k, a, e1, e2, e3, e4, e5, rfl⟩ | ⟨e1, _⟩
    · rw [h3] at e2
      cases i with
      | nil =>
        simp only [List.nil_append, List.cons.injEq] at e2
        obtain ⟨rfl, rfl⟩ := e2
        obtain ⟨S, V, input, inv, l⟩ := c
        simp only [List.nil_append] at h3 e1
        subst h3 e1
        refine ⟨s :: ss, V, l, (a - 1).toNat, .refl, h1, ⟨s, ss, k, rfl, e3, ?_⟩, h2⟩
        rw [e4, show (((a - 1).toNat : Nat) : Int) + 1 = a by omega]
      | cons b i =>
        simp only [List.cons_append, List.cons.injEq] at e2
        obtain ⟨rfl, rfl⟩ := e2
        obtain ⟨S, V, l, s', f1, f2, f3, f4⟩ := ih (i := i) rfl h4
        exact ⟨S, V, l, s', .head h1 f1, f2, f3, f4⟩
    · have hinv : c₁.invalid = c.invalid := by
        obtain ⟨S, V, input, inv, l⟩ := c
        cases i with
        | nil =>
          simp only [List.nil_append] at h3
          subst h3
          rcases roundToken_more (show roundToken _ t q = _ from h1) with ⟨_, _, _, rfl, _⟩ | ⟨_, _, rfl, _⟩ <;> rfl
        | cons b i =>
          simp only [List.cons_append] at h3
          subst h3
          rcases roundToken_more (show roundToken _ b (i ++ t :: q) = _ from h1) with
            ⟨_, _, _, rfl, _⟩ | ⟨_, _, rfl, _⟩ <;> rfl
      obtain ⟨S, V, l, s', f1, f2, f3, f4⟩ := ih (i := i) (by rw [e1]; exact h3) h4
      rw [hinv] at f1 f2 f4
      exact ⟨S, V, l, s', .head h1 f1, f2, f3, f4⟩

/-- In a state with only shifts nothing happens before the next token is shifted. -/
theorem Steps.stay {c c' : Config} (h : Steps c c') {s : Nat} {ss : List Nat} (hs : c.states = s :: ss) (hlt : s < 329)
    (ho : onlyShifts s = true) (hl : c.input.length ≤ c'.input.length) (hg : ∀ t ∈ c.input, t.index < 83) : c' = c := by
  cases h with
  | refl => rfl
  | @head _ c₁ _ h1 h2 =>
    exfalso
    rcases round_more h1 with ⟨_, _, _, _, _, _, _, e2, _, _, _, rfl⟩ | ⟨e1, s₁, ss₁, e2, e3⟩
    · have := h2.input_le
      rw [e2] at hl
      simp only [List.length_cons] at this hl
      omega
    · rw [hs, List.cons.injEq] at e2
      obtain ⟨rfl, rfl⟩ := e2
      rcases e3 with ⟨t, q, k, a, f1, f2, f3, f4⟩ | ⟨a, f1, f2⟩
      · obtain ⟨g1, g2⟩ := code_lexeme (hg t (by rw [f1]; simp))
        rw [f2] at g1
        cases g1
        rw [action_ok hlt g2] at f3
        cases f3
        have := onlyShifts_act (k := code (lexeme t).1) ho
        omega
      · rw [eofAction_ok hlt] at f1
        cases f1
        have := onlyShifts_act (k := 83) ho
        omega

/-- The stack fits together in all configurations. -/
theorem Steps.stack {c c' : Config} (h : Steps c c') : ∀ {Xs w}, Stack c.states c.symbols Xs w →
    (∀ t ∈ c.input, Good t) → ∃ Xs' w', Stack c'.states c'.symbols Xs' w' := by
  induction h with
  | refl => intro Xs w h _; exact ⟨Xs, w, h⟩
  | @head c c₁ c'' h1 h2 ih =>
    intro Xs w hst hg
    obtain ⟨S, V, input, inv, l⟩ := c
    simp only at hst hg
    cases S with
    | nil => cases hst
    | cons s ss =>
      obtain ⟨r, hr, hok⟩ := round_ok (inv := inv) (last := l) hst hg
      rw [h1] at hr
      cases hr
      cases hok with
      | more h3 h4 _ =>
        obtain ⟨r₁, e1, _⟩ := h4
        simp only at e1
        exact ih h3 (fun t ht => hg t (by rw [e1]; exact List.mem_append_right _ ht))

/-! ## The state after the words -/

/-- Nothing has been read, or the last word is one after which the parser only shifts. -/
def Opens (pre : List Token) : Prop := pre = [] ∨ ∃ p l, pre = p ++ [l] ∧ (lexeme l).1 ∈ opening

/-- After such words the parser is in a state from which all continuations of the words go on, and which depends only
on them. -/
theorem opens_state {pre q : List Token} (hp : Opens pre) (hG : ∀ t ∈ pre ++ q, Good t) {inv : Option Nat}
    {c : Config} (h : Steps (start (pre ++ q, inv)) c) (hc : c.input = q) {s : Nat} {ss : List Nat}
    (hs : c.states = s :: ss) :
    onlyShifts s = true ∧ ∀ q' inv', ∃ c', Steps (start (pre ++ q', inv')) c' ∧ c'.states = c.states ∧ c'.input = q' ∧
      c'.invalid = inv' := by
  have hg : ∀ t ∈ pre ++ q, t.index < 83 := fun t ht => (hG t ht).index
  rcases hp with rfl | ⟨p, l, rfl, hl⟩
  · have := Steps.stay h (s := 0) (ss := []) rfl (by omega) onlyShifts_zero (by rw [hc]; simp [start])
      (by simpa [start] using hg)
    subst this
    simp only [start, List.cons.injEq] at hs
    obtain ⟨rfl, rfl⟩ := hs
    exact ⟨onlyShifts_zero, fun q' inv' => ⟨_, .refl, rfl, rfl, rfl⟩⟩
  · rw [List.append_assoc] at h hg hG
    obtain ⟨S, V, l₁, s', f1, f2, ⟨s₁, ss₁, k, rfl, f3, f4⟩, f5⟩ := Steps.split h (i := p) (t := l) (q := q) rfl
      (by rw [hc]; exact Nat.le_refl _)
    obtain ⟨g1, g2⟩ := code_lexeme (hg l (by simp))
    rw [f3] at g1
    cases g1
    have hs₁ : s₁ < 329 := by
      obtain ⟨_, _, hst⟩ := f1.stack Stack.base hG
      exact hst.lt
    rw [action_ok hs₁ g2] at f4
    have f4 : act s₁ (code (lexeme l).1) = (s' : Int) + 1 := by simpa using f4
    have ho := opening_onlyShifts hs₁ hl rfl f4
    have hs' : s' < 329 := (act_shift hs₁ f4).2.1.lt
    have := Steps.stay f5 (s := s') rfl hs' ho (by rw [hc]; exact Nat.le_refl _)
      (fun t ht => hg t (by simp only [List.mem_append, List.mem_cons]; exact .inr (.inr ht)))
    subst this
    simp only [List.cons.injEq] at hs
    obtain ⟨rfl, rfl⟩ := hs
    refine ⟨ho, fun q' inv' => ?_⟩
    obtain ⟨S', V', i', l', e1, e2⟩ := f1.swap (S := [0]) (V := []) (i := p) (t := l) (r := q) (inv := inv) (l := 0) rfl
      (Nat.le_refl _)
    simp only [start, Config.mk.injEq] at e1
    obtain ⟨rfl, rfl, e3, _, rfl⟩ := e1
    have hi' : i' = [] := by
      have := congrArg List.length e3
      simp only [List.length_append] at this
      exact List.eq_nil_of_length_eq_zero (by omega)
    subst hi'
    have := (e2 q' inv').trans (.head (round_shift hs₁ g2 f3 f4) .refl)
    rw [List.append_assoc]
    exact ⟨_, this, rfl, rfl, rfl⟩

/-! ## The list -/

/-- The name of a kind of words in the list of expected words. -/
def kindName (k : Kind) : String := (terminalNames[code k]?).getD ""

theorem code_lt (k : Kind) : code k < 83 := by cases k <;> decide

theorem mem_expected {s : Nat} (hs : s < 329) (k : Kind) : kindName k ∈ expectedTokens s ↔ act s (code k) ≠ 0 := by
  have hk := code_lt k
  have hinj : ∀ i, i < 83 → ∀ k, k < 83 → terminalNames[i]? = some (terminalNames[k]?.getD "") → i = k := by
    decide +kernel
  have hsome : ∀ i, i < 83 → terminalNames[i]? = some (terminalNames[i]?.getD "") := by decide +kernel
  unfold kindName
  generalize code k = k at *
  simp only [expectedTokens, List.mem_filterMap, List.mem_filter, List.mem_range]
  constructor
  · rintro ⟨i, ⟨hi, hact⟩, hname⟩
    have hi' : i < 83 := hi
    have := hinj i hi' k hk hname
    subst this
    simpa [action_ok hs hi'] using hact
  · intro h
    exact ⟨k, ⟨hk, by simpa [action_ok hs hk] using h⟩, hsome k hk⟩

/-- In a state with only shifts the list names the words with which the text goes on. -/
theorem expected_goes {pre : List Token} {s ss vs Xs} (hst : Stack (s :: ss) vs Xs (pre.map lexeme))
    (ho : onlyShifts s = true) (hidx : ∀ t ∈ pre, t.index < 83)
    (hq : ∀ q' inv', ∃ c', Steps (start (pre ++ q', inv')) c' ∧ c'.states = s :: ss ∧ c'.input = q' ∧ c'.invalid = inv')
    (k : Kind) : kindName k ∈ expectedTokens s ↔ ∃ t w x, Gr .sqlStatement (pre.map lexeme ++ (k, t) :: w) x := by
  rw [mem_expected hst.lt]
  constructor
  · intro h
    have h0 := onlyShifts_act (k := code k) ho
    have : act s (code k) = (((act s (code k)).toNat - 1 : Nat) : Int) + 1 := by omega
    obtain ⟨_, he, _⟩ := act_shift hst.lt this
    have hsem : Sem (.t (code k)) [(k, ['\'', '\''])] (.variant0 ['\'', '\'']) := ⟨_, rfl, rfl, rfl, fun _ => ⟨[], rfl⟩⟩
    obtain ⟨w, x, hx⟩ := (hst.push he hsem).viable
    exact ⟨_, w, x, by rw [List.append_assoc] at hx; exact hx⟩
  · rintro ⟨txt, w, x, hx⟩ h0
    obtain ⟨t, ht1, ht2⟩ := token_of (k, txt)
    obtain ⟨ts, g1, g2⟩ := tokens_of w
    obtain ⟨c', f1, f2, f3, f4⟩ := hq (t :: ts) none
    obtain ⟨m, hm⟩ := gr_accept (toks := pre ++ t :: ts) hx (by simp [ht1, g1]) (fun a ha => by
      rcases List.mem_append.mp ha with h | h
      · exact hidx a h
      · rcases List.mem_cons.mp h with rfl | h
        · exact ht2
        · exact g2 a h)
    obtain ⟨n, hn⟩ := f1.run
    obtain ⟨S, V, input, inv, l⟩ := c'
    simp only at f2 f3 f4
    subst f2 f3 f4
    obtain ⟨hk1, hk2⟩ := code_lexeme ht2
    rw [ht1] at hk1 hk2
    have hr : round ⟨s :: ss, V, t :: ts, none, l⟩ = .ok (.done (.error (.unrecognizedToken t (expectedTokens s)))) := by
      simp only [round, roundToken, hk1, action_ok hst.lt hk2, h0, bind, Except.bind]
      rfl
    have hbad := (hn 1).trans (round_done hr)
    have := run_unique hbad (hm 0)
    simp at this

theorem expected_exact {toks : List Token} (hG : ∀ t ∈ toks, Good t) (inv : Option Nat) {n : Nat}
    (hn : 19 * toks.length < n) {o : Outcome} (h : run n (start (toks, inv)) = some (.ok o)) :
    (∀ t e, o = .error (.unrecognizedToken t e) → ∃ pre rest, toks = pre ++ t :: rest ∧ (Opens pre →
      ∀ k : Kind, kindName k ∈ e ↔ ∃ t w x, Gr .sqlStatement (pre.map lexeme ++ (k, t) :: w) x)) ∧
    (∀ l e, o = .error (.unrecognizedEof l e) → Opens toks →
      ∀ k : Kind, kindName k ∈ e ↔ ∃ t w x, Gr .sqlStatement (toks.map lexeme ++ (k, t) :: w) x) := by
  have hb : stackWeight 0 [] = 0 := by decide
  obtain ⟨o', s', ss', vs', Xs', w', r, input', last', e1, e2, e3, e4, e5, e6, e7, e8⟩ :=
    run_ok (n := n) (inv := inv) (last := 0) Stack.base hG (by rw [hb]; exact hn)
  have : o' = o := by
    have h' : run n (start (toks, inv)) = some (.ok o') := e1
    rw [h] at h'
    cases h'
    rfl
  subst this
  rw [List.nil_append] at e7
  subst e7
  refine ⟨fun t e ho => ?_, fun l e ho hop => ?_⟩
  · subst ho
    cases e4 with
    | @refuse s₁ _ _ rest h1 h2 h3 =>
      simp only [List.cons.injEq] at h1 h2
      obtain ⟨rfl, rfl⟩ := h1
      subst h2
      refine ⟨r, rest, e6, fun hop k => ?_⟩
      subst e6
      obtain ⟨f1, f2⟩ := opens_state hop hG e2 rfl rfl
      exact expected_goes e5 f1 (fun a ha => (hG a (List.mem_append_left _ ha)).index) f2 k
  · subst ho
    generalize last' = la at e4 e2 e3
    cases e4 with
    | refuseEof h1 h2 h3 h4 =>
      simp only [List.cons.injEq] at h1 h2
      obtain ⟨rfl, rfl⟩ := h1
      subst h2
      rw [List.append_nil] at e6
      subst e6
      obtain ⟨f1, f2⟩ := opens_state (q := []) hop (by simpa using hG) (by rw [List.append_nil]; exact e2) rfl rfl
      exact expected_goes e5 f1 (fun a ha => (hG a ha).index) f2

end Verif.Sql.Parser
