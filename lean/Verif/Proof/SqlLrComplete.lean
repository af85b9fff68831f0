import Verif.Proof.SqlLrFacts
import Verif.Spec.SqlGrammar
/-!
# Completeness of the parser for derivations

`Ders Xs w vs`: the words `w` can be derived from the symbols `Xs` with the productions of the generated parser, and
its reductions compute `vs`.  The parser, reading such words where an item of its state expects `Xs`, pushes `vs`.
-/

namespace Verif.Sql.Parser
open Grammar

/-- The number of a kind of words in the tables. -/
def code (k : Kind) : Nat := k.ctorIdx

/-- The word of a token. -/
def lexeme (t : Token) : Lexeme := (Kind.ofNat ((tokenToInteger t).getD 0), t.text)

theorem code_lexeme {t : Token} (h : t.index < 83) : tokenToInteger t = some (code (lexeme t).1) ∧
    code (lexeme t).1 < 83 := by
  have : ∀ i, i < 83 → tokenTerminals[i]? = some (code (Kind.ofNat (tokenTerminals[i]?.getD 0))) ∧
    code (Kind.ofNat (tokenTerminals[i]?.getD 0)) < 83 := by decide +kernel
  exact this _ h

theorem code_inj {k k' : Kind} (h : code k = code k') : k = k' := by
  have : ∀ k : Kind, Kind.ofNat (code k) = k := by intro k; cases k <;> rfl
  rw [← this k, h, this]

/-! ## Derivations -/

/-- The reduction of production `p` turns the arguments into `v`. -/
def Red (p : Nat) (args : List Symbol) (v : Symbol) : Prop :=
  ∃ f n A, reductions[p]? = some (f, n, A) ∧ ∀ st, f (args.reverse ++ st) = .ok (v :: st)

/-- Derivations with the productions of the generated parser. -/
inductive Ders : List Sym → List Lexeme → List Symbol → Prop where
  | nil : Ders [] [] []
  | tok {l : Lexeme} {Xs w vs} : Ders Xs w vs → Ders (.t (code l.1) :: Xs) (l :: w) (.variant0 l.2 :: vs)
  | prod {q : Nat} {w₁ args v Xs w₂ vs} : q < 223 → Ders (rhs q) w₁ args → Red q args v → Ders Xs w₂ vs →
      Ders (.n (lhs q) :: Xs) (w₁ ++ w₂) (v :: vs)

theorem Ders.length {Xs w vs} (h : Ders Xs w vs) : vs.length = Xs.length := by
  induction h <;> simp_all

theorem Ders.append {Xs w vs} (h : Ders Xs w vs) {Ys w' vs'} (h' : Ders Ys w' vs') :
    Ders (Xs ++ Ys) (w ++ w') (vs ++ vs') := by
  induction h with
  | nil => exact h'
  | tok _ ih => exact .tok ih
  | prod hq h1 hr _ _ ih => rw [List.append_assoc]; exact .prod hq h1 hr ih

theorem Ders.word {k : Kind} {t : Str} : Ders [.t (code k)] [(k, t)] [.variant0 t] := .tok (l := (k, t)) .nil

theorem Ders.single {w args} (q : Nat) {v : Symbol} (hq : q < 223) (h : Ders (rhs q) w args) (hr : Red q args v) :
    Ders [.n (lhs q)] w [v] := by
  have := Ders.prod hq h hr .nil
  rwa [List.append_nil] at this

/-! ## First terminals -/

theorem Ders.null {Xs w vs} (h : Ders Xs w vs) : w = [] → ∀ x ∈ Xs, ∃ A, x = .n A ∧ nullMask.testBit A = true := by
  induction h with
  | nil => intro _ x hx; cases hx
  | tok _ _ => intro h; cases h
  | prod hq _ _ _ ih1 ih2 =>
    intro h x hx
    obtain ⟨h1, h2⟩ := List.append_eq_nil_iff.mp h
    rcases List.mem_cons.mp hx with rfl | hx
    · exact ⟨_, rfl, (rule_facts hq).null (ih1 h1)⟩
    · exact ih2 h2 x hx

theorem Ders.first {Xs w vs} (h : Ders Xs w vs) : ∀ l r, w = l :: r → (firstMask Xs 0).testBit (code l.1) = true := by
  induction h with
  | nil => intro l r h; cases h
  | tok _ _ => intro l r h; cases h; simp [firstMask, Nat.testBit_shiftLeft]
  | @prod q w₁ args v Xs w₂ vs hq h1 _ _ ih1 ih2 =>
    intro l r h
    simp only [firstMask]
    cases w₁ with
    | nil =>
      rw [(rule_facts hq).null (h1.null rfl), cond_true, Nat.testBit_or, Bool.or_eq_true]
      exact .inr (ih2 l r h)
    | cons l' r' =>
      obtain ⟨rfl, _⟩ := List.cons.inj h
      have := (rule_facts hq).first _ (ih1 l' r' rfl)
      cases nullMask.testBit (lhs q) with
      | true => rw [cond_true, Nat.testBit_or, this, Bool.true_or]
      | false => exact this

theorem inFirst_of_mask : ∀ {β : List Sym} {t u : Nat}, (firstMask β 0).testBit u = true → InFirst β t u
  | [], _, _, h => by simp [firstMask] at h
  | .t k :: _, _, u, h => by
    simp only [firstMask, Nat.testBit_shiftLeft, Bool.and_eq_true] at h
    have h4 := of_decide_eq_true h.1
    have h5 := h.2
    rw [Nat.testBit_one_eq_true_iff_self_eq_zero] at h5
    simp only [InFirst]; omega
  | .n A :: β, t, u, h => by
    simp only [firstMask] at h
    cases hn : nullMask.testBit A with
    | true =>
      rw [hn, cond_true, Nat.testBit_or, Bool.or_eq_true] at h
      rcases h with h | h
      · exact .inl h
      · exact .inr ⟨hn, inFirst_of_mask h⟩
    | false => rw [hn, cond_false] at h; exact .inl h

theorem inFirst_of_null : ∀ {β : List Sym} {t : Nat}, (∀ x ∈ β, ∃ A, x = .n A ∧ nullMask.testBit A = true) →
    InFirst β t t
  | [], _, _ => rfl
  | x :: β, t, h => by
    obtain ⟨A, rfl, hA⟩ := h x List.mem_cons_self
    exact .inr ⟨hA, inFirst_of_null fun y hy => h y (List.mem_cons_of_mem _ hy)⟩

/-! ## Rounds of the parser -/

/-- The lookahead: the number of the first token, 83 at the end, nothing where the lexer fails. -/
def la : List Token → Option Nat → Option Nat
  | t :: _, _ => tokenToInteger t
  | [], none => some 83
  | [], some _ => none

/-- From `c` the parser gets to `c'`. -/
def Reach (c c' : Config) : Prop := ∃ n, ∀ m, run (n + m) c = run m c'

theorem Reach.refl (c : Config) : Reach c c := ⟨0, fun m => by rw [Nat.zero_add]⟩

theorem Reach.trans {c c' c'' : Config} : Reach c c' → Reach c' c'' → Reach c c'' :=
  fun ⟨n, h⟩ ⟨n', h'⟩ => ⟨n + n', fun m => by rw [Nat.add_assoc, h, h']⟩

theorem Reach.step {c c' : Config} (h : round c = .ok (.more c')) : Reach c c' :=
  ⟨1, fun m => by rw [Nat.add_comm, run, h]⟩

theorem action_ok {s k : Nat} (hs : s < 329) (hk : k < 83) : action s k = .ok (act s k) := by
  obtain ⟨row, e, nts, hr, _⟩ := state_ok hs
  simp only [action, act, hr, if_neg (show ¬ k = 83 by omega), Option.getD_some]

theorem eofAction_ok {s : Nat} (hs : s < 329) : eofAction s = .ok (act s 83) := by
  obtain ⟨row, e, nts, _, hr, _⟩ := state_ok hs
  simp only [eofAction, act, hr, if_true, Option.getD_some]

theorem round_shift {s k s' : Nat} {ss : List Nat} {syms : List Symbol} {tk : Token} {rest inv last} (hs : s < 329)
    (hk : k < 83) (ht : tokenToInteger tk = some k) (ha : act s k = (s' : Int) + 1) :
    round ⟨s :: ss, syms, tk :: rest, inv, last⟩ =
      .ok (.more ⟨s' :: s :: ss, .variant0 tk.text :: syms, rest, inv, tk.stop⟩) := by
  simp only [round, roundToken, ht, action_ok hs hk, ha]
  have : (0 : Int) < (s' : Int) + 1 := by omega
  simp only [bind, Except.bind, this, if_true]
  congr 5
  omega

theorem round_reduce {s t p : Nat} {ss : List Nat} {syms syms' : List Symbol} {input inv last f n A s₀ ss₀}
    (hs : s < 329) (ht : la input inv = some t) (ht' : input ≠ [] → t < 83) (ha : act s t = .negSucc p)
    (hp : p < 223) (hr : reductions[p]? = some (f, n, A)) (hf : f syms = .ok syms') (hn : n ≤ (s :: ss).length)
    (hd : (s :: ss).drop n = s₀ :: ss₀) :
    round ⟨s :: ss, syms, input, inv, last⟩ = .ok (.more ⟨goto s₀ A :: s₀ :: ss₀, syms', input, inv, last⟩) := by
  have h0 : ¬ (0 : Int) < .negSucc p := by omega
  have h1 : (Int.negSucc p) < 0 := by omega
  have h2 : (-(Int.negSucc p) - 1).toNat = p := by omega
  have h3 : ¬ (s :: ss).length < n := by omega
  have hred : reduce p (s :: ss) syms = .ok (.inl (goto s₀ A :: s₀ :: ss₀, syms')) := by
    simp only [reduce, if_neg (show ¬ p = 223 by omega), hr, hf, bind, Except.bind, if_neg h3, hd]
  cases input with
  | cons tk rest =>
    simp only [round, roundToken, show tokenToInteger tk = some t from ht, action_ok hs (ht' (by simp)), ha, bind,
      Except.bind, h0, h1, h2, hred, if_true, if_false]
  | nil =>
    cases inv with
    | some l => cases ht
    | none =>
      cases ht
      simp only [round, roundEof, eofAction_ok hs, ha, bind, Except.bind, h1, h2, hred, if_true]

/-! ## Completeness -/

/-- The number of the first word, or `t`. -/
def headOr (t : Nat) : List Lexeme → Nat
  | [] => t
  | l :: _ => code l.1

theorem la_eq {w : List Lexeme} {toks rest : List Token} {inv : Option Nat} {t : Nat} (hw : toks.map lexeme = w)
    (hg : ∀ tk ∈ toks, tk.index < 83) (ht : la rest inv = some t) :
    la (toks ++ rest) inv = some (headOr t w) := by
  cases toks with
  | nil => cases hw; exact ht
  | cons tk r =>
    subst hw
    exact (code_lexeme (hg tk List.mem_cons_self)).1

/-- The parser on derivable words. -/
theorem complete {Xs w vs} (h : Ders Xs w vs) : ∀ {p d t s ss syms toks rest inv last}, (rhs p).drop d = Xs →
    HasLa s p d t → toks.map lexeme = w → (∀ tk ∈ toks, tk.index < 83) → (∀ tk ∈ rest, tk.index < 83) →
    la rest inv = some t → ∃ new s' r last', new ++ s :: ss = s' :: r ∧ new.length = Xs.length ∧
      HasLa s' p (rhs p).length t ∧
      Reach ⟨s :: ss, syms, toks ++ rest, inv, last⟩ ⟨new ++ s :: ss, vs.reverse ++ syms, rest, inv, last'⟩ := by
  induction h with
  | nil =>
    intro p d t s ss syms toks rest inv last hd hl hw hg hr ht
    cases toks with
    | cons _ _ => cases hw
    | nil =>
      have hlen : d = (rhs p).length := by
        have h1 := hl.item.facts.2.2.1
        have h2 := List.drop_eq_nil_iff.mp hd
        omega
      subst hlen
      exact ⟨[], s, ss, last, rfl, rfl, hl, .refl _⟩
  | @tok l Xs w vs h ih =>
    intro p d t s ss syms toks rest inv last hd hl hw hg hr ht
    cases toks with
    | nil => cases hw
    | cons tk toks =>
      obtain ⟨hl1, hw⟩ := List.cons.inj hw
      obtain ⟨s', hk, ha, hl'⟩ := hl.shift hd
      have htk := (code_lexeme (hg tk List.mem_cons_self)).1
      rw [hl1] at htk
      have hd' : (rhs p).drop (d + 1) = Xs := by rw [← List.drop_drop, hd]; rfl
      obtain ⟨new, s'', r, last', h1, h2, h3, h4⟩ := ih (ss := s :: ss) (syms := .variant0 tk.text :: syms)
        (last := tk.stop) hd' hl' hw (fun x hx => hg x (List.mem_cons_of_mem _ hx)) hr ht
      refine ⟨new ++ [s'], s'', r, last', by rw [List.append_assoc]; exact h1, by simp [h2], h3, ?_⟩
      have hstep := Reach.step (round_shift (ss := ss) (syms := syms) (rest := toks ++ rest) (inv := inv)
        (last := last) hl.item.lt hk htk ha)
      have := hstep.trans h4
      have htx : tk.text = l.2 := by rw [← hl1]; rfl
      rw [htx] at this
      simpa [List.append_assoc] using this
  | @prod q w₁ args v Xs w₂ vs hq h1 hred h2 ih1 ih2 =>
    intro p d t s ss syms toks rest inv last hd hl hw hg hr ht
    obtain ⟨t1, t2, rfl, hw1, hw2⟩ := List.map_eq_append_iff.mp hw
    have hg1 : ∀ tk ∈ t1, tk.index < 83 := fun x hx => hg x (List.mem_append_left _ hx)
    have hg2 : ∀ tk ∈ t2, tk.index < 83 := fun x hx => hg x (List.mem_append_right _ hx)
    have hg' : ∀ tk ∈ t2 ++ rest, tk.index < 83 := fun x hx => by
      rcases List.mem_append.mp hx with hx | hx
      · exact hg2 x hx
      · exact hr x hx
    have hla := la_eq (inv := inv) hw2 hg2 ht
    have hfirst : InFirst Xs t (headOr t w₂) := by
      cases w₂ with
      | nil => exact inFirst_of_null (h2.null rfl)
      | cons l r => exact inFirst_of_mask (h2.first l r rfl)
    have hq0 := hl.closure hd hq rfl hfirst
    obtain ⟨new, s', r, last', e1, e2, e3, e4⟩ := ih1 (ss := ss) (syms := syms) (toks := t1) (rest := t2 ++ rest)
      (inv := inv) (last := last) rfl hq0 hw1 hg1 hg' hla
    obtain ⟨f, n, A, hf1, hf2⟩ := hred
    obtain ⟨f', hf'⟩ := (rule_facts hq).red
    rw [hf1] at hf'
    simp only [Option.some.injEq, Prod.mk.injEq] at hf'
    obtain ⟨_, rfl, rfl⟩ := hf'
    obtain ⟨_, hact⟩ := e3.reduce (by simp)
    have hdrop : (s' :: r).drop (rhs q).length = s :: ss := by
      rw [← e1, ← e2, List.drop_left]
    have hstep : Reach ⟨new ++ s :: ss, args.reverse ++ syms, t2 ++ rest, inv, last'⟩
        ⟨goto s (lhs q) :: s :: ss, v :: syms, t2 ++ rest, inv, last'⟩ := by
      rw [e1]
      refine Reach.step (round_reduce e3.item.lt hla (fun hne => ?_) hact hq hf1 (hf2 syms) ?_ hdrop)
      · cases hi : t2 ++ rest with
        | nil => exact absurd hi hne
        | cons tk r' =>
          have := (code_lexeme (hg' tk (by rw [hi]; exact List.mem_cons_self)))
          rw [hi] at hla
          have h3 := this.1.symm.trans hla
          simp only [Option.some.injEq] at h3
          omega
      · rw [← e1, ← e2]; simp
    have hgo := hl.goto hd
    have hd' : (rhs p).drop (d + 1) = Xs := by rw [← List.drop_drop, hd]; rfl
    obtain ⟨new2, s2, r2, last2, g1, g2, g3, g4⟩ := ih2 (ss := s :: ss) (syms := v :: syms) (last := last') hd' hgo hw2
      hg2 hr ht
    refine ⟨new2 ++ [goto s (lhs q)], s2, r2, last2, by rw [List.append_assoc]; exact g1, by simp [g2], g3, ?_⟩
    have := (e4.trans hstep).trans g4
    simpa [List.append_assoc] using this

/-- The parser accepts derivable words, with the value of the derivation. -/
theorem complete_start {w : List Lexeme} {x : SqlStatement Name} (h : Ders [.n 61] w [.variant41 x])
    {toks : List Token} (hw : toks.map lexeme = w) (hg : ∀ tk ∈ toks, tk.index < 83) :
    ∃ n, ∀ m, run (n + m) (start (toks, none)) = some (.ok (.ok x)) := by
  obtain ⟨new, s', r, last', e1, e2, e3, e4⟩ := complete h (p := 223) (d := 0) (ss := []) (syms := []) (rest := [])
    (inv := none) (last := 0) rhs_start start_item hw hg (fun _ h => by cases h) rfl
  obtain ⟨_, hact⟩ := e3.reduce (by simp)
  have hround : round ⟨s' :: r, [.variant41 x], [], none, last'⟩ = .ok (.done (.ok x)) := by
    have h1 : (Int.negSucc 223) < 0 := by omega
    have h2 : (-(Int.negSucc 223) - 1).toNat = 223 := by omega
    simp only [round, roundEof, eofAction_ok e3.item.lt, hact, bind, Except.bind, h1, h2, reduce, pop41, action0,
      if_true]
  obtain ⟨n, hn⟩ := e4
  refine ⟨n + 1, fun m => ?_⟩
  rw [List.append_nil] at hn
  rw [Nat.add_assoc, show start (toks, none) = ⟨[0], [], toks, none, 0⟩ from rfl, hn, Nat.add_comm, run, e1]
  simp only [List.reverse_cons, List.reverse_nil, List.nil_append, List.append_nil, hround]

end Verif.Sql.Parser
