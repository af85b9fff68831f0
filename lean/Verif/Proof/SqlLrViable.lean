import Verif.Proof.SqlLrSound
/-!
# The parser and the grammar

Every stack the parser can have is the beginning of a statement; with completeness this gives the outcome of the
parser for all sequences of tokens.
-/

namespace Verif.Sql.Parser
open Grammar

/-! ## Every symbol has words -/

/-- One production for every nonterminal, with only nonterminals of earlier productions on the right. -/
def wordOrder : List Nat := [58, 81, 82, 89, 91, 95, 111, 123, 131, 134, 143, 145, 151, 152, 154, 156, 170, 190, 191,
  202, 210, 20, 26, 65, 66, 118, 162, 168, 180, 184, 186, 195, 197, 11, 29, 31, 33, 56, 76, 85, 121, 199, 15, 126, 71,
  74, 77, 104, 137, 139, 207, 208, 217, 218, 220, 17, 18, 24, 68, 128, 213]

/-- Checks `wordOrder`. -/
def checkWords (done : List Nat) : List Nat → Bool
  | [] => (List.range 79).all fun A => optMask.testBit A || done.contains A
  | p :: ps => decide (p < 223) && !optMask.testBit (lhs p) &&
    (rhs p).all (fun
      | .t k => decide (k < 83)
      | .n A => done.contains A) &&
    checkWords (lhs p :: done) ps

theorem checkWords_ok : checkWords [] wordOrder = true := by decide +kernel

theorem terminal_words {k : Nat} (hk : k < 83) : ∃ w v, Sem (.t k) w v := by
  have : ∀ k, k < 83 → code (Kind.ofNat k) = k := by decide +kernel
  exact ⟨[(Kind.ofNat k, ['\'', '\''])], _, _, rfl, this k hk, rfl, fun _ => ⟨[], rfl⟩⟩

theorem sems_words : ∀ {Xs : List Sym}, (∀ x ∈ Xs, ∃ w v, Sem x w v) → ∃ w vs, Sems Xs w vs
  | [], _ => ⟨[], [], rfl, rfl⟩
  | x :: Xs, h => by
    obtain ⟨w, v, h1⟩ := h x List.mem_cons_self
    obtain ⟨w', vs, h2⟩ := sems_words fun y hy => h y (List.mem_cons_of_mem _ hy)
    exact ⟨w ++ w', v :: vs, w, w', v, vs, rfl, rfl, h1, h2⟩

theorem nonterminal_words : ∀ {ps done : List Nat}, checkWords done ps = true →
    (∀ A ∈ done, ∃ w v, Sem (.n A) w v) → ∀ A < 79, optMask.testBit A = false → ∃ w v, Sem (.n A) w v
  | [], done, h, hd, A, hA, ho => by
    have := List.all_eq_true.mp h A (List.mem_range.mpr hA)
    simp only [ho, Bool.false_or, List.contains_iff_mem] at this
    exact hd A this
  | p :: ps, done, h, hd, A, hA, ho => by
    simp only [checkWords, Bool.and_eq_true, decide_eq_true_eq, Bool.not_eq_true'] at h
    obtain ⟨⟨⟨h1, h2⟩, h3⟩, h4⟩ := h
    refine nonterminal_words h4 (fun B hB => ?_) A hA ho
    rcases List.mem_cons.mp hB with rfl | hB
    · obtain ⟨w, vs, hw⟩ := sems_words (Xs := rhs p) fun x hx => by
        have := List.all_eq_true.mp h3 x hx
        cases x with
        | t k => exact terminal_words (by simpa using this)
        | n B => exact hd B (by simpa using this)
      obtain ⟨v, _, hs⟩ := prods_ok p h1 h2 w vs hw
      exact ⟨w, v, hs⟩
    · exact hd B hB

theorem rhs_words {s p d : Nat} (h : Item s p d) : ∀ x ∈ rhs p, ∃ w v, Sem x w v := by
  intro x hx
  have hf := h.facts
  by_cases hp : p < 223
  · have := (rule_facts hp).symbols hf.2.1 x hx
    cases x with
    | t k => exact terminal_words this
    | n A => exact nonterminal_words checkWords_ok (fun _ h => by cases h) A this.1 this.2
  · have : p = 223 := by omega
    subst this
    rw [rhs_start, List.mem_singleton] at hx
    subst hx
    exact nonterminal_words checkWords_ok (fun _ h => by cases h) 61 (by omega) (by decide)

/-! ## Every stack can be completed -/

theorem Sems.append : ∀ {xs u args ys u' args'}, Sems xs u args → Sems ys u' args' →
    Sems (xs ++ ys) (u ++ u') (args ++ args')
  | [], _, _, _, _, _, h, h' => by obtain ⟨rfl, rfl⟩ := h; exact h'
  | _ :: xs, _, _, _, _, _, h, h' => by
    obtain ⟨w₁, w₂, v, vs, rfl, rfl, h1, h2⟩ := h
    exact ⟨w₁, w₂ ++ _, v, vs ++ _, by rw [List.append_assoc], rfl, h1, h2.append h'⟩

/-- If the words `u` are what an item of the state expects, the stack and `u` are the beginning of a statement. -/
theorem item_viable {s ss vs Xs w pre x post u args} (hst : Stack (s :: ss) vs Xs w)
    (hs : itemRow s = pre ++ x :: post) (hu : Sems ((rhs (x % 256)).drop (x / 256 % 16)) u args) :
    ∃ w' y, Gr .sqlStatement (w ++ u ++ w') y := by
  have hi : Item s (x % 256) (x / 256 % 16) := ⟨x, by rw [hs]; simp, rfl, rfl⟩
  obtain ⟨s₀, ss₀, vs₀, Xs₀, w₀, args₀, u₀, h1, h2, h3, h4, _, _, h7, h8⟩ := hst.pop hi
  have hall := h7.append hu
  rw [List.take_append_drop] at hall
  -- the item with nothing before the dot, and the item it comes from
  have hsplit : ∃ pre' x' post', itemRow s₀ = pre' ++ x' :: post' ∧ x' % 256 = x % 256 ∧ x' / 256 % 16 = 0 ∧
      (ss₀.length < ss.length ∨ s₀ = s ∧ ss₀ = ss ∧ pre' = pre) := by
    by_cases hd : x / 256 % 16 = 0
    · rw [hd] at h2
      simp only [List.drop_zero, List.cons.injEq] at h2
      exact ⟨pre, x, post, by rw [← h2.1]; exact hs, rfl, hd, .inr ⟨h2.1.symm, h2.2.symm, rfl⟩⟩
    · obtain ⟨x', hx', e1, e2⟩ := h4
      obtain ⟨pre', post', e3⟩ := List.append_of_mem hx'
      have := congrArg List.length h2
      simp only [List.length_drop, List.length_cons] at this
      exact ⟨pre', x', post', e3, e1, e2, .inl (by omega)⟩
  obtain ⟨pre', x', post', e1, e2, e3, e4⟩ := hsplit
  rcases item_origin e1 e3 with ⟨hp, rfl⟩ | ⟨y, hy, β, hβ⟩
  · rw [← e2, hp, rhs_start] at hall
    obtain ⟨rfl, rfl, rfl, rfl⟩ := h1.zero
    obtain ⟨w₁, _, _, _, hw, _, ⟨z, rfl, hz⟩, rfl, rfl⟩ := hall
    refine ⟨[], z, ?_⟩
    rw [h8, List.nil_append, List.append_nil, hw, List.append_nil]
    exact hz
  · obtain ⟨pre'', post'', e5⟩ := List.append_of_mem hy
    have hiy : Item s₀ (y % 256) (y / 256 % 16) := ⟨y, by rw [e1, e5]; simp, rfl, rfl⟩
    have hp : x % 256 < 223 := by
      have hf := hi.facts
      have : x % 256 ≠ 223 := by
        intro hx
        have hmem : Sym.n 79 ∈ rhs (y % 256) :=
          List.mem_of_mem_drop (by rw [hβ, e2, hx, lhs_start]; exact List.mem_cons_self)
        by_cases hy2 : y % 256 < 223
        · exact absurd ((rule_facts hy2).symbols hiy.facts.2.1 _ hmem).1 (by omega)
        · have : y % 256 = 223 := by have := hiy.facts.1; omega
          rw [this, rhs_start] at hmem
          simp at hmem
      omega
    obtain ⟨v, _, hsem⟩ := prods_ok _ hp hi.facts.2.1 _ _ hall
    obtain ⟨u₂, args₂, h9⟩ := sems_words (Xs := β) fun z hz => rhs_words hiy z
      (List.mem_of_mem_drop (i := y / 256 % 16) (by rw [hβ]; exact List.mem_cons_of_mem _ hz))
    have hnew : Sems ((rhs (y % 256)).drop (y / 256 % 16)) ((u₀ ++ u) ++ u₂) (v :: args₂) := by
      rw [hβ, e2]
      exact ⟨_, _, _, _, rfl, rfl, hsem, h9⟩
    obtain ⟨w', z, hz⟩ := item_viable h1 (show itemRow s₀ = pre'' ++ y :: (post'' ++ x' :: post') by
      rw [e1, e5]; simp) hnew
    exact ⟨u₂ ++ w', z, by rw [h8]; simpa [List.append_assoc] using hz⟩
termination_by (ss.length, pre.length)
decreasing_by
  rcases e4 with h | ⟨_, h', h''⟩
  · exact Prod.Lex.left _ _ h
  · subst h' h''
    refine Prod.Lex.right _ ?_
    rw [e5]
    simp only [List.length_append, List.length_cons]
    omega

theorem rows_nonempty : (List.range 329).all (fun s => !(itemRow s).isEmpty) = true := by decide +kernel

/-- The words of a stack are the beginning of a statement. -/
theorem Stack.viable {s ss vs Xs w} (h : Stack (s :: ss) vs Xs w) : ∃ w' y, Gr .sqlStatement (w ++ w') y := by
  have hne := List.all_eq_true.mp rows_nonempty s (List.mem_range.mpr h.lt)
  cases hr : itemRow s with
  | nil => simp [hr] at hne
  | cons x post =>
    have hi : Item s (x % 256) (x / 256 % 16) := ⟨x, by rw [hr]; simp, rfl, rfl⟩
    obtain ⟨u, args, hu⟩ := sems_words (Xs := (rhs (x % 256)).drop (x / 256 % 16)) fun z hz =>
      rhs_words hi z (List.mem_of_mem_drop hz)
    obtain ⟨w', y, hy⟩ := item_viable h (pre := []) hr hu
    exact ⟨u ++ w', y, by rw [← List.append_assoc]; exact hy⟩

/-! ## The outcome -/

/-- Some statement begins with the words. -/
def Viable (w : List Lexeme) : Prop := ∃ w' y, Gr .sqlStatement (w ++ w') y

theorem Viable.of_append {w w' : List Lexeme} : Viable (w ++ w') → Viable w :=
  fun ⟨u, y, h⟩ => ⟨w' ++ u, y, by rw [← List.append_assoc]; exact h⟩

/-- A token for a word. -/
theorem token_of (l : Lexeme) : ∃ t : Token, lexeme t = l ∧ t.index < 83 := by
  have : ∀ k : Kind, (List.range 83).any (fun i => tokenTerminals[i]?.getD 0 == code k) = true := by
    intro k; cases k <;> decide +kernel
  obtain ⟨i, hi, he⟩ := List.any_eq_true.mp (this l.1)
  have hc : ∀ k : Kind, Kind.ofNat (code k) = k := by intro k; cases k <;> rfl
  refine ⟨⟨i, l.2, 0, 0⟩, ?_, List.mem_range.mp hi⟩
  simp only [beq_iff_eq] at he
  simp only [lexeme, tokenToInteger, he, hc]

theorem tokens_of : ∀ w : List Lexeme, ∃ ts : List Token, ts.map lexeme = w ∧ ∀ t ∈ ts, t.index < 83
  | [] => ⟨[], rfl, fun _ h => by cases h⟩
  | l :: w => by
    obtain ⟨t, h1, h2⟩ := token_of l
    obtain ⟨ts, h3, h4⟩ := tokens_of w
    exact ⟨t :: ts, by rw [List.map_cons, h1, h3], List.forall_mem_cons.mpr ⟨h2, h4⟩⟩

theorem gr_accept {w : List Lexeme} {x : SqlStatement Name} (h : Gr .sqlStatement w x) {toks : List Token}
    (hw : toks.map lexeme = w) (hg : ∀ t ∈ toks, t.index < 83) :
    ∃ n, ∀ m, run (n + m) (start (toks, none)) = some (.ok (.ok x)) :=
  complete_start (gr_ders h) hw hg

/-- What the parser returns. -/
inductive Outcomes (toks : List Token) (inv : Option Nat) : Outcome → Prop where
  | accept {x} : inv = none → Gr .sqlStatement (toks.map lexeme) x → Outcomes toks inv (.ok x)
  | refuse {pre t rest e} : toks = pre ++ t :: rest → Viable (pre.map lexeme) →
      ¬ Viable (pre.map lexeme ++ [lexeme t]) →
      (∃ s, s < 329 ∧ e = expectedTokens s ∧ act s (code (lexeme t).1) = 0) →
      Outcomes toks inv (.error (.unrecognizedToken t e))
  | refuseEof {e} : inv = none → Viable (toks.map lexeme) → (∀ x, ¬ Gr .sqlStatement (toks.map lexeme) x) →
      Outcomes toks inv (.error (.unrecognizedEof (lastStop 0 toks) e))
  | invalid {l} : inv = some l → Viable (toks.map lexeme) → Outcomes toks inv (.error (.invalidToken l))

theorem round_done {c : Config} {o : Outcome} (h : round c = .ok (.done o)) : run 1 c = some (.ok o) := by
  simp only [run, h]

theorem run_outcome {toks : List Token} (hg : ∀ t ∈ toks, Good t) (inv : Option Nat) {n : Nat}
    (hn : 19 * toks.length < n) : ∃ o, run n (start (toks, inv)) = some (.ok o) ∧ Outcomes toks inv o := by
  have hidx : ∀ t ∈ toks, t.index < 83 := fun t ht => (hg t ht).index
  have hb : stackWeight 0 [] = 0 := by decide
  obtain ⟨o, s', ss', vs', Xs', w', r, input', last', e1, e2, e3, e4, e5, e6, e7, e8⟩ :=
    run_ok (n := n) (inv := inv) (last := 0) Stack.base hg (by rw [hb]; exact hn)
  refine ⟨o, e1, ?_⟩
  rw [List.nil_append] at e7
  have hv := e5.viable
  rw [e7] at hv
  cases e4 with
  | accept h1 h2 h3 =>
    simp only at h1 h2
    subst h1
    rw [List.append_nil] at e6
    exact .accept h2 (by rw [e6, ← e7]; exact h3)
  | @refuse s₁ _ t rest h1 h2 h3 =>
    simp only [List.cons.injEq] at h1 h2
    have hs₁ : s₁ < 329 := by rw [← h1.1]; exact e5.lt
    subst h2
    refine .refuse e6 hv (fun ⟨u, y, hy⟩ => ?_) ⟨s₁, hs₁, rfl, h3⟩
    obtain ⟨S', V', i', l', f1, f2⟩ := e2.swap (by rw [e6]) (Nat.le_refl _)
    simp only [Config.mk.injEq] at f1
    obtain ⟨rfl, rfl, f3, _, rfl⟩ := f1
    have hi' : i' = [] := by
      have := congrArg List.length f3
      simp only [List.length_append] at this
      exact List.eq_nil_of_length_eq_zero (by omega)
    subst hi'
    obtain ⟨ts, g1, g2⟩ := tokens_of u
    obtain ⟨k, hk⟩ := (f2 ts none).run
    have hr := roundToken_refuse (S := s' :: ss') (V := vs') (t := t) (q := rest) (inv := inv) (l := last') e3 ts none
    have hacc := gr_accept (toks := r ++ t :: ts) hy (by simp [g1]) (fun a ha => by
      rcases List.mem_append.mp ha with h | h
      · exact hidx a (by rw [e6]; exact List.mem_append_left _ h)
      · rcases List.mem_cons.mp h with rfl | h
        · exact hidx a (by rw [e6]; simp)
        · exact g2 a h)
    obtain ⟨m, hm⟩ := hacc
    have hbad : run (k + 1) (start (r ++ t :: ts, none)) = some (.ok (.error (.unrecognizedToken t (expectedTokens _)))) :=
      (hk 1).trans (round_done hr)
    have := run_unique hbad (hm 0)
    simp at this
  | refuseEof h1 h2 h3 h4 =>
    simp only at h2 h3
    subst h2 h3
    rw [List.append_nil] at e6
    subst e6 e8
    refine .refuseEof rfl hv fun x hx => ?_
    obtain ⟨m, hm⟩ := gr_accept hx rfl hidx
    have := run_unique e1 (hm 0)
    simp at this
  | invalid h1 h2 =>
    simp only at h1 h2
    subst h1
    rw [List.append_nil] at e6
    subst e6
    exact .invalid h2 hv

/-- Two parses of the same words are the same. -/
theorem gr_unique {w : List Lexeme} {x y : SqlStatement Name} (hx : Gr .sqlStatement w x) (hy : Gr .sqlStatement w y) :
    x = y := by
  obtain ⟨ts, h1, h2⟩ := tokens_of w
  obtain ⟨n, hn⟩ := gr_accept hx h1 h2
  obtain ⟨m, hm⟩ := gr_accept hy h1 h2
  have := run_unique (hn 0) (hm 0)
  simpa using this

end Verif.Sql.Parser
