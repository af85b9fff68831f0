import Verif.Proof.SqlParse
/-!
# Words separated by white space

No word except a string contains white space or a quote, so words with white space between them are the words of the
text.
-/

namespace Verif.Sql.Lexing
open Grammar Parser TypeParser

/-- Range without white space and without the quote. -/
def plainRange (r : Char × Char) : Bool :=
  (decide (32 < r.1.toNat) && decide (r.2.toNat < 39)) || (decide (39 < r.1.toNat) && decide (r.2.toNat ≤ 126)) ||
    (r.1 == r.2 && !isSpace r.1 && !(r.1 == '\''))

/-- All ranges are plain. -/
def Re.plain : Re → Bool
  | .one rs => rs.all plainRange
  | .seq a b => a.plain && b.plain
  | .maybe a => a.plain
  | .many a => a.plain

theorem space_cases {c : Char} (h : isSpace c = true) : c.toNat ≤ 32 ∨ 126 < c.toNat := by
  rcases isSpace_iff.mpr h with ⟨r, hr, h1, h2⟩
  simp only [List.mem_cons, List.not_mem_nil, or_false] at hr
  rcases hr with rfl | rfl | rfl | rfl | rfl | rfl | rfl | rfl | rfl | rfl | rfl
  · exact .inl (Nat.le_trans h2 (by decide))
  · exact .inl h2
  all_goals exact .inr (Nat.lt_of_lt_of_le (by decide) h1)

theorem plainRange_ok {r : Char × Char} (h : plainRange r = true) {c : Char} (h1 : r.1 ≤ c) (h2 : c ≤ r.2) :
    isSpace c = false ∧ c ≠ '\'' := by
  have h1' : r.1.toNat ≤ c.toNat := h1
  have h2' : c.toNat ≤ r.2.toNat := h2
  simp only [plainRange, Bool.or_eq_true, Bool.and_eq_true, decide_eq_true_eq, beq_iff_eq, Bool.not_eq_true',
    beq_eq_false_iff_ne] at h
  have key : (32 < c.toNat ∧ c.toNat ≤ 126 ∧ c.toNat ≠ 39) → isSpace c = false ∧ c ≠ '\'' := by
    rintro ⟨a1, a2, a3⟩
    refine ⟨?_, fun hc => a3 (by rw [hc]; rfl)⟩
    cases hs : isSpace c with
    | false => rfl
    | true =>
      rcases space_cases hs with h | h <;> omega
  rcases h with (h | h) | ⟨⟨h3, h4⟩, h5⟩
  · exact key (by omega)
  · exact key (by omega)
  · have : r.1 = c := by
      apply Char.toNat_inj.mp
      rw [h3] at h1' ⊢
      omega
    rw [← this]
    exact ⟨h4, h5⟩

theorem plain_ok {r : Re} {t : Str} (h : r.Matches t) (hp : r.plain = true) :
    ∀ c ∈ t, isSpace c = false ∧ c ≠ '\'' := by
  induction h with
  | one hr =>
    obtain ⟨p, hm, h1, h2⟩ := hr
    intro c hc
    rw [List.mem_singleton] at hc
    subst hc
    exact plainRange_ok (List.all_eq_true.mp hp p hm) h1 h2
  | seq _ _ ih1 ih2 =>
    simp only [Re.plain, Bool.and_eq_true] at hp
    intro c hc
    exact (List.mem_append.mp hc).elim (ih1 hp.1 c) (ih2 hp.2 c)
  | absent => intro c hc; cases hc
  | present _ ih => exact ih hp
  | nil => intro c hc; cases hc
  | cons _ _ ih1 ih2 => intro c hc; exact (List.mem_append.mp hc).elim (ih1 hp c) (ih2 hp c)

theorem patterns_plain : ∀ i, i < 83 → i ≠ 0 → ((patterns.map (·.2))[i]?.map Re.plain) = some true := by
  decide +kernel

/-- A word is plain, a string, or white space. -/
theorem word_cases {i k r t} (h : patterns[i]? = some (k, r)) (hm : r.Matches t) :
    (i < 83 ∧ i ≠ 0 ∧ ∀ c ∈ t, isSpace c = false ∧ c ≠ '\'') ∨
    (i = 0 ∧ ∃ b, t = '\'' :: (b ++ ['\'']) ∧ ∀ c ∈ b, stringChar c = true) ∨
    (i = 83 ∧ ∀ c ∈ t, isSpace c = true) := by
  have hl := (List.getElem?_eq_some_iff.mp h).1
  rw [show patterns.length = 84 from rfl] at hl
  by_cases h0 : i = 0
  · subst h0
    rw [show patterns[0]? = some (some .STRING_LIT, string) from rfl] at h
    cases h
    exact .inr (.inl ⟨rfl, matches_string.mp hm⟩)
  · by_cases h1 : i = 83
    · subst h1
      rw [kind_none] at h
      cases h
      exact .inr (.inr ⟨rfl, fun c hc => isSpace_iff.mp (matches_many.mp hm c hc)⟩)
    · refine .inl ⟨by omega, h0, plain_ok hm ?_⟩
      have := patterns_plain i (by omega) h0
      rw [List.getElem?_map, h] at this
      exact Option.some.inj this

theorem quote_not_space : isSpace '\'' = false := by decide

theorem quote_not_string : stringChar '\'' = false := by decide

theorem blank_iff {g : Str} : Blank g ↔ ∀ c ∈ g, isSpace c = true :=
  ⟨fun h c hc => isSpace_iff.mp (matches_many.mp h c hc), fun h => matches_many.mpr fun c hc => isSpace_iff.mpr (h c hc)⟩

theorem IsWord.index {w : Lexeme} {i re} (h : patterns[i]? = some (some w.1, re)) : i < 83 := by
  have hl := (List.getElem?_eq_some_iff.mp h).1
  rw [show patterns.length = 84 from rfl] at hl
  have : i ≠ 83 := fun he => by rw [he, kind_none] at h; cases h
  omega

/-- A word that is the whole text has a first character, which is no white space. -/
theorem wins_head {t : Str} {i : Nat} (hi : i < 83) (h : Wins t t i) : ∃ c r, t = c :: r ∧ isSpace c = false := by
  cases t with
  | nil =>
    rcases h.best 83 none spaces [] kind_none List.nil_prefix .nil with h | ⟨_, h⟩
    · simp at h
    · omega
  | cons c r =>
    refine ⟨c, r, rfl, ?_⟩
    obtain ⟨k, re, h1, h2⟩ := h.isWord
    rcases word_cases h1 h2 with ⟨_, _, h⟩ | ⟨_, b, h, _⟩ | ⟨h, _⟩
    · exact (h c List.mem_cons_self).1
    · cases h
      exact quote_not_space
    · omega

theorem quote_inside : ∀ {b' b v : Str} {d : Char}, b' ++ (['\''] ++ d :: v) = b ++ ['\''] → '\'' ∈ b
  | [], [], _, _, h => by simp at h
  | [], c :: b, _, _, h => by
    simp only [List.nil_append, List.cons_append, List.cons.injEq] at h
    rw [← h.1]
    exact List.mem_cons_self
  | x :: b', [], _, _, h => by
    have := congrArg List.length h
    simp only [List.length_append, List.length_cons, List.length_nil] at this
    omega
  | x :: b', c :: b, _, _, h => by
    simp only [List.cons_append, List.cons.injEq] at h
    exact List.mem_cons_of_mem _ (quote_inside (by simpa using h.2))

/-- White space after a word does not change it. -/
theorem wins_before_space {t r : Str} {c : Char} {i : Nat} (hi : i < 83) (h : Wins t t i) (hc : isSpace c = true) :
    Wins (t ++ c :: r) t i := by
  refine ⟨List.prefix_append _ _, h.isWord, ?_⟩
  intro j k re u hj hu hm
  by_cases hl : u.length ≤ t.length
  · exact h.best j k re u hj (List.prefix_of_prefix_length_le hu (List.prefix_append _ _) hl) hm
  · exfalso
    obtain ⟨v, hv⟩ := List.prefix_of_prefix_length_le (List.prefix_append t (c :: r)) hu (by omega)
    obtain ⟨d, v', rfl⟩ : ∃ d v', v = d :: v' := by
      cases v with
      | nil => rw [List.append_nil] at hv; rw [hv] at hl; omega
      | cons d v' => exact ⟨d, v', rfl⟩
    have hd : d = c := by
      obtain ⟨z, hz⟩ := hu
      rw [← hv, List.append_assoc] at hz
      have := List.append_cancel_left hz
      exact (List.cons.inj this).1
    subst hd
    obtain ⟨x, t', ht, hx⟩ := wins_head hi h
    have hcu : d ∈ u := by rw [← hv]; simp
    rcases word_cases hj hm with ⟨_, _, h'⟩ | ⟨_, b, hb, h'⟩ | ⟨_, h'⟩
    · rw [(h' d hcu).1] at hc
      cases hc
    · subst hb
      rw [ht, List.cons_append] at hv
      obtain ⟨hq, hv⟩ := List.cons.inj hv
      subst hq
      obtain ⟨k', re', h1, h2⟩ := h.isWord
      rcases word_cases h1 h2 with ⟨_, _, h3⟩ | ⟨_, b', h3, _⟩ | ⟨h3, _⟩
      · exact (h3 '\'' (by rw [ht]; simp)).2 rfl
      · rw [ht] at h3
        obtain ⟨_, h3⟩ := List.cons.inj h3
        rw [h3, List.append_assoc] at hv
        have hb : '\'' ∈ b := quote_inside (List.cons.inj hv).2
        have := h' _ hb
        rw [quote_not_string] at this
        cases this
      · omega
    · have := h' x (by rw [← hv, ht]; simp)
      rw [hx] at this
      cases this

/-- White space before something else is the word of the last pattern. -/
theorem wins_space {g r : Str} (hg : ∀ c ∈ g, isSpace c = true) (h0 : g ≠ [])
    (hr : ∀ c s, r = c :: s → isSpace c = false) : Wins (g ++ r) g 83 := by
  refine ⟨List.prefix_append _ _, ⟨_, _, kind_none, blank_iff.mpr hg⟩, ?_⟩
  intro j k re u hj hu hm
  have hj' : j ≤ 83 := by
    have := (List.getElem?_eq_some_iff.mp hj).1
    rw [show patterns.length = 84 from rfl] at this
    omega
  rcases Nat.lt_trichotomy u.length g.length with hl | hl | hl
  · exact .inl hl
  · refine .inr ⟨?_, hj'⟩
    exact (List.prefix_of_prefix_length_le hu (List.prefix_append _ _) (by omega)).eq_of_length hl
  · exfalso
    obtain ⟨v, hv⟩ := List.prefix_of_prefix_length_le (List.prefix_append g r) hu (by omega)
    obtain ⟨x, g', rfl⟩ : ∃ x g', g = x :: g' := by
      cases g with
      | nil => exact absurd rfl h0
      | cons x g' => exact ⟨x, g', rfl⟩
    have hx := hg x List.mem_cons_self
    rcases word_cases hj hm with ⟨_, _, h'⟩ | ⟨_, b, hb, h'⟩ | ⟨_, h'⟩
    · rw [(h' x (by rw [← hv]; simp)).1] at hx
      cases hx
    · rw [hb, List.cons_append] at hv
      rw [(List.cons.inj hv).1, quote_not_space] at hx
      cases hx
    · obtain ⟨d, v', rfl⟩ : ∃ d v', v = d :: v' := by
        cases v with
        | nil => rw [List.append_nil] at hv; rw [hv] at hl; omega
        | cons d v' => exact ⟨d, v', rfl⟩
      obtain ⟨z, hz⟩ := hu
      rw [← hv, List.append_assoc] at hz
      have hrr := List.append_cancel_left hz
      have h1 := hr d (v' ++ z) hrr.symm
      have h2 := h' d (by rw [← hv]; simp)
      rw [h1] at h2
      cases h2

theorem Tokens.gap {g r : Str} {toks inv} (hg : ∀ c ∈ g, isSpace c = true)
    (hr : ∀ c s, r = c :: s → isSpace c = false) {off : Nat} (h : Tokens (off + bytes g) r toks inv) :
    Tokens off (g ++ r) toks inv := by
  by_cases h0 : g = []
  · subst h0
    exact h
  · exact .skip (wins_space hg h0 hr) ⟨_, kind_none⟩ h0 h

/-- Words with white space between them are the words of the text. -/
theorem laid_tokens {ws : List Lexeme} {s : Str} (h : Laid ws s) : ∀ (p : Str) (off : Nat), (∀ c ∈ p, isSpace c = true) →
    ∃ toks, Tokens off (p ++ s) toks none ∧ toks.map wordOf = ws := by
  have both {p g : Str} (hp : ∀ c ∈ p, isSpace c = true) (hg : Blank g) : ∀ c ∈ p ++ g, isSpace c = true :=
    fun c hc => (List.mem_append.mp hc).elim (hp c) (blank_iff.mp hg c)
  induction h with
  | @none g hg =>
    intro p off hp
    refine ⟨[], ?_, rfl⟩
    have := Tokens.gap (g := p ++ g) (r := []) (both hp hg) (by simp) (off := off) .done
    rwa [List.append_nil] at this
  | @last g w g' hg hw hg' =>
    intro p off hp
    obtain ⟨i, re, hi, hwin⟩ := hw
    have hi' := IsWord.index hi
    obtain ⟨x, t', ht, hx⟩ := wins_head hi' hwin
    have h1 : Tokens (off + bytes (p ++ g) + bytes w.2) g' [] none := by
      have := Tokens.gap (g := g') (r := []) (blank_iff.mp hg') (by simp) (off := off + bytes (p ++ g) + bytes w.2) .done
      rwa [List.append_nil] at this
    have h2 : Wins (w.2 ++ g') w.2 i := by
      cases g' with
      | nil => rw [List.append_nil]; exact hwin
      | cons c r => exact wins_before_space hi' hwin (blank_iff.mp hg' c List.mem_cons_self)
    refine ⟨[⟨i, w.2, off + bytes (p ++ g), off + bytes (p ++ g) + bytes w.2⟩], ?_, ?_⟩
    · rw [← List.append_assoc]
      refine Tokens.gap (both hp hg) ?_ (.token h2 hi h1)
      intro c s hc
      rw [ht, List.cons_append] at hc
      rw [← (List.cons.inj hc).1]
      exact hx
    · simp [wordOf, hi]
  | @more g w c s v ws hg hw hc _ ih =>
    intro p off hp
    obtain ⟨i, re, hi, hwin⟩ := hw
    have hi' := IsWord.index hi
    obtain ⟨x, t', ht, hx⟩ := wins_head hi' hwin
    have hc' := blank_iff.mp hc c List.mem_cons_self
    obtain ⟨toks, h1, h2⟩ := ih [c] (off + bytes (p ++ g) + bytes w.2) (blank_iff.mp hc)
    refine ⟨⟨i, w.2, off + bytes (p ++ g), off + bytes (p ++ g) + bytes w.2⟩ :: toks, ?_, ?_⟩
    · rw [← List.append_assoc]
      refine Tokens.gap (both hp hg) ?_ (.token (wins_before_space hi' hwin hc') hi h1)
      intro d r hd
      rw [ht, List.cons_append] at hd
      rw [← (List.cons.inj hd).1]
      exact hx
    · simp [wordOf, hi, h2]

theorem Tokens.short {off s toks inv} (h : Tokens off s toks inv) : ∀ t ∈ toks, t.text.length ≤ s.length := by
  induction h with
  | done => intro t ht; cases ht
  | stuck _ => intro t ht; cases ht
  | skip _ _ _ _ ih =>
    intro t ht
    rw [List.length_append]
    exact Nat.le_trans (ih t ht) (Nat.le_add_left _ _)
  | token _ _ _ ih =>
    intro t ht
    rw [List.length_append]
    rcases List.mem_cons.mp ht with rfl | ht
    · exact Nat.le_add_right _ _
    · exact Nat.le_trans (ih t ht) (Nat.le_add_left _ _)

theorem isWord_tokens {off : Nat} {s : Str} {tok : Token} {k : Kind} (h : Tokens off s [tok] none)
    (hs : tok.text.length = s.length) (hk : (patterns[tok.index]?).bind (·.1) = some k) : IsWord (k, s) := by
  cases h with
  | skip hw _ h0 h1 =>
    exfalso
    have h2 := h1.short _ List.mem_cons_self
    simp only [List.length_append] at hs
    have h4 := List.length_pos_iff.mpr h0
    omega
  | @token _ _ r _ k' re _ _ hw hk' h1 =>
    have hr : r = [] := by
      simp only [List.length_append] at hs
      exact List.length_eq_zero_iff.mp (by omega)
    subst hr
    simp only [List.append_nil] at hw ⊢
    simp only [hk', Option.bind_some, Option.some.injEq] at hk
    subst hk
    exact ⟨_, re, hk', hw⟩

/-- A text that the lexer takes as one word. -/
theorem isWord_lex {s : Str} {k : Kind} {i m n : Nat} (h : Parser.lex s = ([⟨i, s, m, n⟩], none))
    (hk : (patterns[i]?).bind (·.1) = some k) : IsWord (k, s) := by
  have ht := lex_tokens s
  rw [h] at ht
  exact isWord_tokens ht rfl hk

end Verif.Sql.Lexing
