import Verif.Proof.SqlExpected

/-! # C87–C91: the SQL parser

`Spec/SqlWords` says how a text is divided into words, with regular expressions; `Spec/SqlGrammar` says which
sequences of words are statements and what they stand for, as an inductive relation with one rule for every alternative
of `src/sql/parser.lalrpop`.  Neither mentions states, tables or stacks.  The model is the lexer and the table-driven
parser of `src/sql/parser.rs` with all its tables and actions. -/

namespace Verif.Props

open Verif Sql Parser Grammar Lexing

/-- The text stands for the statement. -/
def StandsFor (s : Str) (x : SqlStatement Name) : Prop :=
  ∃ toks, Tokens 0 s toks none ∧ Gr .sqlStatement (toks.map wordOf) x

/-- Some statement begins with the words of the tokens. -/
def Begins (toks : List Token) : Prop := ∃ w x, Gr .sqlStatement (toks.map wordOf ++ w) x

/-! ## C87 -/

/-- The parser returns for every text and does not panic; for `n` words it takes at most `19 * n + 1` rounds. -/
theorem C87_returns (s : Str) : ∃ o, run (19 * (lex s).1.length + 1) (start (lex s)) = some (.ok o) := by
  obtain ⟨o, h, _⟩ := run_outcome (tokens_good (lex_tokens s)) (lex s).2 (n := 19 * (lex s).1.length + 1) (by omega)
  exact ⟨o, h⟩

/-- The bound on the rounds in the model is no restriction: with more rounds the outcome is the same. -/
theorem C87_bound (s : Str) (m : Nat) : run (19 * (lex s).1.length + 1 + m) (start (lex s)) = parse s := by
  obtain ⟨o, h⟩ := C87_returns s
  rw [run_add h m]
  exact h.symm

/-- A text that is parsed with all kinds of steps. -/
example : (lex "SELECT a, 'x' FROM t WHERE b < .5E+3".toList).1.length = 10 ∧
    ∃ x, parse "SELECT a, 'x' FROM t WHERE b < .5E+3".toList = some (.ok (.ok x)) := by
  set_option maxRecDepth 100000 in
  exact ⟨by rfl, _, by rfl⟩

/-! ## C91 -/

/-- The lexer divides a text into the words of the specification. -/
theorem C91_words (s : Str) (toks : List Token) (inv : Option Nat) : lex s = (toks, inv) ↔ Tokens 0 s toks inv := by
  constructor
  · intro h
    have := lex_tokens s
    rwa [h] at this
  · intro h
    obtain ⟨h1, h2⟩ := (lex_tokens s).unique h
    rw [← h1, ← h2]

/-- The whole text with its white space and words. -/
inductive Covers : Nat → Str → List Token → Option Nat → Prop where
  | ends {off gap} : (∀ c ∈ gap, isSpace c = true) → Covers off gap [] none
  | stuck {off gap c r} : (∀ d ∈ gap, isSpace d = true) → isSpace c = false →
      Covers off (gap ++ c :: r) [] (some (off + bytes gap))
  | word {off gap t r toks inv} : (∀ c ∈ gap, isSpace c = true) → t.text ≠ [] → t.start = off + bytes gap →
      t.stop = t.start + bytes t.text → Covers t.stop r toks inv → Covers off (gap ++ (t.text ++ r)) (t :: toks) inv

theorem bytes_append (a b : Str) : bytes (a ++ b) = bytes a + bytes b := by
  simp [bytes, Str.utf8, List.flatMap_append]

theorem Covers.gap {gap off s toks inv} (hg : ∀ c ∈ gap, isSpace c = true)
    (h : Covers (off + bytes gap) s toks inv) : Covers off (gap ++ s) toks inv := by
  generalize ho : off + bytes gap = off' at h
  cases h with
  | ends h => exact .ends fun c hc => (List.mem_append.mp hc).elim (hg c) (h c)
  | @stuck _ g c r h h' =>
    subst ho
    have := Covers.stuck (off := off) (gap := gap ++ g) (r := r)
      (fun c hc => (List.mem_append.mp hc).elim (hg c) (h c)) h'
    rw [bytes_append] at this
    simpa [List.append_assoc, Nat.add_assoc] using this
  | @word _ g t r toks inv h h1 h2 h3 h4 =>
    subst ho
    have := Covers.word (off := off) (gap := gap ++ g) (fun c hc => (List.mem_append.mp hc).elim (hg c) (h c)) h1
      (by rw [bytes_append, h2, Nat.add_assoc]) h3 h4
    simpa [List.append_assoc] using this

/-- The words and white space between them make up the text, up to the place where no word starts; every token has the
offsets of its text in the text. -/
theorem C91_covers (s : Str) : Covers 0 s (lex s).1 (lex s).2 := by
  suffices h : ∀ {off s toks inv}, Tokens off s toks inv → Covers off s toks inv from h (lex_tokens s)
  intro off s toks inv h
  induction h with
  | done => exact .ends (gap := []) (fun _ h => by cases h)
  | @skip off t r i toks inv hw hk h0 _ ih =>
    refine Covers.gap ?_ ih
    obtain ⟨re, hk⟩ := hk
    have hi : i = 83 := by
      have := hw.lt
      by_cases h : i < 83
      · obtain ⟨k, r, h'⟩ := kind_some i h
        rw [h'] at hk
        cases hk
      · omega
    subst hi
    obtain ⟨_, re', h1, h2⟩ := hw.isWord
    rw [kind_none] at h1
    cases h1
    exact fun c hc => isSpace_iff.mp (matches_many.mp h2 c hc)
  | @token off t r i k re toks inv hw hk _ ih =>
    refine Covers.word (gap := []) (t := ⟨i, t, off, off + bytes t⟩) (fun _ h => by cases h) ?_ rfl rfl ih
    rintro rfl
    rcases hw.best 83 none spaces [] kind_none List.nil_prefix .nil with h | ⟨_, h⟩
    · simp at h
    · have := hw.lt
      rw [show i = 83 by omega, kind_none] at hk
      cases hk
  | @stuck off c r i hw =>
    have hc : isSpace c = false := by
      cases hc : isSpace c with
      | false => rfl
      | true =>
        rcases hw.best 83 none spaces [c] kind_none ⟨r, rfl⟩ (matches_many.mpr fun d hd => by
          rw [List.mem_singleton] at hd; subst hd; exact isSpace_iff.mpr hc) with h | ⟨h, _⟩
        · simp at h
        · cases h
    exact .stuck (gap := []) (fun _ h => by cases h) hc

/-- `1e5` is the number `1` and the name `e5`; `1E5` is one number. -/
example : (lex "1e5".toList).1.map (·.text) = ["1".toList, "e5".toList] ∧
    (lex "1E5".toList).1.map (·.text) = ["1E5".toList] := by decide +kernel

/-- The longest word wins, and of words of the same length the keyword; a place where no word starts. -/
example : (lex "selected select ;".toList).1.map wordOf = [(.ID, "selected".toList), (.SELECT, "select".toList)] ∧
    (lex "selected select ;".toList).2 = some 16 := by decide +kernel

/-! ## C88 -/

/-- The parser accepts exactly the texts of the grammar, with exactly the value the grammar gives. -/
theorem C88_accepts_grammar (s : Str) (x : SqlStatement Name) :
    parse s = some (.ok (.ok x)) ↔ StandsFor s x := by
  have ht := lex_tokens s
  constructor
  · intro h
    obtain ⟨o, h1, h2⟩ := run_outcome (tokens_good ht) (lex s).2 (n := 19 * (lex s).1.length + 1) (by omega)
    have : run (19 * (lex s).1.length + 1) (start ((lex s).1, (lex s).2)) = some (.ok (.ok x)) := h
    rw [this] at h1
    cases h1
    cases h2 with
    | accept h3 h4 =>
      rw [h3] at ht
      exact ⟨_, ht, by rw [← map_wordOf ht]; exact h4⟩
  · rintro ⟨toks, h1, h2⟩
    obtain ⟨e1, e2⟩ := ht.unique h1
    obtain ⟨n, hn⟩ := gr_accept h2 (map_wordOf h1) (fun t hm => (tokens_good h1 t hm).index)
    obtain ⟨o, ho⟩ := C87_returns s
    have hl : start (lex s) = start (toks, none) := by rw [← e1, ← e2]
    rw [← hl] at hn
    have := run_unique ho (hn 0)
    simp only [Except.ok.injEq] at this
    rw [this] at ho
    exact ho

/-- The grammar has the statement of this text. -/
example : ∃ x, StandsFor "SELECT a, 'x' FROM t WHERE b < .5E+3".toList x := by
  set_option maxRecDepth 100000 in
  exact ⟨_, (C88_accepts_grammar _ _).mp (by rfl)⟩

/-! ## C89 -/

/-- The grammar is unambiguous. -/
theorem C89_unambiguous (w : List Lexeme) (x y : SqlStatement Name) (hx : Gr .sqlStatement w x)
    (hy : Gr .sqlStatement w y) : x = y := gr_unique hx hy

/-- A text stands for at most one statement. -/
theorem C89_text_unambiguous (s : Str) (x y : SqlStatement Name) (hx : StandsFor s x) (hy : StandsFor s y) : x = y := by
  obtain ⟨_, h1, h2⟩ := hx
  obtain ⟨_, h3, h4⟩ := hy
  obtain ⟨rfl, _⟩ := h1.unique h3
  exact gr_unique h2 h4

/-- The dangling alternatives of the grammar, for words that could be read in several ways. -/
example : ∃ x, StandsFor "SELECT a - b - c * d FROM t JOIN u ON NOT a = b AND c OR d".toList x := by
  set_option maxRecDepth 100000 in
  exact ⟨_, (C88_accepts_grammar _ _).mp (by rfl)⟩

/-! ## C90 -/

theorem begins_iff {off s toks inv} (h : Tokens off s toks inv) {pre rest : List Token} (hp : toks = pre ++ rest) :
    Begins pre ↔ Viable (pre.map lexeme) := by
  have : pre.map lexeme = pre.map wordOf :=
    List.map_congr_left fun t ht => lexeme_wordOf (tokens_good h t (by rw [hp]; exact List.mem_append_left _ ht)).index
  rw [this]
  exact Iff.rfl

/-- The outcome of the parser in terms of words. -/
theorem outcomes_parse {s : Str} {o : Outcome} (h : parse s = some (.ok o)) : Outcomes (lex s).1 (lex s).2 o := by
  obtain ⟨o', h1, h2⟩ := run_outcome (tokens_good (lex_tokens s)) (lex s).2 (n := 19 * (lex s).1.length + 1) (by omega)
  have : run (19 * (lex s).1.length + 1) (start ((lex s).1, (lex s).2)) = some (.ok o) := h
  rw [this] at h1
  cases h1
  exact h2

/-- The first word of a text at which it stops being the beginning of a statement. -/
def FirstWrong (toks : List Token) (t : Token) : Prop :=
  ∃ pre rest, toks = pre ++ t :: rest ∧ Begins pre ∧ ¬ Begins (pre ++ [t])

/-- The parser reports an unexpected word exactly where the text stops being the beginning of a statement. -/
theorem C90_unexpected_word (s : Str) (t : Token) :
    (∃ e, parse s = some (.ok (.error (.unrecognizedToken t e)))) ↔ FirstWrong (lex s).1 t := by
  have ht := lex_tokens s
  constructor
  · rintro ⟨e, h⟩
    cases outcomes_parse h with
    | @refuse pre _ rest _ h1 h2 h3 _ =>
      refine ⟨pre, rest, h1, (begins_iff ht h1).mpr h2, fun h4 => h3 ?_⟩
      have := (begins_iff ht (pre := pre ++ [t]) (rest := rest) (by simp [h1])).mp h4
      simpa using this
  · rintro ⟨pre, rest, h1, h2, h3⟩
    have h3' : ¬ Viable ((pre ++ [t]).map lexeme) := fun h =>
      h3 ((begins_iff ht (pre := pre ++ [t]) (rest := rest) (by simp [h1])).mpr h)
    have hall : ¬ Viable ((lex s).1.map lexeme) := fun h => h3' (by
      have he : (lex s).1.map lexeme = (pre ++ [t]).map lexeme ++ rest.map lexeme := by simp [h1]
      rw [he] at h
      exact h.of_append)
    obtain ⟨o, ho⟩ := C87_returns s
    have hout := outcomes_parse (s := s) ho
    cases hout with
    | @accept x _ h => exact absurd ⟨[], x, by rw [List.append_nil]; exact h⟩ hall
    | refuseEof _ h _ => exact absurd h hall
    | invalid _ h => exact absurd h hall
    | @refuse pre' t' rest' e e1 e2 e3 _ =>
      refine ⟨e, ?_⟩
      have heq : pre ++ t :: rest = pre' ++ t' :: rest' := h1.symm.trans e1
      have hv := (begins_iff ht h1).mp h2
      have hlen : pre.length = pre'.length := by
        rcases Nat.lt_trichotomy pre.length pre'.length with h | h | h
        · exfalso
          have hp : (pre ++ [t]) <+: pre' := by
            apply List.prefix_of_prefix_length_le (l₃ := pre' ++ t' :: rest')
            · rw [← heq]; exact ⟨rest, by simp⟩
            · exact ⟨_, rfl⟩
            · simp; omega
          obtain ⟨q, hq⟩ := hp
          rw [← hq, List.map_append] at e2
          exact h3' e2.of_append
        · exact h
        · exfalso
          have hp : (pre' ++ [t']) <+: pre := by
            apply List.prefix_of_prefix_length_le (l₃ := pre ++ t :: rest)
            · rw [heq]; exact ⟨rest', by simp⟩
            · exact ⟨_, rfl⟩
            · simp; omega
          obtain ⟨q, hq⟩ := hp
          rw [← hq, List.map_append] at hv
          have := hv.of_append
          rw [List.map_append] at this
          exact e3 this
      obtain ⟨_, h5⟩ := List.append_inj heq hlen
      simp only [List.cons.injEq] at h5
      rw [h5.1]
      exact ho

/-- The parser reports the end of the text exactly when the text is the beginning of a statement but not one; the
place it reports is the end of the last word. -/
theorem C90_unexpected_end (s : Str) (l : Nat) :
    (∃ e, parse s = some (.ok (.error (.unrecognizedEof l e)))) ↔
      (lex s).2 = none ∧ Begins (lex s).1 ∧ (∀ x, ¬ StandsFor s x) ∧ l = lastStop 0 (lex s).1 := by
  have ht := lex_tokens s
  have hb := begins_iff ht (List.append_nil _).symm
  have hs : (lex s).2 = none → ((∀ x, ¬ StandsFor s x) ↔ ∀ x, ¬ Gr .sqlStatement ((lex s).1.map lexeme) x) := by
    intro hn
    have ht' : Tokens 0 s (lex s).1 none := by rw [← hn]; exact ht
    constructor
    · exact fun h x hx => h x ⟨_, ht', by rw [← map_wordOf ht']; exact hx⟩
    · rintro h x ⟨toks, h1, h2⟩
      obtain ⟨rfl, _⟩ := ht.unique h1
      exact h x (by rw [map_wordOf ht']; exact h2)
  constructor
  · rintro ⟨e, h⟩
    cases outcomes_parse h with
    | refuseEof h1 h2 h3 => exact ⟨h1, hb.mpr h2, (hs h1).mpr h3, rfl⟩
  · rintro ⟨h1, h2, h3, rfl⟩
    obtain ⟨o, ho⟩ := C87_returns s
    have hout := outcomes_parse (s := s) ho
    cases hout with
    | @accept x _ h => exact absurd h ((hs h1).mp h3 x)
    | @refuseEof e _ _ _ => exact ⟨e, ho⟩
    | invalid h _ => rw [h1] at h; cases h
    | @refuse pre t rest e e1 e2 e3 _ =>
      exfalso
      have hv := hb.mp h2
      have he : (lex s).1.map lexeme = (pre.map lexeme ++ [lexeme t]) ++ rest.map lexeme := by simp [e1]
      rw [he] at hv
      exact e3 hv.of_append

/-- The parser reports a place where no word starts exactly when the words before it are the beginning of a
statement. -/
theorem C90_no_word (s : Str) (l : Nat) : parse s = some (.ok (.error (.invalidToken l))) ↔
    (lex s).2 = some l ∧ Begins (lex s).1 := by
  have ht := lex_tokens s
  have hb := begins_iff ht (List.append_nil _).symm
  constructor
  · intro h
    cases outcomes_parse h with
    | invalid h1 h2 => exact ⟨h1, hb.mpr h2⟩
  · rintro ⟨h1, h2⟩
    obtain ⟨o, ho⟩ := C87_returns s
    have hout := outcomes_parse (s := s) ho
    cases hout with
    | accept h _ => rw [h1] at h; cases h
    | refuseEof h _ _ => rw [h1] at h; cases h
    | invalid h _ => rw [h1] at h; cases h; exact ho
    | @refuse pre t rest e e1 e2 e3 _ =>
      exfalso
      have hv := hb.mp h2
      have he : (lex s).1.map lexeme = (pre.map lexeme ++ [lexeme t]) ++ rest.map lexeme := by simp [e1]
      rw [he] at hv
      exact e3 hv.of_append

/-- There are no other outcomes. -/
theorem C90_outcomes (s : Str) : (∃ x, parse s = some (.ok (.ok x))) ∨
    (∃ t e, parse s = some (.ok (.error (.unrecognizedToken t e)))) ∨
    (∃ l e, parse s = some (.ok (.error (.unrecognizedEof l e)))) ∨
    (∃ l, parse s = some (.ok (.error (.invalidToken l)))) := by
  obtain ⟨o, ho⟩ := C87_returns s
  have hout := outcomes_parse (s := s) ho
  cases hout with
  | accept _ _ => exact .inl ⟨_, ho⟩
  | refuse _ _ _ _ => exact .inr (.inl ⟨_, _, ho⟩)
  | refuseEof _ _ _ => exact .inr (.inr (.inl ⟨_, _, ho⟩))
  | invalid _ _ => exact .inr (.inr (.inr ⟨_, ho⟩))

/-- Texts with the three kinds of errors. -/
example : FirstWrong (lex "SELECT a FROM WHERE b".toList).1 ⟨66, "WHERE".toList, 14, 19⟩ := by
  set_option maxRecDepth 100000 in
  exact (C90_unexpected_word _ _).mp ⟨_, by rfl⟩

example : Begins (lex "SELECT a FROM".toList).1 ∧ ∀ x, ¬ StandsFor "SELECT a FROM".toList x := by
  set_option maxRecDepth 100000 in
  have h := (C90_unexpected_end "SELECT a FROM".toList 13).mp ⟨_, by rfl⟩
  exact ⟨h.2.1, h.2.2.1⟩

example : parse "SELECT a ;".toList = some (.ok (.error (.invalidToken 9))) := by
  set_option maxRecDepth 100000 in
  rfl

/-! ## C92 -/

/-- The names the parser uses for a kind of words in the list of expected words. -/
def nameOf (k : Kind) : String := (terminalNames[code k]?).getD ""

/-- The text can go on with a word of the kind. -/
def GoesOn (pre : List Token) (k : Kind) : Prop := ∃ t w x, Gr .sqlStatement (pre.map wordOf ++ (k, t) :: w) x

/-- What the list of expected words should be: for every unexpected word the kinds of words with which the text before
it can go on. -/
def ExpectedRight : Prop := ∀ s pre t rest e, (lex s).1 = pre ++ t :: rest →
  parse s = some (.ok (.error (.unrecognizedToken t e))) → ∀ k, nameOf k ∈ e ↔ GoesOn pre k

/-- The words `SELECT a`. -/
def selectA : List Token := [⟨55, "SELECT".toList, 0, 6⟩, ⟨3, "a".toList, 7, 8⟩]

theorem lex_selectA : lex "SELECT a ) b".toList = (selectA ++ ⟨70, ")".toList, 9, 10⟩ :: [⟨3, "b".toList, 11, 12⟩], none) := by
  decide +kernel

theorem lex_selectFrom : lex "SELECT a FROM t".toList =
    (selectA ++ ⟨28, "FROM".toList, 9, 13⟩ :: [⟨3, "t".toList, 14, 15⟩], none) := by decide +kernel

set_option maxRecDepth 100000 in
theorem parse_selectA : parse "SELECT a ) b".toList =
    some (.ok (.error (.unrecognizedToken ⟨70, ")".toList, 9, 10⟩ []))) := by rfl

set_option maxRecDepth 100000 in
theorem parse_selectFrom : ∃ x, parse "SELECT a FROM t".toList = some (.ok (.ok x)) := ⟨_, by rfl⟩

/-- The list can be empty although the text can go on: after `SELECT a )` the text `SELECT a` can go on with `FROM`. -/
theorem C92_expected_refuted : ∃ s pre t rest, (lex s).1 = pre ++ t :: rest ∧
    parse s = some (.ok (.error (.unrecognizedToken t []))) ∧ GoesOn pre .FROM := by
  refine ⟨_, _, _, _, congrArg Prod.fst lex_selectA, parse_selectA, ?_⟩
  obtain ⟨x, hx⟩ := parse_selectFrom
  obtain ⟨toks, h1, h2⟩ := (C88_accepts_grammar _ _).mp hx
  have h3 := (lex_tokens "SELECT a FROM t".toList).unique h1
  rw [lex_selectFrom] at h3
  obtain ⟨rfl, _⟩ := h3
  exact ⟨"FROM".toList, [(.ID, "t".toList)], x, h2⟩

/-- The words `SELECT 'a'`. -/
def selectQ : List Token := [⟨55, "SELECT".toList, 0, 6⟩, ⟨0, "'a'".toList, 7, 10⟩]

theorem lex_selectQ : lex "SELECT 'a' 's'".toList = (selectQ ++ ⟨0, "'s'".toList, 11, 14⟩ :: [], none) := by decide +kernel

theorem lex_selectAsc : lex "SELECT 'a' ASC".toList = (selectQ ++ [⟨8, "ASC".toList, 11, 14⟩], none) := by decide +kernel

set_option maxRecDepth 100000 in
theorem parse_selectQ : parse "SELECT 'a' 's'".toList =
    some (.ok (.error (.unrecognizedToken ⟨0, "'s'".toList, 11, 14⟩ (expectedTokens 173)))) := by rfl

set_option maxRecDepth 100000 in
theorem parse_selectAsc : ∃ e, parse "SELECT 'a' ASC".toList =
    some (.ok (.error (.unrecognizedToken ⟨8, "ASC".toList, 11, 14⟩ e))) := ⟨_, by rfl⟩

/-- The list can name words with which the text cannot go on: `ASC` after `SELECT 'a'`. -/
theorem C92_expected_too_much_refuted : ∃ s pre t rest e, (lex s).1 = pre ++ t :: rest ∧
    parse s = some (.ok (.error (.unrecognizedToken t e))) ∧ nameOf .ASC ∈ e ∧
      ∀ w x, ¬ Gr .sqlStatement (pre.map wordOf ++ (.ASC, "ASC".toList) :: w) x := by
  refine ⟨_, _, _, _, _, congrArg Prod.fst lex_selectQ, parse_selectQ, by decide +kernel, ?_⟩
  obtain ⟨pre, rest, h1, _, h3⟩ := (C90_unexpected_word _ _).mp parse_selectAsc
  intro w x hx
  rw [lex_selectAsc] at h1
  have hlen : pre.length = 2 := by
    have hne : ∀ t' ∈ selectQ, t' ≠ ⟨8, "ASC".toList, 11, 14⟩ := by decide +kernel
    have hl := congrArg List.length h1
    have h2 : selectQ.length = 2 := rfl
    simp only [List.length_append, List.length_cons, List.length_nil] at hl
    rcases Nat.lt_or_ge pre.length 2 with h | h
    · exfalso
      have hg := congrArg (fun l => l[pre.length]?) h1
      simp only [List.getElem?_append_right (Nat.le_refl _), Nat.sub_self, List.getElem?_cons_zero] at hg
      rw [List.getElem?_append_left (by omega)] at hg
      exact hne _ (List.mem_of_getElem? hg) rfl
    · omega
  obtain ⟨rfl, _⟩ := List.append_inj h1 (by rw [hlen]; rfl)
  exact h3 ⟨w, x, by rw [List.map_append, List.append_assoc]; exact hx⟩

theorem C92_expected_wrong_refuted : ¬ ExpectedRight := by
  intro h
  obtain ⟨s, pre, t, rest, h1, h2, h3⟩ := C92_expected_refuted
  have := (h s pre t rest [] h1 h2 .FROM).mpr h3
  cases this

/-- The word that is reported is never in the list of expected words. -/
theorem C92_expected_partial (s : Str) (t : Token) (e : List String)
    (h : parse s = some (.ok (.error (.unrecognizedToken t e)))) : nameOf (wordOf t).1 ∉ e := by
  cases outcomes_parse h with
  | @refuse pre _ rest _ h1 _ _ h4 =>
    obtain ⟨st, hst, rfl, ha⟩ := h4
    have hidx := (tokens_good (lex_tokens s) t (by rw [h1]; simp)).index
    obtain ⟨_, hk⟩ := code_lexeme hidx
    rw [lexeme_wordOf hidx] at ha hk
    unfold nameOf
    generalize code (wordOf t).1 = k at *
    intro hmem
    simp only [expectedTokens, List.mem_filterMap, List.mem_filter, List.mem_range] at hmem
    obtain ⟨i, ⟨hi, hact⟩, hname⟩ := hmem
    have hinj : ∀ i, i < 83 → ∀ k, k < 83 → terminalNames[i]? = some (terminalNames[k]?.getD "") → i = k := by
      decide +kernel
    have hi' : i < 83 := hi
    have := hinj i hi' k hk hname
    subst this
    simp [action_ok hst hi', ha] at hact

/-- Tokens of a text come one after the other. -/
theorem Covers.increasing {off s toks inv} (h : Covers off s toks inv) :
    (∀ t ∈ toks, off ≤ t.start) ∧ toks.Pairwise fun a b => a.start < b.start := by
  induction h with
  | ends _ => simp
  | stuck _ _ => simp
  | @word off gap t r toks inv _ hne h1 h2 _ ih =>
    have hpos : 0 < bytes t.text := by
      cases ht : t.text with
      | nil => exact absurd ht hne
      | cons c cs =>
        rw [show c :: cs = [c] ++ cs from rfl, bytes_append]
        have : 0 < bytes [c] := by
          simp only [bytes, Str.utf8, List.flatMap_cons, List.flatMap_nil, List.append_nil]
          exact by have := Char.utf8Size_pos c; rw [← String.length_utf8EncodeChar] at this; exact this
        omega
    refine ⟨List.forall_mem_cons.mpr ⟨by omega, fun a ha => ?_⟩, List.pairwise_cons.mpr ⟨fun a ha => ?_, ih.2⟩⟩
    · have := ih.1 a ha
      omega
    · have := ih.1 a ha
      omega

theorem split_unique {α : Type} {t : α} : ∀ {p p' r r' : List α}, p ++ t :: r = p' ++ t :: r' → t ∉ p → t ∉ p' → p = p'
  | [], [], _, _, _, _, _ => rfl
  | [], b :: p', _, _, h, _, h2 => by cases h; exact absurd List.mem_cons_self h2
  | a :: p, [], _, _, h, h1, _ => by cases h; exact absurd List.mem_cons_self h1
  | a :: p, b :: p', r, r', h, h1, h2 => by
    simp only [List.cons_append, List.cons.injEq] at h
    obtain ⟨rfl, h⟩ := h
    rw [split_unique h (fun hm => h1 (List.mem_cons_of_mem _ hm)) (fun hm => h2 (List.mem_cons_of_mem _ hm))]

/-- The words before a word of a text are determined by the word. -/
theorem pre_unique {s : Str} {pre pre' rest rest' : List Token} {t : Token} (h : (lex s).1 = pre ++ t :: rest)
    (h' : (lex s).1 = pre' ++ t :: rest') : pre = pre' := by
  have hp := (C91_covers s).increasing.2
  have hn : ∀ {p r : List Token}, (lex s).1 = p ++ t :: r → t ∉ p := by
    intro p r e
    rw [e, List.pairwise_append] at hp
    exact fun hm => Nat.lt_irrefl _ (hp.2.2 t hm t List.mem_cons_self)
  exact split_unique (h.symm.trans h') (hn h) (hn h')

/-- Nothing comes before, or the last word before is one of the keywords, operators and signs of `opening`, which
cannot be the last word of any phrase: all but `)`, `*`, `.`, `ALL`, `ASC`, `CURRENT_…`, `DESC`, `DISTINCT`, `END`,
`EXCEPT`, `FULL`, `INNER`, `INTERSECT`, `ISNULL`, `JOIN`, `LEFT`, `NOTNULL`, `NULL`, `OUTER`, `RIGHT`, `SELECT`,
`TABLE`, `UNION`, names and literals. -/
def AfterOpening (pre : List Token) : Prop := pre = [] ∨ ∃ p l, pre = p ++ [l] ∧ (wordOf l).1 ∈ opening

theorem opens_of {s : Str} {pre rest : List Token} (h : (lex s).1 = pre ++ rest) (hp : AfterOpening pre) : Opens pre := by
  rcases hp with rfl | ⟨p, l, rfl, hl⟩
  · exact .inl rfl
  · refine .inr ⟨p, l, rfl, ?_⟩
    rw [lexeme_wordOf (tokens_good (lex_tokens s) l (by rw [h]; simp)).index]
    exact hl

theorem map_wordOf_pre {s : Str} {pre rest : List Token} (h : (lex s).1 = pre ++ rest) :
    pre.map lexeme = pre.map wordOf :=
  List.map_congr_left fun t ht => lexeme_wordOf (tokens_good (lex_tokens s) t (by rw [h]; exact List.mem_append_left _ ht)).index

/-- C92 where the wrong word is the first or follows a word of `opening`: the list names exactly the kinds of words with
which the text before it can go on.  Full statement: `ExpectedRight`.  Missing: wrong words after other words, where the
list is wrong in both directions. -/
theorem C92_expected_exact_partial (s : Str) (pre : List Token) (t : Token) (rest : List Token) (e : List String)
    (h : (lex s).1 = pre ++ t :: rest) (hp : AfterOpening pre)
    (hs : parse s = some (.ok (.error (.unrecognizedToken t e)))) : ∀ k, nameOf k ∈ e ↔ GoesOn pre k := by
  intro k
  obtain ⟨pre', rest', h1, h2⟩ := (expected_exact (tokens_good (lex_tokens s)) (lex s).2
    (n := 19 * (lex s).1.length + 1) (by omega) hs).1 t e rfl
  have := pre_unique h h1
  subst this
  have := h2 (opens_of h hp) k
  rw [map_wordOf_pre h] at this
  exact this

/-- C92 at the end of the text: if the text ends with a word of `opening` (or has no words), the list names exactly the
kinds of words with which it can go on. -/
theorem C92_expected_end_partial (s : Str) (l : Nat) (e : List String) (hp : AfterOpening (lex s).1)
    (hs : parse s = some (.ok (.error (.unrecognizedEof l e)))) : ∀ k, nameOf k ∈ e ↔ GoesOn (lex s).1 k := by
  intro k
  have := (expected_exact (tokens_good (lex_tokens s)) (lex s).2
    (n := 19 * (lex s).1.length + 1) (by omega) hs).2 l e rfl
    (opens_of (s := s) (rest := []) (by simp) hp) k
  rw [map_wordOf_pre (s := s) (rest := []) (by simp)] at this
  exact this

theorem lex_selectWhere : lex "SELECT a FROM t WHERE )".toList =
    ([⟨55, "SELECT".toList, 0, 6⟩, ⟨3, "a".toList, 7, 8⟩, ⟨28, "FROM".toList, 9, 13⟩, ⟨3, "t".toList, 14, 15⟩,
      ⟨66, "WHERE".toList, 16, 21⟩] ++ ⟨70, ")".toList, 22, 23⟩ :: [], none) := by decide +kernel

set_option maxRecDepth 100000 in
theorem parse_selectWhere : ∃ e, parse "SELECT a FROM t WHERE )".toList =
    some (.ok (.error (.unrecognizedToken ⟨70, ")".toList, 22, 23⟩ e))) ∧ nameOf .NOT ∈ e ∧ nameOf .AND ∉ e :=
  ⟨_, by rfl, by decide +kernel, by decide +kernel⟩

/-- After WHERE an expression is expected, which can begin with NOT and not with AND. -/
example : GoesOn [⟨55, "SELECT".toList, 0, 6⟩, ⟨3, "a".toList, 7, 8⟩, ⟨28, "FROM".toList, 9, 13⟩,
      ⟨3, "t".toList, 14, 15⟩, ⟨66, "WHERE".toList, 16, 21⟩] .NOT ∧
    ¬ GoesOn [⟨55, "SELECT".toList, 0, 6⟩, ⟨3, "a".toList, 7, 8⟩, ⟨28, "FROM".toList, 9, 13⟩,
      ⟨3, "t".toList, 14, 15⟩, ⟨66, "WHERE".toList, 16, 21⟩] .AND := by
  obtain ⟨e, h1, h2, h3⟩ := parse_selectWhere
  have h := C92_expected_exact_partial _ _ _ _ e (congrArg Prod.fst lex_selectWhere)
    (.inr ⟨selectA ++ [⟨28, "FROM".toList, 9, 13⟩, ⟨3, "t".toList, 14, 15⟩], ⟨66, "WHERE".toList, 16, 21⟩, rfl,
      by decide +kernel⟩) h1
  exact ⟨(h .NOT).mp h2, fun h4 => h3 ((h .AND).mpr h4)⟩

end Verif.Props
