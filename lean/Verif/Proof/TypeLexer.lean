import Verif.Proof.TypeParser

/-! # Proofs about the lexer of the type parser -/

namespace Verif

open TypeParser Spec

/-- The words that are terminals of their own. -/
def keywords : List Str := ["bool", "char", "u8", "u16", "u32", "u64", "u128", "i8", "i16", "i32", "i64",
  "i128", "f32", "f64", "string", "struct", "enum"].map String.toList

theorem ite_eq_cases {α : Type} {p : Prop} [Decidable p] {a b c : α} (h : (if p then a else b) = c) :
    (p ∧ a = c) ∨ b = c := by
  split at h
  · exact .inl ⟨by assumption, h⟩
  · exact .inr h

theorem keyword_some {s : Str} {k : Tok} (h : keyword s = some k) :
    TokOk k ∧ spell k = s ∧ (∀ r, Boundary k r ↔ Boundary (.ident s) r) ∧ s ∈ keywords := by
  unfold keyword at h
  iterate 17
    rcases ite_eq_cases h with ⟨h1, h2⟩ | h2
    · cases h2; subst h1
      exact ⟨trivial, rfl, fun r => by cases r <;> exact Iff.rfl, by decide⟩
    clear h; have h := h2; clear h2
  cases h

theorem keyword_none {s : Str} (h : keyword s = none) : s ∉ keywords := by
  intro hm
  simp only [keywords, List.map_cons, List.map_nil, List.mem_cons, List.not_mem_nil, or_false] at hm
  rcases hm with h1 | h1 | h1 | h1 | h1 | h1 | h1 | h1 | h1 | h1 | h1 | h1 | h1 | h1 | h1 | h1 | h1
  all_goals (subst h1; exact absurd h (by decide))

/-- What `keyword` finds, and when it finds nothing. -/
theorem keyword_spec (s : Str) :
    (∃ k, keyword s = some k ∧ TokOk k ∧ spell k = s ∧ (∀ r, Boundary k r ↔ Boundary (.ident s) r)) ∨
    (keyword s = none ∧ s ∉ keywords) := by
  cases h : keyword s with
  | some k => obtain ⟨a, b, c, _⟩ := keyword_some h; exact .inl ⟨k, rfl, a, b, c⟩
  | none => exact .inr ⟨rfl, keyword_none h⟩

theorem wordTok_spec {w : Str} (h : IsWord w) :
    TokOk (wordTok w) ∧ spell (wordTok w) = w ∧ (∀ r, Boundary (wordTok w) r ↔ Boundary (.ident w) r) := by
  unfold wordTok
  rcases keyword_spec w with ⟨k, h1, h2, h3, h4⟩ | ⟨h1, h2⟩
  · rw [h1]; exact ⟨h2, h3, h4⟩
  · rw [h1]; exact ⟨⟨h, h2⟩, rfl, fun _ => Iff.rfl⟩

theorem keyword_label {s : Str} (h : IsLabel s) : keyword s = none := by
  cases h1 : keyword s with
  | some k => exact absurd (keyword_some h1).2.2.2 h.2
  | none => rfl

/-- The characters that begin tokens do not overlap. -/
theorem start_word {c : Char} (h : identStart c = true) : startTok c = some ([], .word [c]) := by
  have h1 : c.toNat ≠ 40 ∧ c.toNat ≠ 41 ∧ c.toNat ≠ 123 ∧ c.toNat ≠ 125 ∧ c.toNat ≠ 44 ∧ c.toNat ≠ 58
      ∧ isSpace c = false := by
    simp [identStart] at h
    simp [isSpace]
    omega
  obtain ⟨a1, a2, a3, a4, a5, a6, a7⟩ := h1
  unfold startTok
  rw [if_neg (by simp [a7]), if_neg (by rintro rfl; exact a1 rfl), if_neg (by rintro rfl; exact a2 rfl),
    if_neg (by rintro rfl; exact a3 rfl), if_neg (by rintro rfl; exact a4 rfl),
    if_neg (by rintro rfl; exact a5 rfl), if_neg (by rintro rfl; exact a6 rfl), if_pos h]

theorem start_num {c : Char} (h : isDigit c = true) : startTok c = some ([], .num [c]) := by
  have h1 : c.toNat ≠ 40 ∧ c.toNat ≠ 41 ∧ c.toNat ≠ 123 ∧ c.toNat ≠ 125 ∧ c.toNat ≠ 44 ∧ c.toNat ≠ 58
      ∧ isSpace c = false ∧ identStart c = false := by
    simp [isDigit] at h
    simp [isSpace, identStart]
    omega
  obtain ⟨a1, a2, a3, a4, a5, a6, a7, a8⟩ := h1
  unfold startTok
  rw [if_neg (by simp [a7]), if_neg (by rintro rfl; exact a1 rfl), if_neg (by rintro rfl; exact a2 rfl),
    if_neg (by rintro rfl; exact a3 rfl), if_neg (by rintro rfl; exact a4 rfl),
    if_neg (by rintro rfl; exact a5 rfl), if_neg (by rintro rfl; exact a6 rfl), if_neg (by simp [a8]),
    if_pos h]

theorem lex_word_stop (acc : Str) (c : Char) (cs : Str) (h : identChar c = false) :
    lexFrom (.word acc) (c :: cs) = (lexFrom .idle (c :: cs)).map ([wordTok acc.reverse] ++ ·) := by
  simp only [lexFrom, stepTok, h]
  cases startTok c with
  | none => rfl
  | some r =>
    simp only [Bool.false_eq_true, if_false, Option.map_some]
    cases lexFrom r.2 cs <;> simp

theorem lex_num_stop (acc : Str) (c : Char) (cs : Str) (h : isDigit c = false) :
    lexFrom (.num acc) (c :: cs) = (lexFrom .idle (c :: cs)).map ([.int acc.reverse] ++ ·) := by
  simp only [lexFrom, stepTok, h]
  cases startTok c with
  | none => rfl
  | some r =>
    simp only [Bool.false_eq_true, if_false, Option.map_some]
    cases lexFrom r.2 cs <;> simp

theorem lex_word_end (acc s : Str) (h : Boundary (.ident acc.reverse) s) :
    lexFrom (.word acc) s = (lexFrom .idle s).map ([wordTok acc.reverse] ++ ·) := by
  cases s with
  | nil => rfl
  | cons c cs => exact lex_word_stop acc c cs h

theorem lex_num_end (acc s : Str) (h : Boundary (.int acc.reverse) s) :
    lexFrom (.num acc) s = (lexFrom .idle s).map ([.int acc.reverse] ++ ·) := by
  cases s with
  | nil => rfl
  | cons c cs => exact lex_num_stop acc c cs h

theorem lex_word_go (w s : Str) : ∀ (acc : Str), (∀ c ∈ w, identChar c = true) →
    Boundary (.ident (acc.reverse ++ w)) s →
    lexFrom (.word acc) (w ++ s) = (lexFrom .idle s).map ([wordTok (acc.reverse ++ w)] ++ ·) := by
  induction w with
  | nil => intro acc _ hb; simpa using lex_word_end acc s (by cases s <;> simpa using hb)
  | cons c w ih =>
    intro acc h hb
    have h1 := ih (c :: acc) (fun d hd => h d (.tail _ hd)) (by simpa using hb)
    simp only [List.cons_append, lexFrom, stepTok, h c (.head _), if_true, h1]
    cases lexFrom .idle s <;> simp

theorem lex_num_go (w s : Str) : ∀ (acc : Str), (∀ c ∈ w, isDigit c = true) →
    Boundary (.int (acc.reverse ++ w)) s →
    lexFrom (.num acc) (w ++ s) = (lexFrom .idle s).map ([.int (acc.reverse ++ w)] ++ ·) := by
  induction w with
  | nil => intro acc _ hb; simpa using lex_num_end acc s (by cases s <;> simpa using hb)
  | cons c w ih =>
    intro acc h hb
    have h1 := ih (c :: acc) (fun d hd => h d (.tail _ hd)) (by simpa using hb)
    simp only [List.cons_append, lexFrom, stepTok, h c (.head _), if_true, h1]
    cases lexFrom .idle s <;> simp

theorem lex_word {w s : Str} (h : IsWord w) (hb : Boundary (.ident w) s) :
    lexFrom .idle (w ++ s) = (lexFrom .idle s).map ([wordTok w] ++ ·) := by
  obtain ⟨c, cs, rfl, h1, h2⟩ := h
  have h3 := lex_word_go cs s [c] h2 (by simpa using hb)
  simp only [List.cons_append, lexFrom, stepTok, start_word h1, h3]
  cases lexFrom .idle s <;> simp

theorem lex_num {w s : Str} (h : w ≠ []) (h2 : ∀ c ∈ w, isDigit c = true) (hb : Boundary (.int w) s) :
    lexFrom .idle (w ++ s) = (lexFrom .idle s).map ([.int w] ++ ·) := by
  cases w with
  | nil => exact absurd rfl h
  | cons c cs =>
  have h3 := lex_num_go cs s [c] (fun d hd => h2 d (.tail _ hd)) (by simpa using hb)
  simp only [List.cons_append, lexFrom, stepTok, start_num (h2 c (.head _)), h3]
  cases lexFrom .idle s <;> simp

theorem lex_tok {k : Tok} {s : Str} (h : TokOk k) (hb : Boundary k s) :
    lexFrom .idle (spell k ++ s) = (lexFrom .idle s).map ([k] ++ ·) := by
  have kw : ∀ (k : Tok), IsWord (spell k) → keyword (spell k) = some k →
      (Boundary k s → Boundary (.ident (spell k)) s) → Boundary k s →
      lexFrom .idle (spell k ++ s) = (lexFrom .idle s).map ([k] ++ ·) := by
    intro k h1 h2 h3 hb
    rw [lex_word h1 (h3 hb), wordTok, h2]; rfl
  have word : ∀ (w : Str), (∃ c cs, w = c :: cs ∧ identStart c = true ∧ cs.all identChar = true) →
      IsWord w := by
    rintro w ⟨c, cs, h1, h2, h3⟩
    exact ⟨c, cs, h1, h2, by simpa using h3⟩
  cases k with
  | ident w =>
    rw [spell, lex_word h.1 hb, wordTok, keyword_label h]; rfl
  | int w => exact lex_num h.1 h.2 hb
  | prim p =>
    cases p <;> exact kw _ (word _ ⟨_, _, rfl, by decide, by decide⟩) (by decide)
      (by cases s <;> exact id) hb
  | string => exact kw _ (word _ ⟨_, _, rfl, by decide, by decide⟩) (by decide) (by cases s <;> exact id) hb
  | struct => exact kw _ (word _ ⟨_, _, rfl, by decide, by decide⟩) (by decide) (by cases s <;> exact id) hb
  | enum => exact kw _ (word _ ⟨_, _, rfl, by decide, by decide⟩) (by decide) (by cases s <;> exact id) hb
  | _ =>
    show lexFrom .idle (_ :: s) = _
    simp only [lexFrom, stepTok]
    rfl

theorem lex_complete {ts : List Tok} {s : Str} (h : Spelled ts s) : lex s = some ts := by
  unfold lex
  induction h with
  | nil => rfl
  | space hc _ ih =>
    simp only [lexFrom, stepTok, startTok, hc, if_true, ih]; rfl
  | tok h1 h2 _ ih => rw [lex_tok h1 h2, ih]; rfl

/-- What is left to be spelled. -/
def TypeParser.Mode.pending : Mode → Str
  | .idle => []
  | .word acc => acc.reverse
  | .num acc => acc.reverse

/-- The characters of a mode fit its pattern. -/
def ModeOk : Mode → Prop
  | .idle => True
  | .word acc => IsWord acc.reverse
  | .num acc => acc ≠ [] ∧ ∀ c ∈ acc, isDigit c = true

theorem isWord_snoc {w : Str} {c : Char} (h : IsWord w) (hc : identChar c = true) : IsWord (w ++ [c]) := by
  obtain ⟨d, ds, rfl, h1, h2⟩ := h
  refine ⟨d, ds ++ [c], rfl, h1, ?_⟩
  intro e he
  rcases List.mem_append.1 he with he | he
  · exact h2 e he
  · rw [List.mem_singleton.1 he]; exact hc

theorem startTok_cases {c : Char} {out : List Tok} {m : Mode} (h : startTok c = some (out, m)) :
    (isSpace c = true ∧ out = [] ∧ m = .idle) ∨
    (∃ k, spell k = [c] ∧ TokOk k ∧ (∀ s, Boundary k s) ∧ out = [k] ∧ m = .idle) ∨
    (identStart c = true ∧ out = [] ∧ m = .word [c]) ∨
    (isDigit c = true ∧ out = [] ∧ m = .num [c]) := by
  unfold startTok at h
  split at h
  · next h1 => cases h; exact .inl ⟨h1, rfl, rfl⟩
  iterate 6
    split at h
    · next h1 =>
      cases h; subst h1
      refine .inr (.inl ⟨_, ?_, ?_, ?_, rfl, rfl⟩)
      · rfl
      · trivial
      · intro s; cases s <;> trivial
  split at h
  · next h1 => cases h; exact .inr (.inr (.inl ⟨h1, rfl, rfl⟩))
  split at h
  · next h1 => cases h; exact .inr (.inr (.inr ⟨h1, rfl, rfl⟩))
  · cases h

theorem lex_sound (s : Str) : ∀ (m : Mode) (ts : List Tok), ModeOk m → lexFrom m s = some ts →
    Spelled ts (m.pending ++ s) := by
  have stopWord : ∀ (acc s : Str) (ts : List Tok), IsWord acc.reverse →
      Boundary (.ident acc.reverse) s → Spelled ts s → Spelled (wordTok acc.reverse :: ts) (acc.reverse ++ s) := by
    intro acc s ts h1 h2 h3
    obtain ⟨a, b, c⟩ := wordTok_spec h1
    have := Spelled.tok a ((c s).2 h2) h3
    rwa [b] at this
  have stopNum : ∀ (acc s : Str) (ts : List Tok), (acc ≠ [] ∧ ∀ c ∈ acc, isDigit c = true) →
      Boundary (.int acc.reverse) s → Spelled ts s → Spelled (.int acc.reverse :: ts) (acc.reverse ++ s) := by
    intro acc s ts h1 h2 h3
    exact Spelled.tok (k := .int acc.reverse) ⟨by simpa using h1.1, by simpa using h1.2⟩ h2 h3
  induction s with
  | nil =>
    intro m ts hm h
    cases h
    cases m with
    | idle => exact .nil
    | word acc => exact stopWord acc [] [] hm trivial .nil
    | num acc => exact stopNum acc [] [] hm trivial .nil
  | cons c cs ih =>
    have idle : ∀ ts, lexFrom .idle (c :: cs) = some ts → Spelled ts (c :: cs) := by
      intro ts h
      simp only [lexFrom, stepTok] at h
      cases h1 : startTok c with
      | none => rw [h1] at h; cases h
      | some r =>
        obtain ⟨out, m⟩ := r
        rw [h1] at h
        simp only [Option.map_eq_some_iff] at h
        obtain ⟨us, h2, rfl⟩ := h
        rcases startTok_cases h1 with ⟨a, rfl, rfl⟩ | ⟨k, a, b, d, rfl, rfl⟩ | ⟨a, rfl, rfl⟩ | ⟨a, rfl, rfl⟩
        · exact .space a (ih .idle _ trivial h2)
        · have := Spelled.tok b (d cs) (ih .idle _ trivial h2)
          rwa [a] at this
        · exact ih (.word [c]) us ⟨c, [], rfl, a, by simp⟩ h2
        · exact ih (.num [c]) us ⟨by simp, by simpa using a⟩ h2
    intro m ts hm h
    cases m with
    | idle => exact idle ts h
    | word acc =>
      cases hc : identChar c with
      | true =>
        simp only [lexFrom, stepTok, hc, if_true, List.nil_append, Option.map_id'] at h
        have := ih (.word (c :: acc)) ts (by
          show IsWord (c :: acc).reverse
          rw [List.reverse_cons]; exact isWord_snoc hm hc) h
        simpa [Mode.pending] using this
      | false =>
        rw [lex_word_stop acc c cs hc] at h
        obtain ⟨us, h1, rfl⟩ := Option.map_eq_some_iff.1 h
        exact stopWord acc (c :: cs) us hm hc (idle us h1)
    | num acc =>
      cases hc : isDigit c with
      | true =>
        simp only [lexFrom, stepTok, hc, if_true, List.nil_append, Option.map_id'] at h
        have := ih (.num (c :: acc)) ts ⟨by simp, by
          intro d hd
          cases hd with
          | head => exact hc
          | tail _ hd => exact hm.2 d hd⟩ h
        simpa [Mode.pending] using this
      | false =>
        rw [lex_num_stop acc c cs hc] at h
        obtain ⟨us, h1, rfl⟩ := Option.map_eq_some_iff.1 h
        exact stopNum acc (c :: cs) us hm hc (idle us h1)

theorem lex_iff (ts : List Tok) (s : Str) : lex s = some ts ↔ Spelled ts s :=
  ⟨fun h => lex_sound s .idle ts trivial h, lex_complete⟩

theorem parse_iff (s : Str) (t : Ty) : parse s = some t ↔ ∃ ts, Spelled ts s ∧ DerivesTy t ts := by
  unfold parse
  rw [Option.bind_eq_some_iff]
  exact ⟨fun ⟨ts, h1, h2⟩ => ⟨ts, (lex_iff _ _).1 h1, (parseToks_iff _ _).1 h2⟩,
    fun ⟨ts, h1, h2⟩ => ⟨ts, (lex_iff _ _).2 h1, (parseToks_iff _ _).2 h2⟩⟩

theorem Spec.Spelled.ok {ts : List Tok} {s : Str} (h : Spelled ts s) : ∀ k ∈ ts, TokOk k := by
  induction h with
  | nil => simp
  | space _ _ ih => exact ih
  | tok h _ _ ih =>
    intro k hk
    cases hk with
    | head => exact h
    | tail _ hk => exact ih k hk

theorem spell_pos {k : Tok} (h : TokOk k) : 1 ≤ (spell k).length := by
  cases k with
  | ident w => obtain ⟨⟨c, cs, rfl, _⟩, _⟩ := h; simp [spell]
  | int w => exact List.length_pos_iff.2 h.1
  | prim p => cases p <;> decide
  | _ => decide

theorem Spec.Spelled.length {ts : List Tok} {s : Str} (h : Spelled ts s) : ts.length ≤ s.length := by
  induction h with
  | nil => simp
  | space _ _ ih => simp; omega
  | tok h _ _ ih =>
    have := spell_pos h
    simp only [List.length_cons, List.length_append]; omega

end Verif
