import Verif.Spec.SqlWords
/-!
# The lexer finds the words of the specification
-/

namespace Verif.Sql.Lexing
open Grammar Parser

/-! ## Texts of regular expressions -/

theorem matches_one {rs} {t : Str} : (Re.one rs).Matches t ↔ ∃ c, t = [c] ∧ InRanges c rs :=
  ⟨fun h => by cases h with | one h => exact ⟨_, rfl, h⟩, fun ⟨_, h, h'⟩ => by subst h; exact .one h'⟩

theorem matches_seq {a b} {t : Str} : (Re.seq a b).Matches t ↔ ∃ u v, t = u ++ v ∧ a.Matches u ∧ b.Matches v :=
  ⟨fun h => by cases h with | seq h h' => exact ⟨_, _, rfl, h, h'⟩,
    fun ⟨_, _, h, h', h''⟩ => by subst h; exact .seq h' h''⟩

theorem matches_maybe {a} {t : Str} : (Re.maybe a).Matches t ↔ t = [] ∨ a.Matches t :=
  ⟨fun h => by cases h with | absent => exact .inl rfl | present h => exact .inr h,
    fun h => by rcases h with rfl | h; exact .absent; exact .present h⟩

theorem matches_many_aux {a t} (h : Re.Matches a t) : ∀ {rs}, a = .many (.one rs) → ∀ c ∈ t, InRanges c rs := by
  induction h with
  | one _ => intro rs h; cases h
  | seq _ _ => intro rs h; cases h
  | absent => intro rs h; cases h
  | present _ => intro rs h; cases h
  | nil => intro rs _ c hc; cases hc
  | cons h1 _ _ ih =>
    intro rs h c hc
    cases h
    rcases List.mem_append.mp hc with hc | hc
    · cases h1 with | one h1 => rw [List.mem_singleton] at hc; subst hc; exact h1
    · exact ih rfl c hc

theorem matches_many {rs} : ∀ {t : Str}, (Re.many (.one rs)).Matches t ↔ ∀ c ∈ t, InRanges c rs
  | [] => ⟨fun _ _ h => (by cases h), fun _ => .nil⟩
  | c :: t => ⟨fun h => matches_many_aux h rfl, fun h =>
      .cons (s := [c]) (.one (h c List.mem_cons_self)) (matches_many.mpr fun d hd => h d (List.mem_cons_of_mem _ hd))⟩

theorem matches_some {rs} {t : Str} : (Re.one rs).some.Matches t ↔ t ≠ [] ∧ ∀ c ∈ t, InRanges c rs := by
  rw [Re.some, matches_seq]
  constructor
  · rintro ⟨u, v, rfl, h1, h2⟩
    obtain ⟨c, rfl, hc⟩ := matches_one.mp h1
    exact ⟨by simp, List.forall_mem_cons.mpr ⟨hc, matches_many.mp h2⟩⟩
  · rintro ⟨h1, h2⟩
    cases t with
    | nil => exact absurd rfl h1
    | cons c t => exact ⟨[c], t, rfl, .one (h2 c List.mem_cons_self),
        matches_many.mpr fun d hd => h2 d (List.mem_cons_of_mem _ hd)⟩

theorem inRanges_chars {s : String} {c : Char} : InRanges c (s.toList.map fun c => (c, c)) ↔ c ∈ s.toList := by
  constructor
  · rintro ⟨r, hr, h1, h2⟩
    obtain ⟨d, hd, rfl⟩ := List.mem_map.mp hr
    rwa [show c = d from Char.le_antisymm h2 h1]
  · exact fun h => ⟨(c, c), List.mem_map.mpr ⟨c, h, rfl⟩, Char.le_refl c, Char.le_refl c⟩

theorem matches_chars {s : String} {t : Str} : (chars s).Matches t ↔ ∃ c, t = [c] ∧ c ∈ s.toList := by
  rw [chars, matches_one]
  simp only [inRanges_chars]

theorem matches_word : ∀ {ss : List String} {t : Str}, ss ≠ [] →
    ((word ss).Matches t ↔ t.length = ss.length ∧ matchWord (ss.map String.toList) t = true)
  | [], _, h => absurd rfl h
  | [s], t, _ => by
    rw [word, matches_chars]
    constructor
    · rintro ⟨c, rfl, h⟩
      simp [matchWord, h]
    · rintro ⟨h1, h2⟩
      match t, h1 with
      | [c], _ => exact ⟨c, rfl, by simpa [matchWord] using h2⟩
  | s :: s' :: ss, t, _ => by
    rw [word, matches_seq]
    · simp only [matches_chars, matches_word (ss := s' :: ss) (by simp)]
      constructor
      · rintro ⟨u, v, rfl, ⟨c, rfl, hc⟩, h1, h2⟩
        refine ⟨by simpa using h1, ?_⟩
        simpa [matchWord, hc] using h2
      · rintro ⟨h1, h2⟩
        match t, h1 with
        | c :: t, h1 =>
          simp only [List.map_cons, matchWord, Bool.and_eq_true, List.contains_iff_mem] at h2
          exact ⟨[c], t, rfl, ⟨c, rfl, h2.1⟩, by simpa using h1, h2.2⟩
    · simp

/-! ## Longest prefixes -/

/-- The longest prefix of `s` that matches has length `n`. -/
structure Longest (r : Re) (s : Str) (n : Nat) : Prop where
  len : n ≤ s.length
  is : r.Matches (s.take n)
  best : ∀ u, u <+: s → r.Matches u → u.length ≤ n

/-- What `Regex::find` has to return. -/
def Finds (r : Re) (s : Str) : Option Nat → Prop
  | some n => Longest r s n
  | none => ∀ u, u <+: s → ¬ r.Matches u

theorem span_le_length (p : Char → Bool) : ∀ s : Str, span p s ≤ s.length
  | [] => Nat.le_refl _
  | c :: s => by
    have := span_le_length p s
    simp only [span]
    split <;> simp <;> omega

theorem span_all (p : Char → Bool) : ∀ s : Str, ∀ c ∈ s.take (span p s), p c = true
  | [], _, h => by simp at h
  | c :: s, d, h => by
    simp only [span] at h
    split at h
    · rcases List.mem_cons.mp (by simpa using h) with rfl | h
      · assumption
      · exact span_all p s d h
    · simp at h

theorem span_ge (p : Char → Bool) : ∀ {d r : Str}, (∀ c ∈ d, p c = true) → d.length ≤ span p (d ++ r)
  | [], _, _ => Nat.zero_le _
  | c :: d, r, h => by
    have := span_ge p (d := d) (r := r) fun x hx => h x (List.mem_cons_of_mem _ hx)
    simp only [List.cons_append, span, h c List.mem_cons_self, if_true, List.length_cons]
    omega

theorem span_exact (p : Char → Bool) : ∀ {d r : Str} {c : Char}, (∀ c ∈ d, p c = true) → p c = false →
    span p (d ++ c :: r) = d.length
  | [], _, c, _, hc => by simp [span, hc]
  | x :: d, r, c, h, hc => by
    have := span_exact p (d := d) (r := r) (fun x hx => h x (List.mem_cons_of_mem _ hx)) hc
    simp only [List.cons_append, span, h x List.mem_cons_self, if_true, List.length_cons, this]

theorem span_take_ne {p : Char → Bool} {s : Str} (h : span p s ≠ 0) : s.take (span p s) ≠ [] := by
  intro he
  have := congrArg List.length he
  have hl := span_le_length p s
  rw [List.length_take, List.length_nil] at this
  omega

/-- After the span comes nothing or a character that does not belong to it. -/
theorem span_split (p : Char → Bool) (s : Str) : ∃ d r, s = d ++ r ∧ d.length = span p s ∧ (∀ c ∈ d, p c = true) ∧
    (r = [] ∨ ∃ c r', r = c :: r' ∧ p c = false) := by
  induction s with
  | nil => exact ⟨[], [], rfl, rfl, (fun _ h => by cases h), .inl rfl⟩
  | cons c s ih =>
    cases hc : p c with
    | true =>
      obtain ⟨d, r, h1, h2, h3, h4⟩ := ih
      exact ⟨c :: d, r, by rw [h1]; rfl, by simp [span, hc, h2], List.forall_mem_cons.mpr ⟨hc, h3⟩, h4⟩
    | false => exact ⟨[], c :: s, rfl, by simp [span, hc], (fun _ h => by cases h), .inr ⟨c, s, rfl, hc⟩⟩

/-! ## The classes of characters -/

theorem inRanges_iff {c : Char} {rs : List (Char × Char)} :
    InRanges c rs ↔ rs.any (fun r => decide (r.1.toNat ≤ c.toNat) && decide (c.toNat ≤ r.2.toNat)) = true := by
  simp only [InRanges, List.any_eq_true, Bool.and_eq_true, decide_eq_true_eq]
  exact Iff.rfl

theorem digit_iff {c : Char} : InRanges c [('0', '9')] ↔ isDigit c = true := by
  rw [inRanges_iff]
  simp only [List.any_cons, List.any_nil, isDigit, Bool.or_false]
  exact Iff.rfl

theorem hexChar_iff {c : Char} : InRanges c [('0', '9'), ('A', 'F'), ('a', 'f')] ↔ hexChar c = true := by
  rw [inRanges_iff]
  simp only [List.any_cons, List.any_nil, hexChar, isDigit, Bool.or_false, Bool.or_assoc]
  exact Iff.rfl

theorem stringChar_iff {c : Char} :
    InRanges c [(' ', '&'), ('(', '~'), ('\u0080', Char.ofNat 0x10ffff)] ↔ stringChar c = true := by
  have hv : c.toNat ≤ 0x10ffff := by
    have := c.valid
    simp only [UInt32.isValidChar, Nat.isValidChar] at this
    show c.val.toNat ≤ _
    omega
  rw [inRanges_iff]
  simp only [List.any_cons, List.any_nil, stringChar, Bool.or_false, Bool.or_assoc,
    show (Char.ofNat 0x10ffff).toNat = 0x10ffff from rfl, hv, decide_true, Bool.and_true]
  exact Iff.rfl

theorem identStart_iff {c : Char} : InRanges c [('A', 'Z'), ('_', '_'), ('a', 'z')] ↔ TypeParser.identStart c = true := by
  rw [inRanges_iff]
  simp only [List.any_cons, List.any_nil, TypeParser.identStart, Bool.or_false, Bool.or_eq_true, Bool.and_eq_true,
    decide_eq_true_eq, beq_iff_eq, show '_'.toNat = 95 from rfl, show 'A'.toNat = 65 from rfl,
    show 'Z'.toNat = 90 from rfl, show 'a'.toNat = 97 from rfl, show 'z'.toNat = 122 from rfl]
  omega

theorem identChar_iff {c : Char} :
    InRanges c [('0', '9'), ('A', 'Z'), ('_', '_'), ('a', 'z')] ↔ TypeParser.identChar c = true := by
  have h : InRanges c [('0', '9'), ('A', 'Z'), ('_', '_'), ('a', 'z')] ↔
      InRanges c [('0', '9')] ∨ InRanges c [('A', 'Z'), ('_', '_'), ('a', 'z')] := by
    simp [InRanges]
  rw [h, digit_iff, identStart_iff, TypeParser.identChar, Bool.or_eq_true, or_comm]

theorem isSpace_iff {c : Char} : InRanges c [('\t', '\r'), (' ', ' '), ('\u0085', '\u0085'), ('\u00a0', '\u00a0'),
    ('\u1680', '\u1680'), ('\u2000', '\u200a'), ('\u2028', '\u2028'), ('\u2029', '\u2029'), ('\u202f', '\u202f'),
    ('\u205f', '\u205f'), ('\u3000', '\u3000')] ↔ isSpace c = true := by
  rw [inRanges_iff]
  simp only [List.any_cons, List.any_nil, isSpace, Bool.or_false, Bool.or_eq_true, Bool.and_eq_true,
    decide_eq_true_eq, beq_iff_eq, show '\t'.toNat = 9 from rfl, show '\r'.toNat = 13 from rfl,
    show ' '.toNat = 0x20 from rfl, show '\u0085'.toNat = 0x85 from rfl, show '\u00a0'.toNat = 0xa0 from rfl,
    show '\u1680'.toNat = 0x1680 from rfl, show '\u2000'.toNat = 0x2000 from rfl,
    show '\u200a'.toNat = 0x200a from rfl, show '\u2028'.toNat = 0x2028 from rfl,
    show '\u2029'.toNat = 0x2029 from rfl, show '\u202f'.toNat = 0x202f from rfl,
    show '\u205f'.toNat = 0x205f from rfl, show '\u3000'.toNat = 0x3000 from rfl]
  omega

/-! ## The patterns -/

theorem take_prefix {u s : Str} (h : u <+: s) : s.take u.length = u := (List.prefix_iff_eq_take.mp h).symm

theorem prefix_take (s : Str) (n : Nat) : s.take n <+: s := List.take_prefix n s

theorem matchWord_prefix : ∀ {cls : List (List Char)} {s : Str}, matchWord cls s = true →
    cls.length ≤ s.length ∧ matchWord cls (s.take cls.length) = true
  | [], s, _ => ⟨Nat.zero_le _, rfl⟩
  | cl :: cls, [], h => by simp [matchWord] at h
  | cl :: cls, c :: s, h => by
    simp only [matchWord, Bool.and_eq_true] at h
    obtain ⟨h1, h2⟩ := matchWord_prefix h.2
    exact ⟨by simpa using h1, by simpa [matchWord, h2] using h.1⟩

theorem matchWord_mono : ∀ {cls : List (List Char)} {s r : Str}, matchWord cls s = true → matchWord cls (s ++ r) = true
  | [], s, _, _ => by cases s <;> rfl
  | cl :: cls, [], _, h => by simp [matchWord] at h
  | cl :: cls, c :: s, r, h => by
    simp only [matchWord, Bool.and_eq_true, List.cons_append] at h ⊢
    exact ⟨h.1, matchWord_mono h.2⟩

theorem find_word {ss : List String} {cls : List (List Char)} (hc : cls = ss.map String.toList) (hne : ss ≠ []) (s : Str) :
    Finds (word ss) s ((Pattern.word cls).find s) := by
  subst hc
  simp only [Pattern.find]
  split
  · rename_i h
    obtain ⟨h1, h2⟩ := matchWord_prefix h
    refine ⟨h1, (matches_word hne).mpr ⟨by simp at h1 ⊢; omega, h2⟩, fun u _ hm => ?_⟩
    have := ((matches_word hne).mp hm).1
    simp [this]
  · rename_i h
    rintro u ⟨r, rfl⟩ hm
    exact h (matchWord_mono ((matches_word hne).mp hm).2)

theorem find_space (s : Str) : Finds spaces s (Pattern.space.find s) := by
  refine ⟨span_le_length _ _, matches_many.mpr fun c hc => isSpace_iff.mpr (span_all _ _ c hc), ?_⟩
  rintro u ⟨r, rfl⟩ hm
  exact span_ge _ fun c hc => isSpace_iff.mp (matches_many.mp hm c hc)

theorem matches_ident {t : Str} : ident.Matches t ↔ ∃ c r, t = c :: r ∧ TypeParser.identStart c = true ∧
    ∀ d ∈ r, TypeParser.identChar d = true := by
  rw [ident, matches_seq]
  constructor
  · rintro ⟨u, v, rfl, h1, h2⟩
    obtain ⟨c, rfl, hc⟩ := matches_one.mp h1
    exact ⟨c, v, rfl, identStart_iff.mp hc, fun d hd => identChar_iff.mp (matches_many.mp h2 d hd)⟩
  · rintro ⟨c, r, rfl, h1, h2⟩
    exact ⟨[c], r, rfl, .one (identStart_iff.mpr h1), matches_many.mpr fun d hd => identChar_iff.mpr (h2 d hd)⟩

theorem find_ident (s : Str) : Finds ident s (Pattern.ident.find s) := by
  cases s with
  | nil =>
    rintro u ⟨r, hu⟩ hm
    obtain ⟨c, r', rfl, _⟩ := matches_ident.mp hm
    simp at hu
  | cons c s =>
    simp only [Pattern.find]
    split
    · rename_i h
      refine ⟨by have := span_le_length TypeParser.identChar s; simp; omega, matches_ident.mpr
        ⟨c, s.take (span TypeParser.identChar s), by simp, h, span_all _ _⟩, ?_⟩
      rintro u ⟨r, hu⟩ hm
      obtain ⟨c', r', rfl, _, h2⟩ := matches_ident.mp hm
      simp only [List.cons_append, List.cons.injEq] at hu
      obtain ⟨rfl, rfl⟩ := hu
      have := span_ge TypeParser.identChar (r := r) h2
      simp only [List.length_cons]
      omega
    · rename_i h
      rintro u ⟨r, hu⟩ hm
      obtain ⟨c', r', rfl, h1, _⟩ := matches_ident.mp hm
      simp only [List.cons_append, List.cons.injEq] at hu
      obtain ⟨rfl, rfl⟩ := hu
      exact h h1

theorem matches_hex {t : Str} : hex.Matches t ↔ ∃ r, t = '0' :: 'x' :: r ∧ r ≠ [] ∧ ∀ d ∈ r, hexChar d = true := by
  simp only [hex, matches_seq, matches_chars, matches_some, hexChar_iff]
  constructor
  · rintro ⟨_, _, rfl, ⟨c, rfl, hc⟩, _, r, rfl, ⟨d, rfl, hd⟩, h⟩
    simp at hc hd
    exact ⟨r, by simp [hc, hd], h⟩
  · rintro ⟨r, rfl, h⟩
    exact ⟨['0'], 'x' :: r, rfl, ⟨'0', rfl, by decide⟩, ['x'], r, rfl, ⟨'x', rfl, by decide⟩, h⟩

theorem find_hex (s : Str) : Finds hex s (Pattern.hex.find s) := by
  have hn : ∀ u, u <+: s → hex.Matches u → ∃ r r', s = '0' :: 'x' :: (r ++ r') ∧ u = '0' :: 'x' :: r ∧ r ≠ [] ∧
      ∀ d ∈ r, hexChar d = true := by
    rintro u ⟨r', rfl⟩ hm
    obtain ⟨r, rfl, h1, h2⟩ := matches_hex.mp hm
    exact ⟨r, r', rfl, rfl, h1, h2⟩
  simp only [Pattern.find]
  split
  · rename_i r
    split
    · rename_i h0
      intro u hu hm
      obtain ⟨r1, r2, h1, _, h3, h4⟩ := hn u hu hm
      simp only [List.cons.injEq, true_and] at h1
      have := span_ge hexChar (r := r2) h4
      rw [← h1, h0] at this
      exact h3 (List.eq_nil_of_length_eq_zero (by omega))
    · rename_i h0
      refine ⟨by have := span_le_length hexChar r; simp; omega, matches_hex.mpr ⟨r.take (span hexChar r), by simp, ?_,
        span_all _ _⟩, ?_⟩
      · exact span_take_ne h0
      · intro u hu hm
        obtain ⟨r1, r2, h1, rfl, h3, h4⟩ := hn u hu hm
        simp only [List.cons.injEq, true_and] at h1
        have := span_ge hexChar (r := r2) h4
        rw [← h1] at this
        simp only [List.length_cons]
        omega
  · rename_i hno
    intro u hu hm
    obtain ⟨r1, r2, h1, _⟩ := hn u hu hm
    exact hno _ h1

theorem matches_string {t : Str} : string.Matches t ↔ ∃ r, t = '\'' :: (r ++ ['\'']) ∧ ∀ d ∈ r, stringChar d = true := by
  simp only [string, matches_seq, matches_chars, matches_many, stringChar_iff]
  constructor
  · rintro ⟨_, _, rfl, ⟨c, rfl, hc⟩, r, _, rfl, h, ⟨d, rfl, hd⟩⟩
    simp at hc hd
    exact ⟨r, by simp [hc, hd], h⟩
  · rintro ⟨r, rfl, h⟩
    exact ⟨['\''], r ++ ['\''], rfl, ⟨'\'', rfl, by decide⟩, r, ['\''], rfl, h, '\'', rfl, by decide⟩

theorem find_string (s : Str) : Finds string s (Pattern.string.find s) := by
  have hn : ∀ u, u <+: s → string.Matches u → ∃ r r', s = '\'' :: (r ++ '\'' :: r') ∧ u = '\'' :: (r ++ ['\'']) ∧
      (∀ d ∈ r, stringChar d = true) ∧ span stringChar (r ++ '\'' :: r') = r.length := by
    rintro u ⟨r', rfl⟩ hm
    obtain ⟨r, rfl, h1⟩ := matches_string.mp hm
    exact ⟨r, r', by simp, rfl, h1, span_exact _ h1 (by decide)⟩
  simp only [Pattern.find]
  split
  · rename_i r
    obtain ⟨d, q, h1, h2, h3, h4⟩ := span_split stringChar r
    rw [← h2]
    subst h1
    rw [List.drop_left]
    split
    · rename_i q'
      refine ⟨by simp, matches_string.mpr ⟨d, by simp [List.take_append, List.take_of_length_le], h3⟩, fun u hu hm => ?_⟩
      obtain ⟨r1, r2, e1, rfl, e3, e4⟩ := hn u hu hm
      simp only [List.cons.injEq, true_and] at e1
      rw [← e1, ← h2] at e4
      simp [e4]
    · rename_i hno
      intro u hu hm
      obtain ⟨r1, r2, e1, rfl, e3, e4⟩ := hn u hu hm
      simp only [List.cons.injEq, true_and] at e1
      rw [← e1, ← h2] at e4
      obtain ⟨_, e5⟩ := List.append_inj e1 e4
      exact hno _ e5
  · rename_i hno
    intro u hu hm
    obtain ⟨r1, r2, e1, _⟩ := hn u hu hm
    exact hno _ e1

/-! ## Numbers -/

/-- Exponents. -/
def Exp (e : Str) : Prop := ∃ g d, e = 'E' :: (g ++ d) ∧ (g = [] ∨ g = ['+'] ∨ g = ['-']) ∧ d ≠ [] ∧
  ∀ c ∈ d, isDigit c = true

theorem matches_exponent {t : Str} : exponent.Matches t ↔ t = [] ∨ Exp t := by
  simp only [exponent, matches_maybe, matches_seq, matches_chars, digit, matches_some, digit_iff]
  refine or_congr Iff.rfl ⟨?_, ?_⟩
  · rintro ⟨_, _, rfl, ⟨c, rfl, hc⟩, g, d, rfl, hg, hd⟩
    simp at hc
    subst hc
    refine ⟨g, d, rfl, ?_, hd⟩
    rcases hg with rfl | ⟨c, rfl, hc⟩
    · exact .inl rfl
    · simp at hc
      rcases hc with rfl | rfl
      · exact .inr (.inl rfl)
      · exact .inr (.inr rfl)
  · rintro ⟨g, d, rfl, hg, hd⟩
    refine ⟨['E'], g ++ d, rfl, ⟨'E', rfl, by decide⟩, g, d, rfl, ?_, hd⟩
    rcases hg with rfl | rfl | rfl
    · exact .inl rfl
    · exact .inr ⟨'+', rfl, by decide⟩
    · exact .inr ⟨'-', rfl, by decide⟩

theorem sign_not_digit {c : Char} (h : c = '+' ∨ c = '-') : isDigit c = false := by
  rcases h with rfl | rfl <;> decide

theorem matchExponent_ok (s : Str) : matchExponent s ≤ s.length ∧ (s.take (matchExponent s) = [] ∨
    Exp (s.take (matchExponent s))) ∧ ∀ e, e <+: s → Exp e → e.length ≤ matchExponent s := by
  have hn : ∀ e, e <+: s → Exp e → ∃ g d r, s = 'E' :: (g ++ (d ++ r)) ∧ e = 'E' :: (g ++ d) ∧
      (g = [] ∨ g = ['+'] ∨ g = ['-']) ∧ d ≠ [] ∧ ∀ c ∈ d, isDigit c = true := by
    rintro e ⟨r, rfl⟩ ⟨g, d, rfl, h⟩
    exact ⟨g, d, r, by simp, rfl, h⟩
  unfold matchExponent
  split
  · rename_i c cs
    by_cases hc : (decide (c = '+') || decide (c = '-')) = true
    · rw [if_pos hc]
      simp only [Bool.or_eq_true, decide_eq_true_eq] at hc
      have hsp : ∀ e, e <+: 'E' :: c :: cs → Exp e → e.length ≤ span isDigit cs + 2 ∧ span isDigit cs ≠ 0 := by
        intro e he hx
        obtain ⟨g, d, r, h1, rfl, h3, h4, h5⟩ := hn e he hx
        simp only [List.cons.injEq, true_and] at h1
        have hlen := span_ge isDigit (r := r) h5
        rcases h3 with rfl | h3
        · cases d with
          | nil => exact absurd rfl h4
          | cons x d =>
            simp only [List.nil_append, List.cons_append, List.cons.injEq] at h1
            have := h5 x List.mem_cons_self
            rw [← h1.1, sign_not_digit hc] at this
            cases this
        · have hg : ∃ y, g = [y] := by rcases h3 with h | h <;> exact ⟨_, h⟩
          obtain ⟨y, rfl⟩ := hg
          simp only [List.cons_append, List.nil_append, List.cons.injEq] at h1
          rw [← h1.2] at hlen
          have : 0 < d.length := List.length_pos_iff.mpr h4
          simp only [List.cons_append, List.nil_append, List.length_cons]
          omega
      by_cases h0 : span isDigit cs = 0
      · rw [if_pos h0]
        exact ⟨Nat.zero_le _, .inl rfl, fun e he hx => absurd h0 (hsp e he hx).2⟩
      · rw [if_neg h0]
        refine ⟨by have := span_le_length isDigit cs; simp; omega, .inr ⟨[c], cs.take (span isDigit cs), by simp, ?_,
          span_take_ne h0, span_all _ _⟩, fun e he hx => (hsp e he hx).1⟩
        rcases hc with rfl | rfl
        · exact .inr (.inl rfl)
        · exact .inr (.inr rfl)
    · rw [if_neg hc]
      simp only [Bool.or_eq_true, decide_eq_true_eq, not_or] at hc
      have hsp : ∀ e, e <+: 'E' :: c :: cs → Exp e → e.length ≤ span isDigit (c :: cs) + 1 ∧
          span isDigit (c :: cs) ≠ 0 := by
        intro e he hx
        obtain ⟨g, d, r, h1, rfl, h3, h4, h5⟩ := hn e he hx
        simp only [List.cons.injEq, true_and] at h1
        have hlen := span_ge isDigit (r := r) h5
        rcases h3 with rfl | rfl | rfl
        · rw [List.nil_append] at h1
          rw [← h1] at hlen
          have : 0 < d.length := List.length_pos_iff.mpr h4
          simp only [List.nil_append, List.length_cons]
          omega
        · simp at h1; exact absurd h1.1 hc.1
        · simp at h1; exact absurd h1.1 hc.2
      by_cases h0 : span isDigit (c :: cs) = 0
      · rw [if_pos h0]
        exact ⟨Nat.zero_le _, .inl rfl, fun e he hx => absurd h0 (hsp e he hx).2⟩
      · rw [if_neg h0]
        refine ⟨by have := span_le_length isDigit (c :: cs); simp at this ⊢; omega, .inr ⟨[],
          (c :: cs).take (span isDigit (c :: cs)), by simp, .inl rfl, span_take_ne h0, span_all _ _⟩,
          fun e he hx => (hsp e he hx).1⟩
  · rename_i hno
    refine ⟨Nat.zero_le _, .inl rfl, fun e he hx => ?_⟩
    obtain ⟨g, d, r, h1, _, h3, h4, _⟩ := hn e he hx
    cases hgd : g ++ (d ++ r) with
    | nil => simp at hgd; exact absurd hgd.2.1 h4
    | cons c cs => rw [hgd] at h1; exact absurd h1 (hno c cs)

theorem exponent_longest (s : Str) : Longest exponent s (matchExponent s) := by
  obtain ⟨h1, h2, h3⟩ := matchExponent_ok s
  refine ⟨h1, matches_exponent.mpr h2, fun u hu hm => ?_⟩
  rcases matches_exponent.mp hm with rfl | h
  · exact Nat.zero_le _
  · exact h3 u hu h

/-- Fractions. -/
def Frac (f : Str) : Prop := ∃ d, f = '.' :: d ∧ ∀ c ∈ d, isDigit c = true

theorem matches_fraction {t : Str} : (Re.maybe (.seq (chars ".") (.many digit))).Matches t ↔ t = [] ∨ Frac t := by
  simp only [matches_maybe, matches_seq, matches_chars, digit, matches_many, digit_iff]
  refine or_congr Iff.rfl ⟨?_, ?_⟩
  · rintro ⟨_, d, rfl, ⟨c, rfl, hc⟩, hd⟩
    simp at hc
    subst hc
    exact ⟨d, rfl, hd⟩
  · rintro ⟨d, rfl, hd⟩
    exact ⟨['.'], d, rfl, ⟨'.', rfl, by decide⟩, hd⟩

theorem matchFraction_ok (s : Str) : matchFraction s ≤ s.length ∧
    (s.take (matchFraction s) = [] ∨ Frac (s.take (matchFraction s))) := by
  unfold matchFraction
  split
  · rename_i cs
    exact ⟨by have := span_le_length isDigit cs; simp; omega,
      .inr ⟨cs.take (span isDigit cs), by simp, span_all _ _⟩⟩
  · exact ⟨Nat.zero_le _, .inl rfl⟩

theorem exp_head {e r : Str} (h : Exp e) : ∃ q, e ++ r = 'E' :: q := by
  obtain ⟨g, d, rfl, _⟩ := h
  exact ⟨g ++ d ++ r, rfl⟩

theorem find_numeric1 (s : Str) : Finds numeric1 s (Pattern.numeric1.find s) := by
  have hn : ∀ u, u <+: s → numeric1.Matches u → ∃ d f e r, s = d ++ (f ++ (e ++ r)) ∧ u = d ++ (f ++ e) ∧ d ≠ [] ∧
      (∀ c ∈ d, isDigit c = true) ∧ (f = [] ∨ Frac f) ∧ (e = [] ∨ Exp e) := by
    rintro u ⟨r, rfl⟩ hm
    simp only [numeric1, matches_seq] at hm
    obtain ⟨d, _, rfl, hd, f, e, rfl, hf, he⟩ := hm
    rw [digit, matches_some] at hd
    simp only [digit_iff] at hd
    exact ⟨d, f, e, r, by simp, rfl, hd.1, hd.2, matches_fraction.mp hf, matches_exponent.mp he⟩
  simp only [Pattern.find]
  by_cases h0 : span isDigit s = 0
  · rw [if_pos h0]
    intro u hu hm
    obtain ⟨d, f, e, r, h1, _, h3, h4, _⟩ := hn u hu hm
    have := span_ge isDigit (r := f ++ (e ++ r)) h4
    rw [← h1, h0] at this
    exact h3 (List.eq_nil_of_length_eq_zero (by omega))
  · rw [if_neg h0]
    have hl0 := span_le_length isDigit s
    obtain ⟨f1, f2⟩ := matchFraction_ok (s.drop (span isDigit s))
    have hexp := exponent_longest (s.drop (span isDigit s + matchFraction (s.drop (span isDigit s))))
    have e1 := hexp.len
    simp only [List.length_drop] at f1 e1
    refine ⟨by omega, ?_, fun u hu hm => ?_⟩
    · rw [Nat.add_assoc, List.take_add, List.take_add, List.drop_drop]
      rw [numeric1, matches_seq]
      refine ⟨_, _, rfl, ?_, ?_⟩
      · rw [digit, matches_some]
        exact ⟨span_take_ne h0, fun c hc => digit_iff.mpr (span_all _ _ c hc)⟩
      · rw [matches_seq]
        exact ⟨_, _, rfl, matches_fraction.mpr f2, hexp.is⟩
    · obtain ⟨d, f, e, r, h1, rfl, h3, h4, h5, h6⟩ := hn u hu hm
      have hd := span_ge isDigit (r := f ++ (e ++ r)) h4
      rw [← h1] at hd
      simp only [List.length_append]
      rcases h5 with rfl | ⟨fd, rfl, h5⟩
      · rcases h6 with rfl | h6
        · simp only [List.length_nil]; omega
        · obtain ⟨q, hq⟩ := exp_head (r := r) h6
          have hs : span isDigit s = d.length := by
            rw [h1, List.nil_append, hq]; exact span_exact _ h4 (by decide)
          have hdrop : s.drop (span isDigit s) = e ++ r := by
            rw [hs, h1, List.nil_append, List.drop_left]
          have hfr : matchFraction (s.drop (span isDigit s)) = 0 := by rw [hdrop, hq]; rfl
          have := hexp.best e (by rw [hfr, Nat.add_zero, hdrop]; exact ⟨r, rfl⟩) (matches_exponent.mpr (.inr h6))
          simp only [List.length_nil]
          omega
      · have hs : span isDigit s = d.length := by
          rw [h1]; exact span_exact _ h4 (by decide)
        have hdrop : s.drop (span isDigit s) = '.' :: (fd ++ (e ++ r)) := by
          rw [hs, h1, List.drop_left]; rfl
        have hfr : matchFraction (s.drop (span isDigit s)) = span isDigit (fd ++ (e ++ r)) + 1 := by rw [hdrop]; rfl
        have hfd := span_ge isDigit (r := e ++ r) h5
        simp only [List.length_cons]
        rcases h6 with rfl | h6
        · simp only [List.length_nil, List.nil_append] at hfd hfr ⊢; omega
        · obtain ⟨q, hq⟩ := exp_head (r := r) h6
          have hs2 : span isDigit (fd ++ (e ++ r)) = fd.length := by
            rw [hq]; exact span_exact _ h5 (by decide)
          have := hexp.best e (by
            rw [← List.drop_drop, hdrop]
            show e <+: ('.' :: (fd ++ (e ++ r))).drop (span isDigit (fd ++ (e ++ r)) + 1)
            rw [hs2, List.drop_succ_cons, List.drop_left]
            exact ⟨r, rfl⟩) (matches_exponent.mpr (.inr h6))
          omega

theorem find_numeric2 (s : Str) : Finds numeric2 s (Pattern.numeric2.find s) := by
  have hn : ∀ u, u <+: s → numeric2.Matches u → ∃ d e r, s = '.' :: (d ++ (e ++ r)) ∧ u = '.' :: (d ++ e) ∧ d ≠ [] ∧
      (∀ c ∈ d, isDigit c = true) ∧ (e = [] ∨ Exp e) := by
    rintro u ⟨r, rfl⟩ hm
    simp only [numeric2, matches_seq, matches_chars] at hm
    obtain ⟨_, _, rfl, ⟨c, rfl, hc⟩, d, e, rfl, hd, he⟩ := hm
    rw [digit, matches_some] at hd
    simp only [digit_iff] at hd
    simp at hc
    subst hc
    exact ⟨d, e, r, by simp, rfl, hd.1, hd.2, matches_exponent.mp he⟩
  simp only [Pattern.find]
  split
  · rename_i q
    by_cases h0 : span isDigit q = 0
    · rw [if_pos h0]
      intro u hu hm
      obtain ⟨d, e, r, h1, _, h3, h4, _⟩ := hn u hu hm
      simp only [List.cons.injEq, true_and] at h1
      have := span_ge isDigit (r := e ++ r) h4
      rw [← h1, h0] at this
      exact h3 (List.eq_nil_of_length_eq_zero (by omega))
    · rw [if_neg h0]
      have hl0 := span_le_length isDigit q
      have hexp := exponent_longest (q.drop (span isDigit q))
      have e1 := hexp.len
      simp only [List.length_drop] at e1
      refine ⟨by simp; omega, ?_, fun u hu hm => ?_⟩
      · rw [show span isDigit q + 1 + matchExponent (q.drop (span isDigit q)) =
          (span isDigit q + matchExponent (q.drop (span isDigit q))) + 1 by omega, List.take_succ_cons, List.take_add]
        rw [numeric2, matches_seq]
        refine ⟨['.'], _, rfl, matches_chars.mpr ⟨'.', rfl, by decide⟩, ?_⟩
        rw [matches_seq]
        refine ⟨_, _, rfl, ?_, hexp.is⟩
        rw [digit, matches_some]
        exact ⟨span_take_ne h0, fun c hc => digit_iff.mpr (span_all _ _ c hc)⟩
      · obtain ⟨d, e, r, h1, rfl, h3, h4, h6⟩ := hn u hu hm
        simp only [List.cons.injEq, true_and] at h1
        have hd := span_ge isDigit (r := e ++ r) h4
        rw [← h1] at hd
        simp only [List.length_append, List.length_cons]
        rcases h6 with rfl | h6
        · simp only [List.length_nil]; omega
        · obtain ⟨q', hq⟩ := exp_head (r := r) h6
          have hs : span isDigit q = d.length := by rw [h1, hq]; exact span_exact _ h4 (by decide)
          have := hexp.best e (by rw [hs, h1, List.drop_left]; exact ⟨r, rfl⟩) (matches_exponent.mpr (.inr h6))
          omega
  · rename_i hno
    intro u hu hm
    obtain ⟨d, e, r, h1, _⟩ := hn u hu hm
    exact hno _ h1

/-! ## All patterns -/

/-- The patterns of the lexer find the longest words of the regular expressions. -/
inductive AllFind : List Pattern → List (Option Kind × Re) → Prop where
  | nil : AllFind [] []
  | cons {p ps k r rs} : (∀ s, Finds r s (p.find s)) → AllFind ps rs → AllFind (p :: ps) ((k, r) :: rs)

set_option maxRecDepth 10000 in
theorem patterns_find : AllFind Parser.patterns Lexing.patterns := by
  unfold Parser.patterns Lexing.patterns
  refine .cons find_string (.cons find_hex (.cons find_numeric1 (.cons find_ident (.cons find_numeric2 ?_))))
  iterate 78 refine .cons (find_word (by decide +kernel) (by decide)) ?_
  exact .cons find_space .nil

/-- What `longest` returns: what it had, if no pattern has a word as long; otherwise the last of the longest words. -/
theorem longest_spec {s : Str} : ∀ {ps rs}, AllFind ps rs → ∀ (i : Nat) (best : Nat × Nat),
    (longest s ps i best = best ∧ ∀ k r, (k, r) ∈ rs → ∀ u, u <+: s → r.Matches u → u.length < best.1) ∨
    (∃ j k r m, longest s ps i best = (m, i + j) ∧ rs[j]? = some (k, r) ∧ best.1 ≤ m ∧ m ≤ s.length ∧
      r.Matches (s.take m) ∧
      ∀ j' k' r' u, rs[j']? = some (k', r') → u <+: s → r'.Matches u → u.length < m ∨ (u.length = m ∧ j' ≤ j))
  | _, _, .nil, i, best => .inl ⟨rfl, fun _ _ h => by cases h⟩
  | _, _, @AllFind.cons p ps k r rs hp hps, i, best => by
    have hf := hp s
    simp only [longest]
    cases hfind : p.find s with
    | none =>
      rw [hfind] at hf
      simp only
      rcases longest_spec hps (i + 1) best with ⟨h1, h2⟩ | ⟨j, k', r', m, h1, h2, h3, h4, h5, h6⟩
      · refine .inl ⟨h1, fun k' r' hm u hu hr => ?_⟩
        rcases List.mem_cons.mp hm with he | hm
        · cases he; exact absurd hr (hf u hu)
        · exact h2 k' r' hm u hu hr
      · refine .inr ⟨j + 1, k', r', m, by rw [h1]; congr 1; omega, h2, h3, h4, h5, fun j' k'' r'' u hj hu hr => ?_⟩
        cases j' with
        | zero => simp at hj; rw [← hj.2] at hr; exact absurd hr (hf u hu)
        | succ j' =>
          rcases h6 j' k'' r'' u hj hu hr with h | ⟨h, h'⟩
          · exact .inl h
          · exact .inr ⟨h, by omega⟩
    | some n =>
      rw [hfind] at hf
      have hf : Longest r s n := hf
      simp only
      by_cases hb : best.1 ≤ n
      · rw [if_pos hb]
        rcases longest_spec hps (i + 1) (n, i) with ⟨h1, h2⟩ | ⟨j, k', r', m, h1, h2, h3, h4, h5, h6⟩
        · refine .inr ⟨0, k, r, n, h1, rfl, hb, hf.len, hf.is, fun j' k' r' u hj hu hr => ?_⟩
          cases j' with
          | zero => simp at hj; rw [← hj.2] at hr; have := hf.best u hu hr; omega
          | succ j' => exact .inl (h2 k' r' (List.mem_of_getElem? hj) u hu hr)
        · refine .inr ⟨j + 1, k', r', m, by rw [h1]; congr 1; omega, h2, Nat.le_trans hb h3, h4, h5,
            fun j' k'' r'' u hj hu hr => ?_⟩
          cases j' with
          | zero => simp at hj; rw [← hj.2] at hr; have := hf.best u hu hr; simp only at h3; omega
          | succ j' =>
            rcases h6 j' k'' r'' u hj hu hr with h | ⟨h, h'⟩
            · exact .inl h
            · exact .inr ⟨h, by omega⟩
      · rw [if_neg hb]
        rcases longest_spec hps (i + 1) best with ⟨h1, h2⟩ | ⟨j, k', r', m, h1, h2, h3, h4, h5, h6⟩
        · refine .inl ⟨h1, fun k' r' hm u hu hr => ?_⟩
          rcases List.mem_cons.mp hm with he | hm
          · cases he; have := hf.best u hu hr; omega
          · exact h2 k' r' hm u hu hr
        · refine .inr ⟨j + 1, k', r', m, by rw [h1]; congr 1; omega, h2, h3, h4, h5, fun j' k'' r'' u hj hu hr => ?_⟩
          cases j' with
          | zero => simp at hj; rw [← hj.2] at hr; have := hf.best u hu hr; omega
          | succ j' =>
            rcases h6 j' k'' r'' u hj hu hr with h | ⟨h, h'⟩
            · exact .inl h
            · exact .inr ⟨h, by omega⟩

theorem longest_wins (s : Str) : (longest s Parser.patterns 0 (0, 0)).1 ≤ s.length ∧
    Wins s (s.take (longest s Parser.patterns 0 (0, 0)).1) (longest s Parser.patterns 0 (0, 0)).2 := by
  rcases longest_spec (s := s) patterns_find 0 (0, 0) with ⟨_, h⟩ | ⟨j, k, r, m, h1, h2, _, h4, h5, h6⟩
  · have hm : (none, spaces) ∈ Lexing.patterns := List.mem_of_getElem? (i := 83) rfl
    exact absurd (h none spaces hm [] (List.nil_prefix) .nil) (by simp)
  · rw [h1]
    refine ⟨h4, prefix_take _ _, ⟨k, r, by simpa using h2, h5⟩, fun j' k' r' u hj hu hr => ?_⟩
    have hl : (s.take m).length = m := by rw [List.length_take]; omega
    simp only [hl, Nat.zero_add]
    rcases h6 j' k' r' u hj hu hr with h | ⟨h, h'⟩
    · exact .inl h
    · exact .inr ⟨by rw [← take_prefix hu, h], h'⟩

theorem Wins.unique {s t u : Str} {i j : Nat} (h : Wins s t i) (h' : Wins s u j) : t = u ∧ i = j := by
  obtain ⟨k, r, h1, h2⟩ := h.isWord
  obtain ⟨k', r', h3, h4⟩ := h'.isWord
  rcases h.best j k' r' u h3 h'.isPrefix h4 with h5 | ⟨h5, h6⟩
  · rcases h'.best i k r t h1 h.isPrefix h2 with h7 | ⟨h7, h8⟩
    · omega
    · subst h7; omega
  · subst h5
    rcases h'.best i k r u h1 h.isPrefix h2 with h7 | ⟨_, h8⟩
    · omega
    · exact ⟨rfl, by omega⟩

theorem Wins.lt {s t : Str} {i : Nat} (h : Wins s t i) : i < 84 := by
  obtain ⟨k, r, h1, _⟩ := h.isWord
  have := (List.getElem?_eq_some_iff.mp h1).1
  rwa [show Lexing.patterns.length = 84 from rfl] at this

theorem kind_some : ∀ i, i < 83 → ∃ k r, Lexing.patterns[i]? = some (some k, r) := by
  intro i hi
  have : ∀ i, i < 83 → ((Lexing.patterns.map (·.1))[i]?.getD none).isSome = true := by decide +kernel
  have := this i hi
  rw [List.getElem?_map] at this
  cases h : Lexing.patterns[i]? with
  | none => rw [h] at this; cases this
  | some x =>
    obtain ⟨k, r⟩ := x
    rw [h] at this
    cases k with
    | none => cases this
    | some k => exact ⟨k, r, rfl⟩

theorem kind_none : Lexing.patterns[83]? = some (none, spaces) := rfl

/-! ## The lexer -/

theorem lexFrom_tokens : ∀ (fuel off : Nat) (s : Str), s.length < fuel →
    Tokens off s (lexFrom fuel off s).1 (lexFrom fuel off s).2
  | 0, _, _, h => absurd h (by omega)
  | fuel + 1, off, [], _ => by simp only [lexFrom, List.isEmpty_nil, if_true]; exact .done
  | fuel + 1, off, c :: s, h => by
    obtain ⟨h1, h2⟩ := longest_wins (c :: s)
    generalize hm : longest (c :: s) Parser.patterns 0 (0, 0) = m at h1 h2
    have hsplit := List.take_append_drop m.1 (c :: s)
    simp only [lexFrom, List.isEmpty_cons, hm, Bool.false_eq_true, if_false]
    have hw : Wins ((c :: s).take m.1 ++ (c :: s).drop m.1) ((c :: s).take m.1) m.2 := by rw [hsplit]; exact h2
    have hrec : m.1 ≠ 0 → Tokens (off + bytes ((c :: s).take m.1)) ((c :: s).drop m.1)
        (lexFrom fuel (off + bytes ((c :: s).take m.1)) ((c :: s).drop m.1)).1
        (lexFrom fuel (off + bytes ((c :: s).take m.1)) ((c :: s).drop m.1)).2 := fun h0 =>
      lexFrom_tokens fuel _ _ (by rw [List.length_drop]; simp only [List.length_cons] at h ⊢; omega)
    by_cases hs : m.2 = skipIndex
    · rw [if_pos hs]
      by_cases h0 : m.1 = 0
      · rw [if_pos h0]
        rw [h0] at h2
        exact .stuck h2
      · rw [if_neg h0]
        have := Tokens.skip hw ⟨spaces, by rw [hs]; exact kind_none⟩ (by
          intro he
          have := congrArg List.length he
          rw [List.length_take, List.length_nil] at this
          simp at this
          omega) (hrec h0)
        rw [hsplit] at this
        exact this
    · rw [if_neg hs]
      obtain ⟨k, r, hk⟩ := kind_some m.2 (by have := h2.lt; have : m.2 ≠ 83 := hs; omega)
      have h0 : m.1 ≠ 0 := by
        intro h0
        rw [h0] at h2
        rcases h2.best 83 none spaces [] kind_none List.nil_prefix .nil with h | ⟨_, h⟩
        · simp at h
        · have := h2.lt
          exact hs (by simp only [skipIndex]; omega)
      have := Tokens.token hw hk (hrec h0)
      rw [hsplit] at this
      exact this

theorem lex_tokens (s : Str) : Tokens 0 s (lex s).1 (lex s).2 := lexFrom_tokens _ _ _ (by omega)

theorem Tokens.nil_inv {off toks inv} (h : Tokens off [] toks inv) : toks = [] ∧ inv = none := by
  generalize hs : ([] : Str) = s at h
  cases h with
  | done => exact ⟨rfl, rfl⟩
  | skip _ _ h0 _ => simp at hs; exact absurd hs.1 h0
  | token hw hk _ =>
    simp at hs
    obtain ⟨rfl, rfl⟩ := hs
    exfalso
    rename_i i _ _ _ _
    rcases hw.best 83 none spaces [] kind_none List.nil_prefix .nil with h | ⟨_, h⟩
    · simp at h
    · have := hw.lt
      rw [show i = 83 by omega, kind_none] at hk
      cases hk
  | stuck _ => cases hs

/-- A text has only one division into words. -/
theorem Tokens.unique {off s toks inv} (h : Tokens off s toks inv) : ∀ {toks' inv'}, Tokens off s toks' inv' →
    toks = toks' ∧ inv = inv' := by
  induction h with
  | done => intro toks' inv' h'; obtain ⟨rfl, rfl⟩ := h'.nil_inv; exact ⟨rfl, rfl⟩
  | @skip off t r i toks inv hw hk h0 _ ih =>
    intro toks' inv' h'
    obtain ⟨re, hk⟩ := hk
    generalize hs : t ++ r = s at h' hw
    cases h' with
    | done => simp at hs; exact absurd hs.1 h0
    | @skip _ t' r' _ _ _ hw' _ _ h' =>
      obtain ⟨rfl, rfl⟩ := hw.unique hw'
      obtain rfl := List.append_cancel_left hs
      exact ih h'
    | @token _ t' r' _ _ _ _ _ hw' hk' h' =>
      obtain ⟨rfl, rfl⟩ := hw.unique hw'
      rw [hk] at hk'
      cases hk'
    | stuck hw' => exact absurd (hw.unique hw').1 h0
  | @token off t r i k re toks inv hw hk _ ih =>
    intro toks' inv' h'
    have h0 : t ≠ [] := by
      rintro rfl
      rcases hw.best 83 none spaces [] kind_none List.nil_prefix .nil with h | ⟨_, h⟩
      · simp at h
      · have := hw.lt
        rw [show i = 83 by omega, kind_none] at hk
        cases hk
    generalize hs : t ++ r = s at h' hw
    cases h' with
    | done => simp at hs; exact absurd hs.1 h0
    | @skip _ t' r' _ _ _ hw' hk' _ h' =>
      obtain ⟨rfl, rfl⟩ := hw.unique hw'
      obtain ⟨re', hk'⟩ := hk'
      rw [hk] at hk'
      cases hk'
    | @token _ t' r' _ _ _ _ _ hw' hk' h' =>
      obtain ⟨rfl, rfl⟩ := hw.unique hw'
      obtain rfl := List.append_cancel_left hs
      obtain ⟨rfl, rfl⟩ := ih h'
      exact ⟨rfl, rfl⟩
    | stuck hw' => exact absurd (hw.unique hw').1 h0
  | @stuck off c r i hw =>
    intro toks' inv' h'
    generalize hs : c :: r = s at h' hw
    cases h' with
    | done => cases hs
    | skip hw' _ h0 _ => exact absurd (hw'.unique hw).1 h0
    | @token _ t' r' _ _ _ _ _ hw' hk' h' =>
      obtain ⟨rfl, rfl⟩ := hw'.unique hw
      exfalso
      rcases hw.best 83 none spaces [] kind_none List.nil_prefix .nil with h | ⟨_, h⟩
      · simp at h
      · have := hw.lt
        rename_i i' _ _ _ _
        rw [show i' = 83 by omega, kind_none] at hk'
        cases hk'
    | stuck _ => exact ⟨rfl, rfl⟩

end Verif.Sql.Lexing
