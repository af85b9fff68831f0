import Verif.Proof.JsonTokenizer
import Verif.Spec.JsonLexical

/-! # Where a JSON token ends -/

namespace Verif

open Spec Json

theorem isSpace_mem {c : Char} : isSpace c = true ↔ c.toNat ∈ whiteSpace := by
  unfold isSpace whiteSpace
  simp only [Bool.or_eq_true, Bool.and_eq_true, decide_eq_true_eq, beq_iff_eq, List.mem_cons, List.not_mem_nil,
    or_false]
  omega

theorem isAlnum_iff {u : Char → Bool} {c : Char} : isAlnum u c = true ↔ Alphanumeric u c := by
  have h1 : c.toNat = c.val.toNat := rfl
  unfold isAlnum Alphanumeric
  split
  · next h =>
    simp only [isDigit, Char.isAlphanum, Char.isAlpha, Char.isUpper, Char.isLower, Char.isDigit, Bool.or_eq_true,
      Bool.and_eq_true, decide_eq_true_eq, h1, UInt32.le_iff_toNat_le, ge_iff_le] at h ⊢
    simp only [show 'A'.val.toNat = 65 from rfl, show 'Z'.val.toNat = 90 from rfl,
      show 'a'.val.toNat = 97 from rfl, show 'z'.val.toNat = 122 from rfl,
      show '0'.val.toNat = 48 from rfl, show '9'.val.toNat = 57 from rfl]
    omega
  · next h =>
    constructor
    · exact fun hu => .inr ⟨by omega, hu⟩
    · rintro (⟨h2, _⟩ | ⟨_, h2⟩)
      · exact absurd h2 h
      · exact h2

/-- What may not follow the parts of a number. -/
structure NumStops (i f e r : Str) : Prop where
  exp : e ≠ [] → NotStart (fun c => isDigit c = true) r
  noExp : e = [] → NotStart (fun c => c = 'e' ∨ c = 'E') r
  frac : e = [] → f ≠ [] → NotStart (fun c => isDigit c = true) r
  point : e = [] → f = [] → NotStart (fun c => c = '.') r
  int : e = [] → f = [] → i ≠ ['0'] → NotStart (fun c => isDigit c = true) r

theorem NumStops.head {i f e : Str} {c : Char} {r z : Str} (h : NumStops i f e (c :: r)) :
    NumStops i f e (c :: z) :=
  ⟨h.exp, h.noExp, h.frac, h.point, h.int⟩

theorem intPart_append' {i s : Str} (h : IntText i)
    (hs : i ≠ ['0'] → NotStart (fun c => isDigit c = true) s) : intPart (i ++ s) = .ok (i, s) := by
  by_cases h0 : i = ['0']
  · subst h0; rfl
  · exact intPart_append h (hs h0)

theorem fracPart_append' {n : Nat → Prop} {f s : Str} (h : FracText n f)
    (h1 : f ≠ [] → NotStart (fun c => isDigit c = true) s) (h2 : f = [] → NotStart (fun c => c = '.') s) :
    fracPart (f ++ s) = (f, s) := by
  rcases h with rfl | ⟨ds, rfl, _, hds⟩
  · cases s with
    | nil => rfl
    | cons c s =>
      have : c ≠ '.' := h2 rfl c rfl
      simp [fracPart, this]
  · simp [fracPart, digits_append hds (h1 (by simp))]

theorem expPart_append' {e s : Str} (h : ExpText e) (h1 : e ≠ [] → NotStart (fun c => isDigit c = true) s)
    (h2 : e = [] → NotStart (fun c => c = 'e' ∨ c = 'E') s) : expPart (e ++ s) = .ok (e, s) := by
  rcases h with rfl | ⟨c, sg, ds, rfl, hc, hsg, hne, hds⟩
  · cases s with
    | nil => rfl
    | cons c s =>
      have : ¬ (c = 'e' ∨ c = 'E') := h2 rfl c rfl
      simp [expPart, this]
  · cases ds with
    | nil => exact absurd rfl hne
    | cons d ds =>
      have hd : isDigit d = true := hds d (.head _)
      have hsign : expSign (sg ++ (d :: ds ++ s)) = (sg, d :: ds ++ s) := by
        refine expSign_append hsg (.cons ?_)
        rintro (rfl | rfl) <;> revert hd <;> decide
      have hdig : digits (d :: ds ++ s) = (d :: ds, s) := digits_append hds (h1 (by simp))
      rw [List.append_assoc, List.cons_append]
      simp only [expPart]
      rw [if_pos hc]
      rw [hsign]
      rw [List.cons_append] at hdig
      simp only [List.cons_append, hd, if_true, hdig]

theorem matchNumber_stops {n : Nat → Prop} {sg i f e r : Str} (hsg : sg = [] ∨ sg = ['-']) (hi : IntText i)
    (hf : FracText n f) (he : ExpText e) (hr : NumStops i f e r) :
    matchNumber (sg ++ i ++ f ++ e ++ r) = .ok (.number (sg ++ i ++ f ++ e), r) := by
  have e1 : sg ++ i ++ f ++ e ++ r = sg ++ (i ++ (f ++ (e ++ r))) := by simp
  have h1 := signPart_append hsg (int_notStart (s := f ++ (e ++ r)) hi)
  have hx : ∀ {P : Char → Prop}, (∀ c, P c → isDigit c = true ∨ c = '.') → (e = [] → NotStart P r) →
      NotStart P (e ++ r) := by
    intro P hP h
    by_cases h0 : e = []
    · rw [h0]; exact h h0
    · cases e with
      | nil => exact absurd rfl h0
      | cons c e => exact ((exp_notStart he).mono hP)
  have h2 : intPart (i ++ (f ++ (e ++ r))) = .ok (i, f ++ (e ++ r)) := by
    refine intPart_append' hi fun h0 => ?_
    cases f with
    | nil => exact hx (fun c h => .inl h) (fun h => hr.int h rfl h0)
    | cons c f => exact fun d hd => frac_notStart hf d hd
  have h3 : fracPart (f ++ (e ++ r)) = (f, e ++ r) :=
    fracPart_append' hf (fun h => hx (fun c h => .inl h) (fun h' => hr.frac h' h))
      (fun h => hx (fun c h => .inr h) (fun h' => hr.point h' h))
  have h4 := expPart_append' he hr.exp hr.noExp
  rw [e1]
  unfold matchNumber
  rw [h1]
  simp only [h2, Parse.bind_ok, h3, h4]

theorem intPart_stops {s i r : Str} (h : intPart s = .ok (i, r)) :
    i ≠ ['0'] → NotStart (fun c => isDigit c = true) r := by
  cases s with
  | nil => cases h
  | cons c s =>
    simp only [intPart] at h
    split at h
    · cases h; exact fun h => absurd rfl h
    · split at h
      · cases h; exact fun _ => (digits_split s).2.2
      · cases h

theorem fracPart_stops (s : Str) : ((fracPart s).1 ≠ [] → NotStart (fun c => isDigit c = true) (fracPart s).2) ∧
    ((fracPart s).1 = [] → NotStart (fun c => c = '.') (fracPart s).2) := by
  cases s with
  | nil => exact ⟨fun _ => .nil, fun _ => .nil⟩
  | cons c s =>
    simp only [fracPart]
    split
    · exact ⟨fun _ => (digits_split s).2.2, fun h => by cases h⟩
    · next h => exact ⟨fun h => absurd rfl h, fun _ => .cons h⟩

theorem expPart_stops {s e r : Str} (h : expPart s = .ok (e, r)) :
    (e ≠ [] → NotStart (fun c => isDigit c = true) r) ∧ (e = [] → NotStart (fun c => c = 'e' ∨ c = 'E') r) := by
  cases s with
  | nil => cases h; exact ⟨fun _ => .nil, fun _ => .nil⟩
  | cons c s =>
    simp only [expPart] at h
    split at h
    · split at h
      · split at h
        · cases h; exact ⟨fun _ => (digits_split _).2.2, fun h => by cases h⟩
        · cases h
      · cases h
    · next hc => cases h; exact ⟨fun h => absurd rfl h, fun _ => .cons hc⟩

theorem matchNumber_parts {s r : Str} {k : Json.Tok} (h : matchNumber s = .ok (k, r)) :
    ∃ sg i f e, k = .number (sg ++ i ++ f ++ e) ∧ s = sg ++ i ++ f ++ e ++ r ∧ (sg = [] ∨ sg = ['-']) ∧
      IntText i ∧ FracText (fun _ => True) f ∧ ExpText e ∧ NumStops i f e r := by
  unfold matchNumber at h
  obtain ⟨h1, h2⟩ := signPart_split s
  cases hs : signPart s with
  | mk sg s1 =>
    rw [hs] at h1 h2
    rw [hs] at h
    simp only [Parse.bind_eq_ok] at h
    obtain ⟨⟨i, s2⟩, h3, ⟨e, s4⟩, h5, h6⟩ := h
    simp only at h5 h6
    obtain ⟨h3a, h3b⟩ := intPart_ok h3
    obtain ⟨h4a, h4b⟩ := fracPart_split s2
    obtain ⟨h5a, h5b⟩ := expPart_ok h5
    have g3 := intPart_stops h3
    obtain ⟨g4a, g4b⟩ := fracPart_stops s2
    obtain ⟨g5a, g5b⟩ := expPart_stops h5
    cases h6
    refine ⟨sg, i, (fracPart s2).1, e, rfl, ?_, h2, h3b, h4b, h5b, g5a, g5b, ?_, ?_, ?_⟩
    · rw [h1, h3a]
      simp only [List.append_assoc]
      rw [← h5a, ← h4a]
    · rintro rfl h; rw [h5a] at g4a; exact g4a h
    · rintro rfl h; rw [h5a] at g4b; exact g4b h
    · rintro rfl h h0
      rw [h5a, h] at h4a
      rw [h4a] at g3
      exact g3 h0

theorem digits_snoc {ds : Str} {c : Char} (h : Digits ds) (hc : isDigit c = true) : Digits (ds ++ [c]) := by
  intro d hd
  rcases List.mem_append.1 hd with hd | hd
  · exact h d hd
  · rw [List.mem_singleton.1 hd]; exact hc

/-- A number that cannot be continued stops. -/
theorem numStops_of {sg i f e r : Str} (hsg : sg = [] ∨ sg = ['-']) (hi : IntText i)
    (hf : FracText (fun _ => True) f) (he : ExpText e)
    (h : NotStart (fun c => ∃ z, LaxNumber (sg ++ i ++ f ++ e ++ c :: z)) r) : NumStops i f e r := by
  refine ⟨?_, ?_, ?_, ?_, ?_⟩
  · rintro h0 c hc hd
    rcases he with rfl | ⟨x, s, ds, rfl, hx, hs, hne, hds⟩
    · exact h0 rfl
    · exact h c hc ⟨[], sg, i, f, x :: s ++ (ds ++ [c]), by simp, hsg, hi, hf,
        .inr ⟨x, s, ds ++ [c], rfl, hx, hs, by simp, digits_snoc hds hd⟩⟩
  · rintro rfl c hc hd
    exact h c hc ⟨['5'], sg, i, f, [c, '5'], by simp, hsg, hi, hf,
      .inr ⟨c, [], ['5'], rfl, hd, .inl rfl, by simp, by intro d hd; rw [List.mem_singleton.1 hd]; decide⟩⟩
  · rintro rfl h0 c hc hd
    rcases hf with rfl | ⟨ds, rfl, _, hds⟩
    · exact h0 rfl
    · exact h c hc ⟨[], sg, i, '.' :: (ds ++ [c]), [], by simp, hsg, hi,
        .inr ⟨_, rfl, trivial, digits_snoc hds hd⟩, .inl rfl⟩
  · rintro rfl rfl c hc rfl
    exact h _ hc ⟨[], sg, i, ['.'], [], by simp, hsg, hi,
      .inr ⟨[], rfl, trivial, fun d hd => by cases hd⟩, .inl rfl⟩
  · rintro rfl rfl h0 c hc hd
    rcases hi with rfl | ⟨d, ds, rfl, hd', hz, hds⟩
    · exact h0 rfl
    · exact h c hc ⟨[], sg, d :: (ds ++ [c]), [], [], by simp, hsg,
        .inr ⟨d, _, rfl, hd', hz, digits_snoc hds hd⟩, .inl rfl, .inl rfl⟩

/-- The longest number is taken. -/
theorem matchNumber_iff {s r : Str} {k : Json.Tok} : matchNumber s = .ok (k, r) ↔
    ∃ p, k = .number p ∧ s = p ++ r ∧ LaxNumber p ∧ NotStart (fun c => ∃ z, LaxNumber (p ++ c :: z)) r := by
  constructor
  · intro h
    obtain ⟨sg, i, f, e, rfl, rfl, hsg, hi, hf, he, hn⟩ := matchNumber_parts h
    refine ⟨_, rfl, rfl, ⟨sg, i, f, e, rfl, hsg, hi, hf, he⟩, ?_⟩
    rintro c hc ⟨z, hz⟩
    cases r with
    | nil => cases hc
    | cons c' r =>
      cases hc
      have h1 := matchNumber_stops hsg hi hf he (hn.head (z := z))
      have h2 := matchNumber_append hz (r := []) .nil
      rw [List.append_nil, h1] at h2
      injection h2 with h2
      injection h2 with _ h2
      cases h2
  · rintro ⟨p, rfl, rfl, ⟨sg, i, f, e, rfl, hsg, hi, hf, he⟩, h⟩
    exact matchNumber_stops hsg hi hf he (numStops_of hsg hi hf he h)

theorem nextToken_iff {u : Char → Bool} {s r : Str} {k : Json.Tok} : nextToken u s = .ok (k, r) ↔
    (k = .eof ∧ s = [] ∧ r = []) ∨
      ∃ p, s = p ++ r ∧ SpellingWith (fun _ => True) (fun n => n ≤ 4) k p ∧ Followed u k p r := by
  have hal : ∀ r, NotStart (fun c => isAlnum u c = true) r → NotStart (Alphanumeric u) r :=
    fun r h => h.mono fun c hc => isAlnum_iff.2 hc
  constructor
  · intro h
    rcases nextToken_ok h with ⟨h1, h2, h3⟩ | ⟨p, h1, h2, h3⟩
    · exact .inl ⟨h3, h1, h2⟩
    · refine .inr ⟨p, h1, h3, ?_⟩
      subst h1
      cases h3 with
      | null => exact hal _ (matchKeyword_ok.1 (show matchKeyword u _ _ _ = _ from h)).2.2
      | true => exact hal _ (matchKeyword_ok.1 (show matchKeyword u _ _ _ = _ from h)).2.2
      | false => exact hal _ (matchKeyword_ok.1 (show matchKeyword u _ _ _ = _ from h)).2.2
      | number hn =>
        obtain ⟨c, q, rfl, hc⟩ := number_start hn
        rw [List.cons_append, nextToken_number hc] at h
        obtain ⟨p', h4, _, _, h7⟩ := matchNumber_iff.1 h
        cases h4
        exact h7
      | string _ => trivial
      | beginObject => trivial
      | endObject => trivial
      | beginArray => trivial
      | endArray => trivial
      | comma => trivial
      | colon => trivial
  · rintro (⟨rfl, rfl, rfl⟩ | ⟨p, rfl, h1, h2⟩)
    · rfl
    · have hal' : ∀ r, NotStart (Alphanumeric u) r → NotStart (fun c => isAlnum u c = true) r :=
        fun r h => h.mono fun c hc => isAlnum_iff.1 hc
      cases h1 with
      | null => exact nextToken_append (n := fun _ => True) (m := fun n => n ≤ 4) (fun _ h => h) .null (hal' _ h2)
      | true => exact nextToken_append (n := fun _ => True) (m := fun n => n ≤ 4) (fun _ h => h) .true (hal' _ h2)
      | false => exact nextToken_append (n := fun _ => True) (m := fun n => n ≤ 4) (fun _ h => h) .false (hal' _ h2)
      | number hn =>
        obtain ⟨c, q, hq, hc⟩ := number_start hn
        have := matchNumber_iff.2 ⟨p, rfl, rfl, hn, h2⟩
        rw [hq] at this ⊢
        rw [List.cons_append, nextToken_number hc]
        exact this
      | string h => exact nextToken_append (n := fun _ => True) (fun _ h => h) (.string h) trivial
      | beginObject => rfl
      | endObject => rfl
      | beginArray => rfl
      | endArray => rfl
      | comma => rfl
      | colon => rfl

theorem next_iff {u : Char → Bool} {s r : Str} {k : Json.Tok} : next u s = .ok (k, r) ↔ Reading u s k r := by
  constructor
  · intro h
    obtain ⟨ws, h1, h2⟩ := skip_split s
    refine ⟨ws, fun c hc => isSpace_mem.1 (h2 c hc), ?_⟩
    rcases nextToken_iff.1 h with ⟨h3, h4, h5⟩ | ⟨p, h3, h4, h5⟩
    · exact .inl ⟨h3, by rw [h4, List.append_nil] at h1; exact h1, h5⟩
    · exact .inr ⟨p, by rw [h3, ← List.append_assoc] at h1; exact h1, h4, h5⟩
  · rintro ⟨ws, h1, h2⟩
    have h1 : ∀ c ∈ ws, isSpace c = true := fun c hc => isSpace_mem.2 (h1 c hc)
    rcases h2 with ⟨rfl, rfl, rfl⟩ | ⟨p, rfl, h3, h4⟩
    · have := skip_append (s := []) h1 .nil
      rw [List.append_nil] at this
      unfold next
      rw [this]
      rfl
    · unfold next
      rw [List.append_assoc, skip_append h1 (spelling_start h3 r)]
      exact nextToken_iff.2 (.inr ⟨p, rfl, h3, h4⟩)

end Verif
