import Verif.Spec.JsonMachine
import Verif.Proof.JsonExact

/-!
# The state of the tokenizer

Each function of `Machine` is compared with the function of `Verif/Model/JsonTokenizer.lean` on the text that is
left, and the byte positions are shown to be starts of characters.
-/

namespace Verif.Json

open Spec

theorem byteLen_nil : byteLen [] = 0 := rfl

theorem byteLen_cons (c : Char) (s : Str) : byteLen (c :: s) = c.utf8Size + byteLen s := by
  simp [byteLen]

theorem byteLen_append (a b : Str) : byteLen (a ++ b) = byteLen a + byteLen b := by
  simp [byteLen]

theorem cutAt_append : ∀ (a b : Str), cutAt (byteLen a) (a ++ b) = some (a, b)
  | [], b => by cases b <;> simp [byteLen_nil, cutAt]
  | c :: a, b => by
    have h : 0 < c.utf8Size := c.utf8Size_pos
    obtain ⟨n, hn⟩ : ∃ n, byteLen (c :: a) = n + 1 := ⟨byteLen (c :: a) - 1, by rw [byteLen_cons]; omega⟩
    have e : n + 1 - c.utf8Size = byteLen a := by rw [← hn, byteLen_cons]; omega
    rw [hn, List.cons_append, cutAt, if_pos (by rw [← hn, byteLen_cons]; omega), e, cutAt_append a b]

theorem getRange_append (a v b : Str) : getRange (a ++ v ++ b) (byteLen a) (byteLen (a ++ v)) = some v := by
  have h : byteLen (a ++ v) - byteLen a = byteLen v := by rw [byteLen_append]; omega
  rw [getRange, if_pos (by rw [byteLen_append]; omega), List.append_assoc, cutAt_append]
  simp only [h, cutAt_append, Option.map_some]

namespace Machine

/-- The tokenizer after taking the characters `a`, with `s` left. -/
def eat (m : Machine) (a s : Str) : Machine := { m with pos := m.pos + byteLen a, rest := s }

theorem eat_eat (m : Machine) (a s b t : Str) : (m.eat a s).eat b t = m.eat (a ++ b) t := by
  simp [eat, byteLen_append, Nat.add_assoc]

theorem eat_nil (m : Machine) : m.eat [] m.rest = m := rfl

theorem eat_none {m : Machine} (h : m.rest = []) : m.eat [] [] = m := by
  cases m; cases h; rfl

theorem advance_cons {m : Machine} {c : Char} {s : Str} (h : m.rest = c :: s) : m.advance = m.eat [c] s := by
  simp [advance, h, eat, byteLen_cons, byteLen_nil]

theorem skipWhile_eq (p : Char → Bool) : ∀ (pos : Nat) (s : Str),
    skipWhile p pos s = (pos + byteLen (s.takeWhile p), s.dropWhile p)
  | pos, [] => rfl
  | pos, c :: s => by
    rw [skipWhile]
    cases h : p c
    · simp [h, byteLen_nil]
    · simp only [h, if_true, List.takeWhile_cons_of_pos, List.dropWhile_cons_of_pos, byteLen_cons]
      rw [skipWhile_eq p _ s, Nat.add_assoc]

theorem digits_eq (m : Machine) : m.digits = m.eat (Json.digits m.rest).1 (Json.digits m.rest).2 := by
  simp [digits, skipWhile_eq, eat, Json.digits]

theorem skipWhitespace_eq (m : Machine) :
    m.skipWhitespace = m.eat (m.rest.takeWhile isSpace) (Json.skipWhitespace m.rest) := by
  simp [skipWhitespace, skipWhile_eq, eat, Json.skipWhitespace]

/-- `m` came to `m'` by taking characters off the front of the text. -/
def Moved (m m' : Machine) : Prop :=
  m'.input = m.input ∧ ∃ a, m.rest = a ++ m'.rest ∧ m'.pos = m.pos + byteLen a

theorem Moved.refl (m : Machine) : Moved m m := ⟨rfl, [], rfl, rfl⟩

theorem Moved.trans {m n o : Machine} (h : Moved m n) (k : Moved n o) : Moved m o := by
  obtain ⟨h1, a, h2, h3⟩ := h
  obtain ⟨k1, b, k2, k3⟩ := k
  exact ⟨k1.trans h1, a ++ b, by rw [h2, k2, List.append_assoc], by rw [k3, h3, byteLen_append, Nat.add_assoc]⟩

theorem moved_eat {m : Machine} {a s : Str} (h : m.rest = a ++ s) : Moved m (m.eat a s) := ⟨rfl, a, h, rfl⟩

theorem moved_advance (m : Machine) : Moved m m.advance := by
  cases h : m.rest with
  | nil => rw [show m.advance = m by simp [advance, h]]; exact .refl m
  | cons c s => rw [advance_cons h]; exact moved_eat h

/-- The characters before the position and those from it on make up the input. -/
def Placed (m : Machine) : Prop := ∃ before, m.input = before ++ m.rest ∧ m.pos = byteLen before

theorem Placed.moved {m m' : Machine} (h : Placed m) (k : Moved m m') : Placed m' := by
  obtain ⟨b, h1, h2⟩ := h
  obtain ⟨k1, a, k2, k3⟩ := k
  exact ⟨b ++ a, by rw [k1, h1, k2, List.append_assoc], by rw [k3, h2, byteLen_append]⟩

theorem Placed.currentPos {m : Machine} (h : Placed m) : m.currentPos = m.pos := by
  obtain ⟨b, h1, h2⟩ := h
  unfold Machine.currentPos
  cases hr : m.rest with
  | nil => rw [h1, h2, hr]; simp
  | cons c s => rfl

/-- The range is a part of the input. -/
def Ranged (m : Machine) : Prop :=
  ∃ a v b, m.input = a ++ v ++ b ∧ m.start = byteLen a ∧ m.stop = byteLen (a ++ v)

/-! ## Numbers -/

theorem signPart_eq (m : Machine) : m.signPart = m.eat (Json.signPart m.rest).1 (Json.signPart m.rest).2 := by
  cases h : m.rest with
  | nil => simp only [signPart, h, Json.signPart]; rw [eat_none h]
  | cons c s =>
    simp only [signPart, h, Json.signPart]
    split
    · next hc => subst hc; rw [advance_cons h]
    · show m = _; simp only; rw [← h, eat_nil]

theorem intPart_ok_eq {m : Machine} {a s : Str} (h : Json.intPart m.rest = .ok (a, s)) :
    m.intPart = (.ok, m.eat a s) := by
  cases hr : m.rest with
  | nil => rw [hr] at h; cases h
  | cons c t =>
    rw [hr, Json.intPart] at h
    simp only [intPart, hr]
    split at h
    · next hc => subst hc; cases h; rw [if_pos rfl, advance_cons hr]
    · next hc =>
      rw [if_neg hc]
      split at h
      · next hd =>
        cases h
        rw [if_pos hd, advance_cons hr, digits_eq]
        show _ = (Ret.ok, m.eat ([c] ++ _) _)
        rw [← eat_eat]
        rfl
      · cases h

theorem intPart_err_eq {m : Machine} {e : Stop} (h : Json.intPart m.rest = .error e) : m.intPart = (.err, m) := by
  cases hr : m.rest with
  | nil => simp only [intPart, hr]
  | cons c t =>
    rw [hr, Json.intPart] at h
    simp only [intPart, hr]
    split at h
    · cases h
    · next hc =>
      rw [if_neg hc]
      split at h
      · cases h
      · next hd => rw [if_neg hd]

theorem fracPart_eq (m : Machine) : m.fracPart = m.eat (Json.fracPart m.rest).1 (Json.fracPart m.rest).2 := by
  cases h : m.rest with
  | nil => simp only [fracPart, h, Json.fracPart]; rw [eat_none h]
  | cons c s =>
    simp only [fracPart, h, Json.fracPart]
    split
    · next hc =>
      rw [advance_cons h, digits_eq, eat_eat]
      rfl
    · show m = _; simp only; rw [← h, eat_nil]

theorem expSign_eq (m : Machine) : m.expSign = m.eat (Json.expSign m.rest).1 (Json.expSign m.rest).2 := by
  cases h : m.rest with
  | nil => simp only [expSign, h, Json.expSign]; rw [eat_none h]
  | cons c s =>
    simp only [expSign, h, Json.expSign]
    split
    · rw [advance_cons h]
    · show m = _; simp only; rw [← h, eat_nil]

theorem expDigits_cases (m : Machine) :
    (∃ d r, m.rest = d :: r ∧ isDigit d = true ∧
      m.expDigits = (.ok, m.eat (Json.digits (d :: r)).1 (Json.digits (d :: r)).2)) ∨
    ((∀ d r, m.rest = d :: r → isDigit d ≠ true) ∧ m.expDigits = (.err, m)) := by
  cases h : m.rest with
  | nil => exact .inr ⟨by simp, by simp only [expDigits, h]⟩
  | cons d r =>
    simp only [expDigits, h]
    split
    · next hd => exact .inl ⟨d, r, rfl, hd, by rw [digits_eq, h]⟩
    · next hd =>
      refine .inr ⟨?_, rfl⟩
      rintro d' r' ⟨⟩
      exact hd

theorem expPart_ok_eq {m : Machine} {a s : Str} (h : Json.expPart m.rest = .ok (a, s)) :
    m.expPart = (.ok, m.eat a s) := by
  cases hr : m.rest with
  | nil => rw [hr] at h; cases h; simp only [expPart, hr]; rw [eat_none hr]
  | cons c t =>
    rw [hr, Json.expPart] at h
    simp only [expPart, hr]
    split at h
    · next hc =>
      rw [if_pos hc, advance_cons hr, expSign_eq, eat_eat]
      rcases expDigits_cases (m.eat ([c] ++ (Json.expSign t).1) (Json.expSign t).2) with ⟨d, r, k1, k2, k3⟩ | ⟨k1, k2⟩
      · have k1' : (Json.expSign t).2 = d :: r := k1
        rw [k1'] at h
        simp only [k2, if_true] at h
        cases h
        show expDigits (m.eat ([c] ++ (Json.expSign t).1) (Json.expSign t).2) = _
        rw [k3, eat_eat]
        rfl
      · cases h2 : (Json.expSign t).2 with
        | nil => rw [h2] at h; cases h
        | cons d r =>
          have := k1 d r h2
          rw [h2] at h
          simp only [this] at h
          cases h
    · next hc =>
      cases h
      rw [if_neg hc, ← hr, eat_nil]

theorem expPart_err_eq {m : Machine} {e : Stop} (h : Json.expPart m.rest = .error e) :
    ∃ a s, m.rest = a ++ s ∧ m.expPart = (.err, m.eat a s) := by
  cases hr : m.rest with
  | nil => rw [hr] at h; cases h
  | cons c t =>
    rw [hr, Json.expPart] at h
    simp only [expPart, hr]
    split at h
    · next hc =>
      rw [if_pos hc, advance_cons hr, expSign_eq, eat_eat]
      rcases expDigits_cases (m.eat ([c] ++ (Json.expSign t).1) (Json.expSign t).2) with ⟨d, r, k1, k2, k3⟩ | ⟨k1, k2⟩
      · have k1' : (Json.expSign t).2 = d :: r := k1
        rw [k1'] at h
        simp only [k2, if_true] at h
        cases h
      · exact ⟨_, _, by rw [List.cons_append, List.nil_append, List.cons_append, ← (expSign_split t).1], k2⟩
    · cases h

/-- What the range is after `mark_start` and further characters. -/
theorem Placed.ranged {m : Machine} {a s : Str} (h : Placed m) (hr : m.rest = a ++ s) (p : Nat) (r : Str) (t : Kind)
    (b : Str) : Ranged ⟨t, m.input, p, r, m.pos, m.pos + byteLen a, b⟩ ∧
      getRange m.input m.pos (m.pos + byteLen a) = some a := by
  obtain ⟨x, h1, h2⟩ := h
  have e : m.input = x ++ a ++ s := by rw [h1, hr, List.append_assoc]
  refine ⟨⟨x, a, s, e, h2, ?_⟩, ?_⟩
  · show m.pos + byteLen a = _; rw [h2, byteLen_append]
  · rw [e, h2, ← byteLen_append, getRange_append]

theorem markStart_eq {m : Machine} (h : Placed m) : m.markStart = { m with start := m.pos, stop := m.pos } := by
  simp [markStart, h.currentPos]

theorem intPart_not_fault (s : Str) {e : Stop} (h : Json.intPart s = .error e) : e = .err := by
  unfold Json.intPart at h
  repeat' split at h
  all_goals first | (cases h; rfl) | cases h

theorem expPart_not_fault (s : Str) {e : Stop} (h : Json.expPart s = .error e) : e = .err := by
  unfold Json.expPart at h
  repeat' split at h
  all_goals first | (cases h; rfl) | cases h

/-- `match_number` does what `Json.matchNumber` says, and leaves the token and an empty range if it fails. -/
theorem matchNumber_spec {m : Machine} (hm : Placed m) :
    match Json.matchNumber m.rest with
    | .ok (k, r) => ∃ a, m.rest = a ++ r ∧ k = .number a ∧ m.matchNumber =
        (.ok, ⟨.number, m.input, m.pos + byteLen a, r, m.pos, m.pos + byteLen a, m.buffer⟩)
    | .error e => e = .err ∧ ∃ a s, m.rest = a ++ s ∧ (NumberLike m.rest → a ≠ []) ∧ m.matchNumber =
        (.err, ⟨m.token, m.input, m.pos + byteLen a, s, m.pos, m.pos, m.buffer⟩) := by
  have hs := (signPart_split m.rest).1
  simp only [Json.matchNumber, matchNumber, markStart_eq hm, signPart_eq]
  cases hi : Json.intPart (Json.signPart m.rest).2 with
  | error e =>
    rw [intPart_err_eq (m := Machine.eat _ _ _) hi]
    refine ⟨intPart_not_fault _ hi, _, _, hs, ?_, rfl⟩
    rintro ⟨c, r, h1, h2⟩ h3
    rw [h1, Json.signPart] at hi h3
    split at h3
    · cases h3
    · next hc =>
      rw [if_neg hc, Json.intPart] at hi
      have hd := h2.resolve_left hc
      rw [if_pos hd] at hi
      split at hi <;> cases hi
  | ok p =>
    obtain ⟨i, s⟩ := p
    obtain ⟨hs2, hi2⟩ := intPart_ok hi
    rw [intPart_ok_eq (m := Machine.eat _ _ _) hi]
    simp only [fracPart_eq, eat_eat, Bind.bind, Except.bind]
    have hf := (fracPart_split s).1
    cases he : Json.expPart (Json.fracPart s).2 with
    | error e =>
      obtain ⟨a, t, k1, k2⟩ := expPart_err_eq (m := Machine.eat
        { m with start := m.pos, stop := m.pos } ((Json.signPart m.rest).1 ++ i ++ (Json.fracPart s).1) (Json.fracPart s).2) he
      refine ⟨expPart_not_fault _ he, (Json.signPart m.rest).1 ++ i ++ (Json.fracPart s).1 ++ a, t, ?_, ?_, ?_⟩
      · have k1' : (Json.fracPart s).2 = a ++ t := k1
        conv => lhs; rw [hs, hs2, hf, k1']
        simp
      · intro _ h0
        have : i = [] := by
          have h1 := List.append_eq_nil_iff.1 (List.append_eq_nil_iff.1 (List.append_eq_nil_iff.1 h0).1).1
          exact h1.2
        subst this
        rcases hi2 with h | ⟨_, _, h, _⟩ <;> cases h
      · show (match expPart (Machine.eat ⟨m.token, m.input, m.pos, m.rest, m.pos, m.pos, m.buffer⟩
          ((Json.signPart m.rest).1 ++ i ++ (Json.fracPart s).1) (Json.fracPart s).2) with
          | (.ok, m) => (Ret.ok, ({ m.markEnd with token := .number } : Machine)) | r => r) = _
        rw [k2, eat_eat]
        rfl
    | ok p =>
      obtain ⟨x, t⟩ := p
      obtain ⟨he2, _⟩ := expPart_ok he
      have hall : m.rest = ((Json.signPart m.rest).1 ++ i ++ (Json.fracPart s).1 ++ x) ++ t := by
        conv => lhs; rw [hs, hs2, hf, he2]
        simp
      refine ⟨(Json.signPart m.rest).1 ++ i ++ (Json.fracPart s).1 ++ x, hall, rfl, ?_⟩
      have k2 := expPart_ok_eq (m := Machine.eat
        { m with start := m.pos, stop := m.pos } ((Json.signPart m.rest).1 ++ i ++ (Json.fracPart s).1) (Json.fracPart s).2) he
      show (match expPart (Machine.eat ⟨m.token, m.input, m.pos, m.rest, m.pos, m.pos, m.buffer⟩
          ((Json.signPart m.rest).1 ++ i ++ (Json.fracPart s).1) (Json.fracPart s).2) with
          | (.ok, m) => (Ret.ok, ({ m.markEnd with token := .number } : Machine)) | r => r) = _
      rw [k2, eat_eat]
      have hp : Placed (Machine.eat { m with start := m.pos, stop := m.pos }
          ((Json.signPart m.rest).1 ++ i ++ (Json.fracPart s).1 ++ x) t) :=
        Placed.moved (m := { m with start := m.pos, stop := m.pos }) hm (moved_eat hall)
      simp only [markEnd, hp.currentPos]
      rfl

/-! ## Strings -/

theorem hexLoop_spec : ∀ (n code : Nat) (m : Machine),
    match Json.hexLoop n code m.rest with
    | .ok (code', r) => ∃ a, m.rest = a ++ r ∧ m.hexLoop n code = (.ok, code', m.eat a r)
    | .error e => e = .err ∧ ∃ code' a r, m.rest = a ++ r ∧ m.hexLoop n code = (.err, code', m.eat a r)
  | 0, code, m => ⟨[], rfl, rfl⟩
  | n + 1, code, m => by
    cases h : m.rest with
    | nil =>
      simp only [Json.hexLoop, Machine.hexLoop, h]
      exact ⟨rfl, code, [], [], rfl, by rw [eat_none h]⟩
    | cons c s =>
      simp only [Json.hexLoop, Machine.hexLoop, h]
      cases hd : hexDigit c with
      | none => have := hexLoop_spec n code m; rw [h] at this; exact this
      | some d =>
        simp only [advance_cons h]
        have := hexLoop_spec n (code * 16 + d) (m.eat [c] s)
        rw [show (m.eat [c] s).rest = s from rfl] at this
        cases hx : Json.hexLoop n (code * 16 + d) s with
        | ok p =>
          rw [hx] at this
          obtain ⟨a, k1, k2⟩ := this
          refine ⟨c :: a, ?_, ?_⟩
          · rw [show s = a ++ p.2 from k1]; rfl
          · rw [k2, eat_eat]; rfl
        | error e =>
          rw [hx] at this
          obtain ⟨k0, code', a, r, k1, k2⟩ := this
          refine ⟨k0, code', c :: a, r, ?_, ?_⟩
          · rw [show s = a ++ r from k1]; rfl
          · rw [k2, eat_eat]; rfl

theorem unicodeChar_spec {m : Machine} {s : Str} (h : m.rest = 'u' :: s) :
    match Json.stringControlChar ('u' :: s) with
    | .ok (c, r) => ∃ a, s = a ++ r ∧ m.unicodeChar = (.ok, { m.eat ('u' :: a) r with buffer := m.buffer ++ [c] })
    | .error .err => ∃ a r, s = a ++ r ∧ m.unicodeChar = (.err, m.eat ('u' :: a) r)
    | .error (.fault _) => m.unicodeChar.1 = .panic := by
  simp only [Json.stringControlChar, Char.reduceEq, if_false, if_true]
  have := hexLoop_spec 4 0 (m.eat ['u'] s)
  rw [show (m.eat ['u'] s).rest = s from rfl] at this
  simp only [unicodeChar, advance_cons h]
  cases hx : Json.hexLoop 4 0 s with
  | ok p =>
    obtain ⟨code, r⟩ := p
    rw [hx] at this
    obtain ⟨a, k1, k2⟩ := this
    simp only [Parse.bind_ok, k2, fromU32]
    by_cases hv : code.isValidChar
    · simp only [hv, dif_pos, Parse.bind_ok]
      exact ⟨a, k1, by rw [eat_eat]; rfl⟩
    · simp only [hv, dif_neg, not_false_eq_true]
      exact trivial
  | error e =>
    rw [hx] at this
    obtain ⟨rfl, code, a, r, k1, k2⟩ := this
    exact ⟨a, r, k1, by rw [k2, eat_eat]; rfl⟩

theorem pushChar_eq {m : Machine} {e : Char} {s : Str} (h : m.rest = e :: s) (c : Char) :
    m.pushChar c = (.ok, { m.eat [e] s with buffer := m.buffer ++ [c] }) := by
  rw [pushChar, advance_cons (m := { m with buffer := m.buffer ++ [c] }) h]
  rfl

theorem controlChar_spec {m : Machine} {s : Str} (h : m.rest = '\\' :: s) :
    match Json.stringControlChar s with
    | .ok (c, r) => ∃ a, a ≠ [] ∧ s = a ++ r ∧
        m.controlChar = (.ok, { m.eat ('\\' :: a) r with buffer := m.buffer ++ [c] })
    | .error .err => ∃ a r, s = a ++ r ∧ m.controlChar = (.err, m.eat ('\\' :: a) r)
    | .error (.fault _) => m.controlChar.1 = .panic := by
  have ha := advance_cons h
  cases s with
  | nil =>
    refine ⟨[], [], rfl, ?_⟩
    rw [controlChar, ha]
    rfl
  | cons c s =>
    have hr : (m.eat ['\\'] (c :: s)).rest = c :: s := rfl
    by_cases hu : c = 'u'
    · subst hu
      have e : m.controlChar = (m.eat ['\\'] ('u' :: s)).unicodeChar := by
        rw [controlChar, ha]
        simp only [hr, Char.reduceEq, if_false, if_true]
      rw [e]
      have := unicodeChar_spec hr
      cases hx : Json.stringControlChar ('u' :: s) with
      | ok p =>
        rw [hx] at this
        obtain ⟨a, k1, k2⟩ := this
        exact ⟨'u' :: a, by simp, by rw [k1]; rfl, by rw [k2, eat_eat]; rfl⟩
      | error e =>
        rw [hx] at this
        cases e with
        | err =>
          obtain ⟨a, r, k1, k2⟩ := this
          exact ⟨'u' :: a, r, by rw [k1]; rfl, by rw [k2, eat_eat]; rfl⟩
        | fault f => exact this
    · simp only [Json.stringControlChar, controlChar, ha, hr]
      by_cases h1 : c = '/'
      · subst h1; rw [if_pos rfl, if_pos rfl]; exact ⟨['/'], by simp, rfl, by rw [pushChar_eq hr, eat_eat]; rfl⟩
      rw [if_neg h1, if_neg h1]
      by_cases h2 : c = '\\'
      · subst h2; rw [if_pos rfl, if_pos rfl]; exact ⟨['\\'], by simp, rfl, by rw [pushChar_eq hr, eat_eat]; rfl⟩
      rw [if_neg h2, if_neg h2]
      by_cases h3 : c = '"'
      · subst h3; rw [if_pos rfl, if_pos rfl]; exact ⟨['"'], by simp, rfl, by rw [pushChar_eq hr, eat_eat]; rfl⟩
      rw [if_neg h3, if_neg h3]
      by_cases h4 : c = 'b'
      · subst h4; rw [if_pos rfl, if_pos rfl]; exact ⟨['b'], by simp, rfl, by rw [pushChar_eq hr, eat_eat]; rfl⟩
      rw [if_neg h4, if_neg h4]
      by_cases h5 : c = 'f'
      · subst h5; rw [if_pos rfl, if_pos rfl]; exact ⟨['f'], by simp, rfl, by rw [pushChar_eq hr, eat_eat]; rfl⟩
      rw [if_neg h5, if_neg h5]
      by_cases h6 : c = 'n'
      · subst h6; rw [if_pos rfl, if_pos rfl]; exact ⟨['n'], by simp, rfl, by rw [pushChar_eq hr, eat_eat]; rfl⟩
      rw [if_neg h6, if_neg h6]
      by_cases h7 : c = 'r'
      · subst h7; rw [if_pos rfl, if_pos rfl]; exact ⟨['r'], by simp, rfl, by rw [pushChar_eq hr, eat_eat]; rfl⟩
      rw [if_neg h7, if_neg h7]
      by_cases h8 : c = 't'
      · subst h8; rw [if_pos rfl, if_pos rfl]; exact ⟨['t'], by simp, rfl, by rw [pushChar_eq hr, eat_eat]; rfl⟩
      rw [if_neg h8, if_neg h8, if_neg hu, if_neg hu]
      exact ⟨[], c :: s, rfl, rfl⟩

theorem unclosed_eq {m : Machine} (h : Placed m) : m.unclosed = (.err, { m with stop := m.pos, token := .error }) := by
  simp only [unclosed, markEnd, h.currentPos]

/-- What the loop of `match_string` comes to, by the outcome of `Json.stringLoop`. -/
def LoopSpec (m : Machine) (result : Ret × Machine) : Parse (Str × Str) → Prop
  | .ok (b, r) => ∃ a, m.rest = a ++ r ∧
      result = (.ok, ⟨.string, m.input, m.pos + byteLen a, r, m.start, m.stop, b⟩)
  | .error .err => ∃ a r b, m.rest = a ++ r ∧
      (result = (.err, ⟨.error, m.input, m.pos + byteLen a, r, m.start, m.pos + byteLen a, b⟩) ∨
        (result = (.err, ⟨m.token, m.input, m.pos + byteLen a, r, m.start, m.stop, b⟩) ∧ BadEscape ('"' :: m.rest)))
  | .error (.fault _) => result.1 = .panic

theorem hexLoop_err : ∀ {n code : Nat} {s : Str}, Json.hexLoop n code s = .error .err →
    ∃ c, s.length < n ∧ HexText s code c
  | 0, _, _, h => by cases h
  | n + 1, code, [], _ => ⟨code, by simp, .nil⟩
  | n + 1, code, c :: s, h => by
    cases hd : hexDigit c with
    | none => rw [hexLoop_stuck hd] at h; cases h
    | some d =>
      rw [Json.hexLoop, hd] at h
      obtain ⟨x, h1, h2⟩ := hexLoop_err h
      exact ⟨x, by simpa using h1, .cons (hexDigit_iff.1 hd) h2⟩

theorem hexLoop_short {s : Str} {code c : Nat} (h : HexText s code c) :
    ∀ n, s.length < n → Json.hexLoop n code s = .error .err := by
  induction h with
  | nil =>
    intro n hn
    cases n with
    | zero => simp at hn
    | succ n => rfl
  | cons hd _ ih =>
    intro n hn
    cases n with
    | zero => simp at hn
    | succ n =>
      rw [Json.hexLoop, hexDigit_iff.2 hd]
      exact ih n (by simpa using hn)

theorem stringControlChar_err {z : Str} : Json.stringControlChar z = .error .err ↔ BadTail z := by
  cases z with
  | nil => exact ⟨fun _ => .inl rfl, fun _ => rfl⟩
  | cons c s =>
    by_cases hu : c = 'u'
    · subst hu
      simp only [Json.stringControlChar, Char.reduceEq, if_false, if_true]
      constructor
      · intro h
        cases hx : Json.hexLoop 4 0 s with
        | ok p =>
          rw [hx, Parse.bind_ok] at h
          simp only [fromU32] at h
          split at h <;> cases h
        | error e =>
          rw [hx] at h
          cases h
          obtain ⟨n, h1, h2⟩ := hexLoop_err hx
          exact .inr (.inr ⟨s, n, rfl, h1, h2⟩)
      · rintro (h | ⟨c, w, h, h1, _⟩ | ⟨hs, n, h, h1, h2⟩)
        · cases h
        · cases h; exact absurd rfl h1
        · cases h
          rw [hexLoop_short h2 4 h1]
          rfl
    · have key : Json.stringControlChar (c :: s) = .error .err ↔ ¬ ∃ x, Escape c x := by
        simp only [Json.stringControlChar]
        constructor
        · rintro h ⟨x, hx⟩
          have := escape_ok hx s
          simp only [Json.stringControlChar] at this
          rw [h] at this
          cases this
        · intro h
          have ne : ∀ e x, Escape e x → c ≠ e := by rintro e x he rfl; exact h ⟨x, he⟩
          rw [if_neg (ne _ _ .slash), if_neg (ne _ _ .backslash), if_neg (ne _ _ .quote), if_neg (ne _ _ .b),
            if_neg (ne _ _ .f), if_neg (ne _ _ .n), if_neg (ne _ _ .r), if_neg (ne _ _ .t), if_neg hu]
          rfl
      rw [key]
      constructor
      · intro h; exact .inr (.inl ⟨c, s, rfl, hu, h⟩)
      · rintro (h | ⟨c', w, h, _, h2⟩ | ⟨hs, n, h, h1, h2⟩)
        · cases h
        · cases h; exact h2
        · cases h; exact absurd rfl hu

theorem LoopSpec.step {m m1 : Machine} {result : Ret × Machine} {out : Parse (Str × Str)} {a r : Str} {b : Str}
    (hr : m.rest = a ++ r) (e : m1 = { m.eat a r with buffer := b })
    (hb : BadEscape ('"' :: m1.rest) → BadEscape ('"' :: m.rest)) (h : LoopSpec m1 result out) :
    LoopSpec m result out := by
  subst e
  cases out with
  | ok p =>
    obtain ⟨x, h1, h2⟩ := h
    have h1 : r = x ++ p.2 := h1
    refine ⟨a ++ x, by rw [hr, h1, List.append_assoc], ?_⟩
    rw [h2, byteLen_append, ← Nat.add_assoc]
    rfl
  | error e =>
    cases e with
    | err =>
      obtain ⟨x, y, b', h1, h2⟩ := h
      have h1 : r = x ++ y := h1
      refine ⟨a ++ x, y, b', by rw [hr, h1, List.append_assoc], ?_⟩
      rw [byteLen_append, ← Nat.add_assoc]
      exact h2.imp id (fun h => ⟨h.1, hb h.2⟩)
    | fault f => exact h

theorem stringLoop_spec : ∀ (n : Nat) (m : Machine), Placed m →
    LoopSpec m (m.stringLoop n) (Json.stringLoop n m.buffer m.rest)
  | 0, m, hm => by
    have : Json.stringLoop 0 m.buffer m.rest = .error .err := by cases m.rest <;> rfl
    rw [this, Machine.stringLoop, unclosed_eq hm]
    exact ⟨[], m.rest, m.buffer, rfl, .inl rfl⟩
  | n + 1, m, hm => by
    cases h : m.rest with
    | nil =>
      simp only [Machine.stringLoop, Json.stringLoop, h, unclosed_eq hm]
      exact ⟨[], [], m.buffer, h, .inl rfl⟩
    | cons c s =>
      simp only [Machine.stringLoop, Json.stringLoop, h]
      by_cases hq : c = '"'
      · subst hq
        rw [if_pos rfl, if_pos rfl, advance_cons h]
        exact ⟨['"'], h, rfl⟩
      rw [if_neg hq, if_neg hq]
      by_cases hb : c = '\\'
      · subst hb
        rw [if_pos rfl, if_pos rfl]
        have hc := controlChar_spec h
        cases hx : Json.stringControlChar s with
        | ok p =>
          obtain ⟨ch, r⟩ := p
          rw [hx] at hc
          obtain ⟨a, k0, k1, k2⟩ := hc
          have hrest : m.rest = ('\\' :: a) ++ r := by rw [h, k1]; rfl
          rw [k2, Parse.bind_ok]
          simp only
          refine LoopSpec.step hrest rfl ?_ (stringLoop_spec n _
            (hm.moved (m' := { m.eat ('\\' :: a) r with buffer := m.buffer ++ [ch] }) (moved_eat hrest)))
          intro hbad
          obtain ⟨raw, t, z, e1, e2, e3⟩ := hbad
          have e1 : r = raw ++ '\\' :: z := (List.cons.inj e1).2
          rcases stringControlChar_ok hx with ⟨e, h3, h4⟩ | ⟨hs, h3, h4, h5, h6⟩
          · exact ⟨'\\' :: e :: raw, ch :: t, z, by rw [h, h3, e1]; rfl, .escape h4 e2, e3⟩
          · refine ⟨'\\' :: 'u' :: (hs ++ raw), ch :: t, z, by rw [h, h3, e1]; simp, .code h4 h5 ?_ e2, e3⟩
            intro hl
            obtain ⟨_, h7⟩ := h6 hl
            rw [e1] at h7
            cases raw with
            | nil => exact .nil
            | cons x raw => exact h7
        | error e =>
          rw [hx] at hc
          cases e with
          | err =>
            obtain ⟨a, r, k1, k2⟩ := hc
            rw [k2]
            exact ⟨'\\' :: a, r, m.buffer, by rw [h, k1]; rfl, .inr ⟨rfl,
              [], [], s, by rw [h]; rfl, .nil, stringControlChar_err.1 hx⟩⟩
          | fault f =>
            show (match m.controlChar with | (.ok, m) => Machine.stringLoop n m | r => r).1 = .panic
            have hc : m.controlChar.1 = .panic := hc
            split
            · next e => rw [e] at hc; cases hc
            · exact hc
      rw [if_neg hb, if_neg hb]
      by_cases hctl : c.toNat ≤ 0x1f
      · rw [if_pos hctl, if_pos hctl, unclosed_eq hm]
        exact ⟨[], m.rest, m.buffer, rfl, .inl rfl⟩
      rw [if_neg hctl, if_neg hctl, advance_cons (m := { m with buffer := m.buffer ++ [c], rest := c :: s }) rfl]
      refine LoopSpec.step (a := [c]) h rfl ?_ (stringLoop_spec n _
        (hm.moved (m' := { m.eat [c] s with buffer := m.buffer ++ [c] }) ⟨rfl, [c], h, rfl⟩))
      rintro ⟨raw, t, z, e1, e2, e3⟩
      have e1 : s = raw ++ '\\' :: z := (List.cons.inj e1).2
      exact ⟨c :: raw, c :: t, z, by rw [h, e1]; rfl, .plain hq hb (by omega) e2, e3⟩

/-- The loop passes over the inside of a string up to a backslash. -/
theorem stringLoop_passes {z : Str} {raw t : Str} (h : Body (fun n => n ≤ 4) raw t) :
    ∀ (n : Nat) (m : Machine), raw.length < n → m.rest = raw ++ '\\' :: z →
      ∃ (k : Nat) (m' : Machine), m.stringLoop n = m'.stringLoop (k + 1) ∧ m'.rest = '\\' :: z ∧ m'.token = m.token := by
  induction h with
  | nil =>
    intro n m hn hm
    cases n with
    | zero => simp at hn
    | succ n => exact ⟨n, m, rfl, hm, rfl⟩
  | @plain c raw s h1 h2 h3 _ ih =>
    intro n m hn hm
    cases n with
    | zero => simp at hn
    | succ n =>
      have hm' : m.rest = c :: (raw ++ '\\' :: z) := hm
      rw [Machine.stringLoop, hm']
      simp only [if_neg h1, if_neg h2, show ¬ c.toNat ≤ 0x1f by omega, if_false]
      rw [advance_cons (m := { m with buffer := m.buffer ++ [c], rest := c :: (raw ++ '\\' :: z) }) rfl]
      exact ih n _ (by simpa using hn) rfl
  | @escape e c raw s h1 _ ih =>
    intro n m hn hm
    cases n with
    | zero => simp at hn
    | succ n =>
      have hm' : m.rest = '\\' :: (e :: (raw ++ '\\' :: z)) := hm
      have hc := controlChar_spec hm'
      rw [escape_ok h1] at hc
      obtain ⟨a, _, _, k2⟩ := hc
      rw [Machine.stringLoop, hm']
      simp only [Char.reduceEq, if_false, if_true, k2]
      exact ih n _ (by simp at hn; omega) rfl
  | @code hs raw s c h1 h2 h3 _ ih =>
    intro n m hn hm
    cases n with
    | zero => simp at hn
    | succ n =>
      have hm' : m.rest = '\\' :: ('u' :: (hs ++ (raw ++ '\\' :: z))) := by rw [hm]; simp
      have hctl : Json.stringControlChar ('u' :: (hs ++ (raw ++ '\\' :: z))) = .ok (c, raw ++ '\\' :: z) := by
        have hl := hexLoop_append 4 (r := raw ++ '\\' :: z) h2 h1 (fun hl =>
          ⟨by simp, (h3 hl).append (.cons (hexDigit_none.1 (by decide)))⟩)
        simp only [Json.stringControlChar]
        simp only [Char.reduceEq, if_false, if_true, hl, Parse.bind_ok, fromU32_ok.2 rfl]
      have hc := controlChar_spec hm'
      rw [hctl] at hc
      obtain ⟨a, _, _, k2⟩ := hc
      rw [Machine.stringLoop, hm']
      simp only [Char.reduceEq, if_false, if_true, k2]
      exact ih n _ (by simp at hn; omega) rfl

theorem stringLoop_badEscape {n : Nat} {m : Machine} (h : BadEscape ('"' :: m.rest)) (hn : m.rest.length < n) :
    ∃ m', m.stringLoop n = (.err, m') ∧ m'.token = m.token := by
  obtain ⟨raw, t, z, e1, e2, e3⟩ := h
  have e1 := (List.cons.inj e1).2
  obtain ⟨k, m', h1, h2, h3⟩ := stringLoop_passes e2 n m (by rw [e1] at hn; simp at hn; omega) e1
  have hc := controlChar_spec h2
  rw [stringControlChar_err.2 e3] at hc
  obtain ⟨a, r, _, k2⟩ := hc
  rw [h1, Machine.stringLoop, h2]
  simp only [Char.reduceEq, if_false, if_true, k2]
  exact ⟨_, rfl, h3⟩

theorem Ranged.value {m : Machine} (h : Ranged m) : ∃ v, m.value = some v := by
  unfold Machine.value
  split
  · exact ⟨_, rfl⟩
  · obtain ⟨a, v, b, h1, h2, h3⟩ := h
    exact ⟨v, by rw [h1, h2, h3, getRange_append]⟩

theorem ranged_congr {m m' : Machine} (h : Ranged m) (h1 : m'.input = m.input) (h2 : m'.start = m.start)
    (h3 : m'.stop = m.stop) : Ranged m' := by
  obtain ⟨a, v, b, k1, k2, k3⟩ := h
  exact ⟨a, v, b, h1.trans k1, h2.trans k2, h3.trans k3⟩

/-- What is known when `next`, at the start of a token, has failed. -/
structure Failed (m m' : Machine) : Prop where
  moved : Moved m m'
  ranged : Ranged m'
  same : NumberLike m.rest ∨ BadEscape m.rest → m'.token = m.token
  error : ¬ (NumberLike m.rest ∨ BadEscape m.rest) → m'.token = .error
  stuck : ∀ c r, m.rest = c :: r → ¬ Opens c → m' = { m with token := .error }
  taken : ∀ c r, m.rest = c :: r → Opens c → m'.rest.length < m.rest.length
  quoted : ∀ r, m.rest = '"' :: r → ¬ BadEscape m.rest → ∃ a, m.rest = a ++ m'.rest ∧ m'.value = some a

/-- What is known when `next`, at the start of a token, has found one. -/
structure Found (m m' : Machine) (k : Json.Tok) (r : Str) : Prop where
  moved : Moved m m'
  ranged : Ranged m'
  rest : m'.rest = r
  kind : HasKind k m'.token
  text : ∀ v, HasText k v → m'.value = some v

/-- What `next` comes to, by the outcome of `Json.nextToken`. -/
def Outcome (m : Machine) (result : Ret × Machine) : Parse (Json.Tok × Str) → Prop
  | .ok (k, r) => ∃ m', result = (.ok, m') ∧ Found m m' k r
  | .error .err => ∃ m', result = (.err, m') ∧ Failed m m'
  | .error (.fault _) => result.1 = .panic

theorem singleChar_outcome {m : Machine} {c : Char} {s : Str} (hr : Ranged m) (h : m.rest = c :: s) {k : Kind}
    {t : Json.Tok} (hk : HasKind t k) (ht : ∀ v, ¬ HasText t v) : Outcome m (m.singleChar k) (.ok (t, s)) := by
  refine ⟨_, rfl, ?_⟩
  rw [advance_cons (m := { m with token := k }) h]
  exact ⟨⟨rfl, [c], h, rfl⟩, ranged_congr hr rfl rfl rfl, rfl, hk, fun v hv => absurd hv (ht v)⟩

theorem keywordLoop_spec : ∀ (w : Str) (m : Machine),
    (∃ r, Json.matchChars w m.rest = .ok r ∧ m.keywordLoop w = (.ok, m.eat w r)) ∨
    (Json.matchChars w m.rest = .error .err ∧ ∃ a r, m.rest = a ++ r ∧
      m.keywordLoop w = (.err, { m.eat a r with token := .error }) ∧
      (∀ c r', m.rest = c :: r' → w.head? = some c → a ≠ []))
  | [], m => .inl ⟨m.rest, by cases m.rest <;> rfl, rfl⟩
  | t :: w, m => by
    cases h : m.rest with
    | nil =>
      refine .inr ⟨rfl, [], [], rfl, ?_, by simp⟩
      simp only [Machine.keywordLoop, h]
      rfl
    | cons c s =>
      simp only [Json.matchChars, Machine.keywordLoop, h]
      split
      · next hc =>
        subst hc
        rw [advance_cons h]
        rcases keywordLoop_spec w (m.eat [c] s) with ⟨r, h1, h2⟩ | ⟨h1, a, r, h2, h3, _⟩
        · exact .inl ⟨r, h1, by rw [h2, eat_eat]; rfl⟩
        · have h2 : s = a ++ r := h2
          exact .inr ⟨h1, c :: a, r, by rw [h2]; rfl, by rw [h3, eat_eat]; rfl, by simp⟩
      · next hc =>
        refine .inr ⟨rfl, [], c :: s, rfl, ?_, ?_⟩
        · rw [← h]; rfl
        · rintro c' r' ⟨⟩ h2
          exact absurd (Option.some.inj h2).symm hc

/-- A failure that sets the token, after taking something off a text that begins with a letter. -/
theorem failed_letter {m : Machine} {a r : Str} {c : Char} {s : Str} (hr : Ranged m) (h : m.rest = c :: s)
    (ho : Opens c) (hq : c ≠ '"') (hn : c ≠ '-') (hd : isDigit c = false) (he : m.rest = a ++ r) (ha : a ≠ []) :
    Failed m { m.eat a r with token := .error } := by
  refine ⟨⟨rfl, a, he, rfl⟩, ranged_congr hr rfl rfl rfl, ?_, fun _ => rfl, ?_, ?_, ?_⟩
  · rintro (⟨c', r', h1, h2⟩ | ⟨raw, t, z, h1, _⟩)
    · rw [h] at h1
      cases h1
      rcases h2 with h2 | h2
      · exact absurd h2 hn
      · rw [hd] at h2; cases h2
    · rw [h] at h1
      cases h1
      exact absurd rfl hq
  · intro c' r' h1 h2
    rw [h] at h1
    cases h1
    exact absurd ho h2
  · intro _ _ _ _
    show r.length < m.rest.length
    rw [he, List.length_append]
    have := List.length_pos_iff.2 ha
    omega
  · intro r' h1
    rw [h] at h1
    cases h1
    exact absurd rfl hq

theorem matchKeyword_outcome {u : Char → Bool} {m : Machine} {c : Char} {s w : Str} (hr : Ranged m)
    (h : m.rest = c :: s) (hw : w.head? = some c) (ho : Opens c) (hq : c ≠ '"') (hn : c ≠ '-')
    (hd : isDigit c = false) {k : Kind} {t : Json.Tok} (hk : HasKind t k) (ht : ∀ v, ¬ HasText t v) :
    Outcome m (m.matchKeyword u w k) (Json.matchKeyword u w t (c :: s)) := by
  have hne : w ≠ [] := by rintro rfl; cases hw
  rcases keywordLoop_spec w m with ⟨r, h1, h2⟩ | ⟨h1, a, r, h2, h3, h4⟩
  · rw [h] at h1
    have e : m.rest = w ++ r := by rw [h]; exact matchChars_ok.1 h1
    simp only [Json.matchKeyword, h1, Parse.bind_ok, Machine.matchKeyword, h2]
    have found : Found m { m.eat w r with token := k } t r :=
      ⟨⟨rfl, w, e, rfl⟩, ranged_congr hr rfl rfl rfl, rfl, hk, fun v hv => absurd hv (ht v)⟩
    cases r with
    | nil => exact ⟨_, rfl, found⟩
    | cons d r =>
      show Outcome m (if isAlnum u d = true then _ else _) (if isAlnum u d = true then _ else _)
      split
      · exact ⟨_, rfl, failed_letter hr h ho hq hn hd e hne⟩
      · exact ⟨_, rfl, found⟩
  · rw [h] at h1
    simp only [Json.matchKeyword, h1, Machine.matchKeyword, h3]
    exact ⟨_, rfl, failed_letter hr h ho hq hn hd h2 (h4 c s h hw)⟩

theorem matchString_outcome {m : Machine} {s : Str} (hp : Placed m) (h : m.rest = '"' :: s) :
    Outcome m m.matchString (Json.matchString s) := by
  have e1 : m.markStart.advance = ⟨m.token, m.input, m.pos + byteLen ['"'], s, m.pos, m.pos, m.buffer⟩ := by
    rw [markStart_eq hp, advance_cons (m := { m with start := m.pos, stop := m.pos }) h]
    rfl
  rw [Machine.matchString, e1]
  simp only
  generalize hm0 : (⟨m.token, m.input, m.pos + byteLen ['"'], s, m.pos, m.pos, []⟩ : Machine) = m0
  have hmv : Moved m m0 := by subst hm0; exact ⟨rfl, ['"'], h, rfl⟩
  have hrest : m0.rest = s := by subst hm0; rfl
  have hbuf : m0.buffer = [] := by subst hm0; rfl
  have hstart : m0.start = m.pos := by subst hm0; rfl
  have hstop : m0.stop = m.pos := by subst hm0; rfl
  have hpos : m0.pos = m.pos + byteLen ['"'] := by subst hm0; rfl
  have hin : m0.input = m.input := by subst hm0; rfl
  have htok : m0.token = m.token := by subst hm0; rfl
  have hq : m.rest = '"' :: m0.rest := by rw [h, hrest]
  have spec := stringLoop_spec (s.length + 1) m0 (hp.moved hmv)
  rw [hrest, hbuf] at spec
  unfold Json.matchString
  cases hx : Json.stringLoop (s.length + 1) [] s with
  | ok p =>
    obtain ⟨b, r⟩ := p
    rw [hx] at spec
    obtain ⟨a, k1, k2⟩ := spec
    rw [Parse.bind_ok]
    have hrg := (hp.ranged (a := []) (s := m.rest) rfl (m.pos + byteLen ('"' :: a)) r .string b).1
    refine ⟨_, k2, ⟨?_, ?_, rfl, .string, ?_⟩⟩
    · exact hmv.trans ⟨rfl, a, k1, rfl⟩
    · exact ranged_congr hrg hin hstart hstop
    · intro v hv
      cases hv
      rfl
  | error e =>
    rw [hx] at spec
    cases e with
    | fault f => exact spec
    | err =>
      obtain ⟨a, r, b, k1, k2⟩ := spec
      have all : m.rest = ('"' :: a) ++ r := by rw [hq, k1]; rfl
      have hlen : r.length < m.rest.length := by rw [all]; simp; omega
      have stuck : ∀ (m' : Machine) (c : Char) (r' : Str), m.rest = c :: r' → ¬ Opens c → m' = { m with token := .error } := by
        intro m' c r' h1 h2
        rw [h] at h1
        cases h1
        exact absurd (by unfold Opens; simp) h2
      have hnum : ¬ NumberLike m.rest := by
        rintro ⟨c, r', h1, h2⟩
        rw [h] at h1
        cases h1
        revert h2
        decide
      by_cases hbad : BadEscape m.rest
      · obtain ⟨m', h1, h2⟩ := stringLoop_badEscape (n := s.length + 1) (by rw [← hq]; exact hbad) (by rw [hrest]; omega)
        refine ⟨m', h1, ?_⟩
        have hmr : Moved m m' ∧ Ranged m' ∧ m'.rest = r := by
          rw [h1] at k2
          rcases k2 with k2 | ⟨k2, _⟩
          · have k2 := congrArg Prod.snd k2
            simp only at k2
            refine ⟨by rw [k2]; exact hmv.trans ⟨rfl, a, k1, rfl⟩, ?_, by rw [k2]⟩
            have hrg := (hp.ranged all (m.pos + byteLen ('"' :: a)) r .error b).1
            refine ranged_congr hrg (by rw [k2]; exact hin) (by rw [k2]; exact hstart) ?_
            rw [k2]
            show m0.pos + byteLen a = m.pos + byteLen ('"' :: a)
            rw [hpos, byteLen_cons, byteLen_cons, byteLen_nil]
            omega
          · have k2 := congrArg Prod.snd k2
            simp only at k2
            refine ⟨by rw [k2]; exact hmv.trans ⟨rfl, a, k1, rfl⟩, ?_, by rw [k2]⟩
            have hrg := (hp.ranged (a := []) (s := m.rest) rfl (m.pos + byteLen ('"' :: a)) r .error b).1
            exact ranged_congr hrg (by rw [k2]; exact hin) (by rw [k2]; exact hstart) (by rw [k2]; exact hstop)
        exact ⟨hmr.1, hmr.2.1, fun _ => h2.trans htok, fun hn => absurd (.inr hbad) hn, stuck m',
          fun _ _ _ _ => by rw [hmr.2.2]; exact hlen, fun _ _ hn => absurd hbad hn⟩
      · have k2 : m0.stringLoop (s.length + 1) =
            (.err, ⟨.error, m0.input, m0.pos + byteLen a, r, m0.start, m0.pos + byteLen a, b⟩) := by
          rcases k2 with k2 | ⟨_, k3⟩
          · exact k2
          · exact absurd (hq ▸ k3) hbad
        have epos : m0.pos + byteLen a = m.pos + byteLen ('"' :: a) := by
          rw [hpos, byteLen_cons, byteLen_cons, byteLen_nil]
          omega
        have hrg := hp.ranged all (m.pos + byteLen ('"' :: a)) r .error b
        refine ⟨_, k2, ⟨hmv.trans ⟨rfl, a, k1, rfl⟩, ranged_congr hrg.1 hin hstart epos, ?_, fun _ => rfl, stuck _,
          fun _ _ _ _ => hlen, ?_⟩⟩
        · rintro (hn | hn)
          · exact absurd hn hnum
          · exact absurd hn hbad
        · intro _ _ _
          refine ⟨'"' :: a, all, ?_⟩
          show getRange m0.input m0.start (m0.pos + byteLen a) = _
          rw [hin, hstart, epos]
          exact hrg.2

theorem matchNumber_outcome {m : Machine} {c : Char} {s : Str} (hp : Placed m) (h : m.rest = c :: s)
    (hc : c = '-' ∨ isDigit c = true) (ho : Opens c) (hcq : c ≠ '"') :
    Outcome m m.matchNumber (Json.matchNumber (c :: s)) := by
  have spec := matchNumber_spec hp
  rw [← h]
  cases hx : Json.matchNumber m.rest with
  | ok p =>
    obtain ⟨k, r⟩ := p
    rw [hx] at spec
    obtain ⟨a, k1, rfl, k3⟩ := spec
    have hrg := hp.ranged k1 (m.pos + byteLen a) r .number m.buffer
    refine ⟨_, k3, ⟨⟨rfl, a, k1, rfl⟩, hrg.1, rfl, .number, ?_⟩⟩
    intro v hv
    cases hv
    exact hrg.2
  | error e =>
    rw [hx] at spec
    obtain ⟨rfl, a, r, k1, k0, k2⟩ := spec
    have hrg := hp.ranged (a := []) (s := m.rest) rfl (m.pos + byteLen a) r m.token m.buffer
    refine ⟨_, k2, ⟨⟨rfl, a, k1, rfl⟩, hrg.1, fun _ => rfl, ?_, ?_, ?_, ?_⟩⟩
    · intro hn
      exact absurd (.inl ⟨c, s, h, hc⟩) hn
    · intro c' r' h1 h2
      rw [h] at h1
      cases h1
      exact absurd ho h2
    · intro _ _ _ _
      show r.length < m.rest.length
      have := List.length_pos_iff.2 (k0 ⟨c, s, h, hc⟩)
      rw [k1, List.length_append]
      omega
    · intro r' h1
      rw [h] at h1
      cases h1
      exact absurd rfl hcq

theorem nextToken_outcome (u : Char → Bool) {m : Machine} (hp : Placed m) (hr : Ranged m) :
    Outcome m (m.nextToken u) (Json.nextToken u m.rest) := by
  cases h : m.rest with
  | nil =>
    simp only [Machine.nextToken, Json.nextToken, h]
    exact ⟨_, rfl, ⟨⟨rfl, [], h, rfl⟩, ranged_congr hr rfl rfl rfl, rfl, .eof, fun v hv => by cases hv⟩⟩
  | cons c s =>
    simp only [Machine.nextToken, Json.nextToken, h]
    by_cases h1 : c = '['
    · rw [if_pos h1, if_pos h1]; exact singleChar_outcome hr h .beginArray (fun v hv => by cases hv)
    rw [if_neg h1, if_neg h1]
    by_cases h2 : c = ']'
    · rw [if_pos h2, if_pos h2]; exact singleChar_outcome hr h .endArray (fun v hv => by cases hv)
    rw [if_neg h2, if_neg h2]
    by_cases h3 : c = '{'
    · rw [if_pos h3, if_pos h3]; exact singleChar_outcome hr h .beginObject (fun v hv => by cases hv)
    rw [if_neg h3, if_neg h3]
    by_cases h4 : c = '}'
    · rw [if_pos h4, if_pos h4]; exact singleChar_outcome hr h .endObject (fun v hv => by cases hv)
    rw [if_neg h4, if_neg h4]
    by_cases h5 : c = ','
    · rw [if_pos h5, if_pos h5]; exact singleChar_outcome hr h .comma (fun v hv => by cases hv)
    rw [if_neg h5, if_neg h5]
    by_cases h6 : c = ':'
    · rw [if_pos h6, if_pos h6]; exact singleChar_outcome hr h .colon (fun v hv => by cases hv)
    rw [if_neg h6, if_neg h6]
    by_cases h7 : c = 'n'
    · rw [if_pos h7, if_pos h7]
      subst h7
      exact matchKeyword_outcome hr h rfl (by unfold Opens; simp) (by decide) (by decide) (by decide)
        .null (fun v hv => by cases hv)
    rw [if_neg h7, if_neg h7]
    by_cases h8 : c = 't'
    · rw [if_pos h8, if_pos h8]
      subst h8
      exact matchKeyword_outcome hr h rfl (by unfold Opens; simp) (by decide) (by decide) (by decide)
        .true (fun v hv => by cases hv)
    rw [if_neg h8, if_neg h8]
    by_cases h9 : c = 'f'
    · rw [if_pos h9, if_pos h9]
      subst h9
      exact matchKeyword_outcome hr h rfl (by unfold Opens; simp) (by decide) (by decide) (by decide)
        .false (fun v hv => by cases hv)
    rw [if_neg h9, if_neg h9]
    by_cases h10 : c = '"'
    · rw [if_pos h10, if_pos h10]
      subst h10
      exact matchString_outcome hp h
    rw [if_neg h10, if_neg h10]
    by_cases h11 : c = '-'
    · rw [if_pos h11, if_pos h11]
      exact matchNumber_outcome hp h (.inl h11) (by unfold Opens; simp [h11]) h10
    rw [if_neg h11, if_neg h11]
    by_cases h12 : isDigit c = true
    · rw [if_pos h12, if_pos h12]
      exact matchNumber_outcome hp h (.inr h12) (by unfold Opens; simp [h12]) h10
    rw [if_neg h12, if_neg h12]
    have hno : ¬ Opens c := by unfold Opens; simp [*]
    refine ⟨_, rfl, ⟨⟨rfl, [], h, rfl⟩, ranged_congr hr rfl rfl rfl, ?_, fun _ => rfl, ?_, ?_, ?_⟩⟩
    · rintro (⟨c', r', e1, e2⟩ | ⟨raw, t, z, e1, _⟩)
      · rw [h] at e1
        cases e1
        rcases e2 with e2 | e2
        · exact absurd e2 h11
        · exact absurd e2 h12
      · rw [h] at e1
        cases e1
        exact absurd rfl h10
    · intro _ _ _ _; rw [← h]
    · intro c' r' e1 e2
      rw [h] at e1
      cases e1
      exact absurd e2 hno
    · intro r' e1
      rw [h] at e1
      cases e1
      exact absurd rfl h10

/-- What `next` comes to, by the outcome of `Json.next`. -/
theorem next_outcome (u : Char → Bool) {m : Machine} (hp : Placed m) (hr : Ranged m) :
    Placed m.skipWhitespace ∧ Moved m m.skipWhitespace ∧ Outcome m.skipWhitespace (m.next u) (Json.next u m.rest) := by
  have hmv : Moved m m.skipWhitespace := by
    rw [skipWhitespace_eq]
    exact moved_eat (List.takeWhile_append_dropWhile ..).symm
  have h := nextToken_outcome u (hp.moved hmv) (ranged_congr hr rfl rfl rfl : Ranged m.skipWhitespace)
  have e : m.skipWhitespace.rest = Json.skipWhitespace m.rest := by rw [skipWhitespace_eq]; rfl
  rw [e] at h
  exact ⟨hp.moved hmv, hmv, h⟩

theorem next_kept {u : Char → Bool} {m m' : Machine} {r : Ret} (hp : Placed m) (hr : Ranged m)
    (h : m.next u = (r, m')) (hn : r ≠ .panic) : Moved m m' ∧ Ranged m' := by
  obtain ⟨_, h2, h3⟩ := next_outcome u hp hr
  cases hx : Json.next u m.rest with
  | ok p =>
    rw [hx] at h3
    obtain ⟨x, k1, k2⟩ := h3
    rw [h] at k1
    cases k1
    exact ⟨h2.trans k2.moved, k2.ranged⟩
  | error e =>
    rw [hx] at h3
    cases e with
    | err =>
      obtain ⟨x, k1, k2⟩ := h3
      rw [h] at k1
      cases k1
      exact ⟨h2.trans k2.moved, k2.ranged⟩
    | fault f =>
      have h3 : (m.next u).1 = .panic := h3
      rw [h] at h3
      exact absurd h3 hn

theorem placed_fresh (input : Str) : Placed (fresh input) := ⟨[], rfl, rfl⟩

theorem ranged_fresh (input : Str) : Ranged (fresh input) := ⟨[], [], input, rfl, rfl, rfl⟩

theorem reached_kept {u : Char → Bool} {input : Str} {m : Machine} (h : Reached u input m) :
    m.input = input ∧ Placed m ∧ Ranged m := by
  induction h with
  | new h =>
    obtain ⟨h1, h2⟩ := next_kept (placed_fresh input) (ranged_fresh input) h (by simp)
    exact ⟨h1.1, (placed_fresh input).moved h1, h2⟩
  | next _ h hn ih =>
    obtain ⟨h1, h2⟩ := next_kept ih.2.1 ih.2.2 h hn
    exact ⟨h1.1.trans ih.1, ih.2.1.moved h1, h2⟩

theorem reached_failed {u : Char → Bool} {input : Str} {m m' : Machine} (h : Reached u input m)
    (hn : m.next u = (.err, m')) : Failed m.skipWhitespace m' := by
  obtain ⟨_, hp, hr⟩ := reached_kept h
  obtain ⟨_, _, h3⟩ := next_outcome u hp hr
  cases hx : Json.next u m.rest with
  | ok p =>
    rw [hx] at h3
    obtain ⟨x, k1, _⟩ := h3
    rw [hn] at k1
    cases k1
  | error e =>
    rw [hx] at h3
    cases e with
    | err =>
      obtain ⟨x, k1, k2⟩ := h3
      rw [hn] at k1
      cases k1
      exact k2
    | fault f =>
      have h3 : (m.next u).1 = .panic := h3
      rw [hn] at h3
      cases h3

theorem skipped {m : Machine} {ws s : Str} (hs : m.rest = ws ++ s) (hw : ∀ c ∈ ws, isSpace c = true)
    (hc : NotStart (fun c => isSpace c = true) s) : m.skipWhitespace.rest = s := by
  rw [skipWhitespace_eq]
  show Json.skipWhitespace m.rest = s
  rw [hs]
  exact (takeWhile_append_stop hw hc).2

theorem nextToken_unopened {u : Char → Bool} {m : Machine} {c : Char} {s : Str} (h : m.rest = c :: s) (ho : ¬ Opens c) :
    m.nextToken u = (.err, { m with token := .error }) := by
  unfold Opens at ho
  simp only [not_or] at ho
  obtain ⟨h1, h2, h3, h4, h5, h6, h7, h8, h9, h10, h11, h12⟩ := ho
  rw [nextToken, h]
  simp only [h1, h2, h3, h4, h5, h6, h7, h8, h9, h10, h11, h12, if_false]
  rw [← h]
  rfl

theorem skip_eq {m : Machine} (h : NotStart (fun c => isSpace c = true) m.rest) : m.skipWhitespace = m := by
  rw [skipWhitespace_eq]
  have h1 := takeWhile_append_stop (a := []) (b := m.rest) (f := isSpace) (by simp) h
  have h2 : m.rest.takeWhile isSpace = [] := h1.1
  have h3 : Json.skipWhitespace m.rest = m.rest := h1.2
  rw [h2, h3, eat_nil]

theorem next_unopened {u : Char → Bool} {m : Machine} {c : Char} {s : Str} (h : m.rest = c :: s)
    (hc : isSpace c = false) (ho : ¬ Opens c) (ht : m.token = .error) : m.next u = (.err, m) := by
  rw [next, skip_eq (by rw [h]; exact .cons (by simp [hc])), nextToken_unopened h ho]
  rw [← ht]

theorem calls_unopened {u : Char → Bool} {m m'' : Machine} {n : Nat} {c : Char} {s : Str} (hc : Calls u n m m'')
    (h : m.rest = c :: s) (hs : isSpace c = false) (ho : ¬ Opens c) (ht : m.token = .error) : m'' = m := by
  induction hc with
  | none => rfl
  | more h1 h2 _ ih =>
    rw [next_unopened h hs ho ht] at h1
    cases h1
    exact ih h ht

end Machine

end Verif.Json
