import Verif.Spec.JsonText
import Verif.Proof.JsonBase
import Verif.Proof.Utf8
import Verif.Proof.TypeLexer

/-! # The tokenizer against the lexical grammar -/

namespace Verif

open Spec Json

theorem Spec.NotStart.nil {P : Char → Prop} : NotStart P [] := by intro c hc; cases hc

theorem Spec.NotStart.cons {P : Char → Prop} {c : Char} {s : Str} (h : ¬ P c) : NotStart P (c :: s) := by
  intro d hd; cases hd; exact h

theorem Spec.NotStart.mono {P Q : Char → Prop} {s : Str} (h : NotStart P s) (hpq : ∀ c, Q c → P c) :
    NotStart Q s := fun c hc hq => h c hc (hpq c hq)

theorem Spec.NotStart.append {P : Char → Prop} {a b : Str} (ha : NotStart P a) (hb : NotStart P b) :
    NotStart P (a ++ b) := by
  cases a with
  | nil => exact hb
  | cons c a => exact ha

/-! ## Numbers -/

theorem takeWhile_append_stop {f : Char → Bool} : ∀ {a b : Str}, (∀ c ∈ a, f c = true) →
    NotStart (fun c => f c = true) b → (a ++ b).takeWhile f = a ∧ (a ++ b).dropWhile f = b
  | [], b, _, h => by
    cases b with
    | nil => exact ⟨rfl, rfl⟩
    | cons c b =>
      have : f c = false := by simpa using h c rfl
      simp [this]
  | c :: a, b, ha, h => by
    obtain ⟨h1, h2⟩ := takeWhile_append_stop (fun d hd => ha d (.tail _ hd)) h
    have := ha c (.head _)
    simp [this, h1, h2]

theorem digits_append {a b : Str} (ha : Digits a) (hb : NotStart (fun c => isDigit c = true) b) :
    digits (a ++ b) = (a, b) := by
  obtain ⟨h1, h2⟩ := takeWhile_append_stop ha hb
  unfold digits
  rw [h1, h2]

theorem digits_split (s : Str) : s = (digits s).1 ++ (digits s).2 ∧ Digits (digits s).1 ∧
    NotStart (fun c => isDigit c = true) (digits s).2 := by
  refine ⟨(List.takeWhile_append_dropWhile).symm, ?_, ?_⟩
  · exact fun c hc => List.all_eq_true.1 (List.all_takeWhile (l := s) (p := isDigit)) c hc
  · intro c hc
    have := List.head?_dropWhile_not isDigit s
    unfold digits at hc
    simp only at hc
    cases h : (s.dropWhile isDigit).head? with
    | none => rw [h] at hc; cases hc
    | some d => rw [h] at hc this; cases hc; simpa using this

theorem signPart_append {sg s : Str} (h : sg = [] ∨ sg = ['-']) (hs : NotStart (fun c => c = '-') s) :
    signPart (sg ++ s) = (sg, s) := by
  rcases h with rfl | rfl
  · cases s with
    | nil => rfl
    | cons c s =>
      have : c ≠ '-' := hs c rfl
      simp [signPart, this]
  · simp [signPart]

theorem signPart_split (s : Str) : s = (signPart s).1 ++ (signPart s).2 ∧
    ((signPart s).1 = [] ∨ (signPart s).1 = ['-']) := by
  cases s with
  | nil => exact ⟨rfl, .inl rfl⟩
  | cons c s =>
    simp only [signPart]
    split
    · next h => subst h; exact ⟨rfl, .inr rfl⟩
    · exact ⟨rfl, .inl rfl⟩

theorem intPart_append {i s : Str} (h : IntText i) (hs : NotStart (fun c => isDigit c = true) s) :
    intPart (i ++ s) = .ok (i, s) := by
  rcases h with rfl | ⟨d, ds, rfl, hd, h0, hds⟩
  · rfl
  · simp [intPart, h0, hd, digits_append hds hs]

theorem intPart_ok {s i r : Str} (h : intPart s = .ok (i, r)) : s = i ++ r ∧ IntText i := by
  cases s with
  | nil => cases h
  | cons c s =>
    simp only [intPart] at h
    split at h
    · next h0 => cases h; subst h0; exact ⟨rfl, .inl rfl⟩
    · next h0 =>
      split at h
      · next hd =>
        cases h
        obtain ⟨h1, h2, _⟩ := digits_split s
        exact ⟨by rw [List.cons_append, ← h1], .inr ⟨c, _, rfl, hd, h0, h2⟩⟩
      · cases h

theorem fracPart_append {n : Nat → Prop} {f s : Str} (h : FracText n f)
    (hs : NotStart (fun c => isDigit c = true ∨ c = '.') s) : fracPart (f ++ s) = (f, s) := by
  rcases h with rfl | ⟨ds, rfl, _, hds⟩
  · cases s with
    | nil => rfl
    | cons c s =>
      have : c ≠ '.' := fun h => hs c rfl (.inr h)
      simp [fracPart, this]
  · simp [fracPart, digits_append hds (hs.mono fun c h => .inl h)]

theorem fracPart_split (s : Str) : s = (fracPart s).1 ++ (fracPart s).2 ∧
    FracText (fun _ => True) (fracPart s).1 := by
  cases s with
  | nil => exact ⟨rfl, .inl rfl⟩
  | cons c s =>
    simp only [fracPart]
    split
    · next h =>
      subst h
      obtain ⟨h1, h2, _⟩ := digits_split s
      exact ⟨by rw [List.cons_append, ← h1], .inr ⟨_, rfl, trivial, h2⟩⟩
    · exact ⟨rfl, .inl rfl⟩

theorem expSign_append {sg s : Str} (h : sg = [] ∨ sg = ['+'] ∨ sg = ['-'])
    (hs : NotStart (fun c => c = '+' ∨ c = '-') s) : expSign (sg ++ s) = (sg, s) := by
  rcases h with rfl | rfl | rfl
  · cases s with
    | nil => rfl
    | cons c s =>
      have : ¬ (c = '+' ∨ c = '-') := hs c rfl
      simp [expSign, this]
  · simp [expSign]
  · simp [expSign]

theorem expSign_split (s : Str) : s = (expSign s).1 ++ (expSign s).2 ∧
    ((expSign s).1 = [] ∨ (expSign s).1 = ['+'] ∨ (expSign s).1 = ['-']) := by
  cases s with
  | nil => exact ⟨rfl, .inl rfl⟩
  | cons c s =>
    simp only [expSign]
    split
    · next h =>
      rcases h with rfl | rfl
      · exact ⟨rfl, .inr (.inl rfl)⟩
      · exact ⟨rfl, .inr (.inr rfl)⟩
    · exact ⟨rfl, .inl rfl⟩

theorem expPart_append {e s : Str} (h : ExpText e)
    (hs : NotStart (fun c => isDigit c = true ∨ c = 'e' ∨ c = 'E') s) : expPart (e ++ s) = .ok (e, s) := by
  rcases h with rfl | ⟨c, sg, ds, rfl, hc, hsg, hne, hds⟩
  · cases s with
    | nil => rfl
    | cons c s =>
      have : ¬ (c = 'e' ∨ c = 'E') := fun h => hs c rfl (.inr h)
      simp [expPart, this]
  · cases ds with
    | nil => exact absurd rfl hne
    | cons d ds =>
      have hd : isDigit d = true := hds d (.head _)
      have hsign : expSign (sg ++ (d :: ds ++ s)) = (sg, d :: ds ++ s) := by
        refine expSign_append hsg (.cons ?_)
        rintro (rfl | rfl) <;> revert hd <;> decide
      have hdig : digits (d :: ds ++ s) = (d :: ds, s) := digits_append hds (hs.mono fun c h => .inl h)
      rw [List.append_assoc, List.cons_append]
      simp only [expPart]
      rw [if_pos hc]
      rw [hsign]
      rw [List.cons_append] at hdig
      simp only [List.cons_append, hd, if_true, hdig]

theorem expPart_ok {s e r : Str} (h : expPart s = .ok (e, r)) : s = e ++ r ∧ ExpText e := by
  cases s with
  | nil => cases h; exact ⟨rfl, .inl rfl⟩
  | cons c s =>
    simp only [expPart] at h
    split at h
    · next hc =>
      obtain ⟨h1, h2⟩ := expSign_split s
      split at h
      · next d t ht =>
        split at h
        · next hd =>
          cases h
          obtain ⟨h3, h4, _⟩ := digits_split (d :: t)
          refine ⟨?_, .inr ⟨c, _, _, rfl, hc, h2, ?_, h4⟩⟩
          · rw [List.append_assoc, ← h3, ← ht, List.cons_append, ← h1]
          · unfold digits; simp [hd]
        · cases h
      · cases h
    · cases h; exact ⟨rfl, .inl rfl⟩

theorem isDigit_ne {c d : Char} (h : isDigit c = true) (hd : isDigit d = false) : c ≠ d := by
  rintro rfl; rw [h] at hd; cases hd

theorem exp_notStart {e : Str} (h : ExpText e) : NotStart (fun c => isDigit c = true ∨ c = '.') e := by
  rcases h with rfl | ⟨c, sg, ds, rfl, hc, _⟩
  · exact .nil
  · rw [List.cons_append]
    refine .cons ?_
    rcases hc with rfl | rfl <;> decide

theorem frac_notStart {n : Nat → Prop} {f : Str} (h : FracText n f) :
    NotStart (fun c => isDigit c = true) f := by
  rcases h with rfl | ⟨ds, rfl, _⟩
  · exact .nil
  · exact .cons (by decide)

theorem int_notStart {i s : Str} (h : IntText i) : NotStart (fun c => c = '-') (i ++ s) := by
  rcases h with rfl | ⟨d, ds, rfl, hd, _⟩
  · exact .cons (by decide)
  · exact .cons (isDigit_ne hd (by decide))

theorem matchNumber_append {n : Nat → Prop} {p r : Str} (h : NumberWith n p)
    (hr : NotStart (fun c => isDigit c = true ∨ c = '.' ∨ c = 'e' ∨ c = 'E') r) :
    matchNumber (p ++ r) = .ok (.number p, r) := by
  obtain ⟨sg, i, f, e, rfl, hsg, hi, hf, he⟩ := h
  have e1 : sg ++ i ++ f ++ e ++ r = sg ++ (i ++ (f ++ (e ++ r))) := by simp
  have h1 := signPart_append hsg (int_notStart (s := f ++ (e ++ r)) hi)
  have hd : NotStart (fun c => isDigit c = true ∨ c = '.') (e ++ r) :=
    (exp_notStart he).append (hr.mono fun c h => h.elim .inl (fun h => .inr (.inl h)))
  have h2 := intPart_append (s := f ++ (e ++ r)) hi ((frac_notStart hf).append (hd.mono fun c h => .inl h))
  have h3 := fracPart_append hf hd
  have h4 := expPart_append he (hr.mono fun c h => h.elim .inl (fun h => .inr (.inr h)))
  rw [e1]
  unfold matchNumber
  rw [h1]
  simp only [h2, Parse.bind_ok, h3, h4]

theorem matchNumber_ok {s r : Str} {k : Json.Tok} (h : matchNumber s = .ok (k, r)) :
    ∃ p, k = .number p ∧ s = p ++ r ∧ NumberWith (fun _ => True) p := by
  unfold matchNumber at h
  obtain ⟨h1, h2⟩ := signPart_split s
  cases hs : signPart s with
  | mk sg s1 =>
    rw [hs] at h1 h2
    rw [hs] at h
    simp only [Parse.bind_eq_ok] at h
    obtain ⟨⟨i, s2⟩, h3, ⟨e, s4⟩, h5, h6⟩ := h
    simp only at h5 h6
    obtain ⟨h3a, h3b⟩ := intPart_ok h3
    obtain ⟨h4a, h4b⟩ := fracPart_split s2
    obtain ⟨h5a, h5b⟩ := expPart_ok h5
    cases h6
    refine ⟨_, rfl, ?_, sg, i, (fracPart s2).1, e, rfl, h2, h3b, h4b, h5b⟩
    rw [h1, h3a]
    simp only [List.append_assoc]
    rw [← h5a, ← h4a]

/-! ## Strings -/

theorem Spec.HexDigit.lt {c : Char} {d : Nat} (h : HexDigit c d) : d < 16 := by
  rcases h with ⟨h, _⟩ | ⟨_, h, _⟩ <;> omega

theorem ofNat_toNat' {n : Nat} (h : n < 0xd800) : (Char.ofNat n).toNat = n := by
  have : n.isValidChar := .inl h
  unfold Char.ofNat
  rw [dif_pos this]
  rfl

theorem hexDigit_iff {c : Char} {d : Nat} : hexDigit c = some d ↔ HexDigit c d := by
  have hc : Char.ofNat c.toNat = c := Char.ofNat_toNat c
  unfold hexDigit HexDigit
  constructor
  · intro h
    split at h
    · cases h
      left
      refine ⟨by omega, ?_⟩
      rw [show 48 + (c.toNat - 48) = c.toNat by omega, hc]
    · split at h
      · cases h
        right
        refine ⟨by omega, by omega, .inl ?_⟩
        rw [show 87 + (c.toNat - 87) = c.toNat by omega, hc]
      · split at h
        · cases h
          right
          refine ⟨by omega, by omega, .inr ?_⟩
          rw [show 55 + (c.toNat - 55) = c.toNat by omega, hc]
        · cases h
  · rintro (⟨h, rfl⟩ | ⟨h1, h2, rfl | rfl⟩)
    · have := ofNat_toNat' (n := 48 + d) (by omega)
      rw [this, if_pos (by omega)]; congr 1; omega
    · have := ofNat_toNat' (n := 87 + d) (by omega)
      rw [this, if_neg (by omega), if_pos (by omega)]; congr 1; omega
    · have := ofNat_toNat' (n := 55 + d) (by omega)
      rw [this, if_neg (by omega), if_neg (by omega), if_pos (by omega)]; congr 1; omega

theorem hexDigit_none {c : Char} : hexDigit c = none ↔ ¬ ∃ d, HexDigit c d := by
  constructor
  · rintro h ⟨d, hd⟩; rw [hexDigit_iff.2 hd] at h; cases h
  · intro h
    cases hd : hexDigit c with
    | none => rfl
    | some d => exact absurd ⟨d, hexDigit_iff.1 hd⟩ h

theorem hexLoop_stuck {c : Char} (h : hexDigit c = none) (code : Nat) (s : Str) :
    ∀ n, hexLoop n code (c :: s) = .ok (code, c :: s)
  | 0 => rfl
  | n + 1 => by rw [hexLoop, h]; exact hexLoop_stuck h code s n

theorem hexLoop_ok : ∀ (n code : Nat) (s : Str) (code' : Nat) (r : Str), hexLoop n code s = .ok (code', r) →
    ∃ hs, s = hs ++ r ∧ hs.length ≤ n ∧ HexText hs code code' ∧
      (hs.length < n → r ≠ [] ∧ NotStart (fun c => ∃ d, HexDigit c d) r)
  | 0, code, s, code', r, h => by
    cases h; exact ⟨[], rfl, Nat.le_refl _, .nil, fun h => absurd h (by simp)⟩
  | n + 1, code, [], code', r, h => by cases h
  | n + 1, code, c :: s, code', r, h => by
    cases hc : hexDigit c with
    | none =>
      rw [hexLoop_stuck hc] at h
      cases h
      exact ⟨[], rfl, by simp, .nil, fun _ => ⟨by simp, .cons (hexDigit_none.1 hc)⟩⟩
    | some d =>
      rw [hexLoop, hc] at h
      obtain ⟨hs, h1, h2, h3, h4⟩ := hexLoop_ok n _ _ _ _ h
      exact ⟨c :: hs, by rw [h1]; rfl, by simp; exact h2, .cons (hexDigit_iff.1 hc) h3,
        fun h => h4 (by simpa using h)⟩

theorem hexLoop_append : ∀ (n : Nat) {code code' : Nat} {hs r : Str}, HexText hs code code' → hs.length ≤ n →
    (hs.length < n → r ≠ [] ∧ NotStart (fun c => ∃ d, HexDigit c d) r) →
    hexLoop n code (hs ++ r) = .ok (code', r)
  | 0, code, code', hs, r, h, hl, _ => by
    cases h with
    | nil => rfl
    | cons _ _ => simp at hl
  | n + 1, code, code', hs, r, h, hl, hr => by
    cases h with
    | nil =>
      obtain ⟨h1, h2⟩ := hr (by simp)
      cases r with
      | nil => exact absurd rfl h1
      | cons c r => exact hexLoop_stuck (hexDigit_none.2 (h2 c rfl)) _ _ _
    | cons hd h =>
      rw [List.cons_append, hexLoop, hexDigit_iff.2 hd]
      exact hexLoop_append n h (by simpa using hl) (fun h' => hr (by simpa using h'))

theorem fromU32_ok {code : Nat} {c : Char} : fromU32 code = .ok c ↔ c.toNat = code := by
  unfold fromU32
  split
  · next h =>
    constructor
    · intro h'; cases h'; rfl
    · rintro rfl
      congr 1
  · next h =>
    constructor
    · intro h'; cases h'
    · rintro rfl; exact absurd c.valid h

theorem escape_ok {e c : Char} (h : Escape e c) (s : Str) : stringControlChar (e :: s) = .ok (c, s) := by
  cases h <;> simp [stringControlChar] <;> rfl

theorem stringControlChar_ok {s r : Str} {c : Char} (h : stringControlChar s = .ok (c, r)) :
    (∃ e, s = e :: r ∧ Escape e c) ∨
    (∃ hs, s = 'u' :: (hs ++ r) ∧ hs.length ≤ 4 ∧ HexText hs 0 c.toNat ∧
      (hs.length < 4 → r ≠ [] ∧ NotStart (fun c => ∃ d, HexDigit c d) r)) := by
  cases s with
  | nil => cases h
  | cons e s =>
    simp only [stringControlChar] at h
    by_cases h1 : e = '/'
    · subst h1; cases h; exact .inl ⟨_, rfl, .slash⟩
    by_cases h2 : e = '\\'
    · subst h2; cases h; exact .inl ⟨_, rfl, .backslash⟩
    by_cases h3 : e = '"'
    · subst h3; cases h; exact .inl ⟨_, rfl, .quote⟩
    by_cases h4 : e = 'b'
    · subst h4; cases h; exact .inl ⟨_, rfl, .b⟩
    by_cases h5 : e = 'f'
    · subst h5; cases h; exact .inl ⟨_, rfl, .f⟩
    by_cases h6 : e = 'n'
    · subst h6; cases h; exact .inl ⟨_, rfl, .n⟩
    by_cases h7 : e = 'r'
    · subst h7; cases h; exact .inl ⟨_, rfl, .r⟩
    by_cases h8 : e = 't'
    · subst h8; cases h; exact .inl ⟨_, rfl, .t⟩
    rw [if_neg h1, if_neg h2, if_neg h3, if_neg h4, if_neg h5, if_neg h6, if_neg h7, if_neg h8] at h
    split at h
    · next h9 =>
      subst h9
      rw [Parse.bind_eq_ok] at h
      obtain ⟨⟨code, s'⟩, h10, h⟩ := h
      simp only at h
      rw [Parse.bind_eq_ok] at h
      obtain ⟨ch, h11, h⟩ := h
      cases h
      obtain ⟨hs, a1, a2, a3, a4⟩ := hexLoop_ok _ _ _ _ _ h10
      rw [← fromU32_ok.1 h11] at a3
      exact .inr ⟨hs, by rw [a1], a2, a3, a4⟩
    · cases h

theorem stringLoop_ok : ∀ (n : Nat) (buf s b r : Str), stringLoop n buf s = .ok (b, r) →
    ∃ raw t, s = raw ++ '"' :: r ∧ b = buf ++ t ∧ Body (fun n => n ≤ 4) raw t
  | 0, buf, s, b, r, h => by cases s <;> cases h
  | n + 1, buf, [], b, r, h => by cases h
  | n + 1, buf, c :: s, b, r, h => by
    rw [stringLoop] at h
    split at h
    · next hc => subst hc; cases h; exact ⟨[], [], rfl, by simp, .nil⟩
    · next hq =>
      split at h
      · next hc =>
        subst hc
        rw [Parse.bind_eq_ok] at h
        obtain ⟨⟨ch, s'⟩, h1, h2⟩ := h
        obtain ⟨raw, t, e1, e2, e3⟩ := stringLoop_ok n _ _ _ _ h2
        rcases stringControlChar_ok h1 with ⟨e, h3, h4⟩ | ⟨hs, h3, h4, h5, h6⟩
        · refine ⟨'\\' :: e :: raw, ch :: t, by rw [h3, e1]; rfl, by rw [e2]; simp, .escape h4 e3⟩
        · refine ⟨'\\' :: 'u' :: (hs ++ raw), ch :: t, by rw [h3, e1]; simp, by rw [e2]; simp,
            .code h4 h5 ?_ e3⟩
          intro hl
          obtain ⟨_, h7⟩ := h6 hl
          rw [e1] at h7
          cases raw with
          | nil => exact .nil
          | cons x raw => exact h7
      · next hb =>
        split at h
        · cases h
        · next hctl =>
          obtain ⟨raw, t, e1, e2, e3⟩ := stringLoop_ok n _ _ _ _ h
          exact ⟨c :: raw, c :: t, by rw [e1]; rfl, by rw [e2]; simp, .plain hq hb (by omega) e3⟩

theorem hex_quote : ¬ ∃ d, HexDigit '"' d := hexDigit_none.1 (by decide)

theorem stringLoop_append {m : Nat → Prop} (hm : ∀ n, m n → n ≤ 4) {raw t : Str} (h : Body m raw t) :
    ∀ (n : Nat) (buf r : Str), raw.length < n →
      stringLoop n buf (raw ++ '"' :: r) = .ok (buf ++ t, r) := by
  induction h with
  | nil =>
    intro n buf r hn
    cases n with
    | zero => simp at hn
    | succ n => simp [stringLoop]
  | @plain c raw s h1 h2 h3 _ ih =>
    intro n buf r hn
    cases n with
    | zero => simp at hn
    | succ n =>
      rw [List.cons_append, stringLoop, if_neg h1, if_neg h2, if_neg (by omega),
        ih n _ r (by simpa using hn)]
      simp
  | @escape e c raw s h1 _ ih =>
    intro n buf r hn
    cases n with
    | zero => simp at hn
    | succ n =>
      rw [List.cons_append, List.cons_append, stringLoop, if_neg (by decide), if_pos rfl, escape_ok h1]
      rw [Parse.bind_ok]
      simp only
      rw [ih n _ r (by simp at hn; omega)]
      simp
  | @code hs raw s c h1 h2 h3 _ ih =>
    intro n buf r hn
    cases n with
    | zero => simp at hn
    | succ n =>
      have hctl : stringControlChar ('u' :: (hs ++ (raw ++ '"' :: r))) = .ok (c, raw ++ '"' :: r) := by
        have hl := hexLoop_append 4 (r := raw ++ '"' :: r) h2 (hm _ h1) (fun hl =>
          ⟨by simp, (h3 hl).append (.cons hex_quote)⟩)
        simp only [stringControlChar]
        simp only [Char.reduceEq, if_false, if_true, hl, Parse.bind_ok, fromU32_ok.2 rfl]
      have e : '\\' :: 'u' :: (hs ++ raw) ++ '"' :: r = '\\' :: ('u' :: (hs ++ (raw ++ '"' :: r))) := by simp
      rw [e, stringLoop, if_neg (by decide), if_pos rfl, hctl, Parse.bind_ok]
      simp only
      rw [ih n _ r (by simp at hn; omega)]
      simp

theorem matchString_append {m : Nat → Prop} (hm : ∀ n, m n → n ≤ 4) {raw t : Str} (h : Body m raw t)
    (r : Str) : matchString (raw ++ '"' :: r) = .ok (.string t, r) := by
  unfold matchString
  rw [stringLoop_append hm h _ _ _ (by simp; omega)]
  rfl

theorem matchString_ok {s r : Str} {k : Json.Tok} (h : matchString s = .ok (k, r)) :
    ∃ raw t, k = .string t ∧ s = raw ++ '"' :: r ∧ Body (fun n => n ≤ 4) raw t := by
  unfold matchString at h
  rw [Parse.bind_eq_ok] at h
  obtain ⟨⟨b, r'⟩, h1, h2⟩ := h
  cases h2
  obtain ⟨raw, t, e1, e2, e3⟩ := stringLoop_ok _ _ _ _ _ h1
  exact ⟨raw, t, by rw [e2]; rfl, e1, e3⟩

/-! ## Tokens -/

theorem matchChars_ok : ∀ {w s r : Str}, matchChars w s = .ok r ↔ s = w ++ r
  | [], s, r => by
    rw [matchChars]
    constructor
    · intro h; cases h; rfl
    · rintro rfl; rfl
  | c :: w, [], r => by
    rw [matchChars]
    constructor
    · intro h; cases h
    · intro h; cases h
  | c :: w, d :: s, r => by
    rw [matchChars]
    split
    · next h => subst h; rw [matchChars_ok]; simp
    · next h =>
      constructor
      · intro h'; cases h'
      · intro h'; cases h'; exact absurd rfl h

theorem matchKeyword_ok {u : Char → Bool} {w : Str} {k k' : Json.Tok} {s r : Str} :
    matchKeyword u w k s = .ok (k', r) ↔ k' = k ∧ s = w ++ r ∧ NotStart (fun c => isAlnum u c = true) r := by
  unfold matchKeyword
  rw [Parse.bind_eq_ok]
  constructor
  · rintro ⟨s', h1, h2⟩
    have h1 := matchChars_ok.1 h1
    split at h2
    · next c t =>
      split at h2
      · cases h2
      · next hc => cases h2; exact ⟨rfl, h1, .cons hc⟩
    · cases h2; exact ⟨rfl, h1, .nil⟩
  · rintro ⟨rfl, rfl, h⟩
    refine ⟨r, matchChars_ok.2 rfl, ?_⟩
    split
    · next c t => rw [if_neg (h c rfl)]
    · rfl

/-- What may not follow the token for the tokenizer to stop there. -/
def Stops (u : Char → Bool) (k : Json.Tok) (s : Str) : Prop :=
  match k with
  | .null | .true | .false => NotStart (fun c => isAlnum u c = true) s
  | .number _ => NotStart (fun c => isDigit c = true ∨ c = '.' ∨ c = 'e' ∨ c = 'E') s
  | _ => True

theorem number_start {n : Nat → Prop} {p : Str} (h : NumberWith n p) :
    ∃ c q, p = c :: q ∧ (c = '-' ∨ isDigit c = true) := by
  obtain ⟨sg, i, f, e, rfl, hsg, hi, _, _⟩ := h
  rcases hsg with rfl | rfl
  · rcases hi with rfl | ⟨d, ds, rfl, hd, _⟩
    · exact ⟨'0', _, rfl, .inr (by decide)⟩
    · exact ⟨d, ds ++ (f ++ e), by simp, .inr hd⟩
  · exact ⟨'-', i ++ f ++ e, by simp, .inl rfl⟩

theorem nextToken_number {u : Char → Bool} {c : Char} {s : Str} (h : c = '-' ∨ isDigit c = true) :
    nextToken u (c :: s) = matchNumber (c :: s) := by
  have hne : ∀ d, d ≠ '-' → isDigit d = false → c ≠ d := by
    rintro d h1 h2 rfl
    rcases h with h | h
    · exact h1 h
    · rw [h] at h2; cases h2
  simp only [nextToken]
  rw [if_neg (hne '[' (by decide) (by decide)), if_neg (hne ']' (by decide) (by decide)),
    if_neg (hne '{' (by decide) (by decide)), if_neg (hne '}' (by decide) (by decide)),
    if_neg (hne ',' (by decide) (by decide)), if_neg (hne ':' (by decide) (by decide)),
    if_neg (hne 'n' (by decide) (by decide)), if_neg (hne 't' (by decide) (by decide)),
    if_neg (hne 'f' (by decide) (by decide)), if_neg (hne '"' (by decide) (by decide))]
  rcases h with h | h
  · rw [if_pos h]
  · simp only [h, if_true, ite_self]

theorem nextToken_append {u : Char → Bool} {n m : Nat → Prop} (hm : ∀ n, m n → n ≤ 4) {k : Json.Tok}
    {p r : Str} (h : SpellingWith n m k p) (hr : Stops u k r) : nextToken u (p ++ r) = .ok (k, r) := by
  cases h with
  | null => exact matchKeyword_ok.2 ⟨rfl, rfl, hr⟩
  | true => exact matchKeyword_ok.2 ⟨rfl, rfl, hr⟩
  | false => exact matchKeyword_ok.2 ⟨rfl, rfl, hr⟩
  | @string raw s h =>
    have : nextToken u ('"' :: raw ++ ['"'] ++ r) = matchString (raw ++ '"' :: r) := by
      rw [List.append_assoc]; rfl
    rw [this]
    exact matchString_append hm h r
  | number h =>
    obtain ⟨c, q, e, hc⟩ := number_start h
    have h1 := matchNumber_append h hr
    rw [e] at h1 ⊢
    rw [List.cons_append, nextToken_number hc]
    exact h1
  | beginObject => rfl
  | endObject => rfl
  | beginArray => rfl
  | endArray => rfl
  | comma => rfl
  | colon => rfl

theorem nextToken_ok {u : Char → Bool} {s r : Str} {k : Json.Tok} (h : nextToken u s = .ok (k, r)) :
    (s = [] ∧ r = [] ∧ k = .eof) ∨
      ∃ p, s = p ++ r ∧ p ≠ [] ∧ SpellingWith (fun _ => True) (fun n => n ≤ 4) k p := by
  cases s with
  | nil => cases h; exact .inl ⟨rfl, rfl, rfl⟩
  | cons c s =>
    right
    have num : matchNumber (c :: s) = .ok (k, r) →
        ∃ p, c :: s = p ++ r ∧ p ≠ [] ∧ SpellingWith (fun _ => True) (fun n => n ≤ 4) k p := by
      intro h
      obtain ⟨p, rfl, e, hp⟩ := matchNumber_ok h
      obtain ⟨d, q, rfl, _⟩ := number_start hp
      exact ⟨_, e, by simp, .number hp⟩
    rw [nextToken] at h
    rcases ite_eq_cases h with ⟨hc, h⟩ | h
    · subst hc; cases h; exact ⟨['['], rfl, by simp, .beginArray⟩
    rcases ite_eq_cases h with ⟨hc, h⟩ | h
    · subst hc; cases h; exact ⟨[']'], rfl, by simp, .endArray⟩
    rcases ite_eq_cases h with ⟨hc, h⟩ | h
    · subst hc; cases h; exact ⟨['{'], rfl, by simp, .beginObject⟩
    rcases ite_eq_cases h with ⟨hc, h⟩ | h
    · subst hc; cases h; exact ⟨['}'], rfl, by simp, .endObject⟩
    rcases ite_eq_cases h with ⟨hc, h⟩ | h
    · subst hc; cases h; exact ⟨[','], rfl, by simp, .comma⟩
    rcases ite_eq_cases h with ⟨hc, h⟩ | h
    · subst hc; cases h; exact ⟨[':'], rfl, by simp, .colon⟩
    rcases ite_eq_cases h with ⟨hc, h⟩ | h
    · obtain ⟨rfl, h2, _⟩ := matchKeyword_ok.1 h; exact ⟨_, h2, by simp, .null⟩
    rcases ite_eq_cases h with ⟨hc, h⟩ | h
    · obtain ⟨rfl, h2, _⟩ := matchKeyword_ok.1 h; exact ⟨_, h2, by simp, .true⟩
    rcases ite_eq_cases h with ⟨hc, h⟩ | h
    · obtain ⟨rfl, h2, _⟩ := matchKeyword_ok.1 h; exact ⟨_, h2, by simp, .false⟩
    rcases ite_eq_cases h with ⟨hc, h⟩ | h
    · subst hc
      obtain ⟨raw, t, rfl, e, hb⟩ := matchString_ok h
      exact ⟨'"' :: raw ++ ['"'], by rw [e]; simp, by simp, .string hb⟩
    rcases ite_eq_cases h with ⟨hc, h⟩ | h
    · exact num h
    rcases ite_eq_cases h with ⟨hc, h⟩ | h
    · exact num h
    · cases h

theorem isSpace_blank {s : Str} (h : Blank s) : ∀ c ∈ s, isSpace c = true := by
  intro c hc
  rcases h c hc with rfl | rfl | rfl | rfl <;> decide

theorem skip_append {ws s : Str} (h : ∀ c ∈ ws, isSpace c = true) (hs : NotStart (fun c => isSpace c = true) s) :
    skipWhitespace (ws ++ s) = s := (takeWhile_append_stop h hs).2

theorem skip_split (s : Str) : ∃ ws, s = ws ++ skipWhitespace s ∧ ∀ c ∈ ws, isSpace c = true :=
  ⟨s.takeWhile isSpace, List.takeWhile_append_dropWhile.symm,
    fun c hc => List.all_eq_true.1 (List.all_takeWhile (l := s) (p := isSpace)) c hc⟩

theorem isSpace_digit {c : Char} (h : isDigit c = true) : isSpace c = false := by
  unfold isDigit at h
  simp only [Bool.and_eq_true, decide_eq_true_eq] at h
  have h1 : c.toNat = 48 + (c.toNat - 48) := by omega
  have h2 := digitChar_of_isDigit (c := c) (by simpa [isDigit] using h)
  have : c.toNat - 48 < 10 := by omega
  rw [h2.1]
  generalize c.toNat - 48 = d at this
  match d, this with
  | 0, _ | 1, _ | 2, _ | 3, _ | 4, _ | 5, _ | 6, _ | 7, _ | 8, _ | 9, _ => decide
  | d + 10, h => omega

theorem spelling_start {n m : Nat → Prop} {k : Json.Tok} {p : Str} (h : SpellingWith n m k p) (r : Str) :
    NotStart (fun c => isSpace c = true) (p ++ r) := by
  cases h with
  | number h =>
    obtain ⟨c, q, rfl, hc⟩ := number_start h
    refine .cons ?_
    rcases hc with rfl | hc
    · decide
    · rw [isSpace_digit hc]; decide
  | string h => exact .cons (by decide)
  | _ => exact .cons (by decide)

theorem next_append {u : Char → Bool} {n m : Nat → Prop} (hm : ∀ n, m n → n ≤ 4) {k : Json.Tok}
    {ws p r : Str} (hw : ∀ c ∈ ws, isSpace c = true) (h : SpellingWith n m k p) (hr : Stops u k r) :
    next u (ws ++ p ++ r) = .ok (k, r) := by
  unfold next
  rw [List.append_assoc, skip_append hw (spelling_start h r)]
  exact nextToken_append hm h hr

/-- What `next` returns. -/
theorem next_ok {u : Char → Bool} {s r : Str} {k : Json.Tok} (h : next u s = .ok (k, r)) :
    ∃ ws, (∀ c ∈ ws, isSpace c = true) ∧ ((s = ws ∧ r = [] ∧ k = .eof) ∨
      ∃ p, s = ws ++ p ++ r ∧ p ≠ [] ∧ SpellingWith (fun _ => True) (fun n => n ≤ 4) k p) := by
  obtain ⟨ws, h1, h2⟩ := skip_split s
  refine ⟨ws, h2, ?_⟩
  rcases nextToken_ok h with ⟨h3, h4, h5⟩ | ⟨p, h3, h4, h5⟩
  · left
    rw [h3, List.append_nil] at h1
    exact ⟨h1, h4, h5⟩
  · right
    exact ⟨p, by rw [List.append_assoc, ← h3]; exact h1, h4, h5⟩

theorem next_blank {u : Char → Bool} {s : Str} (h : Blank s) : next u s = .ok (.eof, []) := by
  have : skipWhitespace s = [] := by
    have := skip_append (s := []) (isSpace_blank h) .nil
    rwa [List.append_nil] at this
  unfold next
  rw [this]
  rfl

/-! ## Texts -/

theorem Spec.Toks.startsWith {u : Char → Bool} {s r s' : Str} {ks : List Json.Tok} {k : Json.Tok}
    (h : Toks u s ks r) (hn : next u r = .ok (k, s')) : StartsWith u s ks k s' := by
  induction h with
  | nil => exact ⟨k, s', hn, .nil⟩
  | cons h1 _ ih =>
    obtain ⟨k0, s0, h3, h4⟩ := ih hn
    exact ⟨_, _, h1, .cons h3 h4⟩

theorem startsWith_iff {u : Char → Bool} {s s' : Str} {ks : List Json.Tok} {k : Json.Tok} :
    StartsWith u s ks k s' ↔ ∃ r, Toks u s ks r ∧ next u r = .ok (k, s') := by
  constructor
  · rintro ⟨k0, s0, h, h'⟩
    induction h' generalizing s with
    | nil => exact ⟨s, .nil, h⟩
    | cons h1 _ ih =>
      obtain ⟨r, h2, h3⟩ := ih h1
      exact ⟨r, .cons h h2, h3⟩
  · rintro ⟨r, h1, h2⟩
    exact h1.startsWith h2

theorem ends_stops {u : Char → Bool} {k : Json.Tok} {s : Str} (h : Ends k s) : Stops u k s := by
  have key : ∀ c : Char, (c = ' ' ∨ c = '\t' ∨ c = '\n' ∨ c = '\r' ∨ c = ',' ∨ c = ']' ∨ c = '}') →
      isAlnum u c = false ∧ ¬ (isDigit c = true ∨ c = '.' ∨ c = 'e' ∨ c = 'E') := by
    rintro c (rfl | rfl | rfl | rfl | rfl | rfl | rfl) <;> exact ⟨rfl, by decide⟩
  have h1 : NotStart (fun c => ¬ (c = ' ' ∨ c = '\t' ∨ c = '\n' ∨ c = '\r' ∨ c = ',' ∨ c = ']' ∨ c = '}')) s →
      NotStart (fun c => isAlnum u c = true) s := fun h c hc ha => by
    have := (key c (Classical.not_not.1 (h c hc))).1
    exact absurd (this.symm.trans ha) (by decide)
  have h2 : NotStart (fun c => ¬ (c = ' ' ∨ c = '\t' ∨ c = '\n' ∨ c = '\r' ∨ c = ',' ∨ c = ']' ∨ c = '}')) s →
      NotStart (fun c => isDigit c = true ∨ c = '.' ∨ c = 'e' ∨ c = 'E') s := fun h c hc ha =>
    (key c (Classical.not_not.1 (h c hc))).2 ha
  cases k <;> first | exact trivial | exact h1 h | exact h2 h

theorem laid_reads {u : Char → Bool} {ks : List Json.Tok} {s : Str} (h : Laid ks s) :
    StartsWith u s ks .eof [] := by
  have : ∃ r, Toks u s ks r ∧ Blank r := by
    induction h with
    | nil h => exact ⟨_, .nil, h⟩
    | cons h1 h2 h3 _ ih =>
      obtain ⟨r, h4, h5⟩ := ih
      exact ⟨r, .cons (next_append (fun n h => Nat.le_of_eq h) (isSpace_blank h1) h2 (ends_stops h3)) h4, h5⟩
  obtain ⟨r, h1, h2⟩ := this
  exact h1.startsWith (next_blank h2)

end Verif
