import Verif.Proof.JsonTokenizer
import Verif.Proof.JsonDecoder

/-! # The text written by the encoder -/

namespace Verif

open Spec Json

/-! ## Characters -/

theorem byte_and_or {a b m k : Nat} (hb : b = 2 ^ m - 1) (hm : m ≤ 8) (hk : k % 2 ^ m = 0) (hk' : k < 256) :
    (asU8 a &&& UInt8.ofNat b ||| UInt8.ofNat k) = UInt8.ofNat (a % 2 ^ m + k) := by
  have h2 : 2 ^ m ≤ 256 := by
    have := Nat.pow_le_pow_right (n := 2) (by omega) hm
    simpa using this
  have hp : 0 < 2 ^ m := Nat.two_pow_pos m
  apply UInt8.toNat_inj.1
  rw [UInt8.toNat_or, UInt8.toNat_and]
  unfold asU8
  simp only [UInt8.toNat_ofNat', Nat.reducePow]
  rw [hb, Nat.mod_eq_of_lt (by omega : 2 ^ m - 1 < 256), Nat.and_two_pow_sub_one_eq_mod,
    Nat.mod_eq_of_lt hk']
  have h3 : a % 256 % 2 ^ m = a % 2 ^ m := by
    have : (256 : Nat) = 2 ^ m * 2 ^ (8 - m) := by
      rw [← Nat.pow_add, show m + (8 - m) = 8 by omega]
    rw [this, Nat.mod_mul_right_mod]
  rw [h3]
  have h4 : k = 2 ^ m * (k / 2 ^ m) := by
    have := Nat.div_add_mod k (2 ^ m); omega
  have h5 : a % 2 ^ m < 2 ^ m := Nat.mod_lt _ hp
  have h6 : k / 2 ^ m < 2 ^ (8 - m) := by
    rw [Nat.div_lt_iff_lt_mul hp, ← Nat.pow_add, show 8 - m + m = 8 by omega]; exact hk'
  have h7 : 2 ^ m * (k / 2 ^ m + 1) ≤ 2 ^ m * 2 ^ (8 - m) := Nat.mul_le_mul_left _ h6
  rw [← Nat.pow_add, show m + (8 - m) = 8 by omega, Nat.mul_add, ← h4] at h7
  have h8 : a % 2 ^ m ||| k = a % 2 ^ m + k := by
    rw [Nat.or_comm, h4, ← Nat.two_pow_add_eq_or_of_lt h5, Nat.add_comm]
  rw [h8]
  rw [Nat.mul_one] at h7
  exact (Nat.mod_eq_of_lt (Nat.lt_of_lt_of_le (by rw [Nat.add_comm k]; exact Nat.add_lt_add_right h5 k) h7)).symm

theorem byte_three (a : Nat) : (asU8 a &&& 7 ||| 240) = UInt8.ofNat (a % 8 + 240) :=
  byte_and_or (m := 3) (k := 240) rfl (by omega) rfl (by omega)

theorem byte_four (a : Nat) : (asU8 a &&& 15 ||| 224) = UInt8.ofNat (a % 16 + 224) :=
  byte_and_or (m := 4) (k := 224) rfl (by omega) rfl (by omega)

theorem byte_five (a : Nat) : (asU8 a &&& 31 ||| 192) = UInt8.ofNat (a % 32 + 192) :=
  byte_and_or (m := 5) (k := 192) rfl (by omega) rfl (by omega)

theorem byte_six (a : Nat) : (asU8 a &&& 63 ||| 128) = UInt8.ofNat (a % 64 + 128) :=
  byte_and_or (m := 6) (k := 128) rfl (by omega) rfl (by omega)

/-- The text written for a character. -/
def charText (c : Char) : Str :=
  if c.toNat = 0 then ['\\', '0']
  else if c = '\\' then ['\\', '\\']
  else if c = '/' then ['\\', '/']
  else if c = '"' then ['\\', '"']
  else if c.toNat = 8 then ['\\', 'b']
  else if c.toNat = 12 then ['\\', 'f']
  else if c = '\n' then ['\\', 'n']
  else if c = '\r' then ['\\', 'r']
  else if c = '\t' then ['\\', 't']
  else if c.toNat ≤ 0x1f then
    ['\\', 'u', '0', '0', Char.ofNat (48 + c.toNat / 16), Char.ofNat (48 + c.toNat % 16)]
  else [c]

theorem ite_bytes {p : Prop} [Decidable p] {a b : Bytes} {x y : Str} (h1 : p → a = Str.utf8 x)
    (h2 : ¬ p → b = Str.utf8 y) : (if p then a else b) = Str.utf8 (if p then x else y) := by
  by_cases h : p
  · rw [if_pos h, if_pos h]; exact h1 h
  · rw [if_neg h, if_neg h]; exact h2 h

theorem utf8_nil : Str.utf8 [] = [] := rfl

theorem utf8_single (c : Char) : Str.utf8 [c] = String.utf8EncodeChar c := by
  simp [Str.utf8]

theorem control_bytes : ∀ v, v < 32 →
    ((['\\', 'u', '0', '0'].map fun c => asU8 c.toNat) ++
      [(48 : UInt8) + (asU8 v >>> 4), (48 : UInt8) + (asU8 v &&& 0xf)]) =
      Str.utf8 ['\\', 'u', '0', '0', Char.ofNat (48 + v / 16), Char.ofNat (48 + v % 16)] := by
  decide

theorem writeCh_text {c : Char} (h : ¬ (0x8000 ≤ c.toNat ∧ c.toNat ≤ 0xffff)) :
    writeCh c = Str.utf8 (charText c) := by
  unfold writeCh charText
  refine ite_bytes (fun _ => by decide) fun _ => ?_
  refine ite_bytes (fun _ => by decide) fun _ => ?_
  refine ite_bytes (fun _ => by decide) fun _ => ?_
  refine ite_bytes (fun _ => by decide) fun _ => ?_
  refine ite_bytes (fun _ => by decide) fun _ => ?_
  refine ite_bytes (fun _ => by decide) fun _ => ?_
  refine ite_bytes (fun _ => by decide) fun _ => ?_
  refine ite_bytes (fun _ => by decide) fun _ => ?_
  refine ite_bytes (fun _ => by decide) fun _ => ?_
  refine ite_bytes (fun hv => control_bytes _ (by omega)) fun _ => ?_
  rw [utf8_single]
  have hc := char_toNat_lt c
  have e : c.val.toNat = c.toNat := rfl
  unfold String.utf8EncodeChar
  rw [e]
  generalize c.toNat = v at *
  simp only
  split
  · rfl
  · split
    · simp only [byte_five, byte_six, Nat.shiftRight_eq_div_pow, Nat.reducePow]
    · split
      · rw [if_pos (by omega)]
        simp only [byte_four, byte_six, Nat.shiftRight_eq_div_pow, Nat.reducePow]
      · rw [if_neg (by omega)]
        simp only [byte_three, byte_six, Nat.shiftRight_eq_div_pow, Nat.reducePow]

theorem hex_low {d : Nat} (h : d < 10) : HexDigit (Char.ofNat (48 + d)) d := .inl ⟨h, rfl⟩

theorem charText_body {c : Char} (h : Writable c) : StrBody (charText c) [c] := by
  obtain ⟨h0, h1, _⟩ := h
  have hc : Char.ofNat c.toNat = c := Char.ofNat_toNat c
  unfold charText
  rw [if_neg h0]
  by_cases a1 : c = '\\'
  · subst a1; exact .escape .backslash .nil
  by_cases a2 : c = '/'
  · subst a2; exact .escape .slash .nil
  by_cases a3 : c = '"'
  · subst a3; exact .escape .quote .nil
  by_cases a4 : c.toNat = 8
  · rw [if_neg a1, if_neg a2, if_neg a3, if_pos a4, ← hc, a4]; exact .escape .b .nil
  by_cases a5 : c.toNat = 12
  · rw [if_neg a1, if_neg a2, if_neg a3, if_neg a4, if_pos a5, ← hc, a5]; exact .escape .f .nil
  by_cases a6 : c = '\n'
  · subst a6; exact .escape .n .nil
  by_cases a7 : c = '\r'
  · subst a7; exact .escape .r .nil
  by_cases a8 : c = '\t'
  · subst a8; exact .escape .t .nil
  rw [if_neg a1, if_neg a2, if_neg a3, if_neg a4, if_neg a5, if_neg a6, if_neg a7, if_neg a8]
  split
  · next hv =>
    have b1 : c.toNat ≠ 10 := fun e => a6 (by rw [← hc, e])
    have b2 : c.toNat ≠ 13 := fun e => a7 (by rw [← hc, e])
    have b3 : c.toNat % 16 < 10 := by
      simp only [List.mem_cons, not_or, List.not_mem_nil, not_false_eq_true, and_true] at h1
      omega
    refine Body.code (hs := ['0', '0', _, _]) (raw := []) rfl ?_ (by simp) .nil
    have : HexText ['0', '0', Char.ofNat (48 + c.toNat / 16), Char.ofNat (48 + c.toNat % 16)] 0
        ((((0 * 16 + 0) * 16 + 0) * 16 + c.toNat / 16) * 16 + c.toNat % 16) :=
      .cons (hex_low (d := 0) (by omega)) (.cons (hex_low (d := 0) (by omega))
        (.cons (hex_low (by omega)) (.cons (hex_low b3) .nil)))
    rwa [show (((0 * 16 + 0) * 16 + 0) * 16 + c.toNat / 16) * 16 + c.toNat % 16 = c.toNat by omega] at this
  · exact .plain a3 a1 (by omega) .nil

theorem strBody_append {a b s t : Str} (h : StrBody a s) (h' : StrBody b t) : StrBody (a ++ b) (s ++ t) := by
  induction h with
  | nil => exact h'
  | plain h1 h2 h3 _ ih => exact .plain h1 h2 h3 ih
  | escape h1 _ ih => exact .escape h1 ih
  | @code hs raw s c h1 h2 _ _ ih =>
    have : '\\' :: 'u' :: (hs ++ raw) ++ b = '\\' :: 'u' :: (hs ++ (raw ++ b)) := by simp
    rw [this]
    exact .code h1 h2 (fun hl => absurd h1 (by omega)) ih

/-! ## Strings -/

/-- The text written for a string. -/
def strText (s : Str) : Str := '"' :: s.flatMap charText ++ ['"']

theorem utf8_flatMap {f : Char → Bytes} {g : Char → Str} : ∀ {s : Str}, (∀ c ∈ s, f c = (g c).utf8) →
    s.flatMap f = Str.utf8 (s.flatMap g)
  | [], _ => rfl
  | c :: s, h => by
    rw [List.flatMap_cons, List.flatMap_cons, utf8_append, h c (.head _),
      utf8_flatMap (fun d hd => h d (.tail _ hd))]

theorem emitString_text {s : Str} (h : ∀ c ∈ s, Writable c) : emitString s = (strText s).utf8 := by
  unfold emitString strText
  rw [utf8_append, List.append_left_inj]
  show _ = Str.utf8 (['"'] ++ s.flatMap charText)
  rw [utf8_append, utf8_flatMap (fun c hc => writeCh_text (h c hc).2.2)]

theorem strText_body {s : Str} (h : ∀ c ∈ s, Writable c) : StrBody (s.flatMap charText) s := by
  induction s with
  | nil => exact .nil
  | cons c s ih =>
    rw [List.flatMap_cons]
    exact strBody_append (charText_body (h c (.head _))) (ih fun d hd => h d (.tail _ hd))

theorem strText_spelling {s : Str} (h : ∀ c ∈ s, Writable c) : Spelling (.string s) (strText s) :=
  .string (strText_body h)

/-! ## Numbers -/

theorem decDigitsAux_head (fuel n : Nat) (h : n < fuel) :
    ∃ d ds, decDigitsAux fuel n = digitChar d :: ds ∧ d < 10 ∧ (d = 0 → n = 0 ∧ ds = []) ∧
      Digits ds := by
  induction fuel generalizing n with
  | zero => omega
  | succ fuel ih =>
    rw [decDigitsAux]
    split
    · exact ⟨n, [], rfl, by omega, fun h => ⟨h, rfl⟩, by intro c hc; cases hc⟩
    · obtain ⟨d, ds, e, h1, h2, h3⟩ := ih (n / 10) (by omega)
      refine ⟨d, ds ++ [digitChar (n % 10)], by rw [e]; rfl, h1, ?_, ?_⟩
      · intro h; have := h2 h; omega
      · intro c hc
        rcases List.mem_append.1 hc with hc | hc
        · exact h3 c hc
        · rw [List.mem_singleton.1 hc]; exact isDigit_digitChar (by omega)

theorem decDigits_int (n : Nat) : IntText (decDigits n) := by
  obtain ⟨d, ds, e, h1, h2, h3⟩ := decDigitsAux_head (n + 1) n (by omega)
  unfold decDigits
  rw [e]
  by_cases hd : d = 0
  · left; rw [hd, (h2 hd).2]; rfl
  · right
    refine ⟨_, _, rfl, isDigit_digitChar h1, ?_, h3⟩
    intro h
    have := congrArg Char.toNat h
    rw [digitChar_toNat h1] at this
    have e : ('0' : Char).toNat = 48 := rfl
    omega

theorem decDigits_number (n : Nat) : NumberText (decDigits n) :=
  ⟨[], decDigits n, [], [], by simp, .inl rfl, decDigits_int n, .inl rfl, .inl rfl⟩

theorem decInt_number (i : Int) : NumberText (decInt i) := by
  unfold decInt
  split
  · exact ⟨['-'], decDigits i.natAbs, [], [], by simp, .inr rfl, decDigits_int _, .inl rfl, .inl rfl⟩
  · exact decDigits_number _

theorem decDigits_zero {n : Nat} (h : decDigits n = ['0']) : n = 0 := by
  obtain ⟨d, ds, e, h1, h2, h3⟩ := decDigitsAux_head (n + 1) n (by omega)
  unfold decDigits at h
  rw [e] at h
  injection h with h4 h5
  have : ∀ d, d < 10 → digitChar d = '0' → d = 0 := by decide
  exact (h2 (this d h1 h4)).1

theorem decDigits_unsigned (n : Nat) : decDigits n ≠ ['-', '0'] := by
  intro h
  rcases decDigits_int n with h1 | ⟨d, ds, h1, h2, _⟩
  · rw [h1] at h; cases h
  · rw [h1] at h; injection h with h3 _; subst h3; cases h2

theorem decInt_zero (i : Int) : decInt i ≠ ['-', '0'] := by
  unfold decInt
  split
  · intro h
    injection h with _ h
    have := decDigits_zero h
    omega
  · exact decDigits_unsigned _

theorem display_zero {F : FloatText} : ∀ {v : PrimVal}, v.kind ≠ .char → v.kind ≠ .f32 → v.kind ≠ .f64 →
    display F v.kind v.val ≠ ['-', '0']
  | ⟨.bool, b⟩, _, _, _ => by cases b <;> (intro h; cases h)
  | ⟨.char, _⟩, h, _, _ => absurd rfl h
  | ⟨.u8, _⟩, _, _, _ | ⟨.u16, _⟩, _, _, _ | ⟨.u32, _⟩, _, _, _ | ⟨.u64, _⟩, _, _, _ | ⟨.u128, _⟩, _, _, _ =>
    decDigits_unsigned _
  | ⟨.i8, _⟩, _, _, _ | ⟨.i16, _⟩, _, _, _ | ⟨.i32, _⟩, _, _, _ | ⟨.i64, _⟩, _, _, _ | ⟨.i128, _⟩, _, _, _ =>
    decInt_zero _
  | ⟨.f32, _⟩, _, h, _ => absurd rfl h
  | ⟨.f64, _⟩, _, _, h => absurd rfl h

theorem decDigits_numeral (n : Nat) : Numeral (decDigits n) n := by
  obtain ⟨ds, h1, h2, h3, h4⟩ := decDigits_spec n
  exact ⟨ds, h1, h2, .inl h3, h4.symm⟩

theorem decInt_numeral (i : Int) : SignedNumeral (decInt i) i := by
  unfold decInt
  split
  · next h =>
    refine .inr ⟨_, _, rfl, ?_, decDigits_numeral _, by omega⟩
    obtain ⟨c, cs, e, hc⟩ := decDigits_cons i.natAbs
    rw [e]
    simp only [List.head?_cons, ne_eq, Option.some.injEq]
    exact isDigit_ne hc (by decide)
  · exact .inl ⟨_, decDigits_numeral _, by omega⟩

/-- Numbers are written as number tokens for the same number. -/
theorem display_number {F : FloatText} : ∀ {v : PrimVal}, PrimOk F v → v.kind ≠ .bool → v.kind ≠ .char →
    NumberText (display F v.kind v.val) ∧ NumText F (display F v.kind v.val) v
  | ⟨.bool, _⟩, _, h, _ => absurd rfl h
  | ⟨.char, _⟩, _, _, h => absurd rfl h
  | ⟨.u8, _⟩, _, _, _ => ⟨decDigits_number _, decDigits_numeral _⟩
  | ⟨.u16, _⟩, _, _, _ => ⟨decDigits_number _, decDigits_numeral _⟩
  | ⟨.u32, _⟩, _, _, _ => ⟨decDigits_number _, decDigits_numeral _⟩
  | ⟨.u64, _⟩, _, _, _ => ⟨decDigits_number _, decDigits_numeral _⟩
  | ⟨.u128, _⟩, _, _, _ => ⟨decDigits_number _, decDigits_numeral _⟩
  | ⟨.i8, _⟩, _, _, _ => ⟨decInt_number _, decInt_numeral _⟩
  | ⟨.i16, _⟩, _, _, _ => ⟨decInt_number _, decInt_numeral _⟩
  | ⟨.i32, _⟩, _, _, _ => ⟨decInt_number _, decInt_numeral _⟩
  | ⟨.i64, _⟩, _, _, _ => ⟨decInt_number _, decInt_numeral _⟩
  | ⟨.i128, _⟩, _, _, _ => ⟨decInt_number _, decInt_numeral _⟩
  | ⟨.f32, _⟩, h, _, _ => h
  | ⟨.f64, _⟩, h, _, _ => h

/-! ## Documents -/

/-- The text continues with white space, `,`, `]`, `}`, or ends. -/
def Rest (s : Str) : Prop :=
  NotStart (fun c => ¬ (c = ' ' ∨ c = '\t' ∨ c = '\n' ∨ c = '\r' ∨ c = ',' ∨ c = ']' ∨ c = '}')) s

theorem Rest.ends {k : Json.Tok} {s : Str} (h : Rest s) : Ends k s := by
  cases k <;> first | exact trivial | exact h

theorem laid_tok {k : Json.Tok} {ks : List Json.Tok} {p s : Str} (h1 : Spelling k p) (h2 : Ends k s)
    (h3 : Laid ks s) : Laid (k :: ks) (p ++ s) :=
  Laid.cons (ws := []) (fun c hc => by cases hc) h1 h2 h3

/-- `text` is a text of the document. -/
def Shows (tr : Tree) (text : Str) : Prop :=
  ∀ ks rest, Rest rest → Laid ks rest → Laid (tr.toks ++ ks) (text ++ rest)

/-- Whatever presents the value, the emitter writes this text. -/
def Emits (F : FloatText) (t : Ty) (v : Val) (text : Str) : Prop :=
  ∀ src p, Presents src v p → emitterFor F p t src = .ok text.utf8

theorem presents_seq {src : DataSource} {vs : List Val} {p : Path} {k i : Nat} {v : Val}
    (h : ∀ q l, (q, l) ∈ leavesFrom vs p k → Answers src q l) (hv : vs[i]? = some v) :
    Presents src v (p ++ [k + i]) := fun q l hm =>
  h q l ((leavesFrom_mem p _ vs k).2 ⟨i, v, hv, hm⟩)

theorem presents_case {src : DataSource} {v : Val} {p : Path} {i : Nat} (h : Presents src (.case i v) p) :
    src.tag p = .ok i ∧ Presents src v (p ++ [i]) :=
  ⟨h p (.tag i) (by rw [leaves]; exact .head _), fun q l hm => h q l (by rw [leaves]; exact .tail _ hm)⟩

theorem utf8_comma (first : Bool) : comma first = Str.utf8 (bif first then [] else [',']) := by
  cases first <;> rfl

theorem emitAll_text {F : FloatText} : ∀ (cs : List Ty) (vs : List Val), vs.length = cs.length →
    (∀ (i : Nat) (c : Ty) (v : Val), cs[i]? = some c → vs[i]? = some v →
      ∃ tr text, Emits F c v text ∧ (∀ lax, Takes F lax c tr v) ∧ Shows tr text) →
    ∃ (ts : List Tree) (text : Bool → Str), ts.length = cs.length ∧
      (∀ (i : Nat) (c : Ty) (t : Tree) (v : Val), cs[i]? = some c → ts[i]? = some t → vs[i]? = some v →
        ∀ lax, Takes F lax c t v) ∧
      (∀ src p k first, (∀ q l, (q, l) ∈ leavesFrom vs p k → Answers src q l) →
        emitAll (emittersL F p cs k) first src = .ok (text first).utf8) ∧
      (∀ first ks rest, Rest rest → Laid ks rest →
        Laid (sepToks .comma first (toksL ts) ++ ks) (text first ++ rest))
  | [], [], _, _ => by
    refine ⟨[], fun _ => [], rfl, by simp, ?_, ?_⟩
    · intro src p k first _; rfl
    · intro first ks rest _ h; cases first <;> exact h
  | [], v :: vs, h, _ => by simp at h
  | c :: cs, [], h, _ => by simp at h
  | c :: cs, v :: vs, hl, h => by
    obtain ⟨tr, x, e1, d1, s1⟩ := h 0 c v rfl rfl
    obtain ⟨ts, y, l2, d2, e2, s2⟩ := emitAll_text cs vs (by simpa using hl)
      (fun i c v hc hv => h (i + 1) c v (by simpa using hc) (by simpa using hv))
    refine ⟨tr :: ts, fun first => (bif first then [] else [',']) ++ x ++ y false, by simp [l2], ?_, ?_, ?_⟩
    · intro i c' t' v' hc ht hv
      cases i with
      | zero => simp at hc ht hv; subst hc ht hv; exact d1
      | succ i => exact d2 i c' t' v' (by simpa using hc) (by simpa using ht) (by simpa using hv)
    · intro src p k first hs
      rw [emittersL, emitAll]
      have a1 := e1 src (p ++ [k]) (presents_seq (i := 0) hs rfl)
      have a2 := e2 src p (k + 1) false (fun q l hm => hs q l (by
        rw [leavesFrom]; exact List.mem_append.2 (.inr hm)))
      simp only [a1, a2, Res.bind_ok]
      rw [utf8_comma, utf8_append, utf8_append]
      rfl
    · intro first ks rest hr hk
      have hyr : Rest (y false ++ rest) := by
        have := s2 false ks rest hr hk
        cases ts with
        | nil =>
          cases cs with
          | cons c cs => simp at l2
          | nil =>
            cases vs with
            | cons v vs => simp at hl
            | nil =>
              have e := e2 ⟨fun _ _ => .error .panic, fun _ => .error .panic, fun _ => .error .panic,
                fun _ => .error .panic⟩ [] 0 false (by intro q l hm; simp [leavesFrom] at hm)
              have e : Str.utf8 [] = (y false).utf8 := Except.ok.inj e
              rw [← utf8_injective e]
              exact hr
        | cons t ts =>
          have e : sepToks Json.Tok.comma false (toksL (t :: ts)) ++ ks =
              .comma :: (t.toks ++ (toksL ts).flatMap (.comma :: ·) ++ ks) := by
            simp [sepToks, toksL]
          rw [e] at this
          generalize hz : y false ++ rest = z at this
          cases this with
          | @cons ws p s _ _ hb hp _ _ =>
            cases hp
            cases ws with
            | nil => exact .cons (by simp)
            | cons w ws =>
              refine .cons ?_
              rcases hb w (.head _) with rfl | rfl | rfl | rfl <;> simp
      have b2 := s2 false ks rest hr hk
      have b1 := s1 _ _ hyr b2
      have e : sepToks Json.Tok.comma first (toksL (tr :: ts)) ++ ks =
          (bif first then [] else [.comma]) ++ (tr.toks ++ (sepToks .comma false (toksL ts) ++ ks)) := by
        rw [toksL, sepToks_cons]; simp
      rw [e]
      cases first with
      | true => simpa using b1
      | false =>
        have := laid_tok (p := [',']) .comma trivial b1
        simpa using this

theorem emitFields_text {F : FloatText} : ∀ (fs : List (Str × Ty)) (vs : List Val), vs.length = fs.length →
    (∀ f ∈ fs, ∀ c ∈ f.1, Writable c) →
    (∀ (i : Nat) (f : Str × Ty) (v : Val), fs[i]? = some f → vs[i]? = some v →
      ∃ tr text, Emits F f.2 v text ∧ (∀ lax, Takes F lax f.2 tr v) ∧ Shows tr text) →
    ∃ (ts : List Tree) (text : Bool → Str), ts.length = fs.length ∧
      (∀ (i : Nat) (f : Str × Ty) (t : Tree) (v : Val), fs[i]? = some f → ts[i]? = some t → vs[i]? = some v →
        ∀ lax, Takes F lax f.2 t v) ∧
      (∀ src p k first, (∀ q l, (q, l) ∈ leavesFrom vs p k → Answers src q l) →
        emitFields (emittersF F p fs k) first src = .ok (text first).utf8) ∧
      (∀ first rest, NotStart (fun c => c ≠ '}') rest → Rest (text false ++ rest) ∧
        ∀ ks, Laid ks rest →
          Laid (sepToks .comma first (toksM ((fs.map (·.1)).zip ts)) ++ ks) (text first ++ rest))
  | [], [], _, _, _ => by
    refine ⟨[], fun _ => [], rfl, by simp, ?_, ?_⟩
    · intro src p k first _; rfl
    · intro first rest hr
      refine ⟨fun c hc hn => hn ?_, ?_⟩
      · have := Classical.not_not.1 (hr c hc)
        simp [this]
      · intro ks h; cases first <;> exact h
  | [], v :: vs, h, _, _ => by simp at h
  | f :: fs, [], h, _, _ => by simp at h
  | f :: fs, v :: vs, hl, hw, h => by
    obtain ⟨tr, x, e1, d1, s1⟩ := h 0 f v rfl rfl
    obtain ⟨ts, y, l2, d2, e2, s2⟩ := emitFields_text fs vs (by simpa using hl)
      (fun f hf => hw f (.tail _ hf))
      (fun i c v hc hv => h (i + 1) c v (by simpa using hc) (by simpa using hv))
    refine ⟨tr :: ts, fun first => (bif first then [] else [',']) ++ (strText f.1 ++ (':' :: (x ++ y false))),
      by simp [l2], ?_, ?_, ?_⟩
    · intro i c' t' v' hc ht hv
      cases i with
      | zero => simp at hc ht hv; subst hc ht hv; exact d1
      | succ i => exact d2 i c' t' v' (by simpa using hc) (by simpa using ht) (by simpa using hv)
    · intro src p k first hs
      obtain ⟨l, t⟩ := f
      rw [emittersF, emitterP, emitFields]
      have a1 := e1 src (p ++ [k]) (presents_seq (i := 0) hs rfl)
      have a2 := e2 src p (k + 1) false (fun q l hm => hs q l (by
        rw [leavesFrom]; exact List.mem_append.2 (.inr hm)))
      simp only at a1
      simp only [a1, a2, Res.bind_ok]
      rw [utf8_comma, emitString_text (hw _ (.head _))]
      simp only [utf8_cons, utf8_append, utf8_nil, List.append_nil, List.append_assoc]
      rfl
    · intro first rest hr
      refine ⟨.cons (by simp), ?_⟩
      intro ks hk
      obtain ⟨b3, b2⟩ := s2 false rest hr
      have b1 := s1 _ _ b3 (b2 ks hk)
      have b4 : Laid (.string f.1 :: .colon :: (tr.toks ++
          (sepToks .comma false (toksM ((fs.map (·.1)).zip ts)) ++ ks)))
          (strText f.1 ++ ([':'] ++ (x ++ (y false ++ rest)))) :=
        laid_tok (strText_spelling (hw f (.head _))) trivial (laid_tok (p := [':']) .colon trivial b1)
      have e : sepToks Json.Tok.comma first (toksM (((f :: fs).map (·.1)).zip (tr :: ts))) ++ ks =
          (bif first then [] else [.comma]) ++ (.string f.1 :: .colon :: (tr.toks ++
            (sepToks .comma false (toksM ((fs.map (·.1)).zip ts)) ++ ks))) := by
        rw [List.map_cons, List.zip_cons_cons, toksM, sepToks_cons, memberToks]; simp
      rw [e]
      cases first with
      | true => simpa using b4
      | false =>
        have := laid_tok (p := [',']) .comma trivial b4
        simpa using this

theorem emittersF_get (F : FloatText) (p : Path) (i : Nat) : ∀ (fs : List (Str × Ty)) (k : Nat),
    (emittersF F p fs k)[i]? = (fs[i]?).map fun f => (f.1, emitterFor F (p ++ [k + i]) f.2) := by
  induction i with
  | zero =>
    intro fs k
    rcases fs with _ | ⟨⟨l, t⟩, fs⟩
    · simp [emittersF]
    · simp [emittersF, emitterP]
  | succ i ih =>
    intro fs k
    cases fs with
    | nil => simp [emittersF]
    | cons f fs =>
      simp only [emittersF, List.getElem?_cons_succ, ih]
      rw [show k + 1 + i = k + (i + 1) by omega]

theorem emitString_single (c : Char) :
    (pure (Str.utf8 ['"'] ++ writeCh c ++ Str.utf8 ['"']) : Res Bytes) = .ok (emitString [c]) := by
  rw [emitString, List.flatMap_cons, List.flatMap_nil, List.append_nil]
  rfl

theorem emits_prim {F : FloatText} {v : PrimVal} (h : PrimOk F v) :
    ∃ tr text, Emits F (.prim v.kind) (.prim v) text ∧ (∀ lax, Takes F lax (.prim v.kind) tr (.prim v)) ∧
      Shows tr text := by
  have hp : ∀ src p, Presents src (.prim v) p → src.prim v.kind p = .ok v.val := fun src p hs =>
    hs p (.prim v) (by rw [leaves]; exact .head _)
  by_cases hb : v.kind = .bool
  · rcases v with ⟨vk, b⟩
    simp only at hb
    subst hb
    refine ⟨.bool b, bif b then "true".toList else "false".toList, ?_, fun _ => .bool b, ?_⟩
    · intro src p hs
      have := hp src p hs
      simp only at this
      rw [emitterFor, emitPrim]
      · simp only [this, Res.bind_ok]
        rfl
      · exact fun h => nomatch h
    · intro ks rest hr hk
      cases b
      · exact laid_tok .false hr hk
      · exact laid_tok .true hr hk
  by_cases hc : v.kind = .char
  · rcases v with ⟨vk, c⟩
    simp only at hc
    subst hc
    refine ⟨.str [c], strText [c], ?_, fun _ => .char c, ?_⟩
    · intro src p hs
      have := hp src p hs
      simp only at this
      rw [emitterFor, emitPrim]
      simp only [this, Res.bind_ok]
      rw [← emitString_text (s := [c]) (by intro d hd; rw [List.mem_singleton.1 hd]; exact h)]
      exact emitString_single c
    · intro ks rest hr hk
      exact laid_tok (strText_spelling (by intro d hd; rw [List.mem_singleton.1 hd]; exact h)) trivial hk
  obtain ⟨h1, h2⟩ := display_number h hb hc
  refine ⟨.num (display F v.kind v.val), display F v.kind v.val, ?_, fun _ => .num rfl h2, ?_⟩
  · intro src p hs
    have := hp src p hs
    rw [emitterFor, emitPrim]
    · simp only [this, Res.bind_ok]
      rfl
    · exact hc
  · intro ks rest hr hk
    exact laid_tok (.number h1) hr hk

theorem emits_plain {F : FloatText} {t : Ty} {v : Val} (h : Plain F t v) :
    ∃ tr text, Emits F t v text ∧ (∀ lax, Takes F lax t tr v) ∧ Shows tr text := by
  induction h with
  | unit =>
    refine ⟨.null, "null".toList, ?_, fun _ => .unit, ?_⟩
    · intro src p _; rfl
    · intro ks rest hr hk; exact laid_tok .null hr hk
  | prim h => exact emits_prim h
  | @str s h =>
    refine ⟨.str s, strText s, ?_, fun _ => .string s, ?_⟩
    · intro src p hs
      have : src.bytes p = .ok s.utf8 := (hs p (.str s.utf8) (by rw [leaves]; exact .head _)).2
      rw [emitterFor, emitStr, this]
      simp only [Res.bind_ok, (fromUtf8_iff s.utf8 s).2 rfl]
      rw [emitString_text h]
      rfl
    · intro ks rest hr hk
      exact laid_tok (strText_spelling h) trivial hk
  | @tuple cs vs hl _ ih =>
    obtain ⟨ts, x, l, d, e, s⟩ := emitAll_text cs vs hl ih
    refine ⟨.arr ts, '[' :: (x true ++ [']']), ?_,
      fun lax => .tuple l hl fun i c t v hc ht hv => d i c t v hc ht hv lax, ?_⟩
    · intro src p hs
      rw [emitterFor, emitTuple, e src p 0 true (fun q l hm => hs q l (by rw [leaves]; exact hm))]
      simp only [Res.bind_ok]
      simp only [utf8_cons, utf8_append, utf8_nil, List.append_nil, List.append_assoc]
      rfl
    · intro ks rest hr hk
      have h1 : Laid (.endArray :: ks) ([']'] ++ rest) := laid_tok .endArray trivial hk
      have h2 := s true _ _ (by exact .cons (by simp)) h1
      have h3 := laid_tok (p := ['[']) .beginArray trivial h2
      have e1 : (Tree.arr ts).toks ++ ks =
          .beginArray :: (sepToks .comma true (toksL ts) ++ (.endArray :: ks)) := by
        simp [Tree.toks, sepToks]
      rw [e1]
      simpa using h3
  | @struct fs vs h63 hn hw hl _ ih =>
    obtain ⟨ts, x, l, d, e, s⟩ := emitFields_text fs vs hl hw ih
    have hz : ((fs.map (·.1)).zip ts).map (·.1) = fs.map (·.1) := by
      rw [List.map_fst_zip]; simp [l]
    refine ⟨.obj ((fs.map (·.1)).zip ts), '{' :: (x true ++ ['}']), ?_,
      fun lax => .struct h63 hn (by rw [hz]) hl ?_, ?_⟩
    · intro src p hs
      rw [emitterFor, emitStruct, e src p 0 true (fun q l hm => hs q l (by rw [leaves]; exact hm))]
      simp only [Res.bind_ok]
      simp only [utf8_cons, utf8_append, utf8_nil, List.append_nil, List.append_assoc]
      rfl
    · intro i f t v hf hm hv
      obtain ⟨j, hj⟩ := List.getElem?_of_mem hm
      rw [List.getElem?_zip_eq_some, List.getElem?_map, Option.map_eq_some_iff] at hj
      obtain ⟨⟨g, hg, hge⟩, ht⟩ := hj
      have := nodup_get_inj hn hf hg hge.symm
      subst this
      exact d i f t v hf ht hv lax
    · intro ks rest hr hk
      have h1 : Laid (.endObject :: ks) (['}'] ++ rest) := laid_tok .endObject trivial hk
      have h2 := (s true _ (by exact .cons (by simp))).2 _ h1
      have h3 := laid_tok (p := ['{']) .beginObject trivial h2
      have e1 : (Tree.obj ((fs.map (·.1)).zip ts)).toks ++ ks =
          .beginObject :: (sepToks .comma true (toksM ((fs.map (·.1)).zip ts)) ++ (.endObject :: ks)) := by
        simp [Tree.toks, sepToks]
      rw [e1]
      simpa using h3
  | @enum cs i l c v hc hlast hw _ ih =>
    obtain ⟨tr, x, e, d, s⟩ := ih
    refine ⟨_, '{' :: (strText "kind".toList ++ (':' :: (strText l ++ (',' :: (strText "value".toList ++
      (':' :: (x ++ ['}']))))))), ?_, fun lax => .enum hc hlast (d lax), ?_⟩
    · intro src p hs
      obtain ⟨h1, h2⟩ := presents_case hs
      have hg : (emittersF F p cs 0)[i]? = some (l, emitterFor F (p ++ [i]) c) := by
        rw [emittersF_get, hc]; simp
      rw [emitterFor, emitEnum, h1]
      simp only [Res.bind_ok, hg, e src _ h2, emitString_text hw]
      show Except.ok _ = Except.ok _
      congr 1
      have a1 : strText "kind".toList = ['"', 'k', 'i', 'n', 'd', '"'] := by decide
      have a2 : strText "value".toList = ['"', 'v', 'a', 'l', 'u', 'e', '"'] := by decide
      rw [a1, a2]
      simp only [List.cons_append, List.nil_append, utf8_cons, utf8_append, utf8_nil, List.append_nil,
        List.append_assoc]
    · intro ks rest hr hk
      have hwk : ∀ c ∈ "kind".toList, Writable c := by unfold Writable; decide
      have hwv : ∀ c ∈ "value".toList, Writable c := by unfold Writable; decide
      have h1 : Laid (.endObject :: ks) (['}'] ++ rest) := laid_tok .endObject trivial hk
      have h2 := s _ _ (by exact .cons (by simp)) h1
      have h3 := laid_tok (p := [':']) .colon trivial h2
      have h4 := laid_tok (strText_spelling hwv) trivial h3
      have h5 := laid_tok (p := [',']) .comma trivial h4
      have h6 := laid_tok (strText_spelling hw) trivial h5
      have h7 := laid_tok (p := [':']) .colon trivial h6
      have h8 := laid_tok (strText_spelling hwk) trivial h7
      have h9 := laid_tok (p := ['{']) .beginObject trivial h8
      have e1 : (Tree.obj [("kind".toList, .str l), ("value".toList, tr)]).toks ++ ks =
          .beginObject :: .string "kind".toList :: .colon :: .string l :: .comma :: .string "value".toList ::
            .colon :: (tr.toks ++ (.endObject :: ks)) := by
        simp [Tree.toks, toksM, sepBy, memberToks]
      rw [e1]
      simpa using h9

/-! ## The text depends on the value only -/

theorem emitAll_same {F : FloatText} : ∀ (cs : List Ty) (vs : List Val), vs.length = cs.length →
    (∀ (i : Nat) (c : Ty) (v : Val), cs[i]? = some c → vs[i]? = some v →
      ∃ r, ∀ src p, Presents src v p → emitterFor F p c src = r) →
    ∃ r : Bool → Res Bytes, ∀ src p k first, (∀ q l, (q, l) ∈ leavesFrom vs p k → Answers src q l) →
      emitAll (emittersL F p cs k) first src = r first
  | [], vs, _, _ => ⟨fun _ => .ok [], fun src p k first _ => rfl⟩
  | c :: cs, [], h, _ => by simp at h
  | c :: cs, v :: vs, hl, h => by
    obtain ⟨x, e1⟩ := h 0 c v rfl rfl
    obtain ⟨y, e2⟩ := emitAll_same cs vs (by simpa using hl)
      (fun i c v hc hv => h (i + 1) c v (by simpa using hc) (by simpa using hv))
    refine ⟨fun first => x >>= fun b => y false >>= fun bs => pure (comma first ++ b ++ bs), ?_⟩
    intro src p k first hs
    rw [emittersL, emitAll]
    have a1 := e1 src (p ++ [k]) (presents_seq (i := 0) hs rfl)
    have a2 := e2 src p (k + 1) false (fun q l hm => hs q l (by
      rw [leavesFrom]; exact List.mem_append.2 (.inr hm)))
    simp only [a1, a2]

theorem emitFields_same {F : FloatText} : ∀ (fs : List (Str × Ty)) (vs : List Val), vs.length = fs.length →
    (∀ (i : Nat) (f : Str × Ty) (v : Val), fs[i]? = some f → vs[i]? = some v →
      ∃ r, ∀ src p, Presents src v p → emitterFor F p f.2 src = r) →
    ∃ r : Bool → Res Bytes, ∀ src p k first, (∀ q l, (q, l) ∈ leavesFrom vs p k → Answers src q l) →
      emitFields (emittersF F p fs k) first src = r first
  | [], vs, _, _ => ⟨fun _ => .ok [], fun src p k first _ => rfl⟩
  | f :: fs, [], h, _ => by simp at h
  | f :: fs, v :: vs, hl, h => by
    obtain ⟨x, e1⟩ := h 0 f v rfl rfl
    obtain ⟨y, e2⟩ := emitFields_same fs vs (by simpa using hl)
      (fun i c v hc hv => h (i + 1) c v (by simpa using hc) (by simpa using hv))
    refine ⟨fun first => x >>= fun b => y false >>= fun bs =>
      pure (comma first ++ emitString f.1 ++ Str.utf8 [':'] ++ b ++ bs), ?_⟩
    intro src p k first hs
    obtain ⟨l, t⟩ := f
    rw [emittersF, emitterP, emitFields]
    have a1 := e1 src (p ++ [k]) (presents_seq (i := 0) hs rfl)
    have a2 := e2 src p (k + 1) false (fun q l hm => hs q l (by
      rw [leavesFrom]; exact List.mem_append.2 (.inr hm)))
    simp only at a1
    simp only [a1, a2]

theorem emits_same {F : FloatText} {t : Ty} {v : Val} (h : Typed t v) :
    ∃ r, ∀ src p, Presents src v p → emitterFor F p t src = r := by
  induction h with
  | unit => exact ⟨_, fun src p _ => rfl⟩
  | prim v =>
    refine ⟨match v with
      | ⟨.char, c⟩ => .ok (Str.utf8 ['"'] ++ writeCh c ++ Str.utf8 ['"'])
      | ⟨p, v⟩ => .ok (display F p v).utf8, ?_⟩
    intro src p hs
    have hp : src.prim v.kind p = .ok v.val := hs p (.prim v) (by rw [leaves]; exact .head _)
    rcases v with ⟨vk, v⟩
    simp only at hp
    rw [emitterFor]
    cases vk <;> (simp only [emitPrim, hp, Res.bind_ok]; rfl)
  | str bs =>
    refine ⟨match fromUtf8 bs with
      | some s => pure (emitString s)
      | none => .error .panic, ?_⟩
    intro src p hs
    have hp : src.bytes p = .ok bs := (hs p (.str bs) (by rw [leaves]; exact .head _)).2
    rw [emitterFor, emitStr, hp]
    rfl
  | @tuple cs vs hl _ ih =>
    obtain ⟨r, hr⟩ := emitAll_same cs vs hl ih
    refine ⟨r true >>= fun bs => pure (Str.utf8 ['['] ++ bs ++ Str.utf8 [']']), ?_⟩
    intro src p hs
    rw [emitterFor, emitTuple, hr src p 0 true (fun q l hm => hs q l (by rw [leaves]; exact hm))]
  | @struct fs vs hl _ ih =>
    obtain ⟨r, hr⟩ := emitFields_same fs vs hl ih
    refine ⟨r true >>= fun bs => pure (Str.utf8 ['{'] ++ bs ++ Str.utf8 ['}']), ?_⟩
    intro src p hs
    rw [emitterFor, emitStruct, hr src p 0 true (fun q l hm => hs q l (by rw [leaves]; exact hm))]
  | @enum cs i c v hc _ ih =>
    obtain ⟨r, hr⟩ := ih
    refine ⟨r >>= fun b => pure (Str.utf8 ['{', '"', 'k', 'i', 'n', 'd', '"', ':'] ++ emitString c.1 ++
      Str.utf8 [',', '"', 'v', 'a', 'l', 'u', 'e', '"', ':'] ++ b ++ Str.utf8 ['}']), ?_⟩
    intro src p hs
    obtain ⟨h1, h2⟩ := presents_case hs
    have hg : (emittersF F p cs 0)[i]? = some (c.1, emitterFor F (p ++ [i]) c.2) := by
      rw [emittersF_get, hc]; simp
    rw [emitterFor, emitEnum, h1]
    simp only [Res.bind_ok, hg, hr src _ h2]

end Verif
