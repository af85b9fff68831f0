import Verif.Spec.TypeGrammar

/-! # Proofs about the type parser -/

namespace Verif

open TypeParser Spec

/-! ## Soundness -/

theorem Spec.DerivesList.cons {t : Ty} {ts : List Tok} (ht : DerivesTy t ts) : ∀ {cs : List Ty} {us : List Tok},
    DerivesList cs us → DerivesList (t :: cs) (ts ++ [.comma] ++ us)
  | _, _, .one h => .snoc (.one ht) h
  | _, _, .snoc h1 h2 => by
    have := DerivesList.snoc (DerivesList.cons ht h1) h2
    simpa [List.append_assoc] using this

theorem Spec.DerivesFields.cons {l : Str} {t : Ty} {ts : List Tok} (ht : DerivesTy t ts) :
    ∀ {cs : List (Str × Ty)} {us : List Tok},
    DerivesFields cs us → DerivesFields ((l, t) :: cs) ([.ident l, .colon] ++ ts ++ [.comma] ++ us)
  | _, _, .one (l := l') h => by
    have := DerivesFields.snoc (l := l') (DerivesFields.one (l := l) ht) h
    simpa [List.append_assoc] using this
  | _, _, .snoc (l := l') h1 h2 => by
    have := DerivesFields.snoc (l := l') (DerivesFields.cons (l := l) ht h1) h2
    simpa [List.append_assoc] using this

/-- The rest of a struct or enum: fields, perhaps a comma, and a closing brace. -/
def DerivesBody (fs : List (Str × Ty)) (ts r : List Tok) : Prop :=
  ∃ us, DerivesFields fs us ∧ (ts = us ++ [.rbrace] ++ r ∨ ts = us ++ [.comma, .rbrace] ++ r)

theorem parse_sound (n : Nat) :
    (∀ ts t r, parseType n ts = some (t, r) → ∃ us, ts = us ++ r ∧ DerivesTy t us) ∧
    (∀ ts cs r, parseTuple n ts = some (cs, r) → ∃ us, ts = us ++ [.rparen] ++ r ∧ DerivesList cs us) ∧
    (∀ ts fs r, parseFields n ts = some (fs, r) → DerivesBody fs ts r) := by
  induction n with
  | zero => simp [parseType, parseTuple, parseFields]
  | succ n ih =>
    obtain ⟨ih1, ih2, ih3⟩ := ih
    refine ⟨?_, ?_, ?_⟩
    · intro ts t r h
      unfold parseType at h
      split at h
      · cases h; exact ⟨[.lparen, .rparen], rfl, .unit⟩
      · next r' _ =>
        cases h2 : parseTuple n r' with
        | none => rw [h2] at h; cases h
        | some x =>
          rw [h2] at h; cases h
          obtain ⟨us, h3, h4⟩ := ih2 _ _ _ h2
          exact ⟨_, by rw [h3]; simp, .tuple h4⟩
      · cases h; exact ⟨[.prim _], rfl, .prim _⟩
      · cases h; exact ⟨[.string], rfl, .string⟩
      · next r' =>
        cases h2 : parseFields n r' with
        | none => rw [h2] at h; cases h
        | some x =>
          rw [h2] at h; cases h
          obtain ⟨us, h3, h4 | h4⟩ := ih3 _ _ _ h2
          · exact ⟨_, by rw [h4]; simp, .struct h3⟩
          · exact ⟨_, by rw [h4]; simp, .structComma h3⟩
      · next r' =>
        cases h2 : parseFields n r' with
        | none => rw [h2] at h; cases h
        | some x =>
          rw [h2] at h; cases h
          obtain ⟨us, h3, h4 | h4⟩ := ih3 _ _ _ h2
          · exact ⟨_, by rw [h4]; simp, .enum h3⟩
          · exact ⟨_, by rw [h4]; simp, .enumComma h3⟩
      · cases h
    · intro ts cs r h
      unfold parseTuple at h
      split at h
      · next t r' h1 =>
        obtain ⟨us, h3, h4⟩ := ih1 _ _ _ h1
        cases h2 : parseTuple n r' with
        | none => rw [h2] at h; cases h
        | some x =>
          rw [h2] at h; cases h
          obtain ⟨vs, h5, h6⟩ := ih2 _ _ _ h2
          exact ⟨_, by rw [h3, h5]; simp, DerivesList.cons h4 h6⟩
      · next t r' h1 =>
        cases h
        obtain ⟨us, h3, h4⟩ := ih1 _ _ _ h1
        exact ⟨_, by rw [h3]; simp, .one h4⟩
      · cases h
    · intro ts fs r h
      unfold parseFields at h
      split at h
      · split at h
        · next h1 =>
          cases h
          obtain ⟨us, h3, h4⟩ := ih1 _ _ _ h1
          exact ⟨_, .one h4, .inr (by rw [h3]; simp)⟩
        · next r' _ h1 =>
          obtain ⟨us, h3, h4⟩ := ih1 _ _ _ h1
          cases h2 : parseFields n r' with
          | none => rw [h2] at h; cases h
          | some x =>
            rw [h2] at h; cases h
            obtain ⟨vs, h5, h6 | h6⟩ := ih3 _ _ _ h2
            · exact ⟨_, DerivesFields.cons h4 h5, .inl (by rw [h3, h6]; simp)⟩
            · exact ⟨_, DerivesFields.cons h4 h5, .inr (by rw [h3, h6]; simp)⟩
        · next h1 =>
          cases h
          obtain ⟨us, h3, h4⟩ := ih1 _ _ _ h1
          exact ⟨_, .one h4, .inl (by rw [h3]; simp)⟩
        · cases h
      · cases h

/-! ## Completeness -/

theorem Spec.DerivesTy.head {t : Ty} {us : List Tok} (h : DerivesTy t us) :
    ∃ k ks, us = k :: ks ∧ k ≠ .rparen ∧ (∀ s, k ≠ .ident s) ∧ k ≠ .rbrace := by
  cases h <;> refine ⟨_, _, rfl, ?_, ?_, ?_⟩ <;> simp

theorem Spec.DerivesList.head : ∀ {cs : List Ty} {us : List Tok}, DerivesList cs us →
    ∃ k ks, us = k :: ks ∧ k ≠ .rparen
  | _, _, .one h => by
    obtain ⟨k, ks, h1, h2, _⟩ := h.head
    exact ⟨k, ks, h1, h2⟩
  | _, _, .snoc h _ => by
    obtain ⟨k, ks, h1, h2⟩ := DerivesList.head h
    exact ⟨k, _, by rw [h1]; simp; rfl, h2⟩

theorem Spec.DerivesFields.head : ∀ {fs : List (Str × Ty)} {us : List Tok}, DerivesFields fs us →
    ∃ s ks, us = .ident s :: ks
  | _, _, .one h => ⟨_, _, rfl⟩
  | _, _, .snoc h _ => by
    obtain ⟨k, ks, h1⟩ := DerivesFields.head h
    exact ⟨k, _, by rw [h1]; simp; rfl⟩

/-- `parseTuple` reads `rest` with this result, given `k` units of fuel. -/
def TupleReads (rest : List Tok) (cs : List Ty) (r : List Tok) (k : Nat) : Prop :=
  ∀ n, k ≤ n → parseTuple n rest = some (cs, r)

/-- `parseFields` reads `rest` with this result, given `k` units of fuel. -/
def FieldsReads (rest : List Tok) (fs : List (Str × Ty)) (r : List Tok) (k : Nat) : Prop :=
  ∀ n, k ≤ n → parseFields n rest = some (fs, r)

mutual
theorem parseType_complete : ∀ {t : Ty} {us : List Tok}, DerivesTy t us → ∀ n r, us.length ≤ n →
    parseType n (us ++ r) = some (t, r)
  | _, _, .unit, 0, _, h => by simp at h
  | _, _, .unit, n + 1, r, _ => rfl
  | _, _, .prim p, 0, _, h => by simp at h
  | _, _, .prim p, n + 1, r, _ => rfl
  | _, _, .string, 0, _, h => by simp at h
  | _, _, .string, n + 1, r, _ => rfl
  | _, _, .tuple h, 0, _, hn => by simp at hn
  | _, _, .tuple (ts := ts) h, n + 1, r, hn => by
    have h1 := parseTuple_complete h r n (by simp at hn ⊢; omega)
    obtain ⟨k, ks, h2, h3⟩ := h.head
    subst h2
    have h4 : [Tok.lparen] ++ (k :: ks) ++ [.rparen] ++ r
        = .lparen :: k :: (ks ++ [.rparen] ++ r) := by simp
    have h5 : (k :: ks) ++ [.rparen] ++ r = k :: (ks ++ [.rparen] ++ r) := by simp
    rw [h5] at h1
    rw [h4]
    unfold parseType
    split
    · next h6 => cases h6; exact absurd rfl h3
    · next h6 => cases h6; rw [h1]; rfl
    all_goals first
      | (next h6 => exact absurd rfl (h6 _))
      | (next h6 _ _ _ => exact absurd rfl (h6 _))
      | (next h6 _ _ _ _ => exact absurd rfl (h6 _))
      | (next h6 => cases h6)
  | _, _, .struct h, 0, _, hn => by simp at hn
  | _, _, .struct (ts := ts) h, n + 1, r, hn => by
    have h1 := (parseFields_complete h r).1 n (by simp at hn ⊢; omega)
    have h4 : [Tok.struct, .lbrace] ++ ts ++ [.rbrace] ++ r
        = .struct :: .lbrace :: (ts ++ [.rbrace] ++ r) := by simp
    rw [h4]
    simp only [parseType, h1, Option.map_some]
  | _, _, .structComma h, 0, _, hn => by simp at hn
  | _, _, .structComma (ts := ts) h, n + 1, r, hn => by
    have h1 := (parseFields_complete h r).2 n (by simp at hn ⊢; omega)
    have h4 : [Tok.struct, .lbrace] ++ ts ++ [.comma, .rbrace] ++ r
        = .struct :: .lbrace :: (ts ++ [.comma, .rbrace] ++ r) := by simp
    rw [h4]
    simp only [parseType, h1, Option.map_some]
  | _, _, .enum h, 0, _, hn => by simp at hn
  | _, _, .enum (ts := ts) h, n + 1, r, hn => by
    have h1 := (parseFields_complete h r).1 n (by simp at hn ⊢; omega)
    have h4 : [Tok.enum, .lbrace] ++ ts ++ [.rbrace] ++ r
        = .enum :: .lbrace :: (ts ++ [.rbrace] ++ r) := by simp
    rw [h4]
    simp only [parseType, h1, Option.map_some]
  | _, _, .enumComma h, 0, _, hn => by simp at hn
  | _, _, .enumComma (ts := ts) h, n + 1, r, hn => by
    have h1 := (parseFields_complete h r).2 n (by simp at hn ⊢; omega)
    have h4 : [Tok.enum, .lbrace] ++ ts ++ [.comma, .rbrace] ++ r
        = .enum :: .lbrace :: (ts ++ [.comma, .rbrace] ++ r) := by simp
    rw [h4]
    simp only [parseType, h1, Option.map_some]
theorem parseTuple_complete : ∀ {cs : List Ty} {us : List Tok}, DerivesList cs us → ∀ r,
    TupleReads (us ++ [.rparen] ++ r) cs r (us.length + 1)
  | _, _, .one (ts := ts) h, r, n, hn => by
    cases n with
    | zero => omega
    | succ n =>
      have h1 := parseType_complete h n (.rparen :: r) (by omega)
      rw [show ts ++ [.rparen] ++ r = ts ++ .rparen :: r by simp]
      simp only [parseTuple, h1]
  | _, _, .snoc (cs := cs) (t := t) (us := us) (ts := ts) h1 h2, r, n, hn => by
    have h3 : TupleReads (ts ++ [.rparen] ++ r) [t] r (ts.length + 1) := by
      intro m hm
      cases m with
      | zero => omega
      | succ m =>
        have h1 := parseType_complete h2 m (.rparen :: r) (by omega)
        rw [show ts ++ [.rparen] ++ r = ts ++ .rparen :: r by simp]
        simp only [parseTuple, h1]
    have h4 := parseTuple_more h1 (ts ++ [.rparen] ++ r) _ r (ts.length + 1) h3 n
      (by simp at hn ⊢; omega)
    rw [← h4]; simp
theorem parseTuple_more : ∀ {cs : List Ty} {us : List Tok}, DerivesList cs us →
    ∀ rest cs' r k, TupleReads rest cs' r k →
    TupleReads (us ++ [.comma] ++ rest) (cs ++ cs') r (us.length + 1 + k)
  | _, _, .one (ts := ts) h, rest, cs', r, k, hr, n, hn => by
    cases n with
    | zero => omega
    | succ n =>
      have h1 := parseType_complete h n (.comma :: rest) (by omega)
      rw [show ts ++ [.comma] ++ rest = ts ++ .comma :: rest by simp]
      simp only [parseTuple, h1, hr n (by omega), Option.map_some, List.cons_append, List.nil_append]
  | _, _, .snoc (cs := cs) (t := t) (us := us) (ts := ts) h1 h2, rest, cs', r, k, hr, n, hn => by
    have h3 : TupleReads (ts ++ [.comma] ++ rest) ([t] ++ cs') r (ts.length + 1 + k) := by
      intro m hm
      cases m with
      | zero => omega
      | succ m =>
        have h1 := parseType_complete h2 m (.comma :: rest) (by omega)
        rw [show ts ++ [.comma] ++ rest = ts ++ .comma :: rest by simp]
        simp only [parseTuple, h1, hr m (by omega), Option.map_some, List.cons_append, List.nil_append]
    have h4 := parseTuple_more h1 (ts ++ [.comma] ++ rest) _ r _ h3 n (by simp at hn ⊢; omega)
    rw [List.append_assoc cs, ← h4]; simp
theorem parseFields_complete : ∀ {fs : List (Str × Ty)} {us : List Tok}, DerivesFields fs us → ∀ r,
    FieldsReads (us ++ [.rbrace] ++ r) fs r (us.length + 1) ∧
    FieldsReads (us ++ [.comma, .rbrace] ++ r) fs r (us.length + 1)
  | _, _, .one (l := l) (ts := ts) h, r => by
    refine ⟨?_, ?_⟩ <;> intro n hn <;> cases n with
    | zero => omega
    | succ n => ?_
    · have h1 := parseType_complete h n (.rbrace :: r) (by simp at hn; omega)
      rw [show [.ident l, .colon] ++ ts ++ [.rbrace] ++ r
        = .ident l :: .colon :: (ts ++ .rbrace :: r) by simp]
      simp only [parseFields, h1]
    · have h1 := parseType_complete h n (.comma :: .rbrace :: r) (by simp at hn; omega)
      rw [show [.ident l, .colon] ++ ts ++ [.comma, .rbrace] ++ r
        = .ident l :: .colon :: (ts ++ .comma :: .rbrace :: r) by simp]
      simp only [parseFields, h1]
  | _, _, .snoc (fs := fs) (t := t) (us := us) (l := l) (ts := ts) h1 h2, r => by
    have h3 : FieldsReads (.ident l :: .colon :: (ts ++ [.rbrace] ++ r)) [(l, t)] r
        (ts.length + 1) := by
      intro m hm
      cases m with
      | zero => omega
      | succ m =>
        have h1 := parseType_complete h2 m (.rbrace :: r) (by omega)
        rw [show ts ++ [.rbrace] ++ r = ts ++ .rbrace :: r by simp]
        simp only [parseFields, h1]
    have h3' : FieldsReads (.ident l :: .colon :: (ts ++ [.comma, .rbrace] ++ r)) [(l, t)] r
        (ts.length + 1) := by
      intro m hm
      cases m with
      | zero => omega
      | succ m =>
        have h1 := parseType_complete h2 m (.comma :: .rbrace :: r) (by omega)
        rw [show ts ++ [.comma, .rbrace] ++ r = ts ++ .comma :: .rbrace :: r by simp]
        simp only [parseFields, h1]
    refine ⟨?_, ?_⟩
    · intro n hn
      have h4 := parseFields_more h1 l _ _ r (ts.length + 1) h3 n (by simp at hn ⊢; omega)
      rw [← h4]; simp
    · intro n hn
      have h4 := parseFields_more h1 l _ _ r (ts.length + 1) h3' n (by simp at hn ⊢; omega)
      rw [← h4]; simp
theorem parseFields_more : ∀ {fs : List (Str × Ty)} {us : List Tok}, DerivesFields fs us →
    ∀ (l' : Str) rest fs' r k, FieldsReads (.ident l' :: rest) fs' r k →
    FieldsReads (us ++ [.comma] ++ (.ident l' :: rest)) (fs ++ fs') r (us.length + 1 + k)
  | _, _, .one (l := l) (ts := ts) h, l', rest, fs', r, k, hr, n, hn => by
    cases n with
    | zero => omega
    | succ n =>
      have h1 := parseType_complete h n (.comma :: .ident l' :: rest) (by simp at hn; omega)
      rw [show [.ident l, .colon] ++ ts ++ [.comma] ++ (.ident l' :: rest)
        = .ident l :: .colon :: (ts ++ .comma :: .ident l' :: rest) by simp]
      simp only [parseFields, h1, hr n (by omega), Option.map_some, List.cons_append, List.nil_append]
  | _, _, .snoc (fs := fs) (t := t) (us := us) (l := l) (ts := ts) h1 h2, l', rest, fs', r, k, hr, n, hn => by
    have h3 : FieldsReads (.ident l :: .colon :: (ts ++ [.comma] ++ (.ident l' :: rest)))
        ([(l, t)] ++ fs') r (ts.length + 1 + k) := by
      intro m hm
      cases m with
      | zero => omega
      | succ m =>
        have h1 := parseType_complete h2 m (.comma :: .ident l' :: rest) (by omega)
        rw [show ts ++ [.comma] ++ (.ident l' :: rest) = ts ++ .comma :: .ident l' :: rest by simp]
        simp only [parseFields, h1, hr m (by omega), Option.map_some, List.cons_append, List.nil_append]
    have h4 := parseFields_more h1 l _ _ r _ h3 n (by simp at hn ⊢; omega)
    rw [List.append_assoc fs, ← h4]; simp
end

theorem parseToks_iff (t : Ty) (ts : List Tok) : parseToks ts = some t ↔ DerivesTy t ts := by
  constructor
  · intro h
    unfold parseToks at h
    split at h
    · next h1 =>
      cases h
      obtain ⟨us, h2, h3⟩ := (parse_sound _).1 _ _ _ h1
      rw [List.append_nil] at h2
      exact h2 ▸ h3
    · cases h
  · intro h
    have := parseType_complete h (ts.length + 1) [] (by omega)
    rw [List.append_nil] at this
    unfold parseToks
    rw [this]

end Verif
