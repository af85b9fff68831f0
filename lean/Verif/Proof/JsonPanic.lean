import Verif.Spec.JsonPanic
import Verif.Proof.JsonExact

/-! # Exactly when the decoder panics -/

namespace Verif

open Spec Json

/-! ## Token streams that end -/

/-- Starting with the current token and the input, the tokens are used, and then the next token is a panic
(`true`) or there is one (`false`). -/
inductive EndsAt (u : Char → Bool) : Bool → Json.Tok → Str → List Json.Tok → Prop
  | stuck {k : Json.Tok} {s : Str} : next u s = .error (.fault .panic) → EndsAt u true k s [k]
  | opened {k k' : Json.Tok} {s s' : Str} : next u s = .ok (k', s') → EndsAt u false k s [k]
  | cons {b : Bool} {k k' : Json.Tok} {s s' : Str} {ks : List Json.Tok} : next u s = .ok (k', s') →
      EndsAt u b k' s' ks → EndsAt u b k s (k :: ks)

theorem EndsAt.append {u : Char → Bool} {b : Bool} {k k1 : Json.Tok} {s s1 : Str} {a ks : List Json.Tok}
    (h : Reads u k s a k1 s1) (h' : EndsAt u b k1 s1 ks) : EndsAt u b k s (a ++ ks) := by
  induction h with
  | nil => exact h'
  | cons hn _ ih => exact .cons hn (ih h')

theorem EndsAt.split {u : Char → Bool} {b : Bool} {a ks : List Json.Tok} (hk : ks ≠ []) :
    ∀ {k : Json.Tok} {s : Str}, EndsAt u b k s (a ++ ks) →
      ∃ k1 s1, Reads u k s a k1 s1 ∧ EndsAt u b k1 s1 ks := by
  induction a with
  | nil => intro k s h; exact ⟨k, s, .nil, h⟩
  | cons c a ih =>
    intro k s h
    have hne : a ++ ks ≠ [] := by simp [hk]
    generalize e : a ++ ks = r at hne ih
    rw [List.cons_append, e] at h
    cases h with
    | stuck => exact absurd rfl hne
    | opened => exact absurd rfl hne
    | cons hn h =>
      obtain ⟨k1, s1, h1, h2⟩ := ih (by rw [← e] at h; exact e ▸ h)
      exact ⟨k1, s1, .cons hn h1, h2⟩

theorem EndsAt.head {u : Char → Bool} {b : Bool} {k c : Json.Tok} {s : Str} {ks : List Json.Tok}
    (h : EndsAt u b k s (c :: ks)) : k = c := by cases h <;> rfl

theorem EndsAt.ne {u : Char → Bool} {b : Bool} {k : Json.Tok} {s : Str} {ks : List Json.Tok}
    (h : EndsAt u b k s ks) : ks ≠ [] := by cases h <;> simp

theorem EndsAt.one {u : Char → Bool} {k c : Json.Tok} {s : Str} (h : EndsAt u true k s [c]) :
    next u s = .error (.fault .panic) := by
  cases h with
  | stuck h => exact h
  | cons _ h => exact absurd rfl h.ne

theorem advance_fault {env : Env} {st : St} {f : Fault} :
    advance env st = .error (.fault f) ↔ f = .panic ∧ EndsAt env.alnum true st.tok st.rest [st.tok] := by
  unfold advance
  rw [Parse.bind_eq_fault]
  constructor
  · rintro (h | ⟨a, _, h⟩)
    · have := (next_fault.1 h).1
      subst this
      exact ⟨rfl, .stuck h⟩
    · cases h
  · rintro ⟨rfl, h⟩
    exact .inl h.one

theorem advance_out_fault {env : Env} {st : St} {o : IntermediateDataSource} {f : Fault} :
    advance env { st with out := o } = .error (.fault f) ↔
      f = .panic ∧ EndsAt env.alnum true st.tok st.rest [st.tok] :=
  advance_fault (st := { st with out := o })

theorem mustBe_fault {env : Env} {k : Json.Tok} {st : St} {f : Fault} :
    mustBe env k st = .error (.fault f) ↔ f = .panic ∧ EndsAt env.alnum true st.tok st.rest [k] := by
  unfold mustBe
  split
  · next h =>
    constructor
    · intro h'; cases h'
    · rintro ⟨_, h1⟩; exact absurd h1.head h
  · next h =>
    have h : st.tok = k := Decidable.not_not.1 h
    rw [advance_fault, h]

theorem separator_fault {env : Env} {first : Bool} {st : St} {f : Fault} :
    separator env first st = .error (.fault f) ↔
      first = false ∧ f = .panic ∧ EndsAt env.alnum true st.tok st.rest [.comma] := by
  unfold separator
  cases first with
  | false => simp [mustBe_fault]
  | true => simp

theorem fieldIndex_fault {ix : List (Str × Nat)} {k : Json.Tok} {f : Fault} :
    fieldIndex ix k ≠ .error (.fault f) := by
  unfold fieldIndex
  split
  · split <;> (intro h; cases h)
  · intro h; cases h

theorem findCase_fault {cs : List (Str × (Nat × Parser))} {k : Json.Tok} {f : Fault} :
    findCase cs k ≠ .error (.fault f) := by
  unfold findCase
  split
  · split <;> (intro h; cases h)
  · intro h; cases h

/-! ## The fields that have not been read -/

theorem lastEntry_inj {fs : List (Str × Ty)} {l l' : Str} {i : Nat} (h : lastEntry l (numbered fs 0) = some i)
    (h' : lastEntry l' (numbered fs 0) = some i) : l = l' := by
  obtain ⟨f, h1, h2, _⟩ := fieldIndex_iff.1 h
  obtain ⟨g, h3, h4, _⟩ := fieldIndex_iff.1 h'
  rw [h1] at h3
  cases h3
  rw [← h2, h4]

theorem lastOf_iff {fs : List (Str × Ty)} {l : Str} {c : Ty} :
    LastOf fs l c ↔ ∃ i, lastEntry l (numbered fs 0) = some i ∧ fs[i]? = some (l, c) := by
  constructor
  · rintro ⟨i, h1, h2⟩
    exact ⟨i, fieldIndex_iff.2 ⟨_, h1, rfl, h2⟩, h1⟩
  · rintro ⟨i, h1, h2⟩
    obtain ⟨f, h3, _, h4⟩ := fieldIndex_iff.1 h1
    exact ⟨i, h2, h4⟩

theorem lastEntry_lt {fs : List (Str × Ty)} {l : Str} {i : Nat} (h : lastEntry l (numbered fs 0) = some i) :
    i < fs.length := by
  obtain ⟨f, h1, _⟩ := fieldIndex_iff.1 h
  exact (List.getElem?_eq_some_iff.1 h1).1

/-- The set has the fields whose labels have not been read. -/
structure Left (fs : List (Str × Ty)) (seen : List Str) (set : Nat) : Prop where
  nodup : seen.Nodup
  known : ∀ l ∈ seen, ∃ i, lastEntry l (numbered fs 0) = some i
  bits : ∀ i, set.testBit i = true ↔ i < fs.length ∧ ∀ l ∈ seen, lastEntry l (numbered fs 0) ≠ some i

theorem Left.start {fs : List (Str × Ty)} : Left fs [] (2 ^ fs.length - 1) := by
  refine ⟨List.nodup_nil, by simp, fun i => ?_⟩
  rw [Nat.testBit_two_pow_sub_one]
  simp

theorem Left.has {fs : List (Str × Ty)} {seen : List Str} {set i : Nat} {l : Str} (h : Left fs seen set)
    (hi : lastEntry l (numbered fs 0) = some i) : hasElement set i = true ↔ l ∉ seen := by
  rw [hasElement_eq, h.bits]
  constructor
  · rintro ⟨_, h1⟩ hl
    exact h1 l hl hi
  · intro hl
    refine ⟨lastEntry_lt hi, fun l' hl' h' => hl ?_⟩
    rw [lastEntry_inj hi h']
    exact hl'

theorem Left.clear {fs : List (Str × Ty)} {seen : List Str} {set i : Nat} {l : Str} (h : Left fs seen set)
    (hn : fs.length ≤ 63) (hi : lastEntry l (numbered fs 0) = some i) (hl : l ∉ seen) :
    Left fs (l :: seen) (clearElement set i) := by
  have hil := lastEntry_lt hi
  refine ⟨List.nodup_cons.2 ⟨hl, h.nodup⟩, ?_, fun j => ?_⟩
  · intro l' hl'
    rcases List.mem_cons.1 hl' with rfl | hl'
    · exact ⟨i, hi⟩
    · exact h.known l' hl'
  · by_cases hj : j < fs.length
    · rw [clearElement_testBit (by omega) j (by omega), Bool.and_eq_true, h.bits]
      simp only [hj, true_and, decide_eq_true_eq, List.mem_cons, forall_eq_or_imp, hi]
      constructor
      · rintro ⟨h1, h2⟩
        exact ⟨fun e => h2 (by cases e; rfl), h1⟩
      · rintro ⟨h1, h2⟩
        exact ⟨h2, fun e => h1 (by rw [e])⟩
    · constructor
      · intro hb
        refine absurd ?_ hj
        have : set.testBit j = true := by
          cases hb' : set.testBit j with
          | true => rfl
          | false => rw [clearElement_high hb'] at hb; cases hb
        exact ((h.bits j).1 this).1
      · rintro ⟨h1, _⟩
        exact absurd h1 hj

/-- The place of a label. -/
def placeOf (fs : List (Str × Ty)) (l : Str) : Nat := (lastEntry l (numbered fs 0)).getD 0

theorem Left.places {fs : List (Str × Ty)} {seen : List Str} {set : Nat} (h : Left fs seen set) :
    (seen.map (placeOf fs)).Nodup := by
  rw [List.Nodup, List.pairwise_map]
  refine List.Pairwise.imp_of_mem ?_ h.nodup
  intro a b ha hb hne e
  obtain ⟨i, hi⟩ := h.known a ha
  obtain ⟨j, hj⟩ := h.known b hb
  simp only [placeOf, hi, hj, Option.getD_some] at e
  subst e
  exact hne (lastEntry_inj hi hj)

theorem Left.le {fs : List (Str × Ty)} {seen : List Str} {set : Nat} (h : Left fs seen set) :
    seen.length ≤ fs.length := by
  have := h.places.length_le_of_subset (l₂ := List.range fs.length) (by
    intro i hi
    obtain ⟨l, hl, rfl⟩ := List.mem_map.1 hi
    obtain ⟨i, hi⟩ := h.known l hl
    simp only [placeOf, hi, Option.getD_some, List.mem_range]
    exact lastEntry_lt hi)
  simpa using this

theorem Left.zero {fs : List (Str × Ty)} {seen : List Str} {set : Nat} (h : Left fs seen set) :
    set = 0 ↔ seen.length = fs.length := by
  constructor
  · intro h0
    have := List.nodup_range.length_le_of_subset (l₁ := List.range fs.length) (l₂ := seen.map (placeOf fs)) (by
      intro i hi
      have hi := List.mem_range.1 hi
      have hb : ¬ set.testBit i = true := by rw [h0]; simp
      rw [h.bits] at hb
      simp only [hi, true_and, Classical.not_forall, Decidable.not_not] at hb
      obtain ⟨l, hl, e⟩ := hb
      exact List.mem_map.2 ⟨l, hl, by rw [placeOf, e]; rfl⟩)
    rw [List.length_range, List.length_map] at this
    have := h.le
    omega
  · intro he
    rw [zero_iff_testBit]
    intro i
    cases hb : set.testBit i with
    | false => rfl
    | true =>
      obtain ⟨h1, h2⟩ := (h.bits i).1 hb
      have hn : (i :: seen.map (placeOf fs)).Nodup := by
        refine List.nodup_cons.2 ⟨?_, h.places⟩
        intro hm
        obtain ⟨l, hl, e⟩ := List.mem_map.1 hm
        obtain ⟨j, hj⟩ := h.known l hl
        simp only [placeOf, hj, Option.getD_some] at e
        subst e
        exact h2 l hl hj
      have := hn.length_le_of_subset (l₂ := List.range fs.length) (by
        intro j hj
        rcases List.mem_cons.1 hj with rfl | hj
        · exact List.mem_range.2 h1
        · obtain ⟨l, hl, rfl⟩ := List.mem_map.1 hj
          obtain ⟨i, hi⟩ := h.known l hl
          simp only [placeOf, hi, Option.getD_some, List.mem_range]
          exact lastEntry_lt hi)
      rw [List.length_cons, List.length_map, List.length_range] at this
      omega

/-! ## A panic happens at one of the places -/

/-- A panic of the parser comes where `Asks` says. -/
def Dies (env : Env) (p : Path) (t : Ty) : Prop :=
  ∀ st f, parserFor env p t st = .error (.fault f) → f = .panic ∧
    ∃ b ks, Asks env.floats (env.chk = false) b (.doc t) ks ∧ EndsAt env.alnum b st.tok st.rest ks

theorem tuple_dies {env : Env} {p : Path} : ∀ (cs : List Ty) (k : Nat) (first : Bool) (st : St) (f : Fault),
    (∀ c ∈ cs, ∀ q, Dies env q c) →
    (tupleLoop env (parsersL env p cs k) first st >>= mustBe env .endArray) = .error (.fault f) → f = .panic ∧
      ∃ b ks, Asks env.floats (env.chk = false) b (.elems first cs) ks ∧ EndsAt env.alnum b st.tok st.rest ks
  | [], k, first, st, f, _, h => by
    simp only [parsersL, tupleLoop, Parse.bind_ok] at h
    obtain ⟨h1, h2⟩ := mustBe_fault.1 h
    exact ⟨h1, _, _, .elemsEnd, h2⟩
  | c :: cs, k, first, st, f, ih, h => by
    simp only [parsersL, tupleLoop, bind_assoc] at h
    rcases Parse.bind_eq_fault.1 h with h | ⟨st1, h1, h⟩
    · obtain ⟨rfl, h1, h2⟩ := separator_fault.1 h
      exact ⟨h1, _, _, .elemsComma, h2⟩
    · obtain ⟨g1, _⟩ := separator_iff.1 h1
      rcases Parse.bind_eq_fault.1 h with h | ⟨st2, h2, h⟩
      · obtain ⟨h3, b, ks, h4, h5⟩ := ih c (.head _) _ _ _ h
        exact ⟨h3, b, _, .elem h4, EndsAt.append g1 h5⟩
      · obtain ⟨tr, v, g2, d2, _⟩ := parser_sound _ _ _ _ h2
        obtain ⟨h3, b, ks, h4, h5⟩ := tuple_dies cs (k + 1) false st2 f (fun c hc => ih c (.tail _ hc)) h
        exact ⟨h3, b, _, .elemDone d2 h4, EndsAt.append (Goes.append g1 g2) h5⟩

theorem struct_dies {env : Env} {p : Path} {fs : List (Str × Ty)} (hn : fs.length ≤ 63)
    (ih : ∀ f ∈ fs, ∀ q, Dies env q f.2) : ∀ (n set : Nat) (first : Bool) (seen : List Str) (st : St) (f : Fault),
    Left fs seen set →
    (structLoop env (numbered fs 0) (parsersF env p fs 0) n set first st >>= mustBe env .endObject) =
      .error (.fault f) → f = .panic ∧
      ∃ b ks, Asks env.floats (env.chk = false) b (.members first fs seen) ks ∧
        EndsAt env.alnum b st.tok st.rest ks
  | 0, set, first, seen, st, f, hl, h => by
    rw [structLoop] at h
    split at h
    · next h0 =>
      obtain ⟨h1, h2⟩ := mustBe_fault.1 h
      exact ⟨h1, _, _, .membersEnd (hl.zero.1 h0), h2⟩
    · cases h
  | n + 1, set, first, seen, st, f, hl, h => by
    rw [structLoop] at h
    split at h
    · next h0 =>
      obtain ⟨h1, h2⟩ := mustBe_fault.1 h
      exact ⟨h1, _, _, .membersEnd (hl.zero.1 h0), h2⟩
    · next h0 =>
      rw [bind_assoc] at h
      rcases Parse.bind_eq_fault.1 h with h | ⟨st1, h1, h⟩
      · obtain ⟨rfl, h1, h2⟩ := separator_fault.1 h
        refine ⟨h1, _, _, .membersComma ?_, h2⟩
        have := hl.le
        have : seen.length ≠ fs.length := fun e => h0 (hl.zero.2 e)
        omega
      · obtain ⟨g1, _⟩ := separator_iff.1 h1
        rw [bind_assoc] at h
        rcases Parse.bind_eq_fault.1 h with h | ⟨i, h2, h⟩
        · exact absurd h fieldIndex_fault
        · obtain ⟨l, hl1, hi⟩ := fieldIndex_ok.1 h2
          split at h
          · next hb =>
            have hns := (hl.has hi).1 hb
            obtain ⟨⟨l', c⟩, hf, rfl, hlast⟩ := fieldIndex_iff.1 hi
            have hlo : LastOf fs l' c := ⟨i, hf, hlast⟩
            simp only [bind_assoc] at h
            rcases Parse.bind_eq_fault.1 h with h | ⟨st2, h3, h⟩
            · obtain ⟨h3, h4⟩ := advance_fault.1 h
              rw [hl1] at h4
              exact ⟨h3, _, _, .label hlo hns, by rw [← hl1] at h4 ⊢; exact EndsAt.append g1 h4⟩
            · obtain ⟨g3, _⟩ := advance_iff.1 h3
              rw [hl1] at g3
              rcases Parse.bind_eq_fault.1 h with h | ⟨st3, h4, h⟩
              · obtain ⟨h4, h5⟩ := mustBe_fault.1 h
                exact ⟨h4, _, _, .colon hlo hns, EndsAt.append g1 (EndsAt.append g3 h5)⟩
              · obtain ⟨g4, _⟩ := mustBe_iff.1 h4
                have g : Goes env st (lead first ++ [.string l', .colon]) st3 :=
                  Goes.append g1 (Goes.append g3 g4)
                have hp : (parsersF env p fs 0)[i]? = some (parserFor env (p ++ [i]) c) := by
                  rw [parsersF_get, hf]; simp
                simp only [fieldParser, hp] at h
                rcases Parse.bind_eq_fault.1 h with h | ⟨st4, h5, h⟩
                · obtain ⟨h6, b, ks, h7, h8⟩ := ih _ (List.mem_of_getElem? hf) _ _ _ h
                  exact ⟨h6, b, _, .member hlo hns h7, EndsAt.append g h8⟩
                · obtain ⟨tr, v, g5, d5, _⟩ := parser_sound _ _ _ _ h5
                  obtain ⟨h6, b, ks, h7, h8⟩ := struct_dies hn ih n _ false (l' :: seen) st4 f
                    (hl.clear hn hi hns) h
                  refine ⟨h6, b, _, .memberDone hlo hns d5 h7, ?_⟩
                  have e : lead first ++ memberToks (l', tr) ++ ks =
                      (lead first ++ [.string l', .colon] ++ tr.toks) ++ ks := by
                    simp [memberToks]
                  rw [e]
                  exact EndsAt.append (Goes.append g g5) h8
          · cases h

theorem prim_dies {env : Env} {p : Path} {q : Prim} : Dies env p (.prim q) := by
  intro st f h
  have hnum : parsePrimitiveNumber env q p st = .error (.fault f) → f = .panic ∧
      ∃ b ks, Asks env.floats (env.chk = false) b (.doc (.prim q)) ks ∧ EndsAt env.alnum b st.tok st.rest ks := by
    intro h
    unfold parsePrimitiveNumber at h
    have key : ∀ (s : Str), (∀ v, v.kind = q → NumText env.floats s v →
          Asks env.floats (env.chk = false) true (.doc (.prim q)) [st.tok]) →
        (match fromStr env.floats q s with
          | some v => advance env { st with out := st.out.addPrimitive p v }
          | none => fail) = .error (.fault f) →
        f = .panic ∧ ∃ b ks, Asks env.floats (env.chk = false) b (.doc (.prim q)) ks ∧
          EndsAt env.alnum b st.tok st.rest ks := by
      intro s hd h
      split at h
      · next v hv =>
        obtain ⟨g, o⟩ := advance_out_fault.1 h
        obtain ⟨h1, h2⟩ := fromStr_iff.1 hv
        exact ⟨g, _, _, hd v h1 h2, o⟩
      · cases h
    split at h
    · next s hs => exact key s (fun v h1 h2 => by rw [hs, ← h1]; exact .numStr h2) h
    · next s hs => exact key s (fun v h1 h2 => by rw [hs, ← h1]; exact .num h2) h
    · cases h
  by_cases hb : q = .bool
  · subst hb
    simp only [parserFor, primitiveParser] at h
    split at h
    · next hs =>
      obtain ⟨g, o⟩ := advance_out_fault.1 h
      exact ⟨g, _, _, .bool true, by rw [hs] at o ⊢; exact o⟩
    · next hs =>
      obtain ⟨g, o⟩ := advance_out_fault.1 h
      exact ⟨g, _, _, .bool false, by rw [hs] at o ⊢; exact o⟩
    · cases h
  · by_cases hc : q = .char
    · subst hc
      simp only [parserFor, primitiveParser] at h
      split at h
      · next s hs =>
        split at h
        · rcases Parse.bind_eq_fault.1 h with h | ⟨_, _, h⟩
          · obtain ⟨g, o⟩ := advance_fault.1 h
            exact ⟨g, _, _, .char s, by rw [hs] at o ⊢; exact o⟩
          · cases h
        · next c hc =>
          obtain ⟨g, o⟩ := advance_out_fault.1 h
          exact ⟨g, _, _, .char s, by rw [hs] at o ⊢; exact o⟩
      · cases h
    · refine hnum ?_
      rw [← h, parserFor]
      cases q <;> first | exact absurd rfl hb | exact absurd rfl hc | rfl

theorem enum_dies {env : Env} {p : Path} {cs : List (Str × Ty)} (ih : ∀ c ∈ cs, ∀ q, Dies env q c.2) :
    Dies env p (.enum cs) := by
  intro st f h
  simp only [parserFor, enumParser] at h
  rcases Parse.bind_eq_fault.1 h with h | ⟨st1, h1, h⟩
  · obtain ⟨h1, h2⟩ := mustBe_fault.1 h
    exact ⟨h1, _, _, .kind (ks := [.beginObject]) (by simp) (by simp), h2⟩
  obtain ⟨g1, _⟩ := mustBe_iff.1 h1
  rcases Parse.bind_eq_fault.1 h with h | ⟨st2, h2, h⟩
  · obtain ⟨h1, h2⟩ := mustBe_fault.1 h
    exact ⟨h1, _, _, .kind (by simp) (by simp), EndsAt.append g1 h2⟩
  obtain ⟨g2, _⟩ := mustBe_iff.1 h2
  replace g2 := g1.append g2
  rcases Parse.bind_eq_fault.1 h with h | ⟨st3, h3, h⟩
  · obtain ⟨h1, h2⟩ := mustBe_fault.1 h
    exact ⟨h1, _, _, .kind (by simp) (by simp), EndsAt.append g2 h2⟩
  obtain ⟨g3, _⟩ := mustBe_iff.1 h3
  replace g3 := g2.append g3
  rcases Parse.bind_eq_fault.1 h with h | ⟨⟨i, P⟩, h4, h⟩
  · exact absurd h findCase_fault
  obtain ⟨l, hl, hi⟩ := findCase_ok.1 h4
  obtain ⟨⟨l', c⟩, hc, rfl, rfl, hlast⟩ := findCase_iff.1 hi
  have hlo : LastOf cs l' c := ⟨i, hc, hlast⟩
  simp only at h
  rcases Parse.bind_eq_fault.1 h with h | ⟨st4, h5, h⟩
  · obtain ⟨h1, h2⟩ := advance_out_fault.1 h
    rw [hl] at h2
    refine ⟨h1, _, _, .case hlo (ks := [.beginObject, .string ['k', 'i', 'n', 'd'], .colon, .string l']) (by simp)
      (by simp [caseToks]), ?_⟩
    rw [← hl] at h2 ⊢
    exact EndsAt.append g3 h2
  obtain ⟨g5, _⟩ := advance_out_iff.1 h5
  rw [hl] at g5
  replace g5 := g3.append g5
  rcases Parse.bind_eq_fault.1 h with h | ⟨st5, h6, h⟩
  · obtain ⟨h1, h2⟩ := mustBe_fault.1 h
    exact ⟨h1, _, _, .case hlo (by simp) (by simp [caseToks]), EndsAt.append g5 h2⟩
  obtain ⟨g6, _⟩ := mustBe_iff.1 h6
  replace g6 := g5.append g6
  rcases Parse.bind_eq_fault.1 h with h | ⟨st6, h7, h⟩
  · obtain ⟨h1, h2⟩ := mustBe_fault.1 h
    exact ⟨h1, _, _, .case hlo (by simp) (by simp [caseToks]), EndsAt.append g6 h2⟩
  obtain ⟨g7, _⟩ := mustBe_iff.1 h7
  replace g7 := g6.append g7
  rcases Parse.bind_eq_fault.1 h with h | ⟨st7, h8, h⟩
  · obtain ⟨h1, h2⟩ := mustBe_fault.1 h
    exact ⟨h1, _, _, .case hlo (by simp) (by simp [caseToks]), EndsAt.append g7 h2⟩
  obtain ⟨g8, _⟩ := mustBe_iff.1 h8
  replace g8 : Goes env st (caseToks l') st7 := g7.append g8
  rcases Parse.bind_eq_fault.1 h with h | ⟨st8, h9, h⟩
  · obtain ⟨h1, b, ks, h2, h3⟩ := ih _ (List.mem_of_getElem? hc) _ _ _ h
    exact ⟨h1, b, _, .value hlo h2, EndsAt.append g8 h3⟩
  obtain ⟨tr, v, g9, d9, _⟩ := parser_sound _ _ _ _ h9
  obtain ⟨h1, h2⟩ := mustBe_fault.1 h
  exact ⟨h1, _, _, .caseEnd hlo d9, EndsAt.append (g8.append g9) h2⟩

theorem parser_dies {env : Env} (t : Ty) : ∀ p, Dies env p t := by
  induction t using Ty.ind with
  | unit =>
    intro p st f h
    simp only [parserFor, nullParser] at h
    split at h
    · next hs =>
      obtain ⟨h1, h2⟩ := advance_fault.1 h
      exact ⟨h1, _, _, .null, by rw [hs] at h2 ⊢; exact h2⟩
    · cases h
  | prim q => intro p; exact prim_dies
  | string =>
    intro p st f h
    simp only [parserFor, stringParser] at h
    split at h
    · next s hs =>
      obtain ⟨h1, h2⟩ := advance_out_fault.1 h
      exact ⟨h1, _, _, .string s, by rw [hs] at h2 ⊢; exact h2⟩
    · cases h
  | tuple cs ih =>
    intro p st f h
    simp only [parserFor, tupleParser] at h
    rcases Parse.bind_eq_fault.1 h with h | ⟨st1, h1, h⟩
    · obtain ⟨h1, h2⟩ := mustBe_fault.1 h
      exact ⟨h1, _, _, .array, h2⟩
    · obtain ⟨g1, _⟩ := mustBe_iff.1 h1
      obtain ⟨h2, b, ks, h3, h4⟩ := tuple_dies cs 0 true st1 f ih h
      exact ⟨h2, b, _, .elems h3, EndsAt.append g1 h4⟩
  | struct fs ih =>
    intro p st f h
    simp only [parserFor, structParser] at h
    rcases Parse.bind_eq_fault.1 h with h | ⟨st1, h1, h⟩
    · obtain ⟨h1, h2⟩ := mustBe_fault.1 h
      exact ⟨h1, _, _, .object, h2⟩
    · obtain ⟨g1, _⟩ := mustBe_iff.1 h1
      rw [parsersF_length] at h
      by_cases hn : fs.length ≤ 63
      · rw [newWithElements_small hn, Parse.bind_ok] at h
        obtain ⟨h2, b, ks, h3, h4⟩ := struct_dies hn ih _ _ _ [] st1 f Left.start h
        exact ⟨h2, b, _, .members hn h3, EndsAt.append g1 h4⟩
      · unfold newWithElements at h
        have hopen : EndsAt env.alnum false st.tok st.rest [.beginObject] := by
          have e := Reads.head g1
          unfold Goes at g1
          rw [e] at g1 ⊢
          cases g1 with
          | cons hn _ => exact .opened hn
        split at h
        · next h64 =>
          cases h
          exact ⟨rfl, _, _, .wide (.inl h64), hopen⟩
        · rw [if_pos (by omega)] at h
          split at h
          · next hc =>
            cases h
            exact ⟨rfl, _, _, .wide (.inr ⟨by omega, by simp [hc]⟩), hopen⟩
          · next hc =>
            rw [Parse.bind_ok] at h
            rw [show (64 : Nat) = 63 + 1 from rfl, structLoop, if_pos rfl, Parse.bind_ok] at h
            obtain ⟨h2, h3⟩ := mustBe_fault.1 h
            exact ⟨h2, _, _, .gap (by simpa using hc) (by omega), EndsAt.append g1 h3⟩
  | enum cs ih => intro p; exact enum_dies ih

/-! ## There is a panic at each of the places -/

/-- What the parsers do at a place. -/
def Breaks (env : Env) (b : Bool) (ks : List Json.Tok) : Place → Prop
  | .doc t => ∀ p st, EndsAt env.alnum b st.tok st.rest ks → parserFor env p t st = .error (.fault .panic)
  | .elems first cs => ∀ p k st, EndsAt env.alnum b st.tok st.rest ks →
      (tupleLoop env (parsersL env p cs k) first st >>= mustBe env .endArray) = .error (.fault .panic)
  | .members first fs seen => ∀ p n set st, fs.length ≤ 63 → n + seen.length = 64 → Left fs seen set →
      EndsAt env.alnum b st.tok st.rest ks →
      (structLoop env (numbered fs 0) (parsersF env p fs 0) n set first st >>= mustBe env .endObject) =
        .error (.fault .panic)

theorem mustBe_dies {env : Env} {k : Json.Tok} {st : St} (h : EndsAt env.alnum true st.tok st.rest [k]) :
    mustBe env k st = .error (.fault .panic) := mustBe_fault.2 ⟨rfl, h⟩

/-- One more token is needed, and used. -/
theorem mustBe_step {env : Env} {b : Bool} {k : Json.Tok} {ks : List Json.Tok} {st : St} (hk : ks ≠ [])
    (h : EndsAt env.alnum b st.tok st.rest (k :: ks)) :
    ∃ st', mustBe env k st = .ok st' ∧ EndsAt env.alnum b st'.tok st'.rest ks := by
  obtain ⟨k1, s1, h1, h2⟩ := EndsAt.split (a := [k]) hk h
  exact ⟨⟨k1, s1, st.out⟩, mustBe_iff.2 ⟨h1, rfl⟩, h2⟩

theorem separator_step {env : Env} {b first : Bool} {ks : List Json.Tok} {st : St} (hk : ks ≠ [])
    (h : EndsAt env.alnum b st.tok st.rest (lead first ++ ks)) :
    ∃ st', separator env first st = .ok st' ∧ EndsAt env.alnum b st'.tok st'.rest ks := by
  obtain ⟨k1, s1, h1, h2⟩ := EndsAt.split hk h
  exact ⟨⟨k1, s1, st.out⟩, separator_iff.2 ⟨h1, rfl⟩, h2⟩

theorem advance_step {env : Env} {b : Bool} {k : Json.Tok} {ks : List Json.Tok} {st : St}
    {o : IntermediateDataSource} (hk : ks ≠ []) (h : EndsAt env.alnum b st.tok st.rest (k :: ks)) :
    ∃ st', advance env { st with out := o } = .ok st' ∧ EndsAt env.alnum b st'.tok st'.rest ks := by
  obtain ⟨k1, s1, h1, h2⟩ := EndsAt.split (a := [k]) hk h
  have e := h.head
  exact ⟨⟨k1, s1, o⟩, advance_out_iff.2 ⟨by rw [e]; exact h1, rfl⟩, h2⟩

theorem parser_step {env : Env} {b : Bool} {t : Ty} {tr : Tree} {v : Val} {ks : List Json.Tok} {st : St}
    (p : Path) (ht : Takes env.floats (env.chk = false) t tr v) (hk : ks ≠ [])
    (h : EndsAt env.alnum b st.tok st.rest (tr.toks ++ ks)) :
    ∃ st', parserFor env p t st = .ok st' ∧ EndsAt env.alnum b st'.tok st'.rest ks := by
  obtain ⟨k1, s1, h1, h2⟩ := EndsAt.split hk h
  obtain ⟨d, hd, _⟩ := parser_complete t p st tr v k1 s1 h1 ht
  exact ⟨_, hd, h2⟩

/-- The loop reaches the value of a member. -/
theorem struct_loop_at {env : Env} {p : Path} {fs : List (Str × Ty)} {seen : List Str} {set n : Nat}
    {first : Bool} {l : Str} {c : Ty} {st : St} {b : Bool} {ks : List Json.Tok}
    (hn : n + seen.length = 64) (h63 : fs.length ≤ 63) (hl : Left fs seen set)
    (hlo : LastOf fs l c) (hns : l ∉ seen) (hk : ks ≠ [])
    (h : EndsAt env.alnum b st.tok st.rest (lead first ++ ks)) (h0 : ∀ k ∈ ks.head?, k = .string l) :
    ∃ m i st1, n = m + 1 ∧ lastEntry l (numbered fs 0) = some i ∧
      EndsAt env.alnum b st1.tok st1.rest ks ∧
      structLoop env (numbered fs 0) (parsersF env p fs 0) n set first st = (do
        let st ← advance env st1
        let st ← mustBe env .colon st
        let st ← parserFor env (p ++ [i]) c st
        structLoop env (numbered fs 0) (parsersF env p fs 0) m (clearElement set i) false st) := by
  obtain ⟨i, hi, hf⟩ := lastOf_iff.1 hlo
  obtain ⟨st1, h1, h2⟩ := separator_step hk h
  have hle := hl.le
  cases n with
  | zero => omega
  | succ m =>
    refine ⟨m, i, st1, rfl, hi, h2, ?_⟩
    have hb := (hl.has hi).2 hns
    have hz : set ≠ 0 := by
      rintro rfl
      rw [hasElement_eq, Nat.zero_testBit] at hb
      cases hb
    have ht : st1.tok = .string l := by
      cases ks with
      | nil => exact absurd rfl hk
      | cons k ks =>
        rw [h2.head]
        exact h0 k rfl
    have hp : (parsersF env p fs 0)[i]? = some (parserFor env (p ++ [i]) c) := by
      rw [parsersF_get, hf]; simp
    rw [structLoop, if_neg hz, h1, Parse.bind_ok, fieldIndex_ok.2 ⟨l, ht, hi⟩, Parse.bind_ok, if_pos hb]
    simp only [fieldParser, hp]

theorem findCase_of {env : Env} {p : Path} {cs : List (Str × Ty)} {l : Str} {c : Ty} (hlo : LastOf cs l c) :
    ∃ i, findCase (parsersE env p cs 0) (.string l) = .ok (i, parserFor env (p ++ [i]) c) := by
  obtain ⟨i, h1, h2⟩ := hlo
  exact ⟨i, findCase_ok.2 ⟨l, rfl, findCase_iff.2 ⟨_, h1, rfl, rfl, h2⟩⟩⟩

/-- The parser of an enum reaches the value. -/
theorem enum_at {env : Env} {p : Path} {cs : List (Str × Ty)} {l : Str} {c : Ty} {st : St} {b : Bool}
    {ks : List Json.Tok} (hlo : LastOf cs l c) (hk : ks ≠ [])
    (h : EndsAt env.alnum b st.tok st.rest (caseToks l ++ ks)) :
    ∃ i st1, EndsAt env.alnum b st1.tok st1.rest ks ∧
      parserFor env p (.enum cs) st = (do
        let st ← parserFor env (p ++ [i]) c st1
        mustBe env .endObject st) := by
  obtain ⟨i, hi⟩ := findCase_of (env := env) (p := p) hlo
  obtain ⟨st1, e1, h⟩ := mustBe_step (by simp) h
  obtain ⟨st2, e2, h⟩ := mustBe_step (by simp) h
  obtain ⟨st3, e3, h⟩ := mustBe_step (by simp) h
  rw [← h.head] at hi
  obtain ⟨st4, e4, h⟩ := advance_step (o := st3.out.addCaseTag p i) (by simp) h
  obtain ⟨st5, e5, h⟩ := mustBe_step (by simp) h
  obtain ⟨st6, e6, h⟩ := mustBe_step (by simp) h
  obtain ⟨st7, e7, h⟩ := mustBe_step hk h
  refine ⟨i, st7, h, ?_⟩
  simp only [parserFor, enumParser]
  rw [e1, Parse.bind_ok, show ['k', 'i', 'n', 'd'] = "kind".toList from rfl, e2, Parse.bind_ok, e3, Parse.bind_ok,
    hi, Parse.bind_ok]
  simp only
  rw [e4, Parse.bind_ok, e5, Parse.bind_ok, show ['v', 'a', 'l', 'u', 'e'] = "value".toList from rfl, e6,
    Parse.bind_ok, e7, Parse.bind_ok]

/-- The parser of an enum before the value. -/
theorem enum_prefix {env : Env} {p : Path} {cs : List (Str × Ty)} {l : Str} {st : St} {ks : List Json.Tok}
    (hk : ks ≠ []) (hlo : (∃ c, LastOf cs l c) ∨ ks.length ≤ 3) (hp : ks <+: caseToks l)
    (h : EndsAt env.alnum true st.tok st.rest ks) : parserFor env p (.enum cs) st = .error (.fault .panic) := by
  simp only [parserFor, enumParser]
  rw [show ['k', 'i', 'n', 'd'] = "kind".toList from rfl, show ['v', 'a', 'l', 'u', 'e'] = "value".toList from rfl]
  rcases ks with _ | ⟨k, ks⟩
  · exact absurd rfl hk
  obtain ⟨rfl, hp1⟩ := List.cons_prefix_cons.1 hp
  by_cases hk1 : ks = []
  · subst hk1
    rw [mustBe_dies h]; rfl
  obtain ⟨st1, e1, h1⟩ := mustBe_step hk1 h
  rw [e1, Parse.bind_ok]
  rcases ks with _ | ⟨k, ks⟩
  · exact absurd rfl hk1
  obtain ⟨rfl, hp2⟩ := List.cons_prefix_cons.1 hp1
  by_cases hk2 : ks = []
  · subst hk2
    rw [mustBe_dies h1]; rfl
  obtain ⟨st2, e2, h2⟩ := mustBe_step hk2 h1
  rw [e2, Parse.bind_ok]
  rcases ks with _ | ⟨k, ks⟩
  · exact absurd rfl hk2
  obtain ⟨rfl, hp3⟩ := List.cons_prefix_cons.1 hp2
  by_cases hk3 : ks = []
  · subst hk3
    rw [mustBe_dies h2]; rfl
  obtain ⟨st3, e3, h3⟩ := mustBe_step hk3 h2
  rw [e3, Parse.bind_ok]
  rcases ks with _ | ⟨k, ks⟩
  · exact absurd rfl hk3
  obtain ⟨rfl, hp4⟩ := List.cons_prefix_cons.1 hp3
  obtain ⟨c, hlo⟩ := hlo.resolve_right (by simp)
  obtain ⟨i, hi⟩ := findCase_of (env := env) (p := p) hlo
  rw [← h3.head] at hi
  rw [hi, Parse.bind_ok]
  simp only
  by_cases hk4 : ks = []
  · subst hk4
    rw [advance_out_fault.2 ⟨rfl, .stuck h3.one⟩]; rfl
  obtain ⟨st4, e4, h4⟩ := advance_step (o := st3.out.addCaseTag p i) hk4 h3
  rw [e4, Parse.bind_ok]
  rcases ks with _ | ⟨k, ks⟩
  · exact absurd rfl hk4
  obtain ⟨rfl, hp5⟩ := List.cons_prefix_cons.1 hp4
  by_cases hk5 : ks = []
  · subst hk5
    rw [mustBe_dies h4]; rfl
  obtain ⟨st5, e5, h5⟩ := mustBe_step hk5 h4
  rw [e5, Parse.bind_ok]
  rcases ks with _ | ⟨k, ks⟩
  · exact absurd rfl hk5
  obtain ⟨rfl, hp6⟩ := List.cons_prefix_cons.1 hp5
  by_cases hk6 : ks = []
  · subst hk6
    rw [mustBe_dies h5]; rfl
  obtain ⟨st6, e6, h6⟩ := mustBe_step hk6 h5
  rw [e6, Parse.bind_ok]
  rcases ks with _ | ⟨k, ks⟩
  · exact absurd rfl hk6
  obtain ⟨rfl, hp7⟩ := List.cons_prefix_cons.1 hp6
  obtain rfl := List.prefix_nil.1 hp7
  rw [mustBe_dies h6]; rfl

theorem asks_breaks {env : Env} {b : Bool} {pl : Place} {ks : List Json.Tok}
    (h : Asks env.floats (env.chk = false) b pl ks) : ks ≠ [] ∧ Breaks env b ks pl := by
  induction h with
  | null =>
    refine ⟨by simp, fun p st h => ?_⟩
    have e := h.head
    simp only [parserFor, nullParser, e]
    exact advance_fault.2 ⟨rfl, .stuck h.one⟩
  | bool b =>
    refine ⟨by simp, fun p st h => ?_⟩
    have e := h.head
    cases b
    · simp only [cond_false] at e
      simp only [parserFor, primitiveParser, e]
      exact advance_fault.2 ⟨rfl, .stuck h.one⟩
    · simp only [cond_true] at e
      simp only [parserFor, primitiveParser, e]
      exact advance_fault.2 ⟨rfl, .stuck h.one⟩
  | char s =>
    refine ⟨by simp, fun p st h => ?_⟩
    have e := h.head
    simp only [parserFor, primitiveParser, e]
    split
    · rw [advance_fault.2 ⟨rfl, .stuck h.one⟩]; rfl
    · exact advance_fault.2 ⟨rfl, .stuck h.one⟩
  | @num s v hv =>
    refine ⟨by simp, fun p st h => ?_⟩
    have e := h.head
    have hf := fromStr_iff.2 ⟨rfl, hv⟩
    have : parserFor env p (.prim v.kind) st = parsePrimitiveNumber env v.kind p st := by
      rw [parserFor]
      cases hk : v.kind <;> first | rfl | (rw [hk] at hf; cases hf)
    rw [this]
    simp only [parsePrimitiveNumber, e, hf]
    exact advance_fault.2 ⟨rfl, .stuck h.one⟩
  | @numStr s v hv =>
    refine ⟨by simp, fun p st h => ?_⟩
    have e := h.head
    have hf := fromStr_iff.2 ⟨rfl, hv⟩
    have : parserFor env p (.prim v.kind) st = parsePrimitiveNumber env v.kind p st := by
      rw [parserFor]
      cases hk : v.kind <;> first | rfl | (rw [hk] at hf; cases hf)
    rw [this]
    simp only [parsePrimitiveNumber, e, hf]
    exact advance_fault.2 ⟨rfl, .stuck h.one⟩
  | string s =>
    refine ⟨by simp, fun p st h => ?_⟩
    have e := h.head
    simp only [parserFor, stringParser, e]
    exact advance_fault.2 ⟨rfl, .stuck h.one⟩
  | array =>
    refine ⟨by simp, fun p st h => ?_⟩
    simp only [parserFor, tupleParser]
    rw [mustBe_dies h]; rfl
  | elems _ ih =>
    refine ⟨by simp, fun p st h => ?_⟩
    obtain ⟨st1, h1, h2⟩ := mustBe_step ih.1 h
    simp only [parserFor, tupleParser]
    rw [h1]
    exact ih.2 p 0 st1 h2
  | elemsComma =>
    refine ⟨by simp, fun p k st h => ?_⟩
    simp only [parsersL, tupleLoop]
    rw [separator_fault.2 ⟨rfl, rfl, h⟩]; rfl
  | elem _ ih =>
    refine ⟨by simp [ih.1], fun p k st h => ?_⟩
    obtain ⟨st1, h1, h2⟩ := separator_step ih.1 h
    simp only [parsersL, tupleLoop]
    rw [h1, Parse.bind_ok, ih.2 _ st1 h2]; rfl
  | elemDone ht _ ih =>
    refine ⟨by simp [ih.1], fun p k st h => ?_⟩
    rw [List.append_assoc] at h
    obtain ⟨st1, h1, h2⟩ := separator_step (by simp [ih.1]) h
    obtain ⟨st2, h3, h4⟩ := parser_step (p ++ [k]) ht ih.1 h2
    simp only [parsersL, tupleLoop]
    rw [h1, Parse.bind_ok, h3, Parse.bind_ok]
    exact ih.2 _ _ st2 h4
  | elemsEnd =>
    refine ⟨by simp, fun p k st h => ?_⟩
    simp only [parsersL, tupleLoop, Parse.bind_ok]
    exact mustBe_dies h
  | object =>
    refine ⟨by simp, fun p st h => ?_⟩
    simp only [parserFor, structParser]
    rw [mustBe_dies h]; rfl
  | @wide fs hw =>
    refine ⟨by simp, fun p st h => ?_⟩
    have hn : newWithElements env.chk fs.length = .error (.fault .panic) := by
      unfold newWithElements
      rcases hw with hw | ⟨hw, hc⟩
      · rw [if_pos hw]; rfl
      · rw [if_neg (by omega), if_pos hw, if_pos (by simpa using hc)]; rfl
    have hr : ∃ k s, Reads env.alnum st.tok st.rest [.beginObject] k s := by
      have e := h.head
      rw [e] at h ⊢
      cases h with
      | opened hn => exact ⟨_, _, .cons hn .nil⟩
      | cons hn h => exact absurd rfl h.ne
    obtain ⟨k, s, hr⟩ := hr
    have h1 : mustBe env .beginObject st = .ok ⟨k, s, st.out⟩ := mustBe_iff.2 ⟨hr, rfl⟩
    simp only [parserFor, structParser]
    rw [h1, Parse.bind_ok, parsersF_length, hn]; rfl
  | @gap fs hlax hn =>
    refine ⟨by simp, fun p st h => ?_⟩
    obtain ⟨st1, h1, h2⟩ := mustBe_step (by simp) h
    have hz : newWithElements env.chk fs.length = .ok 0 := by
      unfold newWithElements
      rw [if_neg (by omega), if_pos hn, if_neg (by simp [hlax])]
    simp only [parserFor, structParser]
    rw [h1, Parse.bind_ok, parsersF_length, hz, Parse.bind_ok, show (64 : Nat) = 63 + 1 from rfl, structLoop,
      if_pos rfl, Parse.bind_ok]
    exact mustBe_dies h2
  | @members b fs ks hn _ ih =>
    refine ⟨by simp, fun p st h => ?_⟩
    obtain ⟨st1, h1, h2⟩ := mustBe_step ih.1 h
    simp only [parserFor, structParser]
    rw [h1, Parse.bind_ok, parsersF_length, newWithElements_small hn, Parse.bind_ok]
    exact ih.2 p 64 _ st1 hn rfl Left.start h2
  | @membersComma fs seen hlt =>
    refine ⟨by simp, fun p n set st h63 hn hl h => ?_⟩
    cases n with
    | zero => omega
    | succ n =>
      have hz : set ≠ 0 := fun h0 => by
        have := hl.zero.1 h0
        omega
      rw [structLoop, if_neg hz, separator_fault.2 ⟨rfl, rfl, h⟩]; rfl
  | label hlo hns =>
    refine ⟨by simp, fun p n set st h63 hn hl h => ?_⟩
    obtain ⟨m, i, st1, _, hi, h1, h2⟩ := struct_loop_at (p := p) hn h63 hl hlo hns (by simp) h (by simp)
    rw [h2, advance_fault.2 ⟨rfl, .stuck h1.one⟩]; rfl
  | colon hlo hns =>
    refine ⟨by simp, fun p n set st h63 hn hl h => ?_⟩
    obtain ⟨m, i, st1, _, hi, h1, h2⟩ := struct_loop_at (p := p) hn h63 hl hlo hns (by simp) h (by simp)
    obtain ⟨st2, h3, h4⟩ := advance_step (o := st1.out) (by simp) h1
    rw [h2, h3, Parse.bind_ok, mustBe_dies h4]; rfl
  | member hlo hns _ ih =>
    refine ⟨by simp, fun p n set st h63 hn hl h => ?_⟩
    rw [List.append_assoc] at h
    obtain ⟨m, i, st1, _, hi, h1, h2⟩ := struct_loop_at (p := p) hn h63 hl hlo hns (by simp) h (by simp)
    obtain ⟨st2, h3, h4⟩ := advance_step (o := st1.out) (by simp) h1
    obtain ⟨st3, h5, h6⟩ := mustBe_step ih.1 h4
    rw [h2, h3, Parse.bind_ok, h5, Parse.bind_ok, ih.2 _ st3 h6]; rfl
  | memberDone hlo hns ht _ ih =>
    refine ⟨by simp [ih.1], fun p n set st h63 hn hl h => ?_⟩
    rw [List.append_assoc] at h
    simp only [memberToks, List.cons_append] at h
    obtain ⟨m, i, st1, rfl, hi, h1, h2⟩ := struct_loop_at (p := p) hn h63 hl hlo hns (by simp) h (by simp)
    obtain ⟨st2, h3, h4⟩ := advance_step (o := st1.out) (by simp) h1
    obtain ⟨st3, h5, h6⟩ := mustBe_step (by simp [ih.1]) h4
    obtain ⟨st4, h7, h8⟩ := parser_step (p ++ [i]) ht ih.1 h6
    rw [h2, h3, Parse.bind_ok, h5, Parse.bind_ok, h7, Parse.bind_ok]
    exact ih.2 p m _ st4 h63 (by simp; omega) (hl.clear h63 hi hns) h8
  | membersEnd he =>
    refine ⟨by simp, fun p n set st h63 hn hl h => ?_⟩
    have hz := hl.zero.2 he
    cases n with
    | zero => omega
    | succ n =>
      rw [structLoop, if_pos hz, Parse.bind_ok]
      exact mustBe_dies h
  | kind hne hp =>
    refine ⟨hne, fun p st h => enum_prefix (l := []) hne (.inr hp.length_le) ?_ h⟩
    exact hp.trans ⟨[.string [], .comma, .string "value".toList, .colon], rfl⟩
  | case hlo hne hp => exact ⟨hne, fun p st h => enum_prefix hne (.inl ⟨_, hlo⟩) hp h⟩
  | value hlo _ ih =>
    refine ⟨by simp [caseToks], fun p st h => ?_⟩
    obtain ⟨i, st1, h1, h2⟩ := enum_at (p := p) hlo ih.1 h
    rw [h2, ih.2 _ st1 h1]; rfl
  | caseEnd hlo ht =>
    refine ⟨by simp [caseToks], fun p st h => ?_⟩
    rw [List.append_assoc] at h
    obtain ⟨i, st1, h1, h2⟩ := enum_at (p := p) hlo (by simp) h
    obtain ⟨st2, h3, h4⟩ := parser_step (p ++ [i]) ht (by simp) h1
    rw [h2, h3, Parse.bind_ok]
    exact mustBe_dies h4

/-! ## The whole -/

theorem badNext_iff {u : Char → Bool} {s : Str} : BadNext s ↔ next u s = .error (.fault .panic) := by
  rw [next_fault]
  simp only [true_and]
  rfl

theorem endsAt_iff {u : Char → Bool} {b : Bool} {k : Json.Tok} {s input : Str} {ks : List Json.Tok}
    (hn : next u input = .ok (k, s)) : EndsAt u b k s ks ↔ ks ≠ [] ∧ ∃ r, Toks u input ks r ∧
      ((b = true ∧ BadNext r) ∨ (b = false ∧ ∃ x, next u r = .ok x)) := by
  constructor
  · intro h
    refine ⟨h.ne, ?_⟩
    induction h generalizing input with
    | stuck h => exact ⟨_, .cons hn .nil, .inl ⟨rfl, badNext_iff.2 h⟩⟩
    | opened h => exact ⟨_, .cons hn .nil, .inr ⟨rfl, _, h⟩⟩
    | cons h _ ih =>
      obtain ⟨r, h1, h2⟩ := ih h
      exact ⟨r, .cons hn h1, h2⟩
  · rintro ⟨hne, r, h1, h2⟩
    induction h1 generalizing k s with
    | nil => exact absurd rfl hne
    | @cons s0 s1 r k0 ks h3 h4 ih =>
      rw [hn] at h3
      cases h3
      cases h4 with
      | nil =>
        rcases h2 with ⟨rfl, h2⟩ | ⟨rfl, x, h2⟩
        · exact .stuck (badNext_iff.1 h2)
        · exact .opened h2
      | cons h5 h6 => exact .cons h5 (ih h5 (by simp) h2)

/-- The decoder panics exactly at the places of `Asks`. -/
theorem decode_fault {env : Env} {t : Ty} {input : Str} {f : Fault} :
    decode env t input = .error (.fault f) ↔ f = .panic ∧ (BadNext input ∨
      ∃ ks r, Toks env.alnum input ks r ∧
        ((Asks env.floats (env.chk = false) true (.doc t) ks ∧ BadNext r) ∨
          (Asks env.floats (env.chk = false) false (.doc t) ks ∧ ∃ x, next env.alnum r = .ok x))) := by
  unfold decode
  rw [Parse.bind_eq_fault]
  constructor
  · rintro (h | ⟨⟨k, s⟩, hn, h⟩)
    · have := (next_fault.1 h).1
      subst this
      exact ⟨rfl, .inl (badNext_iff.2 h)⟩
    · rcases Parse.bind_eq_fault.1 h with h | ⟨_, _, h⟩
      · obtain ⟨h1, b, ks, h2, h3⟩ := parser_dies t _ _ _ h
        obtain ⟨_, r, h4, h5⟩ := (endsAt_iff hn).1 h3
        refine ⟨h1, .inr ⟨ks, r, h4, ?_⟩⟩
        rcases h5 with ⟨rfl, h5⟩ | ⟨rfl, h5⟩
        · exact .inl ⟨h2, h5⟩
        · exact .inr ⟨h2, h5⟩
      · cases h
  · rintro ⟨rfl, h | ⟨ks, r, h1, h2⟩⟩
    · exact .inl (badNext_iff.1 h)
    · right
      have key : ∀ b, Asks env.floats (env.chk = false) b (.doc t) ks →
          ((b = true ∧ BadNext r) ∨ (b = false ∧ ∃ x, next env.alnum r = .ok x)) →
          ∃ a, next env.alnum input = .ok a ∧ (do
            let (tok, rest) := a
            let st ← parserFor env [] t { tok := tok, rest := rest, out := [] }
            .ok st.out : Parse IntermediateDataSource) = .error (.fault .panic) := by
        intro b ha hb
        obtain ⟨hne, hbr⟩ := asks_breaks ha
        cases h1 with
        | nil => exact absurd rfl hne
        | @cons _ s1 _ k ks' hn h3 =>
          refine ⟨(k, s1), hn, ?_⟩
          have h4 := (endsAt_iff hn).2 ⟨hne, r, .cons hn h3, hb⟩
          simp only
          rw [hbr [] ⟨k, s1, []⟩ h4]; rfl
      rcases h2 with ⟨h2, h3⟩ | ⟨h2, h3⟩
      · exact key true h2 (.inl ⟨rfl, h3⟩)
      · exact key false h2 (.inr ⟨rfl, h3⟩)

end Verif
