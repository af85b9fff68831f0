import Verif.Proof.JsonEncoder

/-! # Documents: unique reading, order of members, panics -/

namespace Verif

open Spec Json

/-! ## A token sequence begins with at most one document -/

/-- Tokens that begin no document. -/
def closing : Json.Tok → Bool
  | .endArray | .endObject | .comma | .colon | .eof => true
  | _ => false

theorem toks_start : ∀ tr : Tree, ∃ k ks, tr.toks = k :: ks ∧ closing k = false
  | .null => ⟨_, _, by rw [Tree.toks], rfl⟩
  | .bool b => ⟨_, _, by rw [Tree.toks], by cases b <;> rfl⟩
  | .str s => ⟨_, _, by rw [Tree.toks], rfl⟩
  | .num s => ⟨_, _, by rw [Tree.toks], rfl⟩
  | .arr ts => ⟨.beginArray, sepBy .comma (toksL ts) ++ [.endArray], by rw [Tree.toks]; rfl, rfl⟩
  | .obj ms => ⟨.beginObject, sepBy .comma (toksM ms) ++ [.endObject], by rw [Tree.toks]; rfl, rfl⟩

theorem arr_toks (ts : List Tree) (a : List Json.Tok) :
    (Tree.arr ts).toks ++ a = .beginArray :: (sepToks .comma true (toksL ts) ++ .endArray :: a) := by
  simp [Tree.toks, sepToks]

theorem obj_toks (ms : List (Str × Tree)) (a : List Json.Tok) :
    (Tree.obj ms).toks ++ a = .beginObject :: (sepToks .comma true (toksM ms) ++ .endObject :: a) := by
  simp [Tree.toks, sepToks]

mutual
theorem toks_prefix : ∀ (tr tr' : Tree) (a b : List Json.Tok), tr.toks ++ a = tr'.toks ++ b → tr = tr' ∧ a = b
  | .null, tr', a, b, h => by
    cases tr' with
    | null => simp [Tree.toks] at h; exact ⟨rfl, h⟩
    | bool c => cases c <;> simp [Tree.toks] at h
    | _ => simp [Tree.toks] at h
  | .bool x, tr', a, b, h => by
    cases tr' with
    | bool c => cases x <;> cases c <;> simp [Tree.toks] at h <;> exact ⟨rfl, h⟩
    | _ => cases x <;> simp [Tree.toks] at h
  | .str s, tr', a, b, h => by
    cases tr' with
    | str s' => simp [Tree.toks] at h; exact ⟨by rw [h.1], h.2⟩
    | bool c => cases c <;> simp [Tree.toks] at h
    | _ => simp [Tree.toks] at h
  | .num s, tr', a, b, h => by
    cases tr' with
    | num s' => simp [Tree.toks] at h; exact ⟨by rw [h.1], h.2⟩
    | bool c => cases c <;> simp [Tree.toks] at h
    | _ => simp [Tree.toks] at h
  | .arr ts, tr', a, b, h => by
    cases tr' with
    | arr ts' =>
      rw [arr_toks, arr_toks] at h
      obtain ⟨h1, h2⟩ := toksL_prefix ts ts' true a b (List.cons.inj h).2
      exact ⟨by rw [h1], h2⟩
    | bool c => cases c <;> simp [Tree.toks] at h
    | _ => simp [Tree.toks] at h
  | .obj ms, tr', a, b, h => by
    cases tr' with
    | obj ms' =>
      rw [obj_toks, obj_toks] at h
      obtain ⟨h1, h2⟩ := toksM_prefix ms ms' true a b (List.cons.inj h).2
      exact ⟨by rw [h1], h2⟩
    | bool c => cases c <;> simp [Tree.toks] at h
    | _ => simp [Tree.toks] at h
theorem toksL_prefix : ∀ (ts ts' : List Tree) (first : Bool) (a b : List Json.Tok),
    sepToks .comma first (toksL ts) ++ .endArray :: a = sepToks .comma first (toksL ts') ++ .endArray :: b →
    ts = ts' ∧ a = b
  | [], [], first, a, b, h => by
    cases first <;> (simp [toksL, sepToks, sepBy] at h; exact ⟨rfl, h⟩)
  | [], t :: ts, first, a, b, h => by
    obtain ⟨k, ks, e, hk⟩ := toks_start t
    rw [toksL, toksL, sepToks_cons, e] at h
    cases first
    · simp [sepToks] at h
    · simp [sepToks, sepBy] at h
      rw [← h.1] at hk; cases hk
  | t :: ts, [], first, a, b, h => by
    obtain ⟨k, ks, e, hk⟩ := toks_start t
    rw [toksL, toksL, sepToks_cons, e] at h
    cases first
    · simp [sepToks] at h
    · simp [sepToks, sepBy] at h
      rw [h.1] at hk; cases hk
  | t :: ts, t' :: ts', first, a, b, h => by
    rw [toksL, toksL, sepToks_cons, sepToks_cons] at h
    simp only [List.append_assoc] at h
    have h := List.append_cancel_left h
    obtain ⟨h1, h2⟩ := toks_prefix t t' _ _ h
    obtain ⟨h3, h4⟩ := toksL_prefix ts ts' false a b h2
    exact ⟨by rw [h1, h3], h4⟩
theorem toksM_prefix : ∀ (ms ms' : List (Str × Tree)) (first : Bool) (a b : List Json.Tok),
    sepToks .comma first (toksM ms) ++ .endObject :: a = sepToks .comma first (toksM ms') ++ .endObject :: b →
    ms = ms' ∧ a = b
  | [], [], first, a, b, h => by
    cases first <;> (simp [toksM, sepToks, sepBy] at h; exact ⟨rfl, h⟩)
  | [], (l, t) :: ms, first, a, b, h => by
    rw [toksM, toksM, sepToks_cons, memberToks] at h
    cases first <;> simp [sepToks, sepBy] at h
  | (l, t) :: ms, [], first, a, b, h => by
    rw [toksM, toksM, sepToks_cons, memberToks] at h
    cases first <;> simp [sepToks, sepBy] at h
  | m :: ms, m' :: ms', first, a, b, h => by
    rw [toksM, toksM, sepToks_cons, sepToks_cons] at h
    simp only [List.append_assoc] at h
    have h := List.append_cancel_left h
    obtain ⟨h1, h2⟩ := memberToks_prefix m m' _ _ h
    obtain ⟨h3, h4⟩ := toksM_prefix ms ms' false a b h2
    exact ⟨by rw [h1, h3], h4⟩
theorem memberToks_prefix : ∀ (m m' : Str × Tree) (a b : List Json.Tok),
    memberToks m ++ a = memberToks m' ++ b → m = m' ∧ a = b
  | (l, t), (l', t'), a, b, h => by
    rw [memberToks, memberToks] at h
    simp only [List.cons_append, List.cons.injEq, Json.Tok.string.injEq, true_and] at h
    obtain ⟨h1, h2⟩ := toks_prefix t t' _ _ h.2
    exact ⟨by rw [h.1, h1], h2⟩
end

theorem toks_common {u : Char → Bool} {s r r' : Str} {ks ks' : List Json.Tok} (h : Toks u s ks r)
    (h' : Toks u s ks' r') : (∃ a, ks' = ks ++ a ∧ Toks u r a r') ∨ (∃ a, ks = ks' ++ a ∧ Toks u r' a r) := by
  induction h generalizing ks' with
  | nil => exact .inl ⟨_, rfl, h'⟩
  | cons h1 h2 ih =>
    cases h' with
    | nil => exact .inr ⟨_, rfl, .cons h1 h2⟩
    | cons h3 h4 =>
      rw [h1] at h3
      cases h3
      rcases ih h4 with ⟨a, rfl, h⟩ | ⟨a, rfl, h⟩
      · exact .inl ⟨a, rfl, h⟩
      · exact .inr ⟨a, rfl, h⟩

/-- A text begins with at most one document. -/
theorem startsWith_unique {u : Char → Bool} {s s1 s2 : Str} {tr1 tr2 : Tree} {k1 k2 : Json.Tok}
    (h1 : StartsWith u s tr1.toks k1 s1) (h2 : StartsWith u s tr2.toks k2 s2) :
    tr1 = tr2 ∧ k1 = k2 ∧ s1 = s2 := by
  obtain ⟨r1, h1, n1⟩ := startsWith_iff.1 h1
  obtain ⟨r2, h2, n2⟩ := startsWith_iff.1 h2
  have key : ∀ {a : List Json.Tok} {r r' : Str} {tr tr' : Tree}, tr'.toks = tr.toks ++ a → Toks u r a r' →
      tr' = tr ∧ r = r' := by
    intro a r r' tr tr' e h
    obtain ⟨h3, h4⟩ := toks_prefix tr' tr [] a (by rw [List.append_nil]; exact e)
    subst h4
    cases h
    exact ⟨h3, rfl⟩
  rcases toks_common h1 h2 with ⟨a, e, h⟩ | ⟨a, e, h⟩
  · obtain ⟨h3, h4⟩ := key e h
    subst h3 h4
    rw [n1] at n2
    cases n2
    exact ⟨rfl, rfl, rfl⟩
  · obtain ⟨h3, h4⟩ := key e h
    subst h3 h4
    rw [n1] at n2
    cases n2
    exact ⟨rfl, rfl, rfl⟩

/-- If the text begins with a document and is accepted, this document denotes the value stored. -/
theorem decode_document {env : Env} {t : Ty} {input s : Str} {tr : Tree} {k : Json.Tok}
    {d : IntermediateDataSource} (hs : StartsWith env.alnum input tr.toks k s) (h : decode env t input = .ok d) :
    ∃ v, Takes env.floats (env.chk = false) t tr v ∧ HoldsExactly d v := by
  obtain ⟨tr', v, k', s', h1, h2, h3⟩ := decode_takes h
  obtain ⟨rfl, _, _⟩ := startsWith_unique hs h1
  exact ⟨v, h2, h3⟩

theorem toks_begins {u : Char → Bool} {s r : Str} {ks : List Json.Tok} (h : Toks u s ks r)
    (hk : ∀ k ∈ ks, k ≠ .eof) : Begins (fun _ => True) (fun n => n ≤ 4) ks s r := by
  induction h with
  | nil => exact .nil
  | cons h1 _ ih =>
    obtain ⟨ws, h2, h3⟩ := next_ok h1
    rcases h3 with ⟨_, _, rfl⟩ | ⟨p, rfl, _, h4⟩
    · exact absurd rfl (hk _ (.head _))
    · exact .cons h2 h4 (ih fun k hm => hk k (.tail _ hm))

mutual
theorem toks_ne_eof : ∀ (tr : Tree), ∀ k ∈ tr.toks, k ≠ .eof
  | .null, k, h => by rw [Tree.toks] at h; rw [List.mem_singleton.1 h]; simp
  | .bool b, k, h => by rw [Tree.toks] at h; rw [List.mem_singleton.1 h]; cases b <;> simp
  | .str b, k, h => by rw [Tree.toks] at h; rw [List.mem_singleton.1 h]; simp
  | .num b, k, h => by rw [Tree.toks] at h; rw [List.mem_singleton.1 h]; simp
  | .arr ts, k, h => by
    have := arr_toks ts []
    rw [List.append_nil] at this
    rw [this] at h
    rcases List.mem_cons.1 h with rfl | h
    · simp
    · rcases List.mem_append.1 h with h | h
      · exact toksL_ne_eof ts true k h
      · rw [List.mem_singleton.1 h]; simp
  | .obj ms, k, h => by
    have := obj_toks ms []
    rw [List.append_nil] at this
    rw [this] at h
    rcases List.mem_cons.1 h with rfl | h
    · simp
    · rcases List.mem_append.1 h with h | h
      · exact toksM_ne_eof ms true k h
      · rw [List.mem_singleton.1 h]; simp
theorem toksL_ne_eof : ∀ (ts : List Tree) (first : Bool), ∀ k ∈ sepToks .comma first (toksL ts), k ≠ .eof
  | [], first, k, h => by cases first <;> simp [toksL, sepToks, sepBy] at h
  | t :: ts, first, k, h => by
    rw [toksL, sepToks_cons] at h
    rcases List.mem_append.1 h with h | h
    · rcases List.mem_append.1 h with h | h
      · cases first
        · rw [List.mem_singleton.1 h]; simp
        · cases h
      · exact toks_ne_eof t k h
    · exact toksL_ne_eof ts false k h
theorem toksM_ne_eof : ∀ (ms : List (Str × Tree)) (first : Bool), ∀ k ∈ sepToks .comma first (toksM ms), k ≠ .eof
  | [], first, k, h => by cases first <;> simp [toksM, sepToks, sepBy] at h
  | m :: ms, first, k, h => by
    rw [toksM, sepToks_cons] at h
    rcases List.mem_append.1 h with h | h
    · rcases List.mem_append.1 h with h | h
      · cases first
        · rw [List.mem_singleton.1 h]; simp
        · cases h
      · exact memberToks_ne_eof m k h
    · exact toksM_ne_eof ms false k h
theorem memberToks_ne_eof : ∀ (m : Str × Tree), ∀ k ∈ memberToks m, k ≠ .eof
  | (l, t), k, h => by
    rw [memberToks] at h
    rcases List.mem_cons.1 h with rfl | h
    · simp
    · rcases List.mem_cons.1 h with rfl | h
      · simp
      · exact toks_ne_eof t k h
end

/-! ## The order of members -/

theorem takes_reordered {F : FloatText} {lax : Prop} {t : Ty} {tr tr' : Tree} (h : Reordered t tr tr') :
    ∀ {v : Val}, Takes F lax t tr v → Takes F lax t tr' v := by
  induction h with
  | refl => exact id
  | tuple hl _ ih =>
    intro v hd
    cases hd with
    | tuple h1 h2 h3 =>
      refine .tuple (hl.trans h1) h2 ?_
      intro i c t' v hc ht' hv
      obtain ⟨t, ht⟩ : ∃ t, _ = some t := List.getElem?_eq_some_iff.2 ⟨by
        have := (List.getElem?_eq_some_iff.1 ht').1
        rw [hl] at this; exact this, rfl⟩ |> fun h => ⟨_, h⟩
      exact ih i c t t' hc ht ht' (h3 i c t v hc ht hv)
  | @struct fs ms ms' hp _ ih =>
    intro v hd
    cases hd with
    | gap h1 h2 =>
      rw [List.map_nil, List.perm_nil, List.map_eq_nil_iff] at hp
      subst hp
      exact .gap h1 h2
    | struct h0 h1 h2 h3 h4 =>
      refine .struct h0 h1 (hp.trans h2) h3 ?_
      intro i f t' v hf ht' hv
      have : f.1 ∈ ms.map (·.1) := hp.mem_iff.1 (List.mem_map.2 ⟨_, ht', rfl⟩)
      obtain ⟨⟨l, t⟩, hm, he⟩ := List.mem_map.1 this
      simp only at he
      subst he
      exact ih f t t' (List.mem_of_getElem? hf) hm ht' (h4 i f t v hf hm hv)
  | enum _ ih =>
    intro v hd
    cases hd with
    | enum h1 h2 h3 => exact .enum h1 h2 (ih _ (List.mem_of_getElem? h1) h3)

/-! ## The parsed data as a data source -/

theorem leafOf_inj {a b : Value} (h : leafOf a = leafOf b) : a = b := by
  cases a <;> cases b <;> simp only [leafOf, Leaf.prim.injEq, Leaf.str.injEq, Leaf.tag.injEq, reduceCtorEq] at h
  · rw [h]
  · rw [utf8_injective h]
  · rw [h]

theorem holdsExactly_unique {d d' : IntermediateDataSource} {v : Val} (h : HoldsExactly d v)
    (h' : HoldsExactly d' v) (q : Path) : mapGet Path.cmp q d = mapGet Path.cmp q d' := by
  have key : ∀ {d d' : IntermediateDataSource}, HoldsExactly d v → HoldsExactly d' v → ∀ x,
      mapGet Path.cmp q d = some x → mapGet Path.cmp q d' = some x := by
    intro d d' h h' x hx
    have h1 := (h q (leafOf x)).1 (by rw [hx]; rfl)
    have h2 := (h' q (leafOf x)).2 h1
    obtain ⟨y, h3, h4⟩ := Option.map_eq_some_iff.1 h2
    rw [h3, leafOf_inj h4]
  cases h1 : mapGet Path.cmp q d with
  | some x => rw [key h h' x h1]
  | none =>
    cases h2 : mapGet Path.cmp q d' with
    | none => rfl
    | some x => rw [key h' h x h2] at h1; cases h1

theorem presents_holds {d : IntermediateDataSource} {v : Val} (h : HoldsExactly d v) :
    Presents d.source v [] := by
  intro q l hm
  obtain ⟨x, h1, h2⟩ := Option.map_eq_some_iff.1 ((h q l).2 hm)
  cases x with
  | prim x =>
    cases h2
    simp [Answers, IntermediateDataSource.source, h1, leafOf]
  | string s =>
    cases h2
    simp [Answers, IntermediateDataSource.source, h1, leafOf]
  | tag n =>
    cases h2
    simp [Answers, IntermediateDataSource.source, h1, leafOf]

/-! ## Panics -/

/-- Not a fault. -/
def Safe {α : Type} (x : Parse α) : Prop := ∀ f, x ≠ .error (.fault f)

theorem Safe.ok {α : Type} (a : α) : Safe (.ok a : Parse α) := by intro f h; cases h

theorem Safe.fail {α : Type} : Safe (Json.fail : Parse α) := by intro f h; cases h

theorem Safe.bind {α β : Type} {x : Parse α} {g : α → Parse β} (h : Safe x)
    (hg : ∀ a, x = .ok a → Safe (g a)) : Safe (x >>= g) := by
  cases hx : x with
  | ok a => rw [Parse.bind_ok]; exact hg a hx
  | error e =>
    rw [Parse.bind_error]
    intro f hf
    cases hf
    exact h f hx

theorem Safe.ite {α : Type} {p : Prop} [Decidable p] {x y : Parse α} (h1 : p → Safe x) (h2 : ¬ p → Safe y) :
    Safe (if p then x else y) := by
  split
  · exact h1 ‹_›
  · exact h2 ‹_›

theorem hexText_lt {hs : Str} {m n : Nat} (h : HexText hs m n) : n < (m + 1) * 16 ^ hs.length := by
  induction h with
  | nil => simp
  | @cons c cs d m n h1 _ ih =>
    have := h1.lt
    refine Nat.lt_of_lt_of_le ih ?_
    rw [List.length_cons, Nat.pow_succ, Nat.mul_comm (16 ^ cs.length), ← Nat.mul_assoc]
    exact Nat.mul_le_mul_right _ (by omega)

theorem hexLoop_safe : ∀ (n code : Nat) (s : Str), Safe (hexLoop n code s)
  | 0, code, s => by rw [hexLoop]; exact .ok _
  | n + 1, code, [] => by rw [hexLoop]; exact .fail
  | n + 1, code, c :: s => by
    rw [hexLoop]
    split
    · exact hexLoop_safe n _ s
    · exact hexLoop_safe n _ _

theorem matchChars_safe : ∀ (w s : Str), Safe (matchChars w s)
  | [], s => by rw [matchChars]; exact .ok _
  | c :: w, [] => by rw [matchChars]; exact .fail
  | c :: w, d :: s => by
    rw [matchChars]
    exact .ite (fun _ => matchChars_safe w s) fun _ => .fail

theorem matchKeyword_safe {u : Char → Bool} {w : Str} {k : Json.Tok} {s : Str} : Safe (matchKeyword u w k s) := by
  refine .bind (matchChars_safe w s) fun r _ => ?_
  cases r with
  | nil => exact .ok _
  | cons c r => exact .ite (fun _ => .fail) fun _ => .ok _

theorem matchNumber_safe (s : Str) : Safe (matchNumber s) := by
  unfold matchNumber
  simp only
  refine .bind ?_ fun a _ => .bind ?_ fun b _ => .ok _
  · cases (signPart s).2 with
    | nil => exact .fail
    | cons c s => exact .ite (fun _ => .ok _) fun _ => .ite (fun _ => .ok _) fun _ => .fail
  · cases (fracPart a.2).2 with
    | nil => exact .ok _
    | cons c s =>
      refine .ite (fun _ => ?_) fun _ => .ok _
      split
      · exact .ite (fun _ => .ok _) fun _ => .fail
      · exact .fail

theorem next_suffix {u : Char → Bool} {s r : Str} {k : Json.Tok} (h : next u s = .ok (k, r)) :
    ∃ a, s = a ++ r := by
  obtain ⟨ws, _, ⟨rfl, rfl, _⟩ | ⟨p, rfl, _⟩⟩ := next_ok h
  · exact ⟨s, by simp⟩
  · exact ⟨_, rfl⟩

/-- No token that can be reached makes the tokenizer fault. -/
def Smooth (u : Char → Bool) (s : Str) : Prop := ∀ ks r, Toks u s ks r → Safe (next u r)

theorem Smooth.next {u : Char → Bool} {s r : Str} {k : Json.Tok} (h : Smooth u s)
    (hn : Json.next u s = .ok (k, r)) : Smooth u r := fun ks r' hr => h (k :: ks) r' (.cons hn hr)

/-- No fault, and none to be reached in what is left. -/
def Good (u : Char → Bool) (x : Parse St) : Prop := Safe x ∧ ∀ st, x = .ok st → Smooth u st.rest

/-- A parser that does not fault as long as the tokenizer does not. -/
def GoodP (u : Char → Bool) (p : Parser) : Prop := ∀ st, Smooth u st.rest → Good u (p st)

theorem Good.fail {u : Char → Bool} : Good u Json.fail := ⟨.fail, by intro st h; cases h⟩

theorem Good.ok {u : Char → Bool} {st : St} (h : Smooth u st.rest) : Good u (.ok st) :=
  ⟨.ok _, by intro st' h'; cases h'; exact h⟩

theorem Good.bind {u : Char → Bool} {x : Parse St} {g : Parser} (h : Good u x) (hg : GoodP u g) : Good u (x >>= g) := by
  cases hx : x with
  | ok st => rw [Parse.bind_ok]; exact hg st (h.2 st hx)
  | error e => rw [Parse.bind_error, ← hx]; exact ⟨h.1, fun st hs => absurd (hx.symm.trans hs) (by simp)⟩

/-- A step that leaves the state alone. -/
theorem Good.test {u : Char → Bool} {α : Type} {x : Parse α} {g : α → Parse St} (h : Safe x)
    (hg : ∀ a, x = .ok a → Good u (g a)) : Good u (x >>= g) := by
  cases hx : x with
  | ok a => rw [Parse.bind_ok]; exact hg a hx
  | error e =>
    rw [Parse.bind_error]
    refine ⟨?_, by intro st hs; cases hs⟩
    intro f hf
    cases hf
    exact h f hx

theorem Good.ite {u : Char → Bool} {p : Prop} [Decidable p] {x y : Parse St} (h1 : p → Good u x) (h2 : ¬ p → Good u y) :
    Good u (if p then x else y) := by
  split
  · exact h1 ‹_›
  · exact h2 ‹_›

theorem advance_good (env : Env) : GoodP env.alnum (advance env) := by
  intro st h
  unfold advance
  refine .test (h [] _ .nil) ?_
  rintro ⟨k, r⟩ hr
  exact .ok (h.next hr)

theorem mustBe_good (env : Env) (k : Json.Tok) : GoodP env.alnum (mustBe env k) := fun st h =>
  .ite (fun _ => .fail) fun _ => advance_good env st h

theorem separator_good (env : Env) (first : Bool) : GoodP env.alnum (separator env first) := fun st h =>
  .ite (fun _ => .ok h) fun _ => mustBe_good env _ st h

theorem fieldIndex_safe {indices : List (Str × Nat)} {k : Json.Tok} : Safe (fieldIndex indices k) := by
  unfold fieldIndex
  split
  · split
    · exact .fail
    · exact .ok _
  · exact .fail

theorem structLoop_good {env : Env} {indices : List (Str × Nat)} {fields : List Parser}
    (hf : ∀ l i, lastEntry l indices = some i → ∃ p, fields[i]? = some p ∧ GoodP env.alnum p) :
    ∀ n visited first, GoodP env.alnum (structLoop env indices fields n visited first)
  | 0, visited, first => fun st h => .ite (fun _ => .ok h) fun _ => .fail
  | n + 1, visited, first => fun st h => by
    rw [structLoop]
    refine .ite (fun _ => .ok h) fun _ => ?_
    refine .bind (separator_good env first st h) ?_
    intro st h
    refine .test fieldIndex_safe ?_
    intro i hi
    refine .ite (fun _ => ?_) fun _ => .fail
    refine .bind (advance_good env st h) ?_
    intro st' h
    refine .bind (mustBe_good env _ st' h) ?_
    intro st'' h
    refine .bind ?_ (structLoop_good hf n _ _)
    have : ∃ l, lastEntry l indices = some i := by
      unfold fieldIndex at hi
      split at hi
      · next l _ =>
        split at hi
        · cases hi
        · next he => cases hi; exact ⟨l, he⟩
      · cases hi
    obtain ⟨l, hl⟩ := this
    obtain ⟨p, hp, hg⟩ := hf l i hl
    unfold fieldParser
    rw [hp]
    exact hg st'' h

theorem tupleLoop_good {env : Env} : ∀ {ps : List Parser} {first : Bool}, (∀ p ∈ ps, GoodP env.alnum p) →
    GoodP env.alnum (tupleLoop env ps first)
  | [], first, _ => fun st h => .ok h
  | p :: ps, first, hp => fun st h => by
    rw [tupleLoop]
    refine .bind (separator_good env first st h) ?_
    intro st h
    refine .bind (hp p (.head _) st h) (tupleLoop_good fun q hq => hp q (.tail _ hq))

theorem findCase_safe {cases : List (Str × (Nat × Parser))} {k : Json.Tok} : Safe (findCase cases k) := by
  unfold findCase
  split
  · split
    · exact .fail
    · exact .ok _
  · exact .fail

theorem enumParser_good {env : Env} {path : Path} {cases : List (Str × (Nat × Parser))}
    (hc : ∀ l c, lastEntry l cases = some c → GoodP env.alnum c.2) : GoodP env.alnum (enumParser env path cases) := by
  intro st h
  unfold enumParser
  refine .bind (mustBe_good env _ st h) ?_
  intro st h
  refine .bind (mustBe_good env _ st h) ?_
  intro st h
  refine .bind (mustBe_good env _ st h) ?_
  intro st h
  refine .test findCase_safe ?_
  rintro ⟨i, p⟩ hi
  have hp : GoodP env.alnum p := by
    unfold findCase at hi
    split at hi
    · next l _ =>
      split at hi
      · cases hi
      · next he => cases hi; exact hc l _ he
    · cases hi
  refine .bind (advance_good env _ h) ?_
  intro st h
  refine .bind (mustBe_good env _ st h) ?_
  intro st h
  refine .bind (mustBe_good env _ st h) ?_
  intro st h
  refine .bind (mustBe_good env _ st h) ?_
  intro st h
  exact .bind (hp st h) (mustBe_good env _)

theorem number_good {env : Env} {p : Prim} {path : Path} : GoodP env.alnum (parsePrimitiveNumber env p path) := by
  intro st h
  unfold parsePrimitiveNumber
  split
  · split
    · exact advance_good env _ h
    · exact .fail
  · split
    · exact advance_good env _ h
    · exact .fail
  · exact .fail

theorem primitive_good {env : Env} {p : Prim} {path : Path} : GoodP env.alnum (primitiveParser env p path) := by
  unfold primitiveParser
  split
  · intro st h
    simp only
    split
    · exact advance_good env _ h
    · exact advance_good env _ h
    · exact .fail
  · intro st h
    simp only
    split
    · split
      · exact .bind (advance_good env _ h) fun _ _ => .fail
      · exact advance_good env _ h
    · exact .fail
  · exact number_good

theorem newWithElements_safe {chk : Bool} {n : Nat} (h : n ≤ 63 ∨ (n = 64 ∧ chk = false)) :
    Safe (newWithElements chk n) := by
  unfold newWithElements
  rcases h with h | ⟨rfl, rfl⟩
  · rw [if_neg (by omega), if_neg (by omega)]; exact .ok _
  · exact .ok _

theorem parsersL_mem (env : Env) (p : Path) {q : Parser} : ∀ {cs : List Ty} {k : Nat},
    q ∈ parsersL env p cs k → ∃ c ∈ cs, ∃ r, q = parserFor env r c
  | [], k, h => by rw [parsersL] at h; cases h
  | c :: cs, k, h => by
    rw [parsersL] at h
    rcases List.mem_cons.1 h with rfl | h
    · exact ⟨c, .head _, _, rfl⟩
    · obtain ⟨d, hd, h⟩ := parsersL_mem env p h
      exact ⟨d, .tail _ hd, h⟩

theorem parser_good {env : Env} (t : Ty) :
    AllStructs (fun n => n ≤ 63 ∨ (n = 64 ∧ env.chk = false)) t → ∀ p, GoodP env.alnum (parserFor env p t) := by
  induction t using Ty.ind with
  | unit =>
    intro _ p st h
    rw [parserFor, nullParser]
    split
    · exact advance_good env _ h
    · exact .fail
  | prim q => intro _ p; rw [parserFor]; exact primitive_good
  | string =>
    intro _ p st h
    rw [parserFor, stringParser]
    split
    · exact advance_good env _ h
    · exact .fail
  | tuple cs ih =>
    intro ha p st h
    cases ha with
    | tuple ha =>
      rw [parserFor, tupleParser]
      refine .bind (mustBe_good env _ st h) ?_
      intro st h
      refine .bind ?_ (mustBe_good env _)
      refine tupleLoop_good ?_ st h
      intro q hq
      obtain ⟨c, hc, r, rfl⟩ := parsersL_mem env p hq
      exact ih c hc (ha c hc) _
  | struct fs ih =>
    intro ha p st h
    cases ha with
    | struct hn ha =>
      rw [parserFor, structParser]
      refine .bind (mustBe_good env _ st h) ?_
      intro st h
      refine .test (newWithElements_safe (by rw [parsersF_length]; exact hn)) fun visited _ => ?_
      refine .bind ?_ (mustBe_good env _)
      refine structLoop_good ?_ 64 visited true st h
      intro l i hl
      obtain ⟨f, hf, _⟩ := fieldIndex_iff.1 hl
      refine ⟨parserFor env (p ++ [0 + i]) f.2, by rw [parsersF_get, hf]; rfl, ?_⟩
      exact ih f (List.mem_of_getElem? hf) (ha f (List.mem_of_getElem? hf)) _
  | enum cs ih =>
    intro ha p
    cases ha with
    | enum ha =>
      rw [parserFor]
      refine enumParser_good ?_
      rintro l ⟨i, q⟩ hl
      obtain ⟨c, hc, _, rfl, _⟩ := findCase_iff.1 hl
      exact ih c (List.mem_of_getElem? hc) (ha c (List.mem_of_getElem? hc)) _

theorem decode_safe {env : Env} {t : Ty} {input : Str}
    (ha : AllStructs (fun n => n ≤ 63 ∨ (n = 64 ∧ env.chk = false)) t) (h : Smooth env.alnum input) :
    Safe (decode env t input) := by
  refine .bind (h [] _ .nil) ?_
  rintro ⟨k, r⟩ hr
  exact .bind (parser_good t ha [] ⟨k, r, []⟩ (h.next hr)).1 fun _ _ => .ok _

/-! ## Strings that cannot be read back -/

theorem utf8_cancel : ∀ (x text : Str) (z : Bytes), text.utf8 = x.utf8 ++ z →
    ∃ z', text = x ++ z' ∧ z'.utf8 = z
  | [], text, z, h => ⟨text, rfl, h⟩
  | c :: x, [], z, h => by
    rw [utf8_cons] at h
    have := utf8_ne_nil c
    cases he : String.utf8EncodeChar c with
    | nil => exact absurd he this
    | cons b bs => rw [he] at h; simp [Str.utf8] at h
  | c :: x, d :: text, z, h => by
    rw [utf8_cons, utf8_cons, List.append_assoc] at h
    have h1 := utf8Code_encode d (Str.utf8 text)
    rw [h, utf8Code_encode] at h1
    have : c = d := by rw [← Char.ofNat_toNat c, ← Char.ofNat_toNat d, h1]
    subst this
    obtain ⟨z', h2, h3⟩ := utf8_cancel x text z (List.append_cancel_left h)
    exact ⟨z', by rw [h2]; rfl, h3⟩

theorem stringLoop_prefix {raw t : Str} (h : StrBody raw t) (n : Nat) (buf x : Str) :
    stringLoop (t.length + n) buf (raw ++ x) = stringLoop n (buf ++ t) x := by
  induction h generalizing buf with
  | nil => simp
  | @plain c raw s h1 h2 h3 _ ih =>
    rw [List.length_cons, show s.length + 1 + n = (s.length + n) + 1 by omega, List.cons_append, stringLoop,
      if_neg h1, if_neg h2, if_neg (by omega), ih]
    simp
  | @escape e c raw s h1 _ ih =>
    rw [List.length_cons, show s.length + 1 + n = (s.length + n) + 1 by omega, List.cons_append, stringLoop,
      if_neg (by decide), if_pos rfl, List.cons_append, escape_ok h1, Parse.bind_ok]
    simp only
    rw [ih]
    simp
  | @code hs raw s c h1 h2 _ _ ih =>
    rw [List.length_cons, show s.length + 1 + n = (s.length + n) + 1 by omega, List.cons_append, stringLoop,
      if_neg (by decide), if_pos rfl]
    have e : stringControlChar ('u' :: (hs ++ raw) ++ x) = .ok (c, raw ++ x) := by
      rw [List.cons_append, stringControlChar]
      simp only [Char.reduceEq, if_false, if_true]
      rw [List.append_assoc, hexLoop_append 4 h2 (by omega) (by omega), Parse.bind_ok]
      simp only
      rw [fromU32_ok.2 rfl]
      rfl
    rw [e, Parse.bind_ok]
    simp only
    rw [ih]
    simp

/-- The string returned by the loop begins with the buffer. -/
theorem stringLoop_buf {n : Nat} {buf s b r : Str} (h : stringLoop n buf s = .ok (b, r)) : ∃ t, b = buf ++ t := by
  obtain ⟨_, t, _, h, _⟩ := stringLoop_ok _ _ _ _ _ h
  exact ⟨t, h⟩

theorem control_hex : ∀ v, v < 32 → v ∈ [0x0b, 0x0e, 0x0f, 0x1a, 0x1b, 0x1c, 0x1d, 0x1e, 0x1f] →
    hexDigit (Char.ofNat (48 + v / 16)) = some (v / 16) ∧ hexDigit (Char.ofNat (48 + v % 16)) = none ∧
      v / 16 ≠ v := by
  decide

theorem bad_second_byte {d : Char} {b : UInt8} {bs bs' : Bytes}
    (h : String.utf8EncodeChar d ++ bs' = 240 :: b :: bs) : 144 ≤ b.toNat := by
  have hc := char_toNat_lt d
  have e : d.val.toNat = d.toNat := rfl
  unfold String.utf8EncodeChar at h
  rw [e] at h
  generalize d.toNat = v at h hc
  simp only at h
  have key : ∀ m k : Nat, m + k < 256 → UInt8.ofNat (m + k) = 240 → m + k = 240 := by
    intro m k hl he
    have := congrArg UInt8.toNat he
    rw [ofNat_toNat_lt hl] at this
    exact this
  split at h
  · have := (List.cons.inj h).1
    have := congrArg UInt8.toNat this
    rw [ofNat_toNat_lt (by omega)] at this
    have e : (240 : UInt8).toNat = 240 := rfl
    omega
  · split at h
    · have := key _ _ (by omega) (List.cons.inj h).1
      omega
    · split at h
      · have := key _ _ (by omega) (List.cons.inj h).1
        omega
      · have h1 := key _ _ (by omega) (List.cons.inj h).1
        have h2 := (List.cons.inj (List.cons.inj h).2).1
        have h3 := congrArg UInt8.toNat h2
        rw [ofNat_toNat_lt (by omega)] at h3
        omega

/-- What a written string is read as: itself, if all characters are writable, or else a longer string. -/
def ReadAs (s s' : Str) : Prop := (s' = s ∧ ∀ c ∈ s, Writable c) ∨ s.length < s'.length

theorem ReadAs.length {s s' : Str} (h : ReadAs s s') : s.length ≤ s'.length := by
  rcases h with ⟨rfl, _⟩ | h
  · exact Nat.le_refl _
  · exact Nat.le_of_lt h

theorem ReadAs.of_length {s s' : Str} (h : ReadAs s s') (hl : s'.length ≤ s.length) :
    s' = s ∧ ∀ c ∈ s, Writable c := by
  rcases h with h | h
  · exact h
  · omega

theorem control_plain : ∀ v, v < 32 → v ∈ [0x0b, 0x0e, 0x0f, 0x1a, 0x1b, 0x1c, 0x1d, 0x1e, 0x1f] →
    Char.ofNat (48 + v % 16) ≠ '"' ∧ Char.ofNat (48 + v % 16) ≠ '\\' ∧
      ¬ (Char.ofNat (48 + v % 16)).toNat ≤ 0x1f := by
  decide

theorem control_text {c : Char} (hbad : c.toNat ∈ [0x0b, 0x0e, 0x0f, 0x1a, 0x1b, 0x1c, 0x1d, 0x1e, 0x1f]) :
    charText c = ['\\', 'u', '0', '0', Char.ofNat (48 + c.toNat / 16), Char.ofNat (48 + c.toNat % 16)] := by
  have hne : ∀ d : Char, d.toNat ∉ [0x0b, 0x0e, 0x0f, 0x1a, 0x1b, 0x1c, 0x1d, 0x1e, 0x1f] → c ≠ d := by
    rintro d hd rfl; exact hd hbad
  unfold charText
  simp only [List.mem_cons, List.not_mem_nil, or_false] at hbad
  rw [if_neg (by omega), if_neg (hne _ (by decide)), if_neg (hne _ (by decide)), if_neg (hne _ (by decide)),
    if_neg (by omega), if_neg (by omega), if_neg (hne _ (by decide)), if_neg (hne _ (by decide)),
    if_neg (hne _ (by decide)), if_pos (by omega)]

/-- A control character written with a digit above 9 is read as two characters. -/
theorem stringLoop_control {c : Char}
    (hbad : c.toNat ∈ [0x0b, 0x0e, 0x0f, 0x1a, 0x1b, 0x1c, 0x1d, 0x1e, 0x1f]) (n : Nat) (buf x : Str)
    {y : Str × Str} (h : stringLoop n buf (charText c ++ x) = .ok y) :
    ∃ m c1 c2, stringLoop m (buf ++ [c1, c2]) x = .ok y := by
  have h32 : c.toNat < 32 := by
    simp only [List.mem_cons, List.not_mem_nil, or_false] at hbad
    omega
  obtain ⟨x1, x2, x3⟩ := control_hex _ h32 hbad
  obtain ⟨p1, p2, p3⟩ := control_plain _ h32 hbad
  rw [control_text hbad] at h
  have hesc : stringControlChar ('u' :: '0' :: '0' :: Char.ofNat (48 + c.toNat / 16) ::
      Char.ofNat (48 + c.toNat % 16) :: x) =
      (fromU32 (c.toNat / 16) >>= fun ch => .ok (ch, Char.ofNat (48 + c.toNat % 16) :: x)) := by
    rw [stringControlChar]
    simp only [Char.reduceEq, if_false, if_true]
    rw [hexLoop, show hexDigit '0' = some 0 by decide]
    simp only
    rw [hexLoop, show hexDigit '0' = some 0 by decide]
    simp only
    rw [hexLoop, x1]
    simp only
    rw [hexLoop, x2]
    simp only
    rw [hexLoop, Parse.bind_ok]
    simp
  rw [List.cons_append] at h
  cases n with
  | zero => cases h
  | succ n =>
    rw [stringLoop, if_neg (by decide), if_pos rfl] at h
    simp only [List.cons_append, List.nil_append] at h
    rw [hesc, Parse.bind_eq_ok] at h
    obtain ⟨⟨ch, rr⟩, h4, h5⟩ := h
    rw [Parse.bind_eq_ok] at h4
    obtain ⟨ch', h6, h7⟩ := h4
    cases h7
    cases n with
    | zero => cases h5
    | succ n =>
      simp only at h5
      rw [stringLoop, if_neg p1, if_neg p2, if_neg p3, List.append_assoc] at h5
      exact ⟨n, _, _, h5⟩

theorem stringLoop_written : ∀ (s : Str) (n : Nat) (buf z b r : Str),
    stringLoop n buf (s.flatMap charText ++ '"' :: z) = .ok (b, r) →
    (∀ c ∈ s, ¬ (0x8000 ≤ c.toNat ∧ c.toNat ≤ 0xffff)) →
    r = z ∧ ∃ s', b = buf ++ s' ∧ ReadAs s s'
  | [], n, buf, z, b, r, h, _ => by
    cases n with
    | zero => cases h
    | succ n =>
      cases h
      exact ⟨rfl, [], by simp, .inl ⟨rfl, by intro c hc; cases hc⟩⟩
  | c :: s, n, buf, z, b, r, h, hb => by
    rw [List.flatMap_cons, List.append_assoc] at h
    have hb' : ∀ c ∈ s, ¬ (0x8000 ≤ c.toNat ∧ c.toNat ≤ 0xffff) := fun d hd => hb d (.tail _ hd)
    by_cases hw : Writable c
    · cases n with
      | zero => cases hq : charText c ++ (s.flatMap charText ++ '"' :: z) <;> rw [hq] at h <;> cases h
      | succ n =>
        rw [Nat.add_comm] at h
        have e := stringLoop_prefix (charText_body hw) n buf (s.flatMap charText ++ '"' :: z)
        rw [List.length_singleton] at e
        rw [e] at h
        obtain ⟨rfl, s', rfl, h'⟩ := stringLoop_written s n _ z b r h hb'
        refine ⟨rfl, c :: s', by simp, ?_⟩
        rcases h' with ⟨rfl, h'⟩ | h'
        · refine .inl ⟨rfl, ?_⟩
          intro d hd
          rcases List.mem_cons.1 hd with rfl | hd
          · exact hw
          · exact h' d hd
        · exact .inr (by simp only [List.length_cons]; omega)
    · by_cases h0 : c.toNat = 0
      · have : charText c = ['\\', '0'] := by unfold charText; rw [if_pos h0]
        rw [this] at h
        cases n <;> cases h
      · have hbad : c.toNat ∈ [0x0b, 0x0e, 0x0f, 0x1a, 0x1b, 0x1c, 0x1d, 0x1e, 0x1f] := by
          apply Classical.byContradiction
          intro hx
          exact hw ⟨h0, hx, hb c (.head _)⟩
        obtain ⟨m, c1, c2, h⟩ := stringLoop_control hbad n buf _ h
        obtain ⟨rfl, s', rfl, h'⟩ := stringLoop_written s m _ z b r h hb'
        refine ⟨rfl, c1 :: c2 :: s', by simp, .inr ?_⟩
        have := h'.length
        simp only [List.length_cons]
        omega

/-- Characters from U+8000 to U+FFFF are not written as UTF-8. -/
theorem written_text : ∀ (s z : Str) (rest : Bytes), z.utf8 = s.flatMap writeCh ++ rest →
    (∀ c ∈ s, ¬ (0x8000 ≤ c.toNat ∧ c.toNat ≤ 0xffff)) ∧ ∃ z', z = s.flatMap charText ++ z' ∧ z'.utf8 = rest
  | [], z, rest, h => ⟨(by intro c hc; cases hc), z, rfl, h⟩
  | c :: s, z, rest, h => by
    rw [List.flatMap_cons, List.append_assoc] at h
    by_cases hbig : 0x8000 ≤ c.toNat ∧ c.toNat ≤ 0xffff
    · exfalso
      have hw : ∃ bs, writeCh c = 240 :: UInt8.ofNat (c.toNat / 4096 % 64 + 128) :: bs := by
        have hne : ∀ d : Char, d.toNat < 0x8000 → c ≠ d := by
          rintro d hd rfl; omega
        unfold writeCh
        simp only
        rw [if_neg (by omega), if_neg (hne _ (by decide)), if_neg (hne _ (by decide)), if_neg (hne _ (by decide)),
          if_neg (by omega), if_neg (by omega), if_neg (hne _ (by decide)), if_neg (hne _ (by decide)),
          if_neg (hne _ (by decide)), if_neg (by omega), if_neg (by omega), if_neg (by omega), if_neg (by omega)]
        simp only [byte_three, byte_six, Nat.shiftRight_eq_div_pow, Nat.reducePow]
        rw [show c.toNat / 262144 % 8 + 240 = 240 by omega]
        exact ⟨_, rfl⟩
      obtain ⟨bs, hw⟩ := hw
      rw [hw] at h
      cases z with
      | nil => cases h
      | cons d z =>
        rw [utf8_cons] at h
        have := bad_second_byte h
        rw [ofNat_toNat_lt (by omega)] at this
        omega
    · rw [writeCh_text hbig] at h
      obtain ⟨z1, rfl, h1⟩ := utf8_cancel _ _ _ h
      obtain ⟨h2, z2, rfl, h3⟩ := written_text s z1 rest h1
      refine ⟨?_, z2, by simp, h3⟩
      intro d hd
      rcases List.mem_cons.1 hd with rfl | hd
      · exact hbig
      · exact h2 d hd

/-- What is read from the text written for a string. -/
theorem next_written {u : Char → Bool} {s text r : Str} {rest : Bytes} {k : Json.Tok}
    (h1 : text.utf8 = emitString s ++ rest) (h2 : next u text = .ok (k, r)) :
    r.utf8 = rest ∧ ∃ s', k = .string s' ∧ ReadAs s s' := by
  unfold emitString at h1
  rw [List.append_assoc, List.append_assoc] at h1
  obtain ⟨z, rfl, hz⟩ := utf8_cancel _ _ _ h1
  obtain ⟨hb, z1, rfl, hz1⟩ := written_text _ _ _ hz
  obtain ⟨z2, rfl, hz2⟩ := utf8_cancel _ _ _ hz1
  have e2 : next u (['"'] ++ (s.flatMap charText ++ (['"'] ++ z2))) =
      matchString (s.flatMap charText ++ '"' :: z2) := rfl
  rw [e2] at h2
  unfold matchString at h2
  rw [Parse.bind_eq_ok] at h2
  obtain ⟨⟨buf, r'⟩, h3, h4⟩ := h2
  cases h4
  obtain ⟨rfl, s', e, h⟩ := stringLoop_written s _ _ _ _ _ h3 hb
  rw [List.nil_append] at e
  subst e
  exact ⟨hz2, _, rfl, h⟩

/-- If the text written for a string is read as this string, its characters are writable. -/
theorem readable_writable {u : Char → Bool} {s text r : Str} (h1 : text.utf8 = emitString s)
    (h2 : next u text = .ok (.string s, r)) : ∀ c ∈ s, Writable c := by
  obtain ⟨_, s', h, h'⟩ := next_written (rest := []) (by rw [h1, List.append_nil]) h2
  cases h
  exact (h'.of_length (Nat.le_refl _)).2

/-! ## Progress -/

/-- More iterations than characters make no difference. -/
theorem stringLoop_fuel : ∀ (n m : Nat) (buf s : Str), s.length < n → n ≤ m →
    stringLoop m buf s = stringLoop n buf s
  | 0, m, buf, s, h, _ => absurd h (by omega)
  | n + 1, 0, buf, s, _, h => absurd h (by omega)
  | n + 1, m + 1, buf, [], _, _ => rfl
  | n + 1, m + 1, buf, c :: s, h, h' => by
    rw [stringLoop, stringLoop]
    simp only [List.length_cons] at h
    rw [stringLoop_fuel n m (buf ++ [c]) s (by omega) (by omega)]
    cases hc : stringControlChar s with
    | error e => rfl
    | ok x =>
      obtain ⟨ch, r⟩ := x
      have hr : r.length ≤ s.length := by
        rcases stringControlChar_ok hc with ⟨e, rfl, _⟩ | ⟨hs, rfl, _⟩
        · simp
        · simp only [List.length_cons, List.length_append]; omega
      simp only [Parse.bind_ok]
      rw [stringLoop_fuel n m (buf ++ [ch]) r (by omega) (by omega)]

end Verif
