import Verif.Proof.JsonBase

/-! # The decoder accepts exactly the documents that denote a value, and stores its leaves -/

namespace Verif

open Spec Json

theorem advance_out_iff {env : Env} {st st' : St} {o : IntermediateDataSource} :
    advance env { st with out := o } = .ok st' ↔ Goes env st [st.tok] st' ∧ st'.out = o :=
  advance_iff (st := { st with out := o })

/-- What the parser accepts denotes a value, and its leaves are stored. -/
def Sound (env : Env) (p : Path) (t : Ty) : Prop :=
  ∀ st st', parserFor env p t st = .ok st' →
    ∃ tr v, Goes env st tr.toks st' ∧ Takes env.floats (env.chk = false) t tr v ∧ Stored st.out st'.out (leaves v p)

/-- The parser accepts what denotes a value. -/
def Complete (env : Env) (p : Path) (t : Ty) : Prop :=
  ∀ st tr v k s, Reads env.alnum st.tok st.rest tr.toks k s → Takes env.floats (env.chk = false) t tr v →
    ∃ d, parserFor env p t st = .ok ⟨k, s, d⟩ ∧ Stored st.out d (leaves v p)

/-! ## Tuples -/

theorem tupleLoop_sound {env : Env} {p : Path} : ∀ (cs : List Ty) (k : Nat) (first : Bool) (st st' : St),
    (∀ c ∈ cs, ∀ q, Sound env q c) → tupleLoop env (parsersL env p cs k) first st = .ok st' →
    ∃ (ts : List Tree) (vs : List Val), ts.length = cs.length ∧ vs.length = cs.length ∧
      (∀ (i : Nat) (c : Ty) (t : Tree) (v : Val), cs[i]? = some c → ts[i]? = some t → vs[i]? = some v →
        Takes env.floats (env.chk = false) c t v) ∧
      Goes env st (sepToks .comma first (ts.map Tree.toks)) st' ∧
      Stored st.out st'.out (leavesFrom vs p k)
  | [], k, first, st, st', _, h => by
    simp only [parsersL, tupleLoop] at h
    cases h
    refine ⟨[], [], rfl, rfl, by simp, ?_, by simpa [leavesFrom] using Stored.nil _⟩
    cases first <;> exact .nil
  | c :: cs, k, first, st, st', ih, h => by
    simp only [parsersL, tupleLoop, Parse.bind_eq_ok] at h
    obtain ⟨st1, h1, st2, h2, h3⟩ := h
    obtain ⟨g1, o1⟩ := separator_iff.1 h1
    obtain ⟨tr, v, g2, d2, s2⟩ := ih c (.head _) _ _ _ h2
    obtain ⟨ts, vs, l1, l2, hd, g3, s3⟩ :=
      tupleLoop_sound cs (k + 1) false st2 st' (fun c hc => ih c (.tail _ hc)) h3
    refine ⟨tr :: ts, v :: vs, by simp [l1], by simp [l2], ?_, ?_, ?_⟩
    · intro i c' t' v' hc ht hv
      cases i with
      | zero => simp at hc ht hv; subst hc ht hv; exact d2
      | succ i => exact hd i c' t' v' (by simpa using hc) (by simpa using ht) (by simpa using hv)
    · rw [List.map_cons, sepToks_cons]
      exact (g1.append g2).append g3
    · rw [leavesFrom]
      refine Stored.append (o1 ▸ s2) s3 ?_
      intro q l l' hm hm'
      obtain ⟨i, w, _, hm''⟩ := (leavesFrom_mem p _ vs (k + 1)).1 hm'
      exact leaves_disjoint (by omega) hm hm''

theorem tupleLoop_complete {env : Env} {p : Path} : ∀ (cs : List Ty) (k : Nat) (first : Bool) (st : St)
    (ts : List Tree) (vs : List Val) (tok : Json.Tok) (s : Str),
    (∀ c ∈ cs, ∀ q, Complete env q c) → ts.length = cs.length → vs.length = cs.length →
    (∀ (i : Nat) (c : Ty) (t : Tree) (v : Val), cs[i]? = some c → ts[i]? = some t → vs[i]? = some v →
        Takes env.floats (env.chk = false) c t v) →
    Reads env.alnum st.tok st.rest (sepToks .comma first (ts.map Tree.toks)) tok s →
    ∃ d, tupleLoop env (parsersL env p cs k) first st = .ok ⟨tok, s, d⟩ ∧
      Stored st.out d (leavesFrom vs p k)
  | [], k, first, st, ts, vs, tok, s, _, l1, l2, _, h => by
    obtain rfl := List.eq_nil_of_length_eq_zero l1
    obtain rfl := List.eq_nil_of_length_eq_zero l2
    have : sepToks Tok.comma first (List.map Tree.toks []) = [] := by cases first <;> rfl
    rw [this] at h
    cases h
    exact ⟨st.out, by simp [parsersL, tupleLoop], by simpa [leavesFrom] using Stored.nil _⟩
  | c :: cs, k, first, st, [], vs, tok, s, _, l1, _, _, _ => by simp at l1
  | c :: cs, k, first, st, t :: ts, [], tok, s, _, _, l2, _, _ => by simp at l2
  | c :: cs, k, first, st, t :: ts, v :: vs, tok, s, ih, l1, l2, hd, h => by
    rw [List.map_cons, sepToks_cons] at h
    obtain ⟨k2, s2, h, h3⟩ := Spec.Reads.split h
    obtain ⟨k1, s1, h1, h2⟩ := Spec.Reads.split h
    obtain ⟨d1, e1, o1⟩ := ih c (.head _) (p ++ [k]) ⟨k1, s1, st.out⟩ t v k2 s2 h2 (hd 0 c t v rfl rfl rfl)
    obtain ⟨d2, e2, o2⟩ := tupleLoop_complete cs (k + 1) false ⟨k2, s2, d1⟩ ts vs tok s
      (fun c hc => ih c (.tail _ hc)) (by simpa using l1) (by simpa using l2)
      (fun i c t v hc ht hv => hd (i + 1) c t v (by simpa using hc) (by simpa using ht) (by simpa using hv)) h3
    refine ⟨d2, ?_, ?_⟩
    · simp only [parsersL, tupleLoop, Parse.bind_eq_ok]
      exact ⟨⟨k1, s1, st.out⟩, separator_iff.2 ⟨h1, rfl⟩, _, e1, e2⟩
    · rw [leavesFrom]
      refine Stored.append o1 o2 ?_
      intro q l l' hm hm'
      obtain ⟨i, w, _, hm''⟩ := (leavesFrom_mem p _ vs (k + 1)).1 hm'
      exact leaves_disjoint (by omega) hm hm''

/-! ## Structs -/

/-- One member of a struct document. -/
structure Mem where
  idx : Nat
  label : Str
  tree : Tree
  val : Val

/-- The member is the one of its field. -/
def MemOk (env : Env) (fs : List (Str × Ty)) (m : Mem) : Prop :=
  ∃ c, fs[m.idx]? = some (m.label, c) ∧
    (∀ (j : Nat) (g : Str × Ty), m.idx < j → fs[j]? = some g → g.1 ≠ m.label) ∧ 
      Takes env.floats (env.chk = false) c m.tree m.val

def memLeaves (p : Path) (m : Mem) : List (Path × Leaf) := leaves m.val (p ++ [m.idx])

def memToks (m : Mem) : List Json.Tok := memberToks (m.label, m.tree)

theorem fieldIndex_ok {indices : List (Str × Nat)} {k : Json.Tok} {i : Nat} :
    fieldIndex indices k = .ok i ↔ ∃ l, k = .string l ∧ lastEntry l indices = some i := by
  unfold fieldIndex
  split
  · next l =>
    split
    · next h =>
      constructor
      · intro h'; cases h'
      · rintro ⟨l', h1, h2⟩; cases h1; rw [h] at h2; cases h2
    · next j h =>
      constructor
      · intro h'; cases h'; exact ⟨l, rfl, h⟩
      · rintro ⟨l', h1, h2⟩; cases h1; rw [h] at h2; cases h2; rfl
  · next hk =>
    constructor
    · intro h'; cases h'
    · rintro ⟨l', h1, _⟩; exact absurd h1 (hk l')

theorem structLoop_sound {env : Env} {p : Path} {fs : List (Str × Ty)}
    (ih : ∀ f ∈ fs, ∀ q, Sound env q f.2) :
    ∀ (n visited : Nat) (first : Bool) (st st' : St), (∀ i, visited.testBit i = true → i < 64) →
      structLoop env (numbered fs 0) (parsersF env p fs 0) n visited first st = .ok st' →
      ∃ ms : List Mem, (ms.map (·.idx)).Nodup ∧
        (∀ i, visited.testBit i = true ↔ i ∈ ms.map (·.idx)) ∧
        (∀ m ∈ ms, MemOk env fs m) ∧
        Goes env st (sepToks .comma first (ms.map memToks)) st' ∧
        Stored st.out st'.out (ms.flatMap (memLeaves p)) := by
  have hnil : ∀ (visited : Nat) (first : Bool) (st : St), visited = 0 →
      ∃ ms : List Mem, (ms.map (·.idx)).Nodup ∧
        (∀ i, visited.testBit i = true ↔ i ∈ ms.map (·.idx)) ∧
        (∀ m ∈ ms, MemOk env fs m) ∧
        Goes env st (sepToks .comma first (ms.map memToks)) st ∧
        Stored st.out st.out (ms.flatMap (memLeaves p)) := by
    intro visited first st h0
    refine ⟨[], by simp, by simp [h0], by simp, ?_, Stored.nil _⟩
    cases first <;> exact .nil
  intro n
  induction n with
  | zero =>
    intro visited first st st' _ h
    rw [structLoop] at h
    split at h
    · next h0 => cases h; exact hnil _ _ _ h0
    · cases h
  | succ n ihn =>
    intro visited first st st' hv h
    rw [structLoop] at h
    split at h
    · next h0 => cases h; exact hnil _ _ _ h0
    · rw [Parse.bind_eq_ok] at h
      obtain ⟨st1, h1, h⟩ := h
      rw [Parse.bind_eq_ok] at h
      obtain ⟨i, h2, h⟩ := h
      split at h
      · next hbit =>
        simp only [Parse.bind_eq_ok] at h
        obtain ⟨st2, h3, st3, h4, st4, h5, h6⟩ := h
        obtain ⟨g1, o1⟩ := separator_iff.1 h1
        obtain ⟨l, hl, hi⟩ := fieldIndex_ok.1 h2
        obtain ⟨g3, o3⟩ := advance_iff.1 h3
        obtain ⟨g4, o4⟩ := mustBe_iff.1 h4
        obtain ⟨f, hf, hfl, hlast⟩ := fieldIndex_iff.1 hi
        rw [hasElement_eq] at hbit
        have hi64 := hv i hbit
        have hp : (parsersF env p fs 0)[i]? = some (parserFor env (p ++ [i]) f.2) := by
          rw [parsersF_get, hf]; simp
        simp only [fieldParser, hp] at h5
        obtain ⟨tr, v, g5, d5, s5⟩ := ih f (List.mem_of_getElem? hf) _ _ _ h5
        have hv' : ∀ j, (clearElement visited i).testBit j = true → j < 64 := by
          intro j hj
          refine hv j ?_
          cases hb : visited.testBit j with
          | true => rfl
          | false => rw [clearElement_high hb] at hj; cases hj
        obtain ⟨ms, hnd, hbits, hok, g6, s6⟩ := ihn _ _ _ _ hv' h6
        have hni : i ∉ ms.map (·.idx) := by
          intro hm
          have := (hbits i).2 hm
          rw [clearElement_testBit hi64 i hi64] at this
          simp at this
        refine ⟨⟨i, l, tr, v⟩ :: ms, ?_, ?_, ?_, ?_, ?_⟩
        · rw [List.map_cons, List.nodup_cons]; exact ⟨hni, hnd⟩
        · intro j
          rw [List.map_cons, List.mem_cons]
          by_cases hj : j = i
          · subst hj; simp [hbit]
          · rw [← hbits j]
            by_cases hj64 : j < 64
            · rw [clearElement_testBit hi64 j hj64]; simp [hj]
            · constructor
              · intro h; exact absurd (hv j h) hj64
              · rintro (h | h)
                · exact absurd h hj
                · exact absurd (hv' j h) hj64
        · intro m hm
          rcases List.mem_cons.1 hm with rfl | hm
          · exact ⟨f.2, by rw [hf, ← hfl], hlast, d5⟩
          · exact hok m hm
        · rw [List.map_cons, sepToks_cons]
          rw [hl] at g3
          refine Goes.append (Goes.append g1 ?_) g6
          exact Goes.append g3 (Goes.append g4 g5)
        · rw [List.flatMap_cons]
          refine Stored.append ?_ s6 ?_
          · rw [← o1, ← o3, ← o4]; exact s5
          · intro q l1 l2 hm hm'
            obtain ⟨m, hmm, hm''⟩ := List.mem_flatMap.1 hm'
            refine leaves_disjoint (i := i) (j := m.idx) ?_ hm hm''
            rintro rfl
            exact hni (List.mem_map_of_mem hmm)
      · cases h

theorem structLoop_complete {env : Env} {p : Path} {fs : List (Str × Ty)}
    (ih : ∀ f ∈ fs, ∀ q, Complete env q f.2) :
    ∀ (ms : List Mem) (n visited : Nat) (first : Bool) (st : St) (tok : Json.Tok) (s : Str),
      ms.length ≤ n → (∀ i, visited.testBit i = true → i < 64) → (ms.map (·.idx)).Nodup →
      (∀ i, visited.testBit i = true ↔ i ∈ ms.map (·.idx)) → (∀ m ∈ ms, MemOk env fs m) →
      Reads env.alnum st.tok st.rest (sepToks .comma first (ms.map memToks)) tok s →
      ∃ d, structLoop env (numbered fs 0) (parsersF env p fs 0) n visited first st = .ok ⟨tok, s, d⟩ ∧
        Stored st.out d (ms.flatMap (memLeaves p))
  | [], n, visited, first, st, tok, s, _, _, _, hbits, _, h => by
    have h0 : visited = 0 := (zero_iff_testBit _).2 (fun i => by
      cases hb : visited.testBit i with
      | false => rfl
      | true => exact absurd ((hbits i).1 hb) (by simp))
    have : sepToks Tok.comma first (List.map memToks []) = [] := by cases first <;> rfl
    rw [this] at h
    cases h
    refine ⟨st.out, ?_, by simpa using Stored.nil _⟩
    cases n <;> simp [structLoop, h0]
  | m :: ms, 0, visited, first, st, tok, s, hn, _, _, _, _, _ => by simp at hn
  | m :: ms, n + 1, visited, first, st, tok, s, hn, hv, hnd, hbits, hok, h => by
    rw [List.map_cons, sepToks_cons] at h
    obtain ⟨k2, s2, h, h3⟩ := Spec.Reads.split h
    obtain ⟨k1, s1, h1, h2⟩ := Spec.Reads.split h
    obtain ⟨c, hc, hlast, hd⟩ := hok m (.head _)
    have hbit : visited.testBit m.idx = true := (hbits m.idx).2 (by simp)
    have hi64 := hv _ hbit
    have hne : visited ≠ 0 := by rintro rfl; simp at hbit
    unfold memToks memberToks at h2
    cases h2 with
    | cons hn1 h2 =>
      cases h2 with
      | cons hn2 h2 =>
        rename_i s3 k4 s4
        obtain ⟨d1, e1, o1⟩ := ih _ (List.mem_of_getElem? hc) (p ++ [m.idx]) ⟨k4, s4, st.out⟩ _ _ k2 s2 h2 hd
        rw [List.map_cons, List.nodup_cons] at hnd
        have hv' : ∀ j, (clearElement visited m.idx).testBit j = true → j < 64 := by
          intro j hj
          refine hv j ?_
          cases hb : visited.testBit j with
          | true => rfl
          | false => rw [clearElement_high hb] at hj; cases hj
        have hbits' : ∀ j, (clearElement visited m.idx).testBit j = true ↔ j ∈ ms.map (·.idx) := by
          intro j
          have := hbits j
          rw [List.map_cons, List.mem_cons] at this
          by_cases hj64 : j < 64
          · rw [clearElement_testBit hi64 j hj64, Bool.and_eq_true, this]
            constructor
            · rintro ⟨h | h, h'⟩
              · simp [h] at h'
              · exact h
            · intro h
              refine ⟨.inr h, ?_⟩
              have : j ≠ m.idx := by rintro rfl; exact hnd.1 h
              simpa using this
          · constructor
            · intro h; exact absurd (hv' j h) hj64
            · intro h; exact absurd (hv j (this.2 (.inr h))) hj64
        obtain ⟨d2, e2, o2⟩ := structLoop_complete ih ms n (clearElement visited m.idx) false ⟨k2, s2, d1⟩
          tok s (by simpa using hn) hv' hnd.2 hbits' (fun m hm => hok m (.tail _ hm)) h3
        refine ⟨d2, ?_, ?_⟩
        · rw [structLoop, if_neg hne, Parse.bind_eq_ok]
          refine ⟨⟨_, s1, st.out⟩, separator_iff.2 ⟨h1, rfl⟩, ?_⟩
          rw [Parse.bind_eq_ok]
          refine ⟨m.idx, fieldIndex_ok.2 ⟨m.label, rfl, fieldIndex_iff.2 ⟨_, hc, rfl, hlast⟩⟩, ?_⟩
          rw [hasElement_eq, hbit]
          simp only [if_true, Parse.bind_eq_ok]
          refine ⟨⟨_, s3, st.out⟩, advance_iff.2 ⟨.cons hn1 .nil, rfl⟩, ⟨k4, s4, st.out⟩,
            mustBe_iff.2 ⟨.cons hn2 .nil, rfl⟩, ⟨k2, s2, d1⟩, ?_, e2⟩
          have hp : (parsersF env p fs 0)[m.idx]? = some (parserFor env (p ++ [m.idx]) c) := by
            rw [parsersF_get, hc]; simp
          simp only [fieldParser, hp]
          exact e1
        · rw [List.flatMap_cons]
          refine Stored.append o1 o2 ?_
          intro q l1 l2 hm hm'
          obtain ⟨m', hmm, hm''⟩ := List.mem_flatMap.1 hm'
          refine leaves_disjoint (i := m.idx) (j := m'.idx) ?_ hm hm''
          intro he
          exact hnd.1 (he ▸ List.mem_map_of_mem (f := (·.idx)) hmm)

/-- The members in the order of the fields. -/
theorem values_of_members {n : Nat} {ms : List Mem} (hnd : (ms.map (·.idx)).Nodup)
    (hall : ∀ i, i ∈ ms.map (·.idx) ↔ i < n) :
    ∃ vs : List Val, vs.length = n ∧ ∀ (i : Nat) (v : Val), vs[i]? = some v ↔
      ∃ m ∈ ms, m.idx = i ∧ m.val = v := by
  have huniq : ∀ m ∈ ms, ∀ m' ∈ ms, m.idx = m'.idx → m = m' := by
    intro m hm m' hm' he
    obtain ⟨i, hi, rfl⟩ := List.getElem_of_mem hm
    obtain ⟨j, hj, rfl⟩ := List.getElem_of_mem hm'
    have : i = j := by
      have h := List.nodup_iff_pairwise_ne.1 hnd
      rw [List.pairwise_iff_getElem] at h
      apply Classical.byContradiction
      intro hij
      rcases Nat.lt_or_gt_of_ne hij with hlt | hlt
      · exact h i j (by simpa using hi) (by simpa using hj) hlt (by simpa using he)
      · exact h j i (by simpa using hj) (by simpa using hi) hlt (by simpa using he.symm)
    subst this; rfl
  have hex : ∀ i : Fin n, ∃ v : Val, ∃ m ∈ ms, m.idx = i.1 ∧ m.val = v := by
    intro i
    obtain ⟨m, hm, he⟩ := List.mem_map.1 ((hall i.1).2 i.2)
    exact ⟨m.val, m, hm, he, rfl⟩
  obtain ⟨f, hf⟩ := Classical.axiomOfChoice hex
  refine ⟨List.ofFn f, by simp, ?_⟩
  intro i v
  constructor
  · intro h
    obtain ⟨hi, hv⟩ := List.getElem?_eq_some_iff.1 h
    have hi' : i < n := by simpa using hi
    rw [List.getElem_ofFn] at hv
    subst hv
    exact hf ⟨i, hi'⟩
  · rintro ⟨m, hm, rfl, rfl⟩
    have hi : m.idx < n := (hall _).1 (List.mem_map_of_mem hm)
    obtain ⟨m', hm', he, hv⟩ := hf ⟨m.idx, hi⟩
    rw [List.getElem?_eq_some_iff]
    refine ⟨by simpa using hi, ?_⟩
    rw [List.getElem_ofFn]
    rw [← hv, huniq m' hm' m hm he]

theorem memToks_map (ms : List Mem) :
    ms.map memToks = toksM (ms.map fun m => (m.label, m.tree)) := by
  rw [toksM_map, List.map_map]; rfl

/-- For 64 fields without overflow checks, the empty object is accepted. -/
theorem gap_sound {env : Env} {p : Path} {fs : List (Str × Ty)} (hn : fs.length = 64)
    (hc : env.chk = false) : Sound env p (.struct fs) := by
  intro st st' h
  simp only [parserFor, structParser, Parse.bind_eq_ok] at h
  obtain ⟨st1, h1, visited, h2, st2, h3, h4⟩ := h
  rw [parsersF_length] at h2
  have : visited = 0 := by
    unfold newWithElements at h2
    rw [if_neg (by omega), if_pos hn, hc] at h2
    cases h2
    rfl
  subst this
  rw [structLoop, if_pos rfl] at h3
  cases h3
  obtain ⟨g1, o1⟩ := mustBe_iff.1 h1
  obtain ⟨g4, o4⟩ := mustBe_iff.1 h4
  refine ⟨.obj [], .unit, ?_, .gap hc hn, ?_⟩
  · have e : (Tree.obj []).toks = [.beginObject] ++ [.endObject] := by simp [Tree.toks, toksM, sepBy]
    rw [e]
    exact g1.append g4
  · rw [← o1, o4, leaves]
    exact Stored.nil _

theorem struct_sound {env : Env} {p : Path} {fs : List (Str × Ty)}
    (ih : ∀ f ∈ fs, ∀ q, Sound env q f.2) : Sound env p (.struct fs) := by
  by_cases hn : fs.length ≠ 64 ∨ env.chk = true
  case neg =>
    simp only [ne_eq, not_or, Decidable.not_not, Bool.not_eq_true] at hn
    exact gap_sound hn.1 hn.2
  intro st st' h
  simp only [parserFor, structParser, Parse.bind_eq_ok] at h
  obtain ⟨st1, h1, visited, h2, st2, h3, h4⟩ := h
  rw [parsersF_length] at h2
  obtain ⟨hle, hbits0⟩ := newWithElements_ok h2 hn
  obtain ⟨g1, o1⟩ := mustBe_iff.1 h1
  obtain ⟨g4, o4⟩ := mustBe_iff.1 h4
  obtain ⟨ms, hnd, hbits, hok, g3, s3⟩ := structLoop_sound ih 64 visited true st1 st2
    (fun i hi => by rw [hbits0] at hi; have := of_decide_eq_true hi; omega) h3
  have hall : ∀ i, i ∈ ms.map (·.idx) ↔ i < fs.length := fun i => by
    rw [← hbits i, hbits0]; simp
  obtain ⟨vs, hlen, hvs⟩ := values_of_members hnd hall
  have hidx : ∀ m ∈ ms, ∀ (i : Nat) (f : Str × Ty), fs[i]? = some f → f.1 = m.label → m.idx = i := by
    intro m hm i f hf hl
    obtain ⟨c, hc, hlast, _⟩ := hok m hm
    have hi : i < fs.length := (List.getElem?_eq_some_iff.1 hf).1
    obtain ⟨m', hm', he⟩ := List.mem_map.1 ((hall i).2 hi)
    obtain ⟨c', hc', hlast', _⟩ := hok m' hm'
    rcases Nat.lt_trichotomy m.idx i with hlt | heq | hgt
    · exact absurd hl (hlast i f hlt hf)
    · exact heq
    · refine absurd ?_ (hlast' m.idx _ (by omega) hc)
      rw [he, hf] at hc'
      have := (Option.some.inj hc')
      rw [← hl, this]
  have hperm : (ms.map (·.idx)).Perm (List.range fs.length) :=
    (List.perm_ext_iff_of_nodup hnd List.nodup_range).2 fun i => by rw [hall, List.mem_range]
  refine ⟨.obj (ms.map fun m => (m.label, m.tree)), .seq vs, ?_, ?_, ?_⟩
  · rw [Tree.toks, ← memToks_map]
    exact (g1.append g3).append g4
  · refine .struct hle ?_ ?_ hlen ?_
    · rw [List.nodup_iff_pairwise_ne, List.pairwise_iff_getElem]
      intro i j hi hj hij he
      rw [List.length_map] at hi hj
      obtain ⟨m, hm, hmi⟩ := List.mem_map.1 ((hall i).2 hi)
      obtain ⟨c, hc, hlast, _⟩ := hok m hm
      refine hlast j fs[j] (by omega) (List.getElem?_eq_getElem hj) ?_
      rw [hmi, List.getElem?_eq_getElem hi] at hc
      rw [List.getElem_map, List.getElem_map] at he
      rw [← he, Option.some.inj hc]
    · have h1 := hperm.map (fun i => (fs[i]?.map (·.1)).getD [])
      have e1 : (List.range fs.length).map (fun i => (fs[i]?.map (·.1)).getD []) = fs.map (·.1) := by
        apply List.ext_getElem
        · simp
        · intro i h1 h2
          have h1' : i < fs.length := by simpa using h1
          simp [List.getElem?_eq_getElem h1']
      have e2 : (ms.map (·.idx)).map (fun i => (fs[i]?.map (·.1)).getD []) =
          (ms.map fun m => (m.label, m.tree)).map (·.1) := by
        rw [List.map_map, List.map_map]
        apply List.map_congr_left
        intro m hm
        obtain ⟨c, hc, _⟩ := hok m hm
        simp [hc]
      rw [e1, e2] at h1
      exact h1
    · intro i f t v hf hm hv
      obtain ⟨m, hm, he⟩ := List.mem_map.1 hm
      have h1 : m.label = f.1 := congrArg Prod.fst he
      have h2 : m.tree = t := congrArg Prod.snd he
      have hi := hidx m hm i f hf h1.symm
      obtain ⟨c, hc, _, hd⟩ := hok m hm
      obtain ⟨m', hm', he', hv'⟩ := (hvs i v).1 hv
      have hv2 : m.val = v := by
        have := (hvs i m.val).2 ⟨m, hm, hi, rfl⟩
        rw [hv] at this
        exact (Option.some.inj this).symm
      rw [hi, hf] at hc
      rw [Option.some.inj hc, ← h2, ← hv2]
      exact hd
  · rw [← o1, o4]
    refine s3.congr ?_
    intro x
    rw [leaves, leavesFrom_mem, List.mem_flatMap]
    constructor
    · rintro ⟨m, hm, hx⟩
      exact ⟨m.idx, m.val, (hvs _ _).2 ⟨m, hm, rfl, rfl⟩, by rw [Nat.zero_add]; exact hx⟩
    · rintro ⟨i, v, hv, hx⟩
      obtain ⟨m, hm, rfl, rfl⟩ := (hvs i v).1 hv
      exact ⟨m, hm, by simpa [memLeaves] using hx⟩

/-- The position of a label. -/
def labelIdx (l : Str) : List (Str × Ty) → Nat
  | [] => 0
  | f :: fs => if f.1 = l then 0 else labelIdx l fs + 1

theorem labelIdx_get {l : Str} : ∀ {fs : List (Str × Ty)}, l ∈ fs.map (·.1) →
    ∃ c, fs[labelIdx l fs]? = some (l, c)
  | [], h => by simp at h
  | f :: fs, h => by
    rw [labelIdx]
    split
    · next he => exact ⟨f.2, by rw [← he]; rfl⟩
    · next he =>
      rw [List.map_cons, List.mem_cons] at h
      rcases h with h | h
      · exact absurd h.symm he
      · simpa using labelIdx_get h

theorem nodup_get_inj {fs : List (Str × Ty)} (h : (fs.map (·.1)).Nodup) {i j : Nat} {f g : Str × Ty}
    (hf : fs[i]? = some f) (hg : fs[j]? = some g) (he : f.1 = g.1) : i = j := by
  obtain ⟨hi, rfl⟩ := List.getElem?_eq_some_iff.1 hf
  obtain ⟨hj, rfl⟩ := List.getElem?_eq_some_iff.1 hg
  have h := List.nodup_iff_pairwise_ne.1 h
  rw [List.pairwise_iff_getElem] at h
  apply Classical.byContradiction
  intro hij
  rcases Nat.lt_or_gt_of_ne hij with hlt | hlt
  · exact h i j (by simpa using hi) (by simpa using hj) hlt (by simpa using he)
  · exact h j i (by simpa using hj) (by simpa using hi) hlt (by simpa using he.symm)

theorem struct_complete {env : Env} {p : Path} {fs : List (Str × Ty)}
    (ih : ∀ f ∈ fs, ∀ q, Complete env q f.2) :
    Complete env p (.struct fs) := by
  intro st tr v k s h hden
  cases hden with
  | gap hc hn =>
    have e : (Tree.obj []).toks = [.beginObject] ++ [.endObject] := by simp [Tree.toks, toksM, sepBy]
    rw [e] at h
    obtain ⟨k1, s1, h1, h2⟩ := Spec.Reads.split h
    refine ⟨st.out, ?_, by rw [leaves]; exact Stored.nil _⟩
    simp only [parserFor, structParser, Parse.bind_eq_ok]
    refine ⟨⟨k1, s1, st.out⟩, mustBe_iff.2 ⟨h1, rfl⟩, 0, ?_, ⟨k1, s1, st.out⟩, ?_, mustBe_iff.2 ⟨h2, rfl⟩⟩
    · rw [parsersF_length]
      unfold newWithElements
      rw [if_neg (by omega), if_pos hn, hc]
      rfl
    · rw [structLoop, if_pos rfl]
  | @struct _ ms vs hn hnd hperm hlen hpt =>
    rw [Tree.toks] at h
    obtain ⟨k2, s2, h, h3⟩ := Spec.Reads.split h
    obtain ⟨k1, s1, h1, h2⟩ := Spec.Reads.split h
    let mem : Str × Tree → Mem := fun m =>
      ⟨labelIdx m.1 fs, m.1, m.2, (vs[labelIdx m.1 fs]?).getD .unit⟩
    have hmem : ∀ m ∈ ms, ∃ c, fs[labelIdx m.1 fs]? = some (m.1, c) := fun m hm =>
      labelIdx_get (hperm.mem_iff.1 (List.mem_map_of_mem hm))
    have hmi : ∀ m ∈ ms, ∀ (i : Nat) (f : Str × Ty), fs[i]? = some f → f.1 = m.1 →
        labelIdx m.1 fs = i := by
      intro m hm i f hf hl
      obtain ⟨c, hc⟩ := hmem m hm
      exact nodup_get_inj hnd hc hf hl.symm
    have hmsnd : (ms.map (·.1)).Nodup := hperm.nodup_iff.2 hnd
    have hidxnd : ((ms.map mem).map (·.idx)).Nodup := by
      rw [List.map_map, List.nodup_iff_pairwise_ne, List.pairwise_map]
      rw [List.nodup_iff_pairwise_ne, List.pairwise_map] at hmsnd
      refine List.Pairwise.imp_of_mem ?_ hmsnd
      intro a b ha hb hab he
      obtain ⟨c, hc⟩ := hmem a ha
      obtain ⟨c', hc'⟩ := hmem b hb
      simp only [Function.comp_apply, mem] at he
      rw [he, hc'] at hc
      exact hab (congrArg Prod.fst (Option.some.inj hc)).symm
    have hall : ∀ i, i ∈ (ms.map mem).map (·.idx) ↔ i < fs.length := by
      intro i
      rw [List.map_map, List.mem_map]
      constructor
      · rintro ⟨m, hm, rfl⟩
        obtain ⟨c, hc⟩ := hmem m hm
        exact (List.getElem?_eq_some_iff.1 hc).1
      · intro hi
        have : (fs[i]).1 ∈ ms.map (·.1) :=
          hperm.mem_iff.2 (List.mem_map_of_mem (List.getElem_mem hi))
        obtain ⟨m, hm, he⟩ := List.mem_map.1 this
        exact ⟨m, hm, hmi m hm i _ (List.getElem?_eq_getElem hi) he.symm⟩
    have hval : ∀ m ∈ ms, vs[labelIdx m.1 fs]? = some (mem m).val := by
      intro m hm
      obtain ⟨c, hc⟩ := hmem m hm
      have : labelIdx m.1 fs < vs.length := by
        rw [hlen]; exact (List.getElem?_eq_some_iff.1 hc).1
      simp [mem, List.getElem?_eq_getElem this]
    have hok : ∀ m ∈ ms.map mem, MemOk env fs m := by
      intro m' hm'
      obtain ⟨m, hm, rfl⟩ := List.mem_map.1 hm'
      obtain ⟨c, hc⟩ := hmem m hm
      refine ⟨c, hc, ?_, ?_⟩
      · intro j g hj hg he
        have := hmi m hm j g hg he
        simp only [mem] at hj
        omega
      · exact hpt _ _ m.2 _ hc hm (hval m hm)
    have hbits : ∀ i, (2 ^ fs.length - 1).testBit i = true ↔ i ∈ (ms.map mem).map (·.idx) := by
      intro i
      rw [Nat.testBit_two_pow_sub_one, hall]; simp
    have hmsl : (ms.map mem).length ≤ 64 := by
      have := hperm.length_eq
      simp only [List.length_map] at this ⊢
      omega
    have htk : (ms.map mem).map memToks = toksM ms := by
      rw [memToks_map, List.map_map]
      congr 1
      have : ((fun m : Mem => (m.label, m.tree)) ∘ mem) = id := by
        funext m; rfl
      rw [this, List.map_id]
    obtain ⟨d, e, o⟩ := structLoop_complete (p := p) ih (ms.map mem) 64 (2 ^ fs.length - 1) true
      ⟨k1, s1, st.out⟩ k2 s2 hmsl
      (fun i hi => by rw [Nat.testBit_two_pow_sub_one] at hi; have := of_decide_eq_true hi; omega)
      hidxnd hbits hok (by rw [htk]; exact h2)
    refine ⟨d, ?_, ?_⟩
    · simp only [parserFor, structParser, Parse.bind_eq_ok]
      exact ⟨⟨k1, s1, st.out⟩, mustBe_iff.2 ⟨h1, rfl⟩, _,
        by rw [parsersF_length]; exact newWithElements_small hn, ⟨k2, s2, d⟩, e, mustBe_iff.2 ⟨h3, rfl⟩⟩
    · refine o.congr ?_
      intro x
      rw [leaves, leavesFrom_mem, List.mem_flatMap]
      constructor
      · rintro ⟨m', hm', hx⟩
        obtain ⟨m, hm, rfl⟩ := List.mem_map.1 hm'
        exact ⟨labelIdx m.1 fs, _, hval m hm, by rw [Nat.zero_add]; exact hx⟩
      · rintro ⟨i, v, hv, hx⟩
        have hi : i < fs.length := by rw [← hlen]; exact (List.getElem?_eq_some_iff.1 hv).1
        obtain ⟨m', hm', he⟩ := List.mem_map.1 ((hall i).2 hi)
        refine ⟨m', hm', ?_⟩
        obtain ⟨m, hm, rfl⟩ := List.mem_map.1 hm'
        have h1 := hval m hm
        have he' : labelIdx m.1 fs = i := he
        rw [he', hv] at h1
        unfold memLeaves
        rw [he, ← Option.some.inj h1]
        rwa [Nat.zero_add] at hx

/-! ## Enums -/

theorem findCase_ok {cases : List (Str × (Nat × Parser))} {k : Json.Tok} {c : Nat × Parser} :
    findCase cases k = .ok c ↔ ∃ l, k = .string l ∧ lastEntry l cases = some c := by
  unfold findCase
  split
  · next l =>
    split
    · next h =>
      constructor
      · intro h'; cases h'
      · rintro ⟨l', h1, h2⟩; cases h1; rw [h] at h2; cases h2
    · next j h =>
      constructor
      · intro h'; cases h'; exact ⟨l, rfl, h⟩
      · rintro ⟨l', h1, h2⟩; cases h1; rw [h] at h2; cases h2; rfl
  · next hk =>
    constructor
    · intro h'; cases h'
    · rintro ⟨l', h1, _⟩; exact absurd h1 (hk l')

theorem stored_case {d d' : IntermediateDataSource} {p : Path} {i : Nat} {v : Val}
    (h : Stored (d.addCaseTag p i) d' (leaves v (p ++ [i]))) : Stored d d' (leaves (.case i v) p) := by
  rw [leaves]
  refine Stored.append (L1 := [(p, .tag i)]) (Stored.insert d p (.tag i)) h ?_
  intro q l l' hm hm'
  simp only [List.mem_singleton, Prod.mk.injEq] at hm
  obtain ⟨rfl, rfl⟩ := hm
  have := (leaves_under v _ _ hm').length_le
  simp at this
  omega

theorem enum_sound {env : Env} {p : Path} {cs : List (Str × Ty)} (ih : ∀ c ∈ cs, ∀ q, Sound env q c.2) :
    Sound env p (.enum cs) := by
  intro st st' h
  simp only [parserFor, enumParser, Parse.bind_eq_ok] at h
  obtain ⟨st1, h1, st2, h2, st3, h3, ⟨i, P⟩, h4, st4, h5, st5, h6, st6, h7, st7, h8, st8, h9, h10⟩ := h
  obtain ⟨g1, o1⟩ := mustBe_iff.1 h1
  obtain ⟨g2, o2⟩ := mustBe_iff.1 h2
  obtain ⟨g3, o3⟩ := mustBe_iff.1 h3
  obtain ⟨l, hl, hi⟩ := findCase_ok.1 h4
  obtain ⟨c, hc, hcl, rfl, hlast⟩ := findCase_iff.1 hi
  obtain ⟨g5, o5⟩ := advance_out_iff.1 h5
  obtain ⟨g6, o6⟩ := mustBe_iff.1 h6
  obtain ⟨g7, o7⟩ := mustBe_iff.1 h7
  obtain ⟨g8, o8⟩ := mustBe_iff.1 h8
  obtain ⟨tr, v, g9, d9, s9⟩ := ih c (List.mem_of_getElem? hc) _ _ _ h9
  obtain ⟨g10, o10⟩ := mustBe_iff.1 h10
  refine ⟨.obj [("kind".toList, .str l), ("value".toList, tr)], .case i v, ?_, ?_, ?_⟩
  · rw [hl] at g5
    have e : (Tree.obj [("kind".toList, .str l), ("value".toList, tr)]).toks =
        [.beginObject] ++ ([.string ['k', 'i', 'n', 'd']] ++ ([.colon] ++ ([.string l] ++ ([.comma] ++
          ([.string ['v', 'a', 'l', 'u', 'e']] ++ ([.colon] ++ (tr.toks ++ [.endObject]))))))) := by
      simp [Tree.toks, toksM, sepBy, memberToks]
    rw [e]
    exact g1.append (g2.append (g3.append (g5.append (g6.append (g7.append (g8.append (g9.append g10)))))))
  · refine .enum (c := c.2) (by rw [hc, ← hcl]) hlast d9
  · refine stored_case ?_
    rw [o10, ← o1, ← o2, ← o3, ← o5, ← o6, ← o7, ← o8]
    exact s9

theorem enum_complete {env : Env} {p : Path} {cs : List (Str × Ty)}
    (ih : ∀ c ∈ cs, ∀ q, Complete env q c.2) : Complete env p (.enum cs) := by
  intro st tr v k s h hden
  cases hden with
  | @enum _ i l c t v hc hlast hd =>
    have e : (Tree.obj [("kind".toList, .str l), ("value".toList, t)]).toks =
        [.beginObject] ++ ([.string ['k', 'i', 'n', 'd']] ++ ([.colon] ++ ([.string l] ++ ([.comma] ++
          ([.string ['v', 'a', 'l', 'u', 'e']] ++ ([.colon] ++ (t.toks ++ [.endObject]))))))) := by
      simp [Tree.toks, toksM, sepBy, memberToks]
    rw [e] at h
    obtain ⟨k1, s1, h1, h⟩ := Spec.Reads.split h
    obtain ⟨k2, s2, h2, h⟩ := Spec.Reads.split h
    obtain ⟨k3, s3, h3, h⟩ := Spec.Reads.split h
    obtain ⟨k4, s4, h4, h⟩ := Spec.Reads.split h
    obtain ⟨k5, s5, h5, h⟩ := Spec.Reads.split h
    obtain ⟨k6, s6, h6, h⟩ := Spec.Reads.split h
    obtain ⟨k7, s7, h7, h⟩ := Spec.Reads.split h
    obtain ⟨k8, s8, h8, h9⟩ := Spec.Reads.split h
    obtain ⟨d, e, o⟩ := ih _ (List.mem_of_getElem? hc) (p ++ [i]) ⟨k7, s7, st.out.addCaseTag p i⟩ t v k8 s8 h8 hd
    obtain rfl := Spec.Reads.head h4
    refine ⟨d, ?_, stored_case o⟩
    simp only [parserFor, enumParser, Parse.bind_eq_ok]
    refine ⟨⟨k1, s1, st.out⟩, mustBe_iff.2 ⟨h1, rfl⟩, ⟨k2, s2, st.out⟩, mustBe_iff.2 ⟨h2, rfl⟩,
      ⟨_, s3, st.out⟩, mustBe_iff.2 ⟨h3, rfl⟩, (i, parserFor env (p ++ [i]) c),
      findCase_ok.2 ⟨l, rfl, findCase_iff.2 ⟨_, hc, rfl, rfl, hlast⟩⟩,
      ⟨k4, s4, st.out.addCaseTag p i⟩, advance_out_iff.2 ⟨h4, rfl⟩,
      ⟨k5, s5, st.out.addCaseTag p i⟩, mustBe_iff.2 ⟨h5, rfl⟩,
      ⟨k6, s6, st.out.addCaseTag p i⟩, mustBe_iff.2 ⟨h6, rfl⟩,
      ⟨k7, s7, st.out.addCaseTag p i⟩, mustBe_iff.2 ⟨h7, rfl⟩, _, e, mustBe_iff.2 ⟨h9, rfl⟩⟩

/-! ## Leaves -/

theorem extractChar_iff {s : Str} {c : Char} : extractChar s = some c ↔ s = [c] := by
  unfold extractChar
  split <;> simp_all

theorem prim_sound {env : Env} {p : Path} {q : Prim} : Sound env p (.prim q) := by
  intro st st' h
  have hnum : parsePrimitiveNumber env q p st = .ok st' →
      ∃ tr v, Goes env st tr.toks st' ∧ Takes env.floats (env.chk = false) (.prim q) tr v ∧
        Stored st.out st'.out (leaves v p) := by
    intro h
    unfold parsePrimitiveNumber at h
    have key : ∀ (s : Str) (tr : Tree), tr.toks = [st.tok] →
        (∀ v, v.kind = q → NumText env.floats s v → Takes env.floats (env.chk = false) (.prim q) tr (.prim v)) →
        (match fromStr env.floats q s with
          | some v => advance env { st with out := st.out.addPrimitive p v }
          | none => fail) = .ok st' →
        ∃ tr v, Goes env st tr.toks st' ∧ Takes env.floats (env.chk = false) (.prim q) tr v ∧
          Stored st.out st'.out (leaves v p) := by
      intro s tr htr hd h
      split at h
      · next v hv =>
        obtain ⟨g, o⟩ := advance_out_iff.1 h
        obtain ⟨h1, h2⟩ := fromStr_iff.1 hv
        refine ⟨tr, .prim v, by rw [htr]; exact g, hd v h1 h2, ?_⟩
        rw [o, leaves]
        exact Stored.insert st.out p (.prim v)
      · cases h
    split at h
    · next s hs => exact key s (.str s) (by rw [hs]; rfl) (fun v h1 h2 => .numStr h1 h2) h
    · next s hs => exact key s (.num s) (by rw [hs]; rfl) (fun v h1 h2 => .num h1 h2) h
    · cases h
  by_cases hb : q = .bool
  · subst hb
    simp only [parserFor, primitiveParser] at h
    split at h
    · next hs =>
      obtain ⟨g, o⟩ := advance_out_iff.1 h
      refine ⟨.bool true, .prim ⟨.bool, true⟩, by rw [hs] at g; exact g, .bool true, ?_⟩
      rw [o, leaves]
      exact Stored.insert st.out p _
    · next hs =>
      obtain ⟨g, o⟩ := advance_out_iff.1 h
      refine ⟨.bool false, .prim ⟨.bool, false⟩, by rw [hs] at g; exact g, .bool false, ?_⟩
      rw [o, leaves]
      exact Stored.insert st.out p _
    · cases h
  · by_cases hc : q = .char
    · subst hc
      simp only [parserFor, primitiveParser] at h
      split at h
      · next s hs =>
        split at h
        · rw [Parse.bind_eq_ok] at h
          obtain ⟨_, _, h⟩ := h
          cases h
        · next c hc =>
          obtain ⟨g, o⟩ := advance_out_iff.1 h
          have := extractChar_iff.1 hc
          subst this
          refine ⟨.str [c], .prim ⟨.char, c⟩, by rw [hs] at g; exact g, .char c, ?_⟩
          rw [o, leaves]
          exact Stored.insert st.out p _
      · cases h
    · refine hnum ?_
      rw [← h, parserFor]
      cases q <;> first | exact absurd rfl hb | exact absurd rfl hc | rfl

theorem prim_complete {env : Env} {p : Path} {q : Prim} : Complete env p (.prim q) := by
  intro st tr v k s h hden
  have hnum : ∀ (s0 : Str) (v : PrimVal), (st.tok = .string s0 ∨ st.tok = .number s0) →
      Reads env.alnum st.tok st.rest [st.tok] k s → v.kind = q → NumText env.floats s0 v →
      ∃ d, parserFor env p (.prim q) st = .ok ⟨k, s, d⟩ ∧ Stored st.out d (leaves (.prim v) p) := by
    intro s0 v ht h hk hv
    refine ⟨st.out.addPrimitive p v, ?_, ?_⟩
    · have e : parserFor env p (.prim q) = parsePrimitiveNumber env q p := by
        rw [parserFor]
        rcases v with ⟨vk, vv⟩
        simp only at hk
        subst hk
        cases vk <;> first | rfl | exact hv.elim
      rw [e]
      unfold parsePrimitiveNumber
      have hf := fromStr_iff.2 ⟨hk, hv⟩
      rcases ht with ht | ht
      · rw [ht]
        simp only [hf]
        exact advance_out_iff.2 ⟨h, rfl⟩
      · rw [ht]
        simp only [hf]
        exact advance_out_iff.2 ⟨h, rfl⟩
    · rw [leaves]
      exact Stored.insert st.out p (.prim v)
  cases hden with
  | bool b =>
    refine ⟨st.out.addPrimitive p ⟨.bool, b⟩, ?_, by rw [leaves]; exact Stored.insert st.out p _⟩
    have ht : st.tok = if b then .true else .false := Spec.Reads.head h
    have h' : Reads env.alnum st.tok st.rest [st.tok] k s := by rw [ht] at h ⊢; exact h
    rw [parserFor]
    unfold primitiveParser
    cases b
    · have ht : st.tok = .false := ht
      rw [ht] at h'
      simp only [ht]
      exact advance_out_iff.2 ⟨by unfold Goes; rw [ht]; exact h', rfl⟩
    · have ht : st.tok = .true := ht
      rw [ht] at h'
      simp only [ht]
      exact advance_out_iff.2 ⟨by unfold Goes; rw [ht]; exact h', rfl⟩
  | char c =>
    refine ⟨st.out.addPrimitive p ⟨.char, c⟩, ?_, by rw [leaves]; exact Stored.insert st.out p _⟩
    have ht : st.tok = .string [c] := Spec.Reads.head h
    rw [parserFor]
    unfold primitiveParser
    simp only [ht, extractChar]
    exact advance_out_iff.2 ⟨by unfold Goes; rw [ht] at h ⊢; exact h, rfl⟩
  | num hk hv =>
    have ht := Spec.Reads.head h
    exact hnum _ _ (.inr ht) (by rw [ht]; rw [ht] at h; exact h) hk hv
  | numStr hk hv =>
    have ht := Spec.Reads.head h
    exact hnum _ _ (.inl ht) (by rw [ht]; rw [ht] at h; exact h) hk hv

/-! ## All types -/

theorem parser_sound {env : Env} (t : Ty) : ∀ p, Sound env p t := by
  induction t using Ty.ind with
  | unit =>
    intro p st st' h
    simp only [parserFor, nullParser] at h
    split at h
    · next hs =>
      obtain ⟨g, o⟩ := advance_iff.1 h
      refine ⟨.null, .unit, by rw [hs] at g; exact g, .unit, ?_⟩
      rw [o, leaves]
      exact Stored.nil _
    · cases h
  | prim q => intro p; exact prim_sound
  | string =>
    intro p st st' h
    simp only [parserFor, stringParser] at h
    split at h
    · next s hs =>
      obtain ⟨g, o⟩ := advance_out_iff.1 h
      refine ⟨.str s, .str s.utf8, by rw [hs] at g; exact g, .string s, ?_⟩
      rw [o, leaves]
      exact Stored.insert st.out p (.string s)
    · cases h
  | tuple cs ih =>
    intro p st st' h
    simp only [parserFor, tupleParser, Parse.bind_eq_ok] at h
    obtain ⟨st1, h1, st2, h2, h3⟩ := h
    obtain ⟨g1, o1⟩ := mustBe_iff.1 h1
    obtain ⟨g3, o3⟩ := mustBe_iff.1 h3
    obtain ⟨ts, vs, l1, l2, hd, g2, s2⟩ := tupleLoop_sound cs 0 true st1 st2 ih h2
    refine ⟨.arr ts, .seq vs, ?_, .tuple l1 l2 hd, ?_⟩
    · rw [Tree.toks, toksL_map]
      exact (g1.append g2).append g3
    · rw [o3, ← o1, leaves]
      exact s2
  | struct fs ih =>
    intro p
    exact struct_sound ih
  | enum cs ih =>
    intro p
    exact enum_sound ih

theorem parser_complete {env : Env} (t : Ty) : ∀ p, Complete env p t := by
  induction t using Ty.ind with
  | unit =>
    intro p st tr v k s h hd
    cases hd
    have ht : st.tok = .null := Spec.Reads.head h
    refine ⟨st.out, ?_, by rw [leaves]; exact Stored.nil _⟩
    rw [parserFor]
    unfold nullParser
    simp only [ht]
    exact advance_iff.2 ⟨by rw [ht]; exact h, rfl⟩
  | prim q => intro p; exact prim_complete
  | string =>
    intro p st tr v k s h hd
    cases hd with
    | string s0 =>
      have ht : st.tok = .string s0 := Spec.Reads.head h
      refine ⟨st.out.addString p s0, ?_, by rw [leaves]; exact Stored.insert st.out p (.string s0)⟩
      rw [parserFor]
      unfold stringParser
      simp only [ht]
      exact advance_out_iff.2 ⟨by rw [ht]; exact h, rfl⟩
  | tuple cs ih =>
    intro p st tr v k s h hd
    cases hd with
    | tuple l1 l2 hd =>
      rw [Tree.toks, toksL_map] at h
      obtain ⟨k2, s2, h, h3⟩ := Spec.Reads.split h
      obtain ⟨k1, s1, h1, h2⟩ := Spec.Reads.split h
      obtain ⟨d, e, o⟩ := tupleLoop_complete (p := p) cs 0 true ⟨k1, s1, st.out⟩ _ _ k2 s2
        ih l1 l2 hd h2
      refine ⟨d, ?_, by rw [leaves]; exact o⟩
      simp only [parserFor, tupleParser, Parse.bind_eq_ok]
      exact ⟨⟨k1, s1, st.out⟩, mustBe_iff.2 ⟨h1, rfl⟩, _, e, mustBe_iff.2 ⟨h3, rfl⟩⟩
  | struct fs ih =>
    intro p
    exact struct_complete ih
  | enum cs ih =>
    intro p
    exact enum_complete ih

/-! ## The decoder -/

theorem stored_nil_holds {d : IntermediateDataSource} {v : Val} (h : Stored [] d (leaves v [])) :
    HoldsExactly d v := by
  intro q l
  constructor
  · intro hq
    apply Classical.byContradiction
    intro hn
    by_cases hex : ∃ l', (q, l') ∈ leaves v []
    · obtain ⟨l', hl'⟩ := hex
      rw [h.1 q l' hl'] at hq
      exact hn (Option.some.inj hq ▸ hl')
    · rw [h.2 q (fun l' hl' => hex ⟨l', hl'⟩)] at hq
      cases hq
  · exact h.1 q l

/-- The decoder stores the value of the document the text begins with. -/
theorem decode_takes {env : Env} {t : Ty} {input : Str} {d : IntermediateDataSource}
    (h : decode env t input = .ok d) :
    ∃ tr v k s, StartsWith env.alnum input tr.toks k s ∧ Takes env.floats (env.chk = false) t tr v ∧
      HoldsExactly d v := by
  unfold decode at h
  rw [Parse.bind_eq_ok] at h
  obtain ⟨⟨k0, s0⟩, h0, h⟩ := h
  rw [Parse.bind_eq_ok] at h
  obtain ⟨st, h1, h2⟩ := h
  cases h2
  obtain ⟨tr, v, g, hd, hs⟩ := parser_sound t [] _ _ h1
  exact ⟨tr, v, st.tok, st.rest, ⟨k0, s0, h0, g⟩, hd, stored_nil_holds hs⟩

theorem takes_decode {env : Env} {t : Ty} {input : Str} {tr : Tree} {v : Val} {k : Json.Tok} {s : Str}
    (h : StartsWith env.alnum input tr.toks k s) (hd : Takes env.floats (env.chk = false) t tr v) :
    ∃ d, decode env t input = .ok d ∧ HoldsExactly d v := by
  obtain ⟨k0, s0, h0, h1⟩ := h
  obtain ⟨d, e, o⟩ := parser_complete t [] ⟨k0, s0, []⟩ tr v k s h1 hd
  refine ⟨d, ?_, stored_nil_holds o⟩
  unfold decode
  rw [Parse.bind_eq_ok]
  refine ⟨(k0, s0), h0, ?_⟩
  rw [Parse.bind_eq_ok]
  exact ⟨_, e, rfl⟩

theorem Spec.Takes.denotes {F : FloatText} {lax : Prop} {t : Ty} {tr : Tree} {v : Val}
    (h : Takes F lax t tr v) : AllStructs (fun n => n ≠ 64 ∨ ¬ lax) t → Denotes F t tr v := by
  induction h with
  | unit => intro _; exact .unit
  | bool b => intro _; exact .bool b
  | char c => intro _; exact .char c
  | num h1 h2 => intro _; exact .num h1 h2
  | numStr h1 h2 => intro _; exact .numStr h1 h2
  | string s => intro _; exact .string s
  | tuple h1 h2 _ ih =>
    intro ha
    cases ha with
    | tuple ha => exact .tuple h1 h2 fun i c t v hc ht hv => ih i c t v hc ht hv (ha c (List.mem_of_getElem? hc))
  | struct _ h2 h3 h4 _ ih =>
    intro ha
    cases ha with
    | struct _ ha =>
      exact .struct h2 h3 h4 fun i c t v hc ht hv => ih i c t v hc ht hv (ha c (List.mem_of_getElem? hc))
  | gap h1 h2 =>
    intro ha
    cases ha with
    | struct hn _ =>
      rcases hn with hn | hn
      · exact absurd h2 hn
      · exact absurd h1 hn
  | enum h1 h2 _ ih =>
    intro ha
    cases ha with
    | enum ha => exact .enum h1 h2 (ih (ha _ (List.mem_of_getElem? h1)))

theorem Spec.Denotes.takes {F : FloatText} {lax : Prop} {t : Ty} {tr : Tree} {v : Val}
    (h : Denotes F t tr v) : AllStructs (fun n => n ≤ 63) t → Takes F lax t tr v := by
  induction h with
  | unit => intro _; exact .unit
  | bool b => intro _; exact .bool b
  | char c => intro _; exact .char c
  | num h1 h2 => intro _; exact .num h1 h2
  | numStr h1 h2 => intro _; exact .numStr h1 h2
  | string s => intro _; exact .string s
  | tuple h1 h2 _ ih =>
    intro ha
    cases ha with
    | tuple ha => exact .tuple h1 h2 fun i c t v hc ht hv => ih i c t v hc ht hv (ha c (List.mem_of_getElem? hc))
  | struct h2 h3 h4 _ ih =>
    intro ha
    cases ha with
    | struct hn ha =>
      exact .struct hn h2 h3 h4 fun i c t v hc ht hv => ih i c t v hc ht hv (ha c (List.mem_of_getElem? hc))
  | enum h1 h2 _ ih =>
    intro ha
    cases ha with
    | enum ha => exact .enum h1 h2 (ih (ha _ (List.mem_of_getElem? h1)))

theorem Spec.AllStructs.mono {P Q : Nat → Prop} (hpq : ∀ n, P n → Q n) {t : Ty} (h : AllStructs P t) :
    AllStructs Q t := by
  induction h with
  | unit => exact .unit
  | prim p => exact .prim p
  | string => exact .string
  | tuple _ ih => exact .tuple ih
  | struct h1 _ ih => exact .struct (hpq _ h1) ih
  | enum _ ih => exact .enum ih

theorem allStructs_of {P : Nat → Prop} (hp : ∀ n, P n) (t : Ty) : AllStructs P t := by
  induction t using Ty.ind with
  | unit => exact .unit
  | prim q => exact .prim q
  | string => exact .string
  | tuple cs ih => exact .tuple ih
  | struct fs ih => exact .struct (hp _) ih
  | enum cs ih => exact .enum ih

theorem decode_sound {env : Env} {t : Ty} {input : Str} {d : IntermediateDataSource}
    (ha : AllStructs (fun n => n ≠ 64 ∨ env.chk = true) t) (h : decode env t input = .ok d) :
    ∃ tr v k s, StartsWith env.alnum input tr.toks k s ∧ Denotes env.floats t tr v ∧ HoldsExactly d v := by
  obtain ⟨tr, v, k, s, h1, h2, h3⟩ := decode_takes h
  exact ⟨tr, v, k, s, h1, h2.denotes (ha.mono fun n h => h.imp id fun h => by rw [h]; simp), h3⟩

theorem decode_complete {env : Env} {t : Ty} {input : Str} {tr : Tree} {v : Val} {k : Json.Tok} {s : Str}
    (ha : AllStructs (fun n => n ≤ 63) t) (h : StartsWith env.alnum input tr.toks k s)
    (hd : Denotes env.floats t tr v) : ∃ d, decode env t input = .ok d ∧ HoldsExactly d v :=
  takes_decode h (hd.takes ha)

end Verif
