import Verif.Spec.Sql
import Verif.Proof.Util
/-! # Names and maps keyed by names -/

namespace Verif.Sql

theorem iterEq_iff : ∀ a b : List Char, iterEq a b = true ↔ a = b
  | [], [] => by simp [iterEq]
  | [], _ :: _ => by simp [iterEq]
  | _ :: _, [] => by simp [iterEq]
  | a :: as, b :: bs => by simp [iterEq, iterEq_iff as bs]

theorem char_lt_iff (a b : Char) : a < b ↔ a.toNat < b.toNat := Iff.rfl

theorem char_eq_of_toNat {a b : Char} (h : a.toNat = b.toNat) : a = b := by
  apply Char.ext
  exact UInt32.toNat_inj.1 h

theorem iterCmp_eq_iff : ∀ a b : List Char, iterCmp a b = .eq ↔ a = b
  | [], [] => by simp [iterCmp]
  | [], _ :: _ => by simp [iterCmp]
  | _ :: _, [] => by simp [iterCmp]
  | a :: as, b :: bs => by
    unfold iterCmp
    by_cases h1 : a.toNat < b.toNat
    · rw [if_pos h1]
      constructor
      · intro h; cases h
      · intro h; cases h; exact absurd h1 (Nat.lt_irrefl _)
    · rw [if_neg h1]
      by_cases h2 : b.toNat < a.toNat
      · rw [if_pos h2]
        constructor
        · intro h; cases h
        · intro h; cases h; exact absurd h2 (Nat.lt_irrefl _)
      · rw [if_neg h2, iterCmp_eq_iff as bs]
        have : a = b := char_eq_of_toNat (by omega)
        subst this
        simp

theorem iterCmp_lt_iff : ∀ a b : List Char, iterCmp a b = .lt ↔ a < b
  | [], [] => by simp [iterCmp]
  | [], _ :: _ => by simp [iterCmp]
  | _ :: _, [] => by simp [iterCmp]
  | a :: as, b :: bs => by
    unfold iterCmp
    rw [List.cons_lt_cons_iff]
    by_cases h1 : a.toNat < b.toNat
    · rw [if_pos h1]
      simp [char_lt_iff, h1]
    · rw [if_neg h1]
      by_cases h2 : b.toNat < a.toNat
      · rw [if_pos h2]
        constructor
        · intro h; cases h
        · rintro (h | ⟨h, _⟩)
          · exact absurd h h1
          · subst h; exact absurd h2 (Nat.lt_irrefl _)
      · rw [if_neg h2, iterCmp_lt_iff as bs]
        have : a = b := char_eq_of_toNat (by omega)
        subst this
        simp

theorem iterCmp_gt_iff : ∀ a b : List Char, iterCmp a b = .gt ↔ b < a
  | [], [] => by simp [iterCmp]
  | [], _ :: _ => by simp [iterCmp]
  | _ :: _, [] => by simp [iterCmp]
  | a :: as, b :: bs => by
    unfold iterCmp
    rw [List.cons_lt_cons_iff]
    by_cases h1 : a.toNat < b.toNat
    · rw [if_pos h1]
      constructor
      · intro h; cases h
      · rintro (h | ⟨h, _⟩)
        · exact absurd (Nat.lt_trans h1 h) (Nat.lt_irrefl _)
        · subst h; exact absurd h1 (Nat.lt_irrefl _)
    · rw [if_neg h1]
      by_cases h2 : b.toNat < a.toNat
      · rw [if_pos h2]
        simp [char_lt_iff, h2]
      · rw [if_neg h2, iterCmp_gt_iff as bs]
        have : a = b := char_eq_of_toNat (by omega)
        subst this
        simp

/-- What the map operations need of the comparison: equality of names is equality of keys, and the order
of names is an order of keys. -/
structure Keyed {N : Type} (ops : NameOps N) (key : N → List Char) : Prop where
  cmp : ∀ a b, ops.cmp a b = iterCmp (key a) (key b)
  eq : ∀ a b, ops.eq a b = iterEq (key a) (key b)

theorem keyed_nameOps (up : Char → List Char) : Keyed (nameOps up) (Name.upper up) :=
  ⟨fun _ _ => rfl, fun _ _ => rfl⟩

section
variable {N V : Type} {ops : NameOps N} {key : N → List Char}

theorem Keyed.cmp_eq (h : Keyed ops key) {a b : N} : ops.cmp a b = .eq ↔ key a = key b := by
  rw [h.cmp, iterCmp_eq_iff]

theorem Keyed.cmp_lt (h : Keyed ops key) {a b : N} : ops.cmp a b = .lt ↔ key a < key b := by
  rw [h.cmp, iterCmp_lt_iff]

theorem Keyed.cmp_gt (h : Keyed ops key) {a b : N} : ops.cmp a b = .gt ↔ key b < key a := by
  rw [h.cmp, iterCmp_gt_iff]

theorem Keyed.eq_true (h : Keyed ops key) {a b : N} : ops.eq a b = true ↔ key a = key b := by
  rw [h.eq, iterEq_iff]

theorem TMap.get_insert (hk : Keyed ops key) (m : TMap N V) (k k' : N) (v : V) :
    (m.insert ops k v).get ops k' = if key k' = key k then some v else m.get ops k' := by
  induction m with
  | nil => simp only [TMap.insert, TMap.get, hk.cmp_eq]
  | cons e r ih =>
    obtain ⟨k0, v0⟩ := e
    unfold TMap.insert
    rcases hc : ops.cmp k k0 with _ | _ | _
    · simp only [TMap.get, hk.cmp_eq]
    · have hc := hk.cmp_eq.1 hc
      simp only [TMap.get, hk.cmp_eq, hc]
      split <;> rfl
    · have hne : key k ≠ key k0 := by
        intro h
        rw [hk.cmp_eq.2 h] at hc
        cases hc
      simp only [TMap.get, hk.cmp_eq, ih]
      split
      · rename_i h
        rw [if_neg (by rw [h]; exact fun h => hne h.symm)]
      · rfl

theorem TMap.get_remove (hk : Keyed ops key) (m : TMap N V) (k k' : N) :
    (m.remove ops k).get ops k' = if key k' = key k then none else m.get ops k' := by
  induction m with
  | nil => simp [TMap.remove, TMap.get]
  | cons e r ih =>
    obtain ⟨k0, v0⟩ := e
    unfold TMap.remove at ih ⊢
    rw [List.filter_cons]
    by_cases hc : key k = key k0
    · rw [if_neg (by simp [hk.cmp_eq, hc]), ih]
      simp only [TMap.get, hk.cmp_eq]
      split
      · rfl
      · rename_i h
        rw [if_neg (by rw [← hc]; exact h)]
    · rw [if_pos (by simp [hk.cmp_eq, hc])]
      simp only [TMap.get, hk.cmp_eq, ih]
      split
      · rename_i h
        rw [if_neg (by rw [h]; exact fun h => hc h.symm)]
      · rfl

theorem TMap.containsKey_iff {m : TMap N V} {k : N} :
    m.containsKey ops k = true ↔ ∃ v, m.get ops k = some v := by
  unfold TMap.containsKey
  rw [Option.isSome_iff_exists]

theorem TMap.get_mem (hk : Keyed ops key) {m : TMap N V} {k : N} {v : V} (h : m.get ops k = some v) :
    ∃ e ∈ m, key e.1 = key k ∧ e.2 = v := by
  induction m with
  | nil => cases h
  | cons e r ih =>
    obtain ⟨k0, v0⟩ := e
    unfold TMap.get at h
    by_cases hc : ops.cmp k k0 = .eq
    · rw [if_pos hc] at h
      cases h
      exact ⟨(k0, v), List.mem_cons_self, (hk.cmp_eq.1 hc).symm, rfl⟩
    · rw [if_neg hc] at h
      obtain ⟨e, he, h1, h2⟩ := ih h
      exact ⟨e, List.mem_cons_of_mem _ he, h1, h2⟩

theorem TMap.get_none (hk : Keyed ops key) {m : TMap N V} {k : N} :
    m.get ops k = none ↔ ∀ e ∈ m, key e.1 ≠ key k := by
  induction m with
  | nil => simp [TMap.get]
  | cons e r ih =>
    obtain ⟨k0, v0⟩ := e
    unfold TMap.get
    by_cases hc : ops.cmp k k0 = .eq
    · rw [if_pos hc]
      constructor
      · intro h; cases h
      · intro h
        exact absurd (hk.cmp_eq.1 hc).symm (h _ List.mem_cons_self)
    · rw [if_neg hc, ih]
      constructor
      · intro h e he
        rcases List.mem_cons.1 he with rfl | he
        · exact fun h => hc (hk.cmp_eq.2 h.symm)
        · exact h e he
      · intro h e he
        exact h e (List.mem_cons_of_mem _ he)

/-- Increasing keys. -/
def TMap.Increasing (key : N → List Char) (m : TMap N V) : Prop :=
  m.Pairwise fun a b => key a.1 < key b.1

theorem TMap.get_of_mem (hk : Keyed ops key) {m : TMap N V} (hm : TMap.Increasing key m) {e : N × V}
    (he : e ∈ m) {k : N} (h : key e.1 = key k) : m.get ops k = some e.2 := by
  induction m with
  | nil => cases he
  | cons e0 r ih =>
    obtain ⟨k0, v0⟩ := e0
    unfold TMap.Increasing at hm
    rw [List.pairwise_cons] at hm
    unfold TMap.get
    rcases List.mem_cons.1 he with rfl | he'
    · rw [if_pos (hk.cmp_eq.2 h.symm)]
    · have hlt := hm.1 e he'
      have hne : ops.cmp k k0 ≠ .eq := by
        intro hc
        rw [h, hk.cmp_eq.1 hc] at hlt
        exact absurd hlt (List.lt_irrefl _)
      rw [if_neg hne]
      exact ih hm.2 he'

theorem TMap.mem_insert {m : TMap N V} {k : N} {v : V} {e : N × V}
    (he : e ∈ m.insert ops k v) : e ∈ m ∨ e = (k, v) ∨ (e.2 = v ∧ ∃ v', (e.1, v') ∈ m) := by
  induction m with
  | nil =>
    rw [TMap.insert, List.mem_singleton] at he
    exact .inr (.inl he)
  | cons e0 r ih =>
    obtain ⟨k0, v0⟩ := e0
    unfold TMap.insert at he
    rcases hc : ops.cmp k k0 with _ | _ | _ <;> simp only [hc] at he
    · rcases List.mem_cons.1 he with rfl | he
      · exact .inr (.inl rfl)
      · exact .inl he
    · rcases List.mem_cons.1 he with rfl | he
      · exact .inr (.inr ⟨rfl, v0, List.mem_cons_self⟩)
      · exact .inl (List.mem_cons_of_mem _ he)
    · rcases List.mem_cons.1 he with rfl | he
      · exact .inl List.mem_cons_self
      · rcases ih he with h | h | ⟨h, v', h'⟩
        · exact .inl (List.mem_cons_of_mem _ h)
        · exact .inr (.inl h)
        · exact .inr (.inr ⟨h, v', List.mem_cons_of_mem _ h'⟩)

theorem TMap.insert_increasing (hk : Keyed ops key) {m : TMap N V} (hm : TMap.Increasing key m) (k : N)
    (v : V) : TMap.Increasing key (m.insert ops k v) := by
  induction m with
  | nil => simp [TMap.insert, TMap.Increasing]
  | cons e0 r ih =>
    obtain ⟨k0, v0⟩ := e0
    unfold TMap.Increasing at hm ih ⊢
    rw [List.pairwise_cons] at hm
    unfold TMap.insert
    rcases hc : ops.cmp k k0 with _ | _ | _ <;> simp only
    · have hlt := hk.cmp_lt.1 hc
      rw [List.pairwise_cons, List.pairwise_cons]
      refine ⟨?_, hm⟩
      intro e he
      rcases List.mem_cons.1 he with rfl | he
      · exact hlt
      · exact List.lt_trans hlt (hm.1 e he)
    · rw [List.pairwise_cons]
      exact ⟨hm.1, hm.2⟩
    · have hlt := hk.cmp_gt.1 hc
      rw [List.pairwise_cons]
      refine ⟨?_, ih hm.2⟩
      intro e he
      rcases TMap.mem_insert he with h | rfl | ⟨_, v', h⟩
      · exact hm.1 e h
      · exact hlt
      · exact hm.1 (e.1, v') h

theorem TMap.foldl_insert_increasing (hk : Keyed ops key) (es : List (N × V)) {m : TMap N V}
    (hm : TMap.Increasing key m) :
    TMap.Increasing key (es.foldl (fun m e => TMap.insert ops m e.1 e.2) m) := by
  induction es generalizing m with
  | nil => exact hm
  | cons e r ih => exact ih (TMap.insert_increasing hk hm _ _)

theorem TMap.collect_increasing (hk : Keyed ops key) (es : List (N × V)) :
    TMap.Increasing key (TMap.collect ops es) :=
  TMap.foldl_insert_increasing hk es List.Pairwise.nil

theorem TMap.get_foldl_insert (hk : Keyed ops key) (es : List (N × V)) (m : TMap N V) (k : N) :
    (es.foldl (fun m e => TMap.insert ops m e.1 e.2) m).get ops k
      = ((es.reverse.find? fun e => key e.1 = key k).map (·.2)).or (m.get ops k) := by
  induction es generalizing m with
  | nil => simp
  | cons e r ih =>
    rw [List.foldl_cons, ih, List.reverse_cons, List.find?_append, TMap.get_insert hk]
    cases h : r.reverse.find? fun e => key e.1 = key k with
    | some x => simp
    | none =>
      by_cases hc : key e.1 = key k
      · simp [hc]
      · have : ¬ key k = key e.1 := fun h => hc h.symm
        simp [hc, this]

/-- A collected map holds the last entry of each key. -/
theorem TMap.get_collect (hk : Keyed ops key) (es : List (N × V)) (k : N) :
    (TMap.collect ops es).get ops k = (es.reverse.find? fun e => key e.1 = key k).map (·.2) := by
  unfold TMap.collect
  rw [TMap.get_foldl_insert hk]
  simp [TMap.get]

theorem TMap.get_collect_mem (hk : Keyed ops key) {es : List (N × V)} {k : N} {v : V}
    (h : (TMap.collect ops es).get ops k = some v) : ∃ e ∈ es, key e.1 = key k ∧ e.2 = v := by
  rw [TMap.get_collect hk, Option.map_eq_some_iff] at h
  obtain ⟨e, he, rfl⟩ := h
  exact ⟨e, List.mem_reverse.1 (List.mem_of_find?_eq_some he), by simpa using List.find?_some he, rfl⟩

theorem TMap.get_collect_none (hk : Keyed ops key) {es : List (N × V)} {k : N} :
    (TMap.collect ops es).get ops k = none ↔ ∀ e ∈ es, key e.1 ≠ key k := by
  rw [TMap.get_collect hk, Option.map_eq_none_iff, List.find?_eq_none]
  simp

theorem TMap.replace_keys (hk : Keyed ops key) {m m' : TMap N V}
    (h : m.map (fun e => (key e.1, e.2)) = m'.map fun e => (key e.1, e.2)) (k : N) (v : V) :
    (m.replace ops k v).map (fun e => (key e.1, e.2)) = (m'.insert ops k v).map fun e => (key e.1, e.2) := by
  induction m generalizing m' with
  | nil =>
    cases m' with
    | nil => rfl
    | cons e r => cases h
  | cons e r ih =>
    cases m' with
    | nil => cases h
    | cons e' r' =>
      obtain ⟨k0, v0⟩ := e
      obtain ⟨k1, v1⟩ := e'
      simp only [List.map_cons, List.cons.injEq, Prod.mk.injEq] at h
      obtain ⟨⟨hk01, rfl⟩, hr⟩ := h
      have hc : ops.cmp k k0 = ops.cmp k k1 := by
        rcases h1 : ops.cmp k k1 with _ | _ | _
        · rw [hk.cmp_lt] at h1 ⊢
          rwa [hk01]
        · rw [hk.cmp_eq] at h1 ⊢
          rwa [hk01]
        · rw [hk.cmp_gt] at h1 ⊢
          rwa [hk01]
      unfold TMap.replace TMap.insert
      rw [hc]
      rcases h1 : ops.cmp k k1 with _ | _ | _ <;> simp only [List.map_cons]
      · rw [hk01, hr]
      · rw [hk.cmp_eq.1 h1, hr]
      · rw [hk01, ih hr]

/-- Whether the first or the last of equal keys is kept makes no difference but for the spelling of the key. -/
theorem TMap.collectLast_keys (hk : Keyed ops key) (es : List (N × V)) :
    (TMap.collectLast ops es).map (fun e => (key e.1, e.2))
      = (TMap.collect ops es).map fun e => (key e.1, e.2) := by
  unfold TMap.collectLast TMap.collect
  have : ∀ (m m' : TMap N V), m.map (fun e => (key e.1, e.2)) = m'.map (fun e => (key e.1, e.2)) →
      (es.foldl (fun m e => TMap.replace ops m e.1 e.2) m).map (fun e => (key e.1, e.2))
        = (es.foldl (fun m e => TMap.insert ops m e.1 e.2) m').map fun e => (key e.1, e.2) := by
    induction es with
    | nil => exact fun _ _ h => h
    | cons e r ih => exact fun m m' h => ih _ _ (TMap.replace_keys hk h _ _)
  exact this [] [] rfl

/-- Lookups see no difference at all. -/
theorem TMap.get_collectLast (hk : Keyed ops key) (es : List (N × V)) (k : N) :
    (TMap.collectLast ops es).get ops k = (TMap.collect ops es).get ops k := by
  have : ∀ (m m' : TMap N V), m.map (fun e => (key e.1, e.2)) = m'.map (fun e => (key e.1, e.2)) →
      m.get ops k = m'.get ops k := by
    intro m
    induction m with
    | nil =>
      intro m' h
      cases m' with
      | nil => rfl
      | cons e r => cases h
    | cons e r ih =>
      intro m' h
      cases m' with
      | nil => cases h
      | cons e' r' =>
        obtain ⟨k0, v0⟩ := e
        obtain ⟨k1, v1⟩ := e'
        simp only [List.map_cons, List.cons.injEq, Prod.mk.injEq] at h
        obtain ⟨⟨hk01, rfl⟩, hr⟩ := h
        simp only [TMap.get, hk.cmp_eq, hk01, ih r' hr]
  exact this _ _ (TMap.collectLast_keys hk es)

end

/-! ## Maps keyed by `Name` -/

section
variable {V : Type} (up : Char → List Char)

theorem entry_of_get {m : TMap Name V} {k : Name} {v : V} (h : m.get (nameOps up) k = some v) :
    Entry up m k v := TMap.get_mem (keyed_nameOps up) h

theorem get_iff_entry {m : TMap Name V} (hm : Sorted up m) {k : Name} {v : V} :
    m.get (nameOps up) k = some v ↔ Entry up m k v := by
  constructor
  · exact entry_of_get up
  · rintro ⟨e, he, h1, rfl⟩
    exact TMap.get_of_mem (keyed_nameOps up) hm he h1

theorem get_none_iff {m : TMap Name V} {k : Name} :
    m.get (nameOps up) k = none ↔ ∀ v, ¬ Entry up m k v := by
  rw [TMap.get_none (keyed_nameOps up)]
  constructor
  · rintro h v ⟨e, he, h1, _⟩
    exact h e he h1
  · intro h e he h1
    exact h e.2 ⟨e, he, h1, rfl⟩

end

end Verif.Sql
