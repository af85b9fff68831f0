import Verif.Proof.SqlNames
/-! # The schema catalogue and table name resolution -/

namespace Verif.Sql

/-! ## Catalogue -/

/-- A sequence of `create_schema` calls: the database after them and the result of each. -/
def creates {N : Type} (ops : NameOps N) (db : Database N) :
    List N → Res (Database N × List (Except SchemaError Unit))
  | [] => .ok (db, [])
  | n :: ns => do
    let (db, r) ← db.createSchema ops n
    let (db, rs) ← creates ops db ns
    return (db, r :: rs)

theorem createSchema_taken {N : Type} {ops : NameOps N} {db : Database N} {n : N}
    (h : db.schemata.containsKey ops n = true) :
    db.createSchema ops n = .ok (db, .error .alreadyDefined) := by
  unfold Database.createSchema
  rw [if_pos h]
  rfl

theorem createSchema_fresh {N : Type} {ops : NameOps N} {db : Database N} {n : N}
    (h : ¬ db.schemata.containsKey ops n = true) :
    db.createSchema ops n = .ok (⟨db.schemata.insert ops n (Schema.new n)⟩, .ok ()) := by
  unfold Database.createSchema
  have hn : db.schemata.get ops n = none := by
    unfold TMap.containsKey at h
    simpa using h
  rw [if_neg h]
  simp only [hn]
  rfl

variable {up : Char → List Char}

theorem containsKey_iff_entry {V : Type} {m : TMap Name V} {n : Name} :
    m.containsKey (nameOps up) n = true ↔ ∃ v, Entry up m n v := by
  rw [TMap.containsKey_iff]
  constructor
  · rintro ⟨v, h⟩
    exact ⟨v, entry_of_get up h⟩
  · rintro ⟨v, h⟩
    cases hg : m.get (nameOps up) n with
    | some w => exact ⟨w, rfl⟩
    | none => exact absurd h ((get_none_iff up).1 hg v)

/-- The names of the schemas of a catalogue, in order. -/
def Database.names (db : Database Name) : List Name := db.schemata.map (·.1)

/-- A catalogue as `create_schema` builds it: keys increasing, every schema under its own name and empty. -/
structure Built (up : Char → List Char) (db : Database Name) : Prop where
  sorted : Sorted up db.schemata
  fresh : ∀ e ∈ db.schemata, e.2 = Schema.new e.1

theorem built_new : Built up Database.new := ⟨List.Pairwise.nil, fun _ h => nomatch h⟩

theorem mem_insert_fresh {V : Type} {m : TMap Name V} {n : Name} {v : V}
    (h : ¬ m.containsKey (nameOps up) n = true) (e : Name × V) :
    e ∈ m.insert (nameOps up) n v ↔ e ∈ m ∨ e = (n, v) := by
  have hno : ∀ e ∈ m, e.1.upper up ≠ n.upper up := by
    intro e he hs
    exact h (containsKey_iff_entry.2 ⟨e.2, e, he, hs, rfl⟩)
  clear h
  induction m with
  | nil => simp [TMap.insert]
  | cons e0 r ih =>
    obtain ⟨k0, v0⟩ := e0
    have h0 := hno _ List.mem_cons_self
    have ih := ih fun e he => hno e (List.mem_cons_of_mem _ he)
    unfold TMap.insert
    rcases hc : (nameOps up).cmp n k0 with _ | _ | _ <;> simp only [List.mem_cons]
    · constructor
      · rintro (h | h | h)
        · exact .inr h
        · exact .inl (.inl h)
        · exact .inl (.inr h)
      · rintro ((h | h) | h)
        · exact .inr (.inl h)
        · exact .inr (.inr h)
        · exact .inl h
    · exact absurd ((keyed_nameOps up).cmp_eq.1 hc).symm h0
    · refine (or_congr Iff.rfl ih).trans ?_
      constructor
      · rintro (h | h | h)
        · exact .inl (.inl h)
        · exact .inl (.inr h)
        · exact .inr h
      · rintro ((h | h) | h)
        · exact .inl h
        · exact .inr (.inl h)
        · exact .inr (.inr h)

theorem Built.create {db : Database Name} (hb : Built up db) {n : Name}
    (h : ¬ db.schemata.containsKey (nameOps up) n = true) :
    Built up ⟨db.schemata.insert (nameOps up) n (Schema.new n)⟩ := by
  refine ⟨TMap.insert_increasing (keyed_nameOps up) hb.sorted _ _, ?_⟩
  intro e he
  rcases (mem_insert_fresh h e).1 he with h | rfl
  · exact hb.fresh e h
  · rfl

theorem creates_spec (ns : List Name) (db : Database Name) (hb : Built up db) :
    ∃ db' rs, creates (nameOps up) db ns = .ok (db', rs) ∧ Built up db' ∧ rs.length = ns.length ∧
      (∀ e, e ∈ db'.schemata ↔ e ∈ db.schemata ∨
        (e.2 = Schema.new e.1 ∧ FirstSpelling up ns e.1 ∧ ∀ m ∈ db.names, ¬ SameName up m e.1)) ∧
      (∀ (i : Nat) (n : Name), ns[i]? = some n →
        (rs[i]? = some (.ok ()) ∧ (∀ m ∈ db.names, ¬ SameName up m n) ∧
            ∀ j : Nat, j < i → ∀ m, ns[j]? = some m → ¬ SameName up m n) ∨
        (rs[i]? = some (.error .alreadyDefined) ∧
            ((∃ m ∈ db.names, SameName up m n) ∨ ∃ j : Nat, j < i ∧ ∃ m, ns[j]? = some m ∧ SameName up m n))) := by
  induction ns generalizing db with
  | nil =>
    refine ⟨db, [], rfl, hb, rfl, ?_, ?_⟩
    · intro e
      constructor
      · exact .inl
      · rintro (h | ⟨_, ⟨i, hi, _⟩, _⟩)
        · exact h
        · simp at hi
    · intro i n h
      simp at h
  | cons n ns ih =>
    by_cases hc : db.schemata.containsKey (nameOps up) n = true
    · obtain ⟨db', rs, hr, hb', hlen, hmem, hres⟩ := ih db hb
      have hin : ∃ m ∈ db.names, SameName up m n := by
        obtain ⟨v, e, he, hs, _⟩ := containsKey_iff_entry.1 hc
        exact ⟨e.1, List.mem_map.2 ⟨e, he, rfl⟩, hs⟩
      refine ⟨db', .error .alreadyDefined :: rs, ?_, hb', by simp [hlen], ?_, ?_⟩
      · unfold creates
        rw [createSchema_taken hc, Res.bind_ok]
        simp only [hr, Res.bind_ok]
        rfl
      · intro e
        rw [hmem e]
        constructor
        · rintro (h | ⟨h1, ⟨i, hi, hj⟩, h3⟩)
          · exact .inl h
          · refine .inr ⟨h1, ⟨i + 1, hi, ?_⟩, h3⟩
            intro j hji m hm
            cases j with
            | zero =>
              rw [List.getElem?_cons_zero] at hm
              cases hm
              obtain ⟨m, hm, hs⟩ := hin
              intro hs'
              exact h3 m hm (hs.trans hs')
            | succ j => exact hj j (by omega) m hm
        · rintro (h | ⟨h1, ⟨i, hi, hj⟩, h3⟩)
          · exact .inl h
          · cases i with
            | zero =>
              rw [List.getElem?_cons_zero] at hi
              cases hi
              obtain ⟨m, hm, hs⟩ := hin
              exact absurd hs (h3 m hm)
            | succ i =>
              exact .inr ⟨h1, ⟨i, hi, fun j hji m hm => hj (j + 1) (by omega) m hm⟩, h3⟩
      · intro i k hk
        cases i with
        | zero =>
          rw [List.getElem?_cons_zero] at hk
          cases hk
          exact .inr ⟨rfl, .inl hin⟩
        | succ i =>
          rcases hres i k hk with ⟨h1, h2, h3⟩ | ⟨h1, h2⟩
          · refine .inl ⟨h1, h2, ?_⟩
            intro j hji m hm
            cases j with
            | zero =>
              rw [List.getElem?_cons_zero] at hm
              cases hm
              obtain ⟨m, hm, hs⟩ := hin
              intro hs'
              exact h2 m hm (hs.trans hs')
            | succ j => exact h3 j (by omega) m hm
          · refine .inr ⟨h1, ?_⟩
            rcases h2 with h2 | ⟨j, hj, m, hm, hs⟩
            · exact .inl h2
            · exact .inr ⟨j + 1, by omega, m, hm, hs⟩
    · obtain ⟨db', rs, hr, hb', hlen, hmem, hres⟩ := ih _ (hb.create hc)
      have hout : ∀ m ∈ db.names, ¬ SameName up m n := by
        intro m hm hs
        obtain ⟨e, he, rfl⟩ := List.mem_map.1 hm
        exact hc (containsKey_iff_entry.2 ⟨e.2, e, he, hs, rfl⟩)
      have hnames : ∀ m, m ∈ (⟨db.schemata.insert (nameOps up) n (Schema.new n)⟩ : Database Name).names ↔
          m ∈ db.names ∨ m = n := by
        intro m
        unfold Database.names
        simp only [List.mem_map]
        constructor
        · rintro ⟨e, he, rfl⟩
          rcases (mem_insert_fresh hc e).1 he with h | rfl
          · exact .inl ⟨e, h, rfl⟩
          · exact .inr rfl
        · rintro (⟨e, he, rfl⟩ | rfl)
          · exact ⟨e, (mem_insert_fresh hc e).2 (.inl he), rfl⟩
          · exact ⟨(m, _), (mem_insert_fresh hc _).2 (.inr rfl), rfl⟩
      refine ⟨db', .ok () :: rs, ?_, hb', by simp [hlen], ?_, ?_⟩
      · unfold creates
        rw [createSchema_fresh hc, Res.bind_ok]
        simp only [hr, Res.bind_ok]
        rfl
      · intro e
        rw [hmem e, mem_insert_fresh hc e]
        constructor
        · rintro ((h | rfl) | ⟨h1, ⟨i, hi, hj⟩, h3⟩)
          · exact .inl h
          · exact .inr ⟨rfl, ⟨0, rfl, fun j hj => by omega⟩, hout⟩
          · refine .inr ⟨h1, ⟨i + 1, hi, ?_⟩, fun m hm => h3 m ((hnames m).2 (.inl hm))⟩
            intro j hji m hm
            cases j with
            | zero =>
              rw [List.getElem?_cons_zero] at hm
              cases hm
              exact h3 _ ((hnames _).2 (.inr rfl))
            | succ j => exact hj j (by omega) m hm
        · rintro (h | ⟨h1, ⟨i, hi, hj⟩, h3⟩)
          · exact .inl (.inl h)
          · cases i with
            | zero =>
              rw [List.getElem?_cons_zero] at hi
              cases hi
              exact .inl (.inr (Prod.ext rfl h1))
            | succ i =>
              refine .inr ⟨h1, ⟨i, hi, fun j hji m hm => hj (j + 1) (by omega) m hm⟩, ?_⟩
              intro m hm
              rcases (hnames m).1 hm with hm | rfl
              · exact h3 m hm
              · exact hj 0 (by omega) _ rfl
      · intro i k hk
        cases i with
        | zero =>
          rw [List.getElem?_cons_zero] at hk
          cases hk
          exact .inl ⟨rfl, hout, fun j hj => by omega⟩
        | succ i =>
          rcases hres i k hk with ⟨h1, h2, h3⟩ | ⟨h1, h2⟩
          · refine .inl ⟨h1, fun m hm => h2 m ((hnames m).2 (.inl hm)), ?_⟩
            intro j hji m hm
            cases j with
            | zero =>
              rw [List.getElem?_cons_zero] at hm
              cases hm
              exact h2 _ ((hnames _).2 (.inr rfl))
            | succ j => exact h3 j (by omega) m hm
          · refine .inr ⟨h1, ?_⟩
            rcases h2 with ⟨m, hm, hs⟩ | ⟨j, hj, m, hm, hs⟩
            · rcases (hnames m).1 hm with hm | rfl
              · exact .inl ⟨m, hm, hs⟩
              · exact .inr ⟨0, by omega, _, rfl, hs⟩
            · exact .inr ⟨j + 1, by omega, m, hm, hs⟩

/-! ## Contexts -/

theorem objectTypes_sorted (s : Schema Name) : Sorted up (objectTypes (nameOps up) s) :=
  TMap.collect_increasing (keyed_nameOps up) _

theorem mem_foldl_insert {N V : Type} {ops : NameOps N} {es : List (N × V)} {m : TMap N V} {e : N × V}
    (h : e ∈ es.foldl (fun m e => TMap.insert ops m e.1 e.2) m) :
    (∃ e' ∈ m, e'.2 = e.2) ∨ ∃ e' ∈ es, e'.2 = e.2 := by
  induction es generalizing m with
  | nil => exact .inl ⟨e, h, rfl⟩
  | cons e0 r ih =>
    rcases ih h with ⟨e', he', hv⟩ | ⟨e', he', hv⟩
    · rcases TMap.mem_insert he' with h | rfl | ⟨h, _⟩
      · exact .inl ⟨e', h, hv⟩
      · exact .inr ⟨e0, List.mem_cons_self, hv⟩
      · exact .inr ⟨e0, List.mem_cons_self, h.symm.trans hv⟩
    · exact .inr ⟨e', List.mem_cons_of_mem _ he', hv⟩

theorem setContext_new_ok (db : Database Name) (d : Name) :
    (SetContext.new (nameOps up) db d).Ok up := by
  refine ⟨TMap.collect_increasing (keyed_nameOps up) _, ?_, List.Pairwise.nil⟩
  intro e he
  rcases mem_foldl_insert he with ⟨_, h, _⟩ | ⟨e', he', hv⟩
  · cases h
  · obtain ⟨s, hs, rfl⟩ := List.mem_map.1 he'
    rw [← hv]
    exact objectTypes_sorted _

theorem defineRelation_ok {ctx ctx' : SetContext Name} {n : Name} {r : RowType Name} (hc : ctx.Ok up)
    (h : ctx.defineRelation (nameOps up) n r = .ok ctx') : ctx'.Ok up := by
  unfold SetContext.defineRelation at h
  split at h
  · cases h
    exact ⟨hc.namespaces, hc.objects, TMap.insert_increasing (keyed_nameOps up) hc.tables _ _⟩
  · cases h

theorem initializeFrom_ok {ctes : List (Cte Name)} {ctx ctx' : SetContext Name} (hc : ctx.Ok up)
    (h : ctx.initializeFrom (nameOps up) ctes = .ok ctx') : ctx'.Ok up := by
  induction ctes generalizing ctx with
  | nil => cases h; exact hc
  | cons c cs ih =>
    obtain ⟨id, names, query⟩ := c
    unfold SetContext.initializeFrom at h
    rcases h1 : inferCte (nameOps up) ctx (.mk id names query) with e | r
    · rw [h1] at h; cases h
    · rw [h1] at h
      change (ctx.defineRelation (nameOps up) id r >>= fun ctx => ctx.initializeFrom (nameOps up) cs) = _ at h
      rcases h2 : ctx.defineRelation (nameOps up) id r with e | c'
      · rw [h2] at h; cases h
      · rw [h2] at h
        exact ih (defineRelation_ok hc h2) h

/-! ## Resolution -/

theorem resolve_ok_iff {ctx : SetContext Name} (hc : ctx.Ok up) (q : List Name) (r : RowType Name) :
    ctx.resolveTableName (nameOps up) q = .ok r ↔ Resolves up ctx q r := by
  unfold SetContext.resolveTableName
  split
  · rename_i t
    cases h1 : ctx.tableExpression.get (nameOps up) t with
    | some r' =>
      have h1' := (get_iff_entry up hc.tables).1 h1
      constructor
      · intro h; cases h; exact .common h1'
      · intro h
        cases h with
        | common h =>
          rw [(get_iff_entry up hc.tables).2 h] at h1
          cases h1
          rfl
        | default h _ _ => exact absurd h1' (h _)
    | none =>
      have h1' := (get_none_iff up).1 h1
      cases h2 : ctx.namespaces.get (nameOps up) ctx.defaultNamespace with
      | none =>
        have h2' := (get_none_iff up).1 h2
        constructor
        · intro h; cases h
        · intro h
          cases h with
          | common h => exact absurd h (h1' _)
          | default _ h _ => exact absurd h (h2' _)
      | some ns =>
        have h2' := (get_iff_entry up hc.namespaces).1 h2
        have hs : Sorted up ns := by
          obtain ⟨e, he, _, rfl⟩ := h2'
          exact hc.objects e he
        cases h3 : ns.get (nameOps up) t with
        | some r' =>
          simp only [h3]
          constructor
          · intro h; cases h; exact .default h1' h2' ((get_iff_entry up hs).1 h3)
          · intro h
            cases h with
            | common h => exact absurd h (h1' _)
            | default _ hn h =>
              rw [(get_iff_entry up hc.namespaces).2 hn] at h2
              cases h2
              rw [(get_iff_entry up hs).2 h] at h3
              cases h3
              rfl
        | none =>
          simp only [h3]
          constructor
          · intro h; cases h
          · intro h
            cases h with
            | common h => exact absurd h (h1' _)
            | default _ hn h =>
              rw [(get_iff_entry up hc.namespaces).2 hn] at h2
              cases h2
              exact absurd h ((get_none_iff up).1 h3 _)
  · rename_i s t
    cases h1 : ctx.tableExpression.get (nameOps up) s with
    | some r' =>
      have h1' := (get_iff_entry up hc.tables).1 h1
      constructor
      · intro h; cases h
      · intro h
        cases h with
        | qualified h _ _ => exact absurd h1' (h _)
    | none =>
      have h1' := (get_none_iff up).1 h1
      cases h2 : ctx.namespaces.get (nameOps up) s with
      | none =>
        have h2' := (get_none_iff up).1 h2
        constructor
        · intro h; cases h
        · intro h
          cases h with
          | qualified _ h _ => exact absurd h (h2' _)
      | some ns =>
        have h2' := (get_iff_entry up hc.namespaces).1 h2
        have hs : Sorted up ns := by
          obtain ⟨e, he, _, rfl⟩ := h2'
          exact hc.objects e he
        cases h3 : ns.get (nameOps up) t with
        | some r' =>
          simp only [h3]
          constructor
          · intro h; cases h; exact .qualified h1' h2' ((get_iff_entry up hs).1 h3)
          · intro h
            cases h with
            | qualified _ hn h =>
              rw [(get_iff_entry up hc.namespaces).2 hn] at h2
              cases h2
              rw [(get_iff_entry up hs).2 h] at h3
              cases h3
              rfl
        | none =>
          simp only [h3]
          constructor
          · intro h; cases h
          · intro h
            cases h with
            | qualified _ hn h =>
              rw [(get_iff_entry up hc.namespaces).2 hn] at h2
              cases h2
              exact absurd h ((get_none_iff up).1 h3 _)
  · rename_i h1 h2
    constructor
    · intro h; cases h
    · intro h
      cases h with
      | common => exact absurd rfl (h1 _)
      | default => exact absurd rfl (h1 _)
      | qualified => exact absurd rfl (h2 _ _)

theorem resolve_panic {ctx : SetContext Name} (q : List Name) :
    ctx.resolveTableName (nameOps up) q = .error .panic ↔
      ∃ t, q = [t] ∧ (∀ r, ¬ Entry up ctx.tableExpression t r) ∧ ¬ ctx.HasDefault up := by
  unfold SetContext.resolveTableName
  split
  · rename_i t
    cases h1 : ctx.tableExpression.get (nameOps up) t with
    | some r' =>
      constructor
      · intro h; cases h
      · rintro ⟨t', ht, h, _⟩
        cases ht
        exact absurd (entry_of_get up h1) (h _)
    | none =>
      cases h2 : ctx.namespaces.get (nameOps up) ctx.defaultNamespace with
      | none =>
        constructor
        · intro _
          exact ⟨t, rfl, (get_none_iff up).1 h1, fun ⟨o, ho⟩ => (get_none_iff up).1 h2 o ho⟩
        · intro _; rfl
      | some ns =>
        constructor
        · intro h
          cases h3 : ns.get (nameOps up) t <;> simp only [h3] at h <;> cases h
        · rintro ⟨t', ht, _, h⟩
          exact absurd ⟨ns, entry_of_get up h2⟩ h
  · constructor
    · intro h
      repeat' split at h
      all_goals cases h
    · rintro ⟨t', ht, _⟩
      cases ht
  · rename_i h1 h2
    constructor
    · intro h; cases h
    · rintro ⟨t', rfl, _⟩
      exact absurd rfl (h1 _)

end Verif.Sql
