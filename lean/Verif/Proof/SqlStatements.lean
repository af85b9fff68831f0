import Verif.Proof.SqlSchema
/-! # INSERT, UPDATE and DELETE -/

namespace Verif.Sql

theorem Chk.bind_ok {α β : Type} (a : α) (f : α → Chk β) : ((Except.ok a : Chk α) >>= f) = f a := rfl

theorem Chk.bind_error {α β : Type} (e : Stop) (f : α → Chk β) :
    ((Except.error e : Chk α) >>= f) = Except.error e := rfl

theorem Chk.bind_eq_ok {α β : Type} {x : Chk α} {f : α → Chk β} {b : β} :
    (x >>= f) = .ok b ↔ ∃ a, x = .ok a ∧ f a = .ok b := by
  cases x with
  | error e => simp [Chk.bind_error]
  | ok a => simp [Chk.bind_ok]

theorem Chk.pure_eq {α : Type} (a : α) : (pure a : Chk α) = .ok a := rfl

variable {up : Char → List Char}

/-! ## Predicates -/

theorem checkPredicate_ok_iff {sc : ScalarContext Name} {msg : SqlError} {w : Option (Expr Name)} :
    checkPredicate (nameOps up) sc msg w = .ok () ↔ LogicalOrAbsent up sc w := by
  unfold LogicalOrAbsent
  cases w with
  | none => simp [checkPredicate]
  | some e =>
    simp only [checkPredicate, Option.some.injEq, forall_eq', Chk.bind_eq_ok]
    constructor
    · rintro ⟨t, h1, h2⟩
      unfold mustBeLogical at h2
      split at h2
      · rename_i n
        exact ⟨n, h1⟩
      · cases h2
    · rintro ⟨n, h⟩
      exact ⟨_, h, rfl⟩

/-! ## The columns of a table -/

theorem distinct_eq {as : List (Attribute Name)} (hd : DistinctColumns up as) {a b : Attribute Name}
    (ha : a ∈ as) (hb : b ∈ as) (h : SameName up a.name b.name) : a = b := by
  induction as with
  | nil => cases ha
  | cons x r ih =>
    unfold DistinctColumns at hd
    rw [List.pairwise_cons] at hd
    rcases List.mem_cons.1 ha with h1 | h1 <;> rcases List.mem_cons.1 hb with h2 | h2
    · rw [h1, h2]
    · exact absurd h (h1 ▸ hd.1 b h2)
    · exact absurd h.symm (h2 ▸ hd.1 a h1)
    · exact ih hd.2 h1 h2

/-- Looking up a column in a map collected from distinct columns. -/
theorem collect_get {V : Type} {f : Attribute Name → V} {as : List (Attribute Name)}
    (hd : DistinctColumns up as) {c : Name} {p : V} :
    (TMap.collect (nameOps up) (as.map fun a => (a.name, f a))).get (nameOps up) c = some p ↔
      ∃ a ∈ as, SameName up a.name c ∧ p = f a := by
  constructor
  · intro h
    obtain ⟨e, he, h1, h2⟩ := TMap.get_collect_mem (keyed_nameOps up) h
    obtain ⟨a, ha, rfl⟩ := List.mem_map.1 he
    exact ⟨a, ha, h1, h2.symm⟩
  · rintro ⟨a, ha, hs, rfl⟩
    cases hg : (TMap.collect (nameOps up) (as.map fun a => (a.name, f a))).get (nameOps up) c with
    | none =>
      exact absurd hs ((TMap.get_collect_none (keyed_nameOps up)).1 hg _ (List.mem_map.2 ⟨a, ha, rfl⟩))
    | some p =>
      obtain ⟨e, he, h1, h2⟩ := TMap.get_collect_mem (keyed_nameOps up) hg
      obtain ⟨b, hb, rfl⟩ := List.mem_map.1 he
      rw [← h2, distinct_eq hd ha hb (hs.trans (Eq.symm h1))]

theorem columnMap_get {typ : RowType Name} (hd : DistinctColumns up typ.attributes) {c : Name}
    {p : DataType × Bool} : (columnMap (nameOps up) typ).get (nameOps up) c = some p ↔
      ∃ a ∈ typ.attributes, SameName up a.name c ∧ p = (a.typ, a.isNull) :=
  collect_get (f := fun a => (a.typ, a.isNull)) hd

/-! ## UPDATE -/

/-- The set contains a name, up to case. -/
def Has (up : Char → List Char) (m : TMap Name Unit) (k : Name) : Prop :=
  m.containsKey (nameOps up) k = true

theorem has_insert {m : TMap Name Unit} {c k : Name} :
    Has up (m.insert (nameOps up) c ()) k ↔ Has up m k ∨ SameName up c k := by
  unfold Has TMap.containsKey
  rw [TMap.get_insert (keyed_nameOps up)]
  unfold SameName
  split
  · rename_i h
    simp [h]
  · rename_i h
    have : ¬ c.upper up = k.upper up := fun h' => h h'.symm
    simp [this]

theorem updateColumns_ok {columns : List (Attribute Name)} {map : TMap Name (DataType × Bool)}
    (hmap : ∀ c p, map.get (nameOps up) c = some p ↔
      ∃ a ∈ columns, SameName up a.name c ∧ p = (a.typ, a.isNull)) {typ : DataType} {isNull : Bool}
    {cs : List Name} {assigned assigned' : TMap Name Unit}
    (h : updateColumns (nameOps up) map typ isNull assigned cs = .ok assigned') :
    (∀ c ∈ cs, Storable up columns c typ isNull ∧ ¬ Has up assigned c) ∧ DistinctNames up cs ∧
      ∀ k, Has up assigned' k ↔ Has up assigned k ∨ ∃ c ∈ cs, SameName up c k := by
  induction cs generalizing assigned with
  | nil =>
    cases h
    exact ⟨fun _ h => (nomatch h), List.Pairwise.nil, fun k => by simp⟩
  | cons c cs ih =>
    unfold updateColumns at h
    split at h
    · cases h
    · rename_i hnot
      split at h
      · cases h
      · rename_i ctyp cnull hget
        split at h
        · cases h
        · rename_i hok
          obtain ⟨h1, h2, h3⟩ := ih h
          obtain ⟨a, ha, hs, hp⟩ := (hmap _ _).1 hget
          cases hp
          simp only [not_or, Decidable.not_not, not_and] at hok
          have hst : Storable up columns c typ isNull :=
            ⟨a, ha, hs, hok.1, fun hn => by simpa using hok.2 hn⟩
          refine ⟨?_, ?_, ?_⟩
          · intro c' hc'
            rcases List.mem_cons.1 hc' with rfl | hc'
            · exact ⟨hst, hnot⟩
            · obtain ⟨h4, h5⟩ := h1 c' hc'
              exact ⟨h4, fun h => h5 (has_insert.2 (.inl h))⟩
          · refine List.pairwise_cons.2 ⟨?_, h2⟩
            intro c' hc' hsame
            exact (h1 c' hc').2 (has_insert.2 (.inr hsame))
          · intro k
            rw [h3 k, has_insert]
            constructor
            · rintro ((h | h) | ⟨c', hc', h⟩)
              · exact .inl h
              · exact .inr ⟨c, List.mem_cons_self, h⟩
              · exact .inr ⟨c', List.mem_cons_of_mem _ hc', h⟩
            · rintro (h | ⟨c', hc', hk⟩)
              · exact .inl (.inl h)
              · rcases List.mem_cons.1 hc' with heq | hc'
                · exact .inl (.inr (heq ▸ hk))
                · exact .inr ⟨c', hc', hk⟩

theorem updateColumns_complete {columns : List (Attribute Name)} {map : TMap Name (DataType × Bool)}
    (hmap : ∀ c p, map.get (nameOps up) c = some p ↔
      ∃ a ∈ columns, SameName up a.name c ∧ p = (a.typ, a.isNull)) {typ : DataType} {isNull : Bool}
    {cs : List Name} {assigned : TMap Name Unit}
    (h1 : ∀ c ∈ cs, Storable up columns c typ isNull ∧ ¬ Has up assigned c) (h2 : DistinctNames up cs) :
    ∃ assigned', updateColumns (nameOps up) map typ isNull assigned cs = .ok assigned' := by
  induction cs generalizing assigned with
  | nil => exact ⟨_, rfl⟩
  | cons c cs ih =>
    obtain ⟨⟨a, ha, hs, ht, hn⟩, hnot⟩ := h1 c List.mem_cons_self
    have h2 := List.pairwise_cons.1 h2
    obtain ⟨assigned', hr⟩ := ih (assigned := assigned.insert (nameOps up) c ()) (by
      intro c' hc'
      obtain ⟨h3, h4⟩ := h1 c' (List.mem_cons_of_mem _ hc')
      refine ⟨h3, fun h => ?_⟩
      rcases has_insert.1 h with h | h
      · exact h4 h
      · exact h2.1 c' hc' h) h2.2
    refine ⟨assigned', ?_⟩
    unfold updateColumns
    rw [if_neg (show ¬ assigned.containsKey (nameOps up) c = true from hnot)]
    simp only [(hmap c _).2 ⟨a, ha, hs, rfl⟩]
    rw [if_neg, hr]
    rintro (h | ⟨h, h'⟩)
    · exact h ht
    · exact h' (by simpa using hn h)

theorem updateAssignments_ok {columns : List (Attribute Name)} {map : TMap Name (DataType × Bool)}
    (hmap : ∀ c p, map.get (nameOps up) c = some p ↔
      ∃ a ∈ columns, SameName up a.name c ∧ p = (a.typ, a.isNull)) {sc : ScalarContext Name}
    {as : List (Assignment Name)} {assigned assigned' : TMap Name Unit}
    (h : updateAssignments (nameOps up) sc map assigned as = .ok assigned') :
    (∀ a ∈ as, ∃ typ isNull, inferExpr (nameOps up) sc a.expr = .ok (.scalar typ isNull) ∧
      ∀ c ∈ a.columns, Storable up columns c typ isNull) ∧
    DistinctNames up (as.flatMap (·.columns)) ∧ ∀ c ∈ as.flatMap (·.columns), ¬ Has up assigned c := by
  induction as generalizing assigned with
  | nil => exact ⟨fun _ h => (nomatch h), List.Pairwise.nil, fun _ h => by simp at h⟩
  | cons a as ih =>
    unfold updateAssignments at h
    obtain ⟨t, ht, h⟩ := Chk.bind_eq_ok.1 h
    cases t with
    | tuple ts => cases h
    | scalar typ isNull =>
      obtain ⟨assigned1, h1, h⟩ := Chk.bind_eq_ok.1 h
      obtain ⟨hs, hd, hk⟩ := updateColumns_ok hmap h1
      obtain ⟨h3, h4, h5⟩ := ih h
      refine ⟨?_, ?_, ?_⟩
      · intro b hb
        rcases List.mem_cons.1 hb with rfl | hb
        · exact ⟨typ, isNull, ht, fun c hc => (hs c hc).1⟩
        · exact h3 b hb
      · rw [List.flatMap_cons]
        unfold DistinctNames at *
        rw [List.pairwise_append]
        refine ⟨hd, h4, ?_⟩
        intro c hc d hdm hsame
        exact h5 d hdm ((hk d).2 (.inr ⟨c, hc, hsame⟩))
      · intro c hc
        rw [List.flatMap_cons, List.mem_append] at hc
        rcases hc with hc | hc
        · exact (hs c hc).2
        · exact fun h => h5 c hc ((hk c).2 (.inl h))

theorem updateAssignments_complete {columns : List (Attribute Name)} {map : TMap Name (DataType × Bool)}
    (hmap : ∀ c p, map.get (nameOps up) c = some p ↔
      ∃ a ∈ columns, SameName up a.name c ∧ p = (a.typ, a.isNull)) {sc : ScalarContext Name}
    {as : List (Assignment Name)} {assigned : TMap Name Unit}
    (h1 : ∀ a ∈ as, ∃ typ isNull, inferExpr (nameOps up) sc a.expr = .ok (.scalar typ isNull) ∧
      ∀ c ∈ a.columns, Storable up columns c typ isNull)
    (h2 : DistinctNames up (as.flatMap (·.columns)))
    (h3 : ∀ c ∈ as.flatMap (·.columns), ¬ Has up assigned c) :
    ∃ assigned', updateAssignments (nameOps up) sc map assigned as = .ok assigned' := by
  induction as generalizing assigned with
  | nil => exact ⟨_, rfl⟩
  | cons a as ih =>
    obtain ⟨typ, isNull, ht, hs⟩ := h1 a List.mem_cons_self
    unfold DistinctNames at h2
    rw [List.flatMap_cons, List.pairwise_append] at h2
    obtain ⟨hd1, hd2, hx⟩ := h2
    obtain ⟨assigned1, hr1⟩ := updateColumns_complete hmap (assigned := assigned) (cs := a.columns)
      (typ := typ) (isNull := isNull) (fun c hc => ⟨hs c hc, h3 c (by simp [hc])⟩) hd1
    obtain ⟨assigned', hr⟩ := ih (assigned := assigned1) (fun b hb => h1 b (List.mem_cons_of_mem _ hb)) hd2 (by
      intro c hc hh
      rcases ((updateColumns_ok hmap hr1).2.2 c).1 hh with h | ⟨c', hc', hsame⟩
      · exact h3 c (by rw [List.flatMap_cons, List.mem_append]; exact .inr hc) h
      · exact hx c' hc' c hc hsame)
    refine ⟨assigned', ?_⟩
    unfold updateAssignments
    rw [ht, Chk.bind_ok]
    simp only
    rw [hr1, Chk.bind_ok, hr]

/-! ## The scope of a single table -/

/-- What `addAttributes` leaves under a name that is no relation: how often the attribute occurs. -/
theorem addAttributes_get {as : List (Attribute Name)} (hd : DistinctColumns up as)
    {symbols : TMap Name (Symbol Name)} (hfree : ∀ a ∈ as, symbols.get (nameOps up) a.name = none)
    (k : Name) : (addAttributes (nameOps up) symbols as).get (nameOps up) k =
      match as.find? fun a => a.name.upper up = k.upper up with
      | some a => some (.attribute a.scalar)
      | none => symbols.get (nameOps up) k := by
  induction as generalizing symbols with
  | nil => rfl
  | cons a as ih =>
    have hd := List.pairwise_cons.1 hd
    unfold addAttributes
    rw [hfree a List.mem_cons_self]
    simp only
    rw [ih hd.2 (by
      intro b hb
      rw [TMap.get_insert (keyed_nameOps up), if_neg (fun h => hd.1 b hb h.symm)]
      exact hfree b (List.mem_cons_of_mem _ hb))]
    rw [List.find?_cons]
    by_cases hc : a.name.upper up = k.upper up
    · have hno : as.find? (fun a => a.name.upper up = k.upper up) = none := by
        rw [List.find?_eq_none]
        intro b hb hbk
        simp only [decide_eq_true_eq] at hbk
        exact hd.1 b hb (hc.trans hbk.symm)
      rw [hno]
      simp only [hc, decide_true]
      rw [TMap.get_insert (keyed_nameOps up), if_pos hc.symm]
    · simp only [hc, decide_false]
      rw [TMap.get_insert (keyed_nameOps up), if_neg (fun h => hc h.symm)]

theorem tableContext_ok {ctx : SetContext Name} {q : List Name} {table : Name} (hq : q.getLast? = some table)
    {typ : RowType Name} (hd : DistinctColumns up typ.attributes) :
    ∃ sc, tableContext (nameOps up) ctx q typ = .ok sc ∧ IsScope up ctx table typ.attributes sc := by
  unfold tableContext
  rw [hq]
  unfold ScalarContext.addRelation ScalarContext.new
  simp only
  have hget := addAttributes_get hd (symbols := []) (fun _ _ => rfl)
  have hnr : ∀ m, (addAttributes (nameOps up) [] typ.attributes).get (nameOps up) table
      ≠ some (.relation m) := by
    intro m h
    rw [hget] at h
    split at h
    · cases h
    · cases h
  refine ⟨⟨ctx, (addAttributes (nameOps up) [] typ.attributes).insert (nameOps up) table
    (.relation (TMap.collect (nameOps up) (typ.attributes.map fun a => (a.name, a.scalar))))⟩, ?_, rfl, ?_⟩
  · split
    · rename_i m h
      exact absurd h (hnr m)
    · rfl
  · intro q' t
    unfold ScalarContext.inferType
    split
    · rename_i c
      rw [TMap.get_insert (keyed_nameOps up), hget]
      by_cases hc : c.upper up = table.upper up
      · rw [if_pos hc]
        constructor
        · intro h; cases h
        · rintro ⟨a, h, _⟩
          cases h with
          | column ht _ _ => exact absurd hc ht
      · rw [if_neg hc]
        cases hf : typ.attributes.find? fun a => a.name.upper up = c.upper up with
        | none =>
          rw [List.find?_eq_none] at hf
          constructor
          · intro h; cases h
          · rintro ⟨a, h, _⟩
            cases h with
            | column _ ha hs => exact absurd (by simpa using (show a.name.upper up = c.upper up from hs)) (hf a ha)
        | some a =>
          have ham := List.mem_of_find?_eq_some hf
          have hs : a.name.upper up = c.upper up := by simpa using List.find?_some hf
          constructor
          · intro h
            cases h
            exact ⟨a, .column hc ham hs, rfl⟩
          · rintro ⟨b, h, rfl⟩
            cases h with
            | column _ hb hbs =>
              rw [distinct_eq hd hb ham (hbs.trans (Eq.symm hs))]
              rfl
    · rename_i r c
      rw [TMap.get_insert (keyed_nameOps up), hget]
      by_cases hc : r.upper up = table.upper up
      · rw [if_pos hc]
        simp only
        constructor
        · intro h
          split at h
          · rename_i t' hg
            cases h
            obtain ⟨a, ha, hs, hv⟩ := (collect_get (f := Attribute.scalar) hd).1 hg
            exact ⟨a, .qualified hc ha hs, hv⟩
          · cases h
        · rintro ⟨a, h, rfl⟩
          cases h with
          | qualified _ ha hs =>
            rw [(collect_get (f := Attribute.scalar) hd).2 ⟨a, ha, hs, rfl⟩]
            rfl
      · rw [if_neg hc]
        constructor
        · intro h
          split at h
          · rename_i m hm
            split at hm <;> cases hm
          · cases h
        · rintro ⟨a, h, _⟩
          cases h with
          | qualified ht _ _ => exact absurd ht hc
    · rename_i h1 h2
      constructor
      · intro h; cases h
      · rintro ⟨a, h, _⟩
        cases h with
        | column => exact absurd rfl (h1 _)
        | qualified => exact absurd rfl (h2 _ _)

theorem resolves_getLast {ctx : SetContext Name} {q : List Name} {typ : RowType Name}
    (h : Resolves up ctx q typ) : ∃ t, q.getLast? = some t := by
  cases h <;> exact ⟨_, rfl⟩

theorem update_iff {ctx : SetContext Name} (hc : ctx.Ok up)
    (s : UpdateStatement Name)
    (hd : ∀ typ, Resolves up ctx s.tableName typ → DistinctColumns up typ.attributes) :
    s.validateType (nameOps up) ctx = .ok () ↔
      ∃ typ table sc, Resolves up ctx s.tableName typ ∧ s.tableName.getLast? = some table ∧
        tableContext (nameOps up) ctx s.tableName typ = .ok sc ∧
        IsScope up ctx table typ.attributes sc ∧ SafeUpdate up ctx sc typ.attributes s := by
  unfold UpdateStatement.validateType
  constructor
  · intro h
    obtain ⟨typ, h1, h⟩ := Chk.bind_eq_ok.1 h
    obtain ⟨sc, h2, h⟩ := Chk.bind_eq_ok.1 h
    obtain ⟨assigned, h3, h4⟩ := Chk.bind_eq_ok.1 h
    have hr := (resolve_ok_iff hc _ _).1 h1
    obtain ⟨table, ht⟩ := resolves_getLast hr
    obtain ⟨sc', hsc, hscope⟩ := tableContext_ok (ctx := ctx) ht (hd _ hr)
    rw [h2] at hsc
    cases hsc
    obtain ⟨h5, h6, _⟩ := updateAssignments_ok (fun c p => columnMap_get (hd _ hr)) h3
    exact ⟨typ, table, sc, hr, ht, h2, hscope, h6, h5, checkPredicate_ok_iff.1 h4⟩
  · rintro ⟨typ, table, sc, hr, _, hsc, _, hs⟩
    rw [(resolve_ok_iff hc _ _).2 hr, Chk.bind_ok, hsc, Chk.bind_ok]
    obtain ⟨assigned, h⟩ := updateAssignments_complete (assigned := [])
      (fun c p => columnMap_get (hd _ hr)) hs.assigned hs.distinct (fun c _ h => by cases h)
    rw [h, Chk.bind_ok]
    exact checkPredicate_ok_iff.2 hs.wher

theorem delete_iff {ctx : SetContext Name} (hc : ctx.Ok up)
    (s : DeleteStatement Name)
    (hd : ∀ typ, Resolves up ctx s.tableName typ → DistinctColumns up typ.attributes) :
    s.validateType (nameOps up) ctx = .ok () ↔
      ∃ typ table sc, Resolves up ctx s.tableName typ ∧ s.tableName.getLast? = some table ∧
        tableContext (nameOps up) ctx s.tableName typ = .ok sc ∧
        IsScope up ctx table typ.attributes sc ∧ LogicalOrAbsent up sc s.wher := by
  unfold DeleteStatement.validateType
  constructor
  · intro h
    obtain ⟨typ, h1, h⟩ := Chk.bind_eq_ok.1 h
    obtain ⟨sc, h2, h⟩ := Chk.bind_eq_ok.1 h
    have hr := (resolve_ok_iff hc _ _).1 h1
    obtain ⟨table, ht⟩ := resolves_getLast hr
    obtain ⟨sc', hsc, hscope⟩ := tableContext_ok (ctx := ctx) ht (hd _ hr)
    rw [h2] at hsc
    cases hsc
    exact ⟨typ, table, sc, hr, ht, h2, hscope, checkPredicate_ok_iff.1 h⟩
  · rintro ⟨typ, table, sc, hr, _, hsc, _, hs⟩
    rw [(resolve_ok_iff hc _ _).2 hr, Chk.bind_ok, hsc, Chk.bind_ok]
    exact checkPredicate_ok_iff.2 hs

/-! ## INSERT -/

/-- A name among those already given. -/
def Given (up : Char → List Char) (given : List Name) (c : Name) : Prop := ∃ g ∈ given, SameName up g c

/-- The columns still missing: those of the table that are not given yet. -/
def Missing (up : Char → List Char) (columns : List (Attribute Name)) (given : List Name)
    (missing : TMap Name (DataType × Bool)) : Prop :=
  ∀ c p, missing.get (nameOps up) c = some p ↔
    ¬ Given up given c ∧ ∃ a ∈ columns, SameName up a.name c ∧ p = (a.typ, a.isNull)

theorem Missing.remove {columns : List (Attribute Name)} {given : List Name}
    {missing : TMap Name (DataType × Bool)} (hm : Missing up columns given missing) (t : Name) :
    Missing up columns (t :: given) (missing.remove (nameOps up) t) := by
  intro c p
  rw [TMap.get_remove (keyed_nameOps up)]
  have hg : Given up (t :: given) c ↔ SameName up t c ∨ Given up given c := by
    unfold Given
    constructor
    · rintro ⟨g, hg, hs⟩
      rcases List.mem_cons.1 hg with rfl | hg
      · exact .inl hs
      · exact .inr ⟨g, hg, hs⟩
    · rintro (h | ⟨g, hg, hs⟩)
      · exact ⟨t, List.mem_cons_self, h⟩
      · exact ⟨g, List.mem_cons_of_mem _ hg, hs⟩
  by_cases h : c.upper up = t.upper up
  · rw [if_pos h]
    constructor
    · intro h; cases h
    · rintro ⟨h1, _⟩
      exact absurd (hg.2 (.inl h.symm)) h1
  · rw [if_neg h, hm c p]
    constructor
    · rintro ⟨h1, h2⟩
      refine ⟨fun h3 => ?_, h2⟩
      rcases hg.1 h3 with h4 | h4
      · exact h h4.symm
      · exact h1 h4
    · rintro ⟨h1, h2⟩
      exact ⟨fun h3 => h1 (hg.2 (.inr h3)), h2⟩

theorem TMap.remove_increasing {N V : Type} {ops : NameOps N} {key : N → List Char} {m : TMap N V}
    (hm : TMap.Increasing key m) (k : N) : TMap.Increasing key (m.remove ops k) :=
  List.Pairwise.filter _ hm

theorem insertColumns_iff {columns : List (Attribute Name)}
    (vs : List (Attribute Name × Name)) (given : List Name) {missing : TMap Name (DataType × Bool)}
    (hm : Missing up columns given missing) (hsorted : Sorted up missing) :
    (∃ missing', insertColumns (nameOps up) missing vs = .ok missing' ∧
        ¬ (missing'.any fun e => !e.2.2) = true) ↔
      DistinctNames up (vs.map (·.2)) ∧ (∀ e ∈ vs, ¬ Given up given e.2) ∧
      (∀ e ∈ vs, Storable up columns e.2 e.1.typ e.1.isNull) ∧
      ∀ a ∈ columns, a.isNull = false → Given up (given ++ vs.map (·.2)) a.name := by
  induction vs generalizing given missing with
  | nil =>
    constructor
    · rintro ⟨m', h, hany⟩
      cases h
      refine ⟨List.Pairwise.nil, fun _ h => (nomatch h), fun _ h => (nomatch h), ?_⟩
      intro a ha hn
      rw [List.map_nil, List.append_nil]
      refine Classical.byContradiction fun hng => hany ?_
      obtain ⟨e, he, _, hv⟩ := entry_of_get up ((hm a.name (a.typ, a.isNull)).2 ⟨hng, a, ha, rfl, rfl⟩)
      rw [List.any_eq_true]
      exact ⟨e, he, by simp [hv, hn]⟩
    · rintro ⟨_, _, _, h⟩
      refine ⟨missing, rfl, ?_⟩
      intro hany
      rw [List.any_eq_true] at hany
      obtain ⟨e, he, hn⟩ := hany
      obtain ⟨hng, a, ha, hs, hp⟩ := (hm e.1 e.2).1 ((get_iff_entry up hsorted).2 ⟨e, he, rfl, rfl⟩)
      have hnull : a.isNull = false := by
        rw [hp] at hn
        simpa using hn
      have := h a ha hnull
      rw [List.map_nil, List.append_nil] at this
      obtain ⟨g, hg, hgs⟩ := this
      exact hng ⟨g, hg, hgs.trans hs⟩
  | cons v vs ih =>
    obtain ⟨value, target⟩ := v
    have hih := ih (target :: given) (hm.remove target) (TMap.remove_increasing hsorted target)
    have hperm : ∀ c, Given up ((target :: given) ++ vs.map (·.2)) c ↔
        Given up (given ++ ((value, target) :: vs).map (·.2)) c := by
      intro c
      unfold Given
      constructor <;> rintro ⟨g, hg, hs⟩ <;> refine ⟨g, ?_, hs⟩ <;>
        simp only [List.map_cons, List.mem_append, List.mem_cons] at hg ⊢
      · rcases hg with (h | h) | h
        · exact .inr (.inl h)
        · exact .inl h
        · exact .inr (.inr h)
      · rcases hg with h | h | h
        · exact .inl (.inr h)
        · exact .inl (.inl h)
        · exact .inr h
    constructor
    · rintro ⟨m', h, hany⟩
      unfold insertColumns at h
      obtain ⟨m1, h1, h⟩ := Chk.bind_eq_ok.1 h
      unfold insertColumn at h1
      split at h1
      · cases h1
      · rename_i typ isNull hget
        split at h1
        · cases h1
        · rename_i hok
          cases h1
          obtain ⟨hng, a, ha, hs, hp⟩ := (hm _ _).1 hget
          cases hp
          simp only [not_or, Decidable.not_not, not_and] at hok
          obtain ⟨i1, i2, i3, i4⟩ := hih.1 ⟨m', h, hany⟩
          refine ⟨?_, ?_, ?_, ?_⟩
          · rw [List.map_cons]
            refine List.pairwise_cons.2 ⟨?_, i1⟩
            intro n hn hsame
            obtain ⟨e, he, rfl⟩ := List.mem_map.1 hn
            exact i2 e he ⟨target, List.mem_cons_self, hsame⟩
          · intro e he
            rcases List.mem_cons.1 he with rfl | he
            · exact hng
            · rintro ⟨g, hg, hgs⟩
              exact i2 e he ⟨g, List.mem_cons_of_mem _ hg, hgs⟩
          · intro e he
            rcases List.mem_cons.1 he with rfl | he
            · refine ⟨a, ha, hs, hok.1, ?_⟩
              intro hn
              refine Classical.byContradiction fun hx => ?_
              exact hok.2 (by simpa using hx) hn
            · exact i3 e he
          · intro b hb hbn
            exact (hperm _).1 (i4 b hb hbn)
    · rintro ⟨h1, h2, h3, h4⟩
      rw [List.map_cons] at h1
      have h1 := List.pairwise_cons.1 h1
      obtain ⟨m', hr, hany⟩ := hih.2 ⟨h1.2, by
          rintro e he ⟨g, hg, hgs⟩
          rcases List.mem_cons.1 hg with rfl | hg
          · exact h1.1 e.2 (List.mem_map.2 ⟨e, he, rfl⟩) hgs
          · exact h2 e (List.mem_cons_of_mem _ he) ⟨g, hg, hgs⟩,
        fun e he => h3 e (List.mem_cons_of_mem _ he), fun a ha hn => (hperm _).2 (h4 a ha hn)⟩
      refine ⟨m', ?_, hany⟩
      obtain ⟨a, ha, hs, ht, hn⟩ := h3 _ List.mem_cons_self
      have hget := (hm target (a.typ, a.isNull)).2 ⟨h2 _ List.mem_cons_self, a, ha, hs, rfl⟩
      unfold insertColumns insertColumn
      rw [hget]
      simp only
      rw [if_neg, Chk.bind_ok, hr]
      rintro (h | ⟨h, h'⟩)
      · exact h ht
      · exact h (hn h')

theorem insert_iff {ctx : SetContext Name} (hc : ctx.Ok up)
    (s : InsertStatement Name)
    (hd : ∀ typ, Resolves up ctx s.tableName typ → DistinctColumns up typ.attributes) :
    s.validateType (nameOps up) ctx = .ok () ↔
      ∃ typ values, Resolves up ctx s.tableName typ ∧
        inferSetExpr (nameOps up) ctx s.source = .ok values ∧
        SafeInsert up typ.attributes values.attributes (insertTargets s values.attributes) := by
  unfold InsertStatement.validateType
  constructor
  · intro h
    obtain ⟨typ, h1, h⟩ := Chk.bind_eq_ok.1 h
    obtain ⟨values, h2, h⟩ := Chk.bind_eq_ok.1 h
    obtain ⟨missing, h3, h4⟩ := Chk.bind_eq_ok.1 h
    have hr := (resolve_ok_iff hc _ _).1 h1
    have hdd := hd _ hr
    have hm : Missing up typ.attributes [] (columnMap (nameOps up) typ) := by
      intro c p
      rw [columnMap_get hdd]
      simp [Given]
    have hsorted : Sorted up (columnMap (nameOps up) typ) := TMap.collect_increasing (keyed_nameOps up) _
    have hany : ¬ (missing.any fun e => !e.2.2) = true := by
      intro hh
      unfold insertComplete at h4
      rw [if_pos hh] at h4
      cases h4
    refine ⟨typ, values, hr, h2, ?_⟩
    unfold insertTargets
    cases hcols : s.columns with
    | none =>
      rw [hcols] at h3
      unfold insertSource at h3
      obtain ⟨i1, _, i3, i4⟩ := (insertColumns_iff _ [] hm hsorted).1 ⟨missing, h3, hany⟩
      have hmap : (values.attributes.map fun a => (a, a.name)).map (·.2) = values.attributes.map (·.name) := by
        simp
      have hzip : values.attributes.zip (values.attributes.map (·.name))
          = values.attributes.map fun a => (a, a.name) := by
        generalize values.attributes = l
        induction l with
        | nil => rfl
        | cons a l ih => simp [ih]
      refine ⟨by simp, hmap ▸ i1, ?_, ?_⟩
      · intro e he
        simp only [hzip] at he
        exact i3 e he
      · intro a ha hn
        obtain ⟨g, hg, hs⟩ := i4 a ha hn
        rw [List.nil_append, hmap] at hg
        exact ⟨g, hg, hs.symm⟩
    | some cs =>
      rw [hcols] at h3
      unfold insertSource at h3
      simp only at h3
      split at h3
      · cases h3
      · rename_i hlen
        have hlen : cs.length = values.attributes.length := by simpa using hlen
        obtain ⟨i1, _, i3, i4⟩ := (insertColumns_iff _ [] hm hsorted).1 ⟨missing, h3, hany⟩
        have hmap : (values.attributes.zip cs).map (·.2) = cs := by
          rw [List.map_snd_zip]
          omega
        refine ⟨hlen, hmap ▸ i1, i3, ?_⟩
        intro a ha hn
        obtain ⟨g, hg, hs⟩ := i4 a ha hn
        rw [List.nil_append, hmap] at hg
        exact ⟨g, hg, hs.symm⟩
  · rintro ⟨typ, values, hr, hv, hs⟩
    have hdd := hd _ hr
    have hm : Missing up typ.attributes [] (columnMap (nameOps up) typ) := by
      intro c p
      rw [columnMap_get hdd]
      simp [Given]
    have hsorted : Sorted up (columnMap (nameOps up) typ) := TMap.collect_increasing (keyed_nameOps up) _
    rw [(resolve_ok_iff hc _ _).2 hr, Chk.bind_ok, hv, Chk.bind_ok]
    unfold insertTargets at hs
    cases hcols : s.columns with
    | none =>
      rw [hcols] at hs
      have hmap : (values.attributes.map fun a => (a, a.name)).map (·.2) = values.attributes.map (·.name) := by
        simp
      have hzip : values.attributes.zip (values.attributes.map (·.name))
          = values.attributes.map fun a => (a, a.name) := by
        generalize values.attributes = l
        induction l with
        | nil => rfl
        | cons a l ih => simp [ih]
      obtain ⟨missing, h1, h2⟩ := (insertColumns_iff
        (values.attributes.map fun a => (a, a.name)) [] hm hsorted).2
        ⟨hmap.symm ▸ hs.distinct, fun e _ h => (by obtain ⟨_, h, _⟩ := h; cases h), by
          intro e he
          exact hs.stored e (hzip.symm ▸ he), by
          intro a ha hn
          obtain ⟨t, ht, hst⟩ := hs.complete a ha hn
          exact ⟨t, by rw [List.nil_append, hmap]; exact ht, hst.symm⟩⟩
      unfold insertSource insertComplete
      simp only [h1, Chk.bind_ok]
      rw [if_neg h2]
    | some cs =>
      rw [hcols] at hs
      have hlen : cs.length = values.attributes.length := hs.count
      have hmap : (values.attributes.zip cs).map (·.2) = cs := by
        rw [List.map_snd_zip]
        omega
      obtain ⟨missing, h1, h2⟩ := (insertColumns_iff
        (values.attributes.zip cs) [] hm hsorted).2
        ⟨hmap.symm ▸ hs.distinct, fun e _ h => (by obtain ⟨_, h, _⟩ := h; cases h), hs.stored, by
          intro a ha hn
          obtain ⟨t, ht, hst⟩ := hs.complete a ha hn
          exact ⟨t, by rw [List.nil_append, hmap]; exact ht, hst.symm⟩⟩
      unfold insertSource insertComplete
      simp only
      rw [if_neg (by simpa using hlen)]
      simp only [h1, Chk.bind_ok]
      rw [if_neg h2]

end Verif.Sql
