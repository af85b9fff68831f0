import Verif.Spec.SqlRun
import Verif.Proof.SqlSound
import Verif.Proof.SqlStatements
/-!
# Accepted statements keep the rows of a table in their types
-/

namespace Verif.Sql

section
variable {E : Engine} {strict : Bool} {up : Char → List Char}

theorem rowHas_map {f : Attribute Name → Value E.Carrier} : ∀ {as : List (Attribute Name)},
    (∀ a ∈ as, HasType E strict (f a) a.scalar) → RowHas E strict (as.map f) as
  | [], _ => by simp [RowHas, HasTypes]
  | a :: as, h => by
    have ih := rowHas_map (as := as) fun b hb => h b (List.mem_cons_of_mem _ hb)
    unfold RowHas at ih ⊢
    simp only [List.map_cons, HasTypes]
    exact ⟨h a List.mem_cons_self, ih⟩

/-- A value of a type is one of the same type with more NULLs. -/
theorem hasType_weaken {v : Value E.Carrier} {t : DataType} {n m : Bool}
    (h : HasType E strict v (.scalar t n)) (hn : n = true → m = true) : HasType E strict v (.scalar t m) := by
  cases v with
  | null =>
    simp only [HasType] at h ⊢
    exact h.imp hn id
  | scalar u x => simpa only [HasType] using h
  | tuple vs => simp [HasType] at h

theorem storable_has {columns : List (Attribute Name)} (hd : DistinctColumns up columns)
    {a : Attribute Name} (ha : a ∈ columns) {c : Name} (hc : SameName up c a.name) {typ : DataType}
    {n : Bool} (hs : Storable up columns c typ n) {v : Value E.Carrier}
    (hv : HasType E strict v (.scalar typ n)) : HasType E strict v a.scalar := by
  obtain ⟨b, hb, hbc, rfl, hn⟩ := hs
  have hab : a = b := by
    have hsame : SameName up b.name a.name := Eq.trans hbc hc
    unfold DistinctColumns at hd
    induction columns with
    | nil => cases ha
    | cons x xs ih =>
      obtain ⟨h1, h2⟩ := List.pairwise_cons.1 hd
      rcases List.mem_cons.1 ha with rfl | ha'
      · rcases List.mem_cons.1 hb with rfl | hb
        · rfl
        · exact absurd (Eq.symm hsame) (h1 b hb)
      · rcases List.mem_cons.1 hb with rfl | hb
        · exact absurd hsame (h1 a ha')
        · exact ih h2 ha' hb
  subst hab
  exact hasType_weaken hv hn

/-- A value given for a target has the type of the column of the source. -/
theorem source_value : ∀ {as : List (Attribute Name)} {targets : List Name} {row : Row E},
    targets.length = as.length → RowHas E strict row as → ∀ {e}, e ∈ targets.zip row →
    ∃ b, (b, e.1) ∈ as.zip targets ∧ HasType E strict e.2 (.scalar b.typ b.isNull)
  | [], [], _, _, _, e, he => by simp at he
  | a :: as, t :: ts, [], _, h, e, he => by simp at he
  | a :: as, t :: ts, v :: row, hl, h, e, he => by
    unfold RowHas at h
    simp only [List.map_cons, HasTypes] at h
    rcases List.mem_cons.1 he with rfl | he
    · exact ⟨a, List.mem_cons_self, h.1⟩
    · obtain ⟨b, hb, hv⟩ := source_value (as := as) (targets := ts) (by simpa using hl) h.2 he
      exact ⟨b, List.mem_cons_of_mem _ hb, hv⟩

theorem insertedRow_has {columns values : List (Attribute Name)} {targets : List Name}
    (hd : DistinctColumns up columns) (hs : SafeInsert up columns values targets) {row : Row E}
    (hr : RowHas E strict row values) :
    RowHas E strict (insertedRow E up (columns.map (·.name)) targets row) columns := by
  unfold insertedRow
  rw [List.map_map]
  refine rowHas_map fun a ha => ?_
  simp only [Function.comp]
  split
  · rename_i e he
    have hmem := List.mem_of_find?_eq_some he
    have hsame := List.find?_some he
    obtain ⟨b, hb, hv⟩ := source_value hs.count hr hmem
    exact storable_has hd ha (same_of_sameName hsame) (hs.stored _ hb) hv
  · rename_i he
    have hnone := List.find?_eq_none.1 he
    unfold Attribute.scalar
    simp only [HasType]
    cases hn : a.isNull with
    | true => exact Or.inl rfl
    | false =>
      obtain ⟨t, ht, hsame⟩ := hs.complete a ha hn
      obtain ⟨i, hi, rfl⟩ := List.mem_iff_getElem.1 ht
      have hl : row.length = targets.length := by
        have := hasTypes_length hr
        simp only [List.length_map] at this
        rw [this, hs.count]
      refine absurd ?_ (hnone (targets[i], row[i]'(by omega)) ?_)
      · exact decide_eq_true (Eq.symm hsame)
      · refine List.mem_iff_getElem.2 ⟨i, by simp; omega, by simp⟩

/-- As `insertedRow_has`, for values that come in the order of the columns. -/
theorem insertedRow_inOrder {columns values : List (Attribute Name)} (hd : DistinctColumns up columns)
    (hs : SafeInsert up columns values (values.map (·.name)))
    (ho : ∀ e ∈ values.zip columns, SameName up e.1.name e.2.name) {row : Row E}
    (hr : RowHas E strict row values) :
    RowHas E strict (insertedRow E up (columns.map (·.name)) (columns.map (·.name)) row) columns := by
  have hl : row.length = values.length := by
    have := hasTypes_length hr
    simpa only [List.length_map] using this
  unfold insertedRow
  rw [List.map_map]
  refine rowHas_map fun a ha => ?_
  simp only [Function.comp]
  split
  · rename_i e he
    have hmem := List.mem_of_find?_eq_some he
    have hsame : SameName up e.1 a.name := same_of_sameName (by simpa using List.find?_some he)
    obtain ⟨i, hi, rfl⟩ := List.mem_iff_getElem.1 hmem
    rw [List.length_zip, List.length_map] at hi
    have h1 : (values[i]'(by omega), columns[i]'(by omega)) ∈ values.zip columns :=
      List.mem_iff_getElem.2 ⟨i, by simp; omega, by simp⟩
    obtain ⟨b, hb, hv⟩ := source_value (e := ((values[i]'(by omega)).name, row[i]'(by omega))) hs.count hr
      (List.mem_iff_getElem.2 ⟨i, by simp; omega, by simp⟩)
    simp only [List.getElem_zip, List.getElem_map] at hsame ⊢
    exact storable_has hd ha (Eq.trans (ho _ h1) hsame) (hs.stored _ hb) hv
  · rename_i he
    have hnone := List.find?_eq_none.1 he
    unfold Attribute.scalar
    simp only [HasType]
    cases hn : a.isNull with
    | true => exact Or.inl rfl
    | false =>
      obtain ⟨t, ht, hsame⟩ := hs.complete a ha hn
      obtain ⟨v, hv, rfl⟩ := List.mem_map.1 ht
      obtain ⟨k, hk, rfl⟩ := List.mem_iff_getElem.1 hv
      obtain ⟨i, hi, rfl⟩ := List.mem_iff_getElem.1 ha
      rcases Nat.lt_or_ge k columns.length with hkc | hkc
      · have h1 : (values[k], columns[k]) ∈ values.zip columns :=
          List.mem_iff_getElem.2 ⟨k, by simp; omega, by simp⟩
        refine absurd ?_ (hnone ((columns[k]).name, row[k]'(by omega)) ?_)
        · exact decide_eq_true (Eq.symm (Eq.trans hsame (ho _ h1)))
        · exact List.mem_iff_getElem.2 ⟨k, by simp; omega, by simp⟩
      · have h1 : (values[i]'(by omega), columns[i]) ∈ values.zip columns :=
          List.mem_iff_getElem.2 ⟨i, by simp; omega, by simp⟩
        refine absurd ?_ (hnone ((columns[i]).name, row[i]'(by omega)) ?_)
        · exact decide_eq_true rfl
        · exact List.mem_iff_getElem.2 ⟨i, by simp; omega, by simp⟩

theorem insert_sound {ctx : SetContext Name} {st : Store E} (hok : ctx.Ok up)
    (hst : Stored E strict up ctx st) {s : InsertStatement Name} {typ : RowType Name}
    (htyp : Resolves up ctx s.tableName typ) (hd : DistinctColumns up typ.attributes)
    (hcs : s.columns = none → ∀ values, inferSetExpr (nameOps up) ctx s.source = .ok values →
      ∀ e ∈ values.attributes.zip typ.attributes, SameName up e.1.name e.2.name) (hclear : s.source.Clear strict (Unlisted up ctx))
    (h : s.validateType (nameOps up) ctx = .ok ()) {t : Table E} (ht : runInsert E up st s = some t) :
    t.Has E strict typ.attributes := by
  have huniq : ∀ typ', Resolves up ctx s.tableName typ' → typ' = typ := fun typ' h' =>
    Except.ok.inj (((resolve_ok_iff hok _ _).2 h').symm.trans ((resolve_ok_iff hok _ _).2 htyp))
  obtain ⟨typ', values, h1, h2, h3⟩ := (insert_iff hok s fun typ' h' => huniq typ' h' ▸ hd).1 h
  cases huniq _ h1
  unfold runInsert at ht
  obtain ⟨old, hold, ht⟩ := some_bind ht
  obtain ⟨src, hsrc, ht⟩ := some_bind ht
  cases ht
  obtain ⟨h4, h5⟩ := hst _ _ _ htyp hold
  have h6 := setExpr_sound hok (fun q typ t h => hst q typ t ((resolve_ok_iff hok q typ).1 h)) s.source hclear h2 hsrc
  refine ⟨h5.1, fun row hrow => ?_⟩
  rcases List.mem_append.1 hrow with hrow | hrow
  · exact h5.2 row hrow
  · obtain ⟨vals, hvals, rfl⟩ := List.mem_map.1 hrow
    rw [h4]
    unfold insertTargets at h3
    cases hc : s.columns with
    | some cs =>
      rw [hc] at h3
      exact insertedRow_has hd h3 (h6.2 vals hvals)
    | none =>
      rw [hc] at h3
      exact insertedRow_inOrder hd h3 (hcs hc _ h2) (h6.2 vals hvals)

theorem assignedRow_has {new : List (List Name × Value E.Carrier)} :
    ∀ {columns : List (Attribute Name)} {row : Row E}, RowHas E strict row columns →
    (∀ a ∈ columns, ∀ n ∈ new, ∀ c ∈ n.1, SameName up c a.name → HasType E strict n.2 a.scalar) →
    RowHas E strict (assignedRow E up (columns.map (·.name)) row new) columns
  | [], [], h, _ => h
  | [], v :: row, h, _ => by simp [RowHas, HasTypes] at h
  | a :: as, [], h, _ => by simp [RowHas, HasTypes] at h
  | a :: as, v :: row, h, hn => by
    unfold RowHas at h
    simp only [List.map_cons, HasTypes] at h
    have ih := assignedRow_has (columns := as) (row := row) h.2 fun b hb => hn b (List.mem_cons_of_mem _ hb)
    unfold RowHas assignedRow at ih ⊢
    simp only [List.map_cons, List.zip_cons_cons, HasTypes]
    refine ⟨?_, ih⟩
    split
    · rename_i e he
      have hmem := List.mem_of_find?_eq_some he
      have hany : (e.1.any fun c => sameName up c a.name) = true := List.find?_some (p := fun (x : List Name × Value E.Carrier) => x.1.any fun c => sameName up c a.name) he
      obtain ⟨c, hc, hsame⟩ := List.any_eq_true.1 hany
      exact hn a List.mem_cons_self e hmem c hc (same_of_sameName hsame)
    · exact h.1

/-- The rows of a table are in the scope of a statement about it. -/
theorem table_covers {ctx : SetContext Name} {name : List Name} {typ : RowType Name} {sc : ScalarContext Name}
    (h : tableContext (nameOps up) ctx name typ = .ok sc) {row : Row E}
    (hr : RowHas E strict row typ.attributes) :
    Covers E strict up sc (((typ.attributes.map (·.name)).map fun c => (name.getLast?, c)).zip row) ∧
      sc.setContext = ctx := by
  unfold tableContext at h
  split at h
  · rename_i table htable
    obtain ⟨h1, h2⟩ := addRelation_knows (knows_new (up := up) ctx []) h
    refine ⟨?_, h2⟩
    rw [List.nil_append] at h1
    have h3 := h1.covers (E := E) (strict := strict) (row := row) ?_ ?_
    · rw [htable]
      rw [knownOf, List.map_map] at h3
      rw [List.map_map]
      exact h3
    · intro k hk
      obtain ⟨a, _, rfl⟩ := List.mem_map.1 hk
      exact ⟨_, _, rfl⟩
    · rw [knownOf, List.map_map]
      exact hr
  · cases h

theorem update_sound {ctx : SetContext Name} {st : Store E} (hok : ctx.Ok up)
    (hst : Stored E strict up ctx st) {s : UpdateStatement Name} {typ : RowType Name}
    (htyp : Resolves up ctx s.tableName typ) (hd : DistinctColumns up typ.attributes)
    (hclear : ∀ a ∈ s.assignments, a.expr.Clear strict (Unlisted up ctx))
    (h : s.validateType (nameOps up) ctx = .ok ()) {t : Table E} (ht : runUpdate E up st s = some t) :
    t.Has E strict typ.attributes := by
  have huniq : ∀ typ', Resolves up ctx s.tableName typ' → typ' = typ := fun typ' h' =>
    Except.ok.inj (((resolve_ok_iff hok _ _).2 h').symm.trans ((resolve_ok_iff hok _ _).2 htyp))
  obtain ⟨typ', table, sc, h1, h2, h3, h3', h4⟩ := (update_iff hok s fun typ' h' => huniq typ' h' ▸ hd).1 h
  cases huniq _ h1
  unfold runUpdate at ht
  obtain ⟨old, hold, ht⟩ := some_bind ht
  obtain ⟨rows, hrows, ht⟩ := some_bind ht
  cases ht
  obtain ⟨h5, h6⟩ := hst _ _ _ htyp hold
  refine ⟨h6.1, fun row hrow => ?_⟩
  obtain ⟨before, hbefore, hrow⟩ := mem_collectAll hrows row hrow
  have hb := h6.2 before hbefore
  obtain ⟨hcov, hctx⟩ := table_covers h3 hb
  unfold updatedRow at hrow
  rw [h5] at hrow
  obtain ⟨chosen, _, hrow⟩ := some_bind hrow
  cases chosen with
  | false => cases hrow; exact hb
  | true =>
    rw [if_pos rfl] at hrow
    obtain ⟨new, hnew, hrow⟩ := some_bind hrow
    cases hrow
    refine assignedRow_has hb fun a ha n hn c hc hsame => ?_
    obtain ⟨as, has, he⟩ := mem_collectAll hnew n hn
    obtain ⟨v, hv, he⟩ := some_bind he
    cases he
    obtain ⟨t, nul, hi, hstore⟩ := h4.assigned as has
    have := expr_sound hok (fun q typ t h => hst q typ t ((resolve_ok_iff hok q typ).1 h)) as.expr hctx hcov
      (hclear as has) hi hv
    exact storable_has hd ha hsame (hstore c hc) this

theorem delete_sound {ctx : SetContext Name} {st : Store E}
    (hst : Stored E strict up ctx st) {s : DeleteStatement Name} {typ : RowType Name}
    (htyp : Resolves up ctx s.tableName typ) {t : Table E} (ht : runDelete E up st s = some t) :
    t.Has E strict typ.attributes := by
  unfold runDelete at ht
  obtain ⟨old, hold, ht⟩ := some_bind ht
  obtain ⟨rows, hrows, ht⟩ := some_bind ht
  cases ht
  obtain ⟨_, h6⟩ := hst _ _ _ htyp hold
  exact ⟨h6.1, fun row hrow => h6.2 row (mem_keep hrows row hrow)⟩

end

end Verif.Sql
