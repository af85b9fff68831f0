import Verif.Spec.SqlScope
import Verif.Proof.SqlSound
import Verif.Proof.SqlSchema
import Verif.Proof.SqlStatements
/-!
# The scope of a FROM clause
-/

namespace Verif.Sql

section
variable {up : Char → List Char}

/-- The symbol a name should have: the relation of that name, else the only column of that name, else a
conflict if there are several. -/
def symbolOf (up : Char → List Char) (rels : List Relation) (columns : List (Attribute Name)) (c : Name) :
    Option (Symbol Name) :=
  match rels.find? fun r => sameName up r.1 c with
  | some r => some (.relation (TMap.collect (nameOps up) (r.2.map fun a => (a.name, a.scalar))))
  | none =>
    match columnsCalled up c columns with
    | [] => none
    | [a] => some (.attribute a.scalar)
    | _ => some .attributeConflict

theorem sameName_iff {a b : Name} : sameName up a b = true ↔ SameName up a b := by
  unfold sameName
  exact decide_eq_true_iff

theorem sameName_congr {c d : Name} (h : SameName up c d) (a : Name) : sameName up a c = sameName up a d := by
  unfold sameName SameName at *
  rw [h]

theorem symbolOf_congr {rels : List Relation} {columns : List (Attribute Name)} {c d : Name}
    (h : SameName up c d) : symbolOf up rels columns c = symbolOf up rels columns d := by
  have h1 : (fun r : Relation => sameName up r.1 c) = fun r => sameName up r.1 d :=
    funext fun r => sameName_congr h r.1
  have h2 : (fun a : Attribute Name => sameName up a.name c) = fun a => sameName up a.name d :=
    funext fun a => sameName_congr h a.name
  unfold symbolOf columnsCalled
  rw [h1, h2]

theorem columnsCalled_append (c : Name) (as bs : List (Attribute Name)) :
    columnsCalled up c (as ++ bs) = columnsCalled up c as ++ columnsCalled up c bs :=
  List.filter_append ..

theorem columnsCalled_one {c : Name} {a : Attribute Name} :
    columnsCalled up c [a] = if sameName up a.name c then [a] else [] := by
  unfold columnsCalled
  simp [List.filter_cons]

theorem symbolOf_other {rels : List Relation} {columns : List (Attribute Name)} {a : Attribute Name}
    {c : Name} (h : sameName up a.name c = false) :
    symbolOf up rels (columns ++ [a]) c = symbolOf up rels columns c := by
  unfold symbolOf
  rw [columnsCalled_append, columnsCalled_one, h]
  simp

theorem addAttribute_symbols {symbols : TMap Name (Symbol Name)} {rels : List Relation}
    {columns : List (Attribute Name)} {a : Attribute Name}
    (h : ∀ c, symbols.get (nameOps up) c = symbolOf up rels columns c) {sym : Symbol Name}
    (hs : symbolOf up rels (columns ++ [a]) a.name = some sym) (c : Name) :
    (symbols.insert (nameOps up) a.name sym).get (nameOps up) c = symbolOf up rels (columns ++ [a]) c := by
  rw [TMap.get_insert (keyed_nameOps up)]
  split
  · rename_i hc
    rw [symbolOf_congr (c := c) (d := a.name) hc, hs]
  · rename_i hc
    rw [h, symbolOf_other]
    cases hb : sameName up a.name c with
    | false => rfl
    | true => exact absurd (Eq.symm (sameName_iff.1 hb)) hc

theorem addAttributes_symbols {rels : List Relation} : ∀ {as columns : List (Attribute Name)}
    {symbols : TMap Name (Symbol Name)},
    (∀ c, symbols.get (nameOps up) c = symbolOf up rels columns c) →
    ∀ c, (addAttributes (nameOps up) symbols as).get (nameOps up) c = symbolOf up rels (columns ++ as) c
  | [], columns, symbols, h, c => by
    rw [List.append_nil]
    exact h c
  | a :: as, columns, symbols, h, c => by
    have hself : sameName up a.name a.name = true := sameName_iff.2 rfl
    have happ : columns ++ a :: as = (columns ++ [a]) ++ as := by simp
    have hnew : ∀ sym, symbolOf up rels (columns ++ [a]) a.name = some sym →
        (∀ c, (symbols.insert (nameOps up) a.name sym).get (nameOps up) c =
          symbolOf up rels (columns ++ [a]) c) :=
      fun sym hs => addAttribute_symbols h hs
    have hold : symbolOf up rels (columns ++ [a]) a.name = symbolOf up rels columns a.name →
        ∀ c, symbols.get (nameOps up) c = symbolOf up rels (columns ++ [a]) c := by
      intro hs c
      rw [h]
      cases hb : sameName up a.name c with
      | false => rw [symbolOf_other hb]
      | true =>
        rw [symbolOf_congr (c := c) (d := a.name) (Eq.symm (sameName_iff.1 hb)),
          symbolOf_congr (c := c) (d := a.name) (Eq.symm (sameName_iff.1 hb)), hs]
    unfold addAttributes
    rw [happ]
    split
    all_goals rename_i hs
    all_goals rw [h] at hs
    · refine addAttributes_symbols (hnew _ ?_) c
      unfold symbolOf at hs ⊢
      split at hs
      · cases hs
      · rename_i hr
        rw [columnsCalled_append, columnsCalled_one, hself]
        split at hs
        · rename_i hc
          rw [hc]
          rfl
        · cases hs
        · cases hs
    · refine addAttributes_symbols (hnew _ ?_) c
      unfold symbolOf at hs ⊢
      split at hs
      · cases hs
      · rename_i hr
        rw [columnsCalled_append, columnsCalled_one, hself]
        split at hs
        · cases hs
        · rename_i hc
          rw [hc]
          rfl
        · cases hs
    · refine addAttributes_symbols (hold ?_) c
      rw [hs]
      unfold symbolOf at hs ⊢
      split at hs
      · cases hs
      · rename_i hr
        rw [columnsCalled_append, columnsCalled_one, hself]
        split at hs
        · cases hs
        · cases hs
        · rename_i h0 h1
          cases hc : columnsCalled up a.name columns with
          | nil => exact absurd hc h0
          | cons x xs =>
            cases xs with
            | nil => exact absurd hc (h1 x)
            | cons y ys => rfl
    · refine addAttributes_symbols (hold ?_) c
      rw [hs]
      unfold symbolOf at hs ⊢
      split at hs
      · rename_i r hr
        exact hs
      · split at hs <;> cases hs

/-- The state of a scope in which these relations are known. -/
structure InScope (up : Char → List Char) (ctx : SetContext Name) (sc : ScalarContext Name)
    (rels : List Relation) : Prop where
  context : sc.setContext = ctx
  symbols : ∀ c, sc.symbols.get (nameOps up) c = symbolOf up rels (rels.flatMap (·.2)) c

theorem inScope_new (ctx : SetContext Name) : InScope up ctx (ScalarContext.new ctx) [] :=
  ⟨rfl, fun _ => rfl⟩

theorem symbolOf_relation {rels : List Relation} {columns : List (Attribute Name)} {c : Name} :
    (∃ m, symbolOf up rels columns c = some (.relation m)) ↔ ∃ r ∈ rels, SameName up r.1 c := by
  unfold symbolOf
  split
  · rename_i r hr
    refine ⟨fun _ => ⟨r, List.mem_of_find?_eq_some hr, ?_⟩, fun _ => ⟨_, rfl⟩⟩
    have := List.find?_some hr
    exact sameName_iff.1 this
  · rename_i hr
    constructor
    · rintro ⟨m, hm⟩
      split at hm <;> cases hm
    · rintro ⟨r, hr', hs⟩
      exact absurd (sameName_iff.2 hs) (List.find?_eq_none.1 hr r hr')

theorem find_append_none {α : Type} {p : α → Bool} {l r : List α} (h : l.find? p = none) :
    (l ++ r).find? p = r.find? p := by
  rw [List.find?_append, h]
  rfl

/-- A relation can be added exactly if its name is new. -/
theorem addRelation_iff {ctx : SetContext Name} {sc sc' : ScalarContext Name} {rels : List Relation}
    (h : InScope up ctx sc rels) {n : Name} {as : List (Attribute Name)} :
    (sc.addRelation (nameOps up) n as = .ok sc' → (∀ r ∈ rels, ¬ SameName up r.1 n) ∧
      InScope up ctx sc' (rels ++ [(n, as)])) ∧
    ((∀ r ∈ rels, ¬ SameName up r.1 n) → ∃ sc', sc.addRelation (nameOps up) n as = .ok sc') := by
  have hsym := addAttributes_symbols (as := as) h.symbols
  unfold ScalarContext.addRelation
  simp only
  constructor
  · intro hok
    split at hok
    · cases hok
    · rename_i hno
      cases hok
      have hnew : ∀ r ∈ rels, ¬ SameName up r.1 n := by
        intro r hr hs
        obtain ⟨m, hm⟩ := (symbolOf_relation (columns := rels.flatMap (·.2) ++ as)).2 ⟨r, hr, hs⟩
        exact hno m ((hsym n).trans hm)
      refine ⟨hnew, h.context, fun c => ?_⟩
      simp only
      rw [TMap.get_insert (keyed_nameOps up)]
      have hflat : (rels ++ [(n, as)]).flatMap (·.2) = rels.flatMap (·.2) ++ as := by simp
      rw [hflat]
      split
      · rename_i hc
        have hcn : SameName up n c := Eq.symm hc
        have hnone : rels.find? (fun r => sameName up r.1 c) = none := by
          rw [List.find?_eq_none]
          intro r hr hs
          exact hnew r hr (Eq.trans (sameName_iff.1 hs) hc)
        unfold symbolOf
        rw [find_append_none hnone, List.find?_cons, sameName_iff.2 hcn]
      · rename_i hc
        rw [hsym]
        have hne : sameName up n c = false := by
          cases hb : sameName up n c with
          | false => rfl
          | true => exact absurd (Eq.symm (sameName_iff.1 hb)) hc
        unfold symbolOf
        rw [List.find?_append, List.find?_cons, hne]
        simp
  · intro hnew
    split
    · rename_i m hm
      rw [hsym] at hm
      obtain ⟨r, hr, hs⟩ := symbolOf_relation.1 ⟨m, hm⟩
      exact absurd hs (hnew r hr)
    · exact ⟨_, rfl⟩

theorem find_distinct {rels : List Relation} (hd : DistinctNames up (rels.map (·.1))) {r : Relation}
    (hr : r ∈ rels) {n : Name} (hn : SameName up r.1 n) :
    rels.find? (fun r => sameName up r.1 n) = some r := by
  induction rels with
  | nil => cases hr
  | cons x xs ih =>
    obtain ⟨h1, h2⟩ := List.pairwise_cons.1 hd
    rw [List.find?_cons]
    rcases List.mem_cons.1 hr with rfl | hr'
    · rw [sameName_iff.2 hn]
    · cases hb : sameName up x.1 n with
      | false => exact ih h2 hr'
      | true =>
        exact absurd (Eq.trans (sameName_iff.1 hb) (Eq.symm hn)) (h1 r.1 (List.mem_map.2 ⟨r, hr', rfl⟩))

theorem relation_get {as : List (Attribute Name)} {c : Name} :
    (TMap.collect (nameOps up) (as.map fun a => (a.name, a.scalar))).get (nameOps up) c =
      ((columnsCalled up c as).getLast?).map Attribute.scalar := by
  rw [TMap.get_collect (keyed_nameOps up), ← List.map_reverse, List.find?_map, Option.map_map]
  unfold columnsCalled
  rw [List.getLast?_filter]
  rfl

/-- What a scope says about a name. -/
theorem inScope_denotes {ctx : SetContext Name} {sc : ScalarContext Name} {rels : List Relation}
    (h : InScope up ctx sc rels) (hd : DistinctNames up (rels.map (·.1))) (q : List Name) (t : ScalarType) :
    sc.inferType (nameOps up) q = .ok t ↔ ∃ a, Denotes up rels q a ∧ t = a.scalar := by
  unfold ScalarContext.inferType
  split
  · rename_i c
    rw [h.symbols]
    constructor
    · intro ht
      split at ht
      · cases ht
      · rename_i t' hs
        cases ht
        unfold symbolOf at hs
        split at hs
        · cases hs
        · rename_i hnone
          split at hs
          · cases hs
          · rename_i a ha
            cases hs
            refine ⟨a, .column (fun r hr hsame => ?_) ha, rfl⟩
            exact List.find?_eq_none.1 hnone r hr (sameName_iff.2 hsame)
          · cases hs
      · cases ht
      · cases ht
    · rintro ⟨a, hden, rfl⟩
      cases hden with
      | column hr hc =>
        have hnone : rels.find? (fun r => sameName up r.1 c) = none := by
          rw [List.find?_eq_none]
          intro r hr' hs
          exact hr r hr' (sameName_iff.1 hs)
        have : symbolOf up rels (rels.flatMap (·.2)) c = some (.attribute a.scalar) := by
          unfold symbolOf
          rw [hnone]
          simp only
          rw [hc]
        rw [this]
  · rename_i n c
    rw [h.symbols]
    constructor
    · intro ht
      split at ht
      · rename_i m hs
        split at ht
        · rename_i t' hget
          cases ht
          unfold symbolOf at hs
          split at hs
          · rename_i r hr
            cases hs
            rw [relation_get, Option.map_eq_some_iff] at hget
            obtain ⟨a, ha, rfl⟩ := hget
            have hsome := List.find?_some hr
            exact ⟨a, .qualified (List.mem_of_find?_eq_some hr) (sameName_iff.1 hsome) ha, rfl⟩
          · split at hs <;> cases hs
        · cases ht
      · cases ht
    · rintro ⟨a, hden, rfl⟩
      cases hden with
      | qualified hr hn hc =>
        rename_i r
        have : symbolOf up rels (rels.flatMap (·.2)) n =
            some (.relation (TMap.collect (nameOps up) (r.2.map fun a => (a.name, a.scalar)))) := by
          unfold symbolOf
          rw [find_distinct hd hr hn]
        rw [this]
        simp only
        rw [relation_get, hc]
        rfl
  · rename_i h1 h2
    constructor
    · intro ht
      cases ht
    · rintro ⟨a, hden, rfl⟩
      cases hden with
      | column _ _ => exact absurd rfl (h1 _)
      | qualified _ _ _ => exact absurd rfl (h2 _ _)

theorem relationName_iff {q : List Name} {alias : Option Name} {n : Name} :
    relationName q alias = .ok n ↔ KnownAs q alias n := by
  unfold relationName KnownAs
  cases alias with
  | some a =>
    constructor
    · intro h
      cases h
      exact Or.inl rfl
    · rintro (h | h)
      · cases h
        rfl
      · cases h.1
  | none =>
    simp only
    constructor
    · intro h
      split at h
      · cases h
        rename_i h
        exact Or.inr ⟨trivial, h⟩
      · cases h
    · rintro (h | h)
      · cases h
      · rw [h.2]

theorem distinct_snoc {rels : List Relation} {n : Name} {as : List (Attribute Name)}
    (hd : DistinctNames up (rels.map (·.1))) (hn : ∀ r ∈ rels, ¬ SameName up r.1 n) :
    DistinctNames up ((rels ++ [(n, as)]).map (·.1)) := by
  rw [List.map_append]
  refine List.pairwise_append.2 ⟨hd, List.pairwise_singleton _ _, fun x hx y hy => ?_⟩
  obtain ⟨r, hr, rfl⟩ := List.mem_map.1 hx
  simp only [List.map_cons, List.map_nil, List.mem_singleton] at hy
  subst hy
  exact hn r hr

/-- An element of a FROM clause that is accepted. -/
theorem inferTable_binds {ctx : SetContext Name} (hok : ctx.Ok up) : ∀ (t : TableExpr Name)
    {sc sc' : ScalarContext Name} {before : List Relation} {as : List (Attribute Name)},
    InScope up ctx sc before → DistinctNames up (before.map (·.1)) →
    inferTable (nameOps up) sc t = .ok (sc', as) →
    ∃ rels, Binds up ctx t rels as ∧ InScope up ctx sc' (before ++ rels) ∧
      DistinctNames up ((before ++ rels).map (·.1))
  | .named q alias, sc, sc', before, as, hs, hd, h => by
    unfold inferTable at h
    obtain ⟨typ, h1, h⟩ := ok_bind h
    obtain ⟨n, h2, h⟩ := ok_bind h
    obtain ⟨sc1, h3, h⟩ := ok_bind h
    cases h
    rw [hs.context] at h1
    obtain ⟨h4, h5⟩ := (addRelation_iff hs).1 h3
    exact ⟨_, .named ((resolve_ok_iff hok _ _).1 h1) (relationName_iff.1 h2), h5, distinct_snoc hd h4⟩
  | .select s alias, sc, sc', before, as, hs, hd, h => by
    unfold inferTable at h
    obtain ⟨typ, h1, h⟩ := ok_bind h
    cases h
    rw [hs.context] at h1
    refine ⟨[], .select h1, ?_, ?_⟩
    · rw [List.append_nil]
      exact hs
    · rw [List.append_nil]
      exact hd
  | .join l r op c, sc, sc', before, as, hs, hd, h => by
    unfold inferTable at h
    obtain ⟨⟨sc1, las⟩, h1, h⟩ := ok_bind h
    obtain ⟨⟨sc2, ras⟩, h2, h⟩ := ok_bind h
    cases h
    obtain ⟨rl, b1, s1, d1⟩ := inferTable_binds hok l hs hd h1
    obtain ⟨rr, b2, s2, d2⟩ := inferTable_binds hok r s1 d1 h2
    rw [List.append_assoc] at s2 d2
    exact ⟨_, .join b1 b2, s2, d2⟩

/-- An element of a FROM clause whose relations have new names is accepted. -/
theorem binds_inferTable {ctx : SetContext Name} (hok : ctx.Ok up) : ∀ (t : TableExpr Name)
    {sc : ScalarContext Name} {before rels : List Relation} {as : List (Attribute Name)},
    InScope up ctx sc before → Binds up ctx t rels as → DistinctNames up ((before ++ rels).map (·.1)) →
    ∃ sc', inferTable (nameOps up) sc t = .ok (sc', as) ∧ InScope up ctx sc' (before ++ rels)
  | .named q alias, sc, before, rels, as, hs, hb, hd => by
    cases hb with
    | @named _ _ n typ hr hn =>
      have hnew : ∀ r ∈ before, ¬ SameName up r.1 n := by
        intro r hr'
        rw [List.map_append] at hd
        exact (List.pairwise_append.1 hd).2.2 r.1 (List.mem_map.2 ⟨r, hr', rfl⟩) n (by simp)
      obtain ⟨sc', h1⟩ := (addRelation_iff (as := typ.attributes) (sc' := sc) hs).2 hnew
      refine ⟨sc', ?_, ((addRelation_iff hs).1 h1).2⟩
      unfold inferTable
      rw [hs.context, (resolve_ok_iff hok _ _).2 hr]
      show (relationName q alias >>= _) = _
      rw [relationName_iff.2 hn]
      show (sc.addRelation (nameOps up) n typ.attributes >>= _) = _
      rw [h1]
      rfl
  | .select s alias, sc, before, rels, as, hs, hb, hd => by
    cases hb with
    | select h =>
      refine ⟨sc, ?_, ?_⟩
      · unfold inferTable
        rw [hs.context, h]
        rfl
      · rw [List.append_nil]
        exact hs
  | .join l r op c, sc, before, rels, as, hs, hb, hd => by
    cases hb with
    | join hl hr =>
      rename_i ls rs las ras
      rw [← List.append_assoc] at hd
      have hd1 : DistinctNames up ((before ++ ls).map (·.1)) := by
        rw [List.map_append] at hd
        exact (List.pairwise_append.1 hd).1
      obtain ⟨sc1, h1, s1⟩ := binds_inferTable hok l hs hl hd1
      obtain ⟨sc2, h2, s2⟩ := binds_inferTable hok r s1 hr hd
      refine ⟨sc2, ?_, ?_⟩
      · unfold inferTable
        rw [h1]
        show (inferTable (nameOps up) sc1 r >>= _) = _
        rw [h2]
        rfl
      · rw [← List.append_assoc]
        exact s2

theorem inferFrom_binds {ctx : SetContext Name} (hok : ctx.Ok up) : ∀ (ts : List (TableExpr Name))
    {sc sc' : ScalarContext Name} {before : List Relation} {as : List (Attribute Name)},
    InScope up ctx sc before → DistinctNames up (before.map (·.1)) →
    inferFrom (nameOps up) sc ts = .ok (sc', as) →
    ∃ rels, BindsAll up ctx ts rels as ∧ InScope up ctx sc' (before ++ rels) ∧
      DistinctNames up ((before ++ rels).map (·.1))
  | [], sc, sc', before, as, hs, hd, h => by
    unfold inferFrom at h
    cases h
    refine ⟨[], .nil, ?_, ?_⟩
    · rw [List.append_nil]
      exact hs
    · rw [List.append_nil]
      exact hd
  | t :: ts, sc, sc', before, as, hs, hd, h => by
    unfold inferFrom at h
    obtain ⟨⟨sc1, as1⟩, h1, h⟩ := ok_bind h
    obtain ⟨⟨sc2, as2⟩, h2, h⟩ := ok_bind h
    cases h
    obtain ⟨r1, b1, s1, d1⟩ := inferTable_binds hok t hs hd h1
    obtain ⟨r2, b2, s2, d2⟩ := inferFrom_binds hok ts s1 d1 h2
    rw [List.append_assoc] at s2 d2
    exact ⟨_, .cons b1 b2, s2, d2⟩

theorem binds_inferFrom {ctx : SetContext Name} (hok : ctx.Ok up) : ∀ (ts : List (TableExpr Name))
    {sc : ScalarContext Name} {before rels : List Relation} {as : List (Attribute Name)},
    InScope up ctx sc before → BindsAll up ctx ts rels as → DistinctNames up ((before ++ rels).map (·.1)) →
    ∃ sc', inferFrom (nameOps up) sc ts = .ok (sc', as) ∧ InScope up ctx sc' (before ++ rels)
  | [], sc, before, rels, as, hs, hb, hd => by
    cases hb with
    | nil =>
      refine ⟨sc, ?_, ?_⟩
      · unfold inferFrom
        rfl
      · rw [List.append_nil]
        exact hs
  | t :: ts, sc, before, rels, as, hs, hb, hd => by
    cases hb with
    | cons h hts =>
      rename_i r1 r2 as1 as2
      rw [← List.append_assoc] at hd
      have hd1 : DistinctNames up ((before ++ r1).map (·.1)) := by
        rw [List.map_append] at hd
        exact (List.pairwise_append.1 hd).1
      obtain ⟨sc1, h1, s1⟩ := binds_inferTable hok t hs h hd1
      obtain ⟨sc2, h2, s2⟩ := binds_inferFrom hok ts s1 hts hd
      refine ⟨sc2, ?_, ?_⟩
      · unfold inferFrom
        rw [h1]
        show (inferFrom (nameOps up) sc1 ts >>= _) = _
        rw [h2]
        rfl
      · rw [← List.append_assoc]
        exact s2

end

end Verif.Sql
