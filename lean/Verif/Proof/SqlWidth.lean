import Verif.Spec.SqlWidth
import Verif.Proof.SqlParts
import Verif.Proof.SqlColumns
/-! # The number of columns of a query -/

namespace Verif.Sql
open Grammar

section
variable {up : Char → List Char}

/-- No relation has more than `w` columns. -/
def Narrow (w : Nat) (sc : ScalarContext Name) : Prop :=
  ∀ n fields, sc.symbols.get (nameOps up) n = some (.relation fields) → fields.length ≤ w

/-- No table that can be named has more than `w` columns. -/
def Narrower (up : Char → List Char) (w : Nat) (ctx : SetContext Name) : Prop :=
  ∀ q r, ctx.resolveTableName (nameOps up) q = .ok r → r.attributes.length ≤ w

theorem TMap.insert_length {V : Type} (m : TMap Name V) (k : Name) (v : V) :
    (m.insert (nameOps up) k v).length ≤ m.length + 1 := by
  induction m with
  | nil => simp [TMap.insert]
  | cons e r ih =>
    obtain ⟨k0, v0⟩ := e
    unfold TMap.insert
    split <;> simp only [List.length_cons] <;> omega

theorem TMap.foldl_length {V : Type} (es : List (Name × V)) (m : TMap Name V) :
    (es.foldl (fun m e => m.insert (nameOps up) e.1 e.2) m).length ≤ m.length + es.length := by
  induction es generalizing m with
  | nil => simp
  | cons e es ih =>
    have := TMap.insert_length (up := up) m e.1 e.2
    have := ih (m.insert (nameOps up) e.1 e.2)
    simp only [List.foldl_cons, List.length_cons]
    omega

theorem addAttributes_relation (as : List (Attribute Name)) (m : TMap Name (Symbol Name)) {n fields}
    (h : (addAttributes (nameOps up) m as).get (nameOps up) n = some (.relation fields)) :
    m.get (nameOps up) n = some (.relation fields) := by
  induction as generalizing m with
  | nil => exact h
  | cons a as ih =>
    unfold addAttributes at h
    split at h
    all_goals first
      | (have h := ih _ h
         rw [TMap.get_insert (keyed_nameOps up)] at h
         split at h
         · cases h
         · exact h)
      | exact ih _ h

theorem addRelation_narrow {w : Nat} {sc sc' : ScalarContext Name} {n : Name} {as : List (Attribute Name)}
    (h : sc.addRelation (nameOps up) n as = .ok sc') (hs : Narrow (up := up) w sc) (ha : as.length ≤ w) :
    Narrow (up := up) w sc' ∧ sc'.setContext = sc.setContext := by
  unfold ScalarContext.addRelation at h
  dsimp only at h
  split at h
  · cases h
  · cases h
    refine ⟨fun m fields hm => ?_, rfl⟩
    dsimp only at hm
    rw [TMap.get_insert (keyed_nameOps up)] at hm
    split at hm
    · cases hm
      have := TMap.foldl_length (up := up) (as.map fun a => (a.name, a.scalar)) []
      rw [List.length_map, List.length_nil] at this
      show (TMap.collect _ _).length ≤ w
      unfold TMap.collect
      omega
    · exact hs _ _ (addAttributes_relation _ _ hm)

theorem relationAttributes_length : ∀ {fields : TMap Name ScalarType} {as : List (Attribute Name)},
    relationAttributes fields = .ok as → as.length = fields.length
  | [], as, h => by cases h; rfl
  | (_, .scalar _ _) :: r, as, h => by
    obtain ⟨bs, h1, h2⟩ := Chk.bind_eq_ok.1 h
    cases h2
    simp [relationAttributes_length h1]
  | (_, .tuple _) :: _, as, h => by cases h

theorem columnList_width {w : Nat} (hw : 1 ≤ w) {sc : ScalarContext Name} (hs : Narrow (up := up) w sc) :
    ∀ (cs : List (ResultColumn Name)) (g : TMap Name Nat) (as : List (Attribute Name)),
    inferColumnList (nameOps up) sc g cs = .ok as → as.length ≤ w * cs.length
  | [], g, as, h => by rw [inferColumnList] at h; cases h; simp
  | .allFrom n :: cs, g, as, h => by
    rw [inferColumnList] at h
    match hn : sc.symbols.get (nameOps up) n with
    | none => rw [hn] at h; cases h
    | some (.attribute _) => rw [hn] at h; cases h
    | some .attributeConflict => rw [hn] at h; cases h
    | some (.relation fields) =>
      rw [hn] at h
      obtain ⟨bs, h1, h⟩ := Chk.bind_eq_ok.1 h
      obtain ⟨rest, h2, h⟩ := Chk.bind_eq_ok.1 h
      cases h
      have := columnList_width hw hs cs _ _ h2
      have := hs _ _ hn
      have := relationAttributes_length h1
      rw [List.length_append, generateColumns_length, List.length_cons, Nat.mul_succ]
      omega
  | .expr e rename :: cs, g, as, h => by
    rw [inferColumnList] at h
    obtain ⟨t, h1, h⟩ := Chk.bind_eq_ok.1 h
    cases t with
    | tuple _ => cases h
    | scalar typ isNull =>
      obtain ⟨rest, h2, h⟩ := Chk.bind_eq_ok.1 h
      cases h
      have := columnList_width hw hs cs _ _ h2
      rw [List.length_cons, List.length_cons, Nat.mul_succ]
      omega

theorem firstRow_width {sc : ScalarContext Name} : ∀ (es : List (Expr Name)) (k : Nat) (as : List (Attribute Name)),
    inferFirstRow (nameOps up) sc k es = .ok as → as.length = es.length
  | [], k, as, h => by rw [inferFirstRow] at h; cases h; rfl
  | e :: es, k, as, h => by
    rw [inferFirstRow] at h
    obtain ⟨t, h1, h⟩ := Chk.bind_eq_ok.1 h
    cases t with
    | tuple _ => cases h
    | scalar typ isNull =>
      obtain ⟨rest, h2, h⟩ := Chk.bind_eq_ok.1 h
      cases h
      simp [firstRow_width es _ _ h2]

theorem unifyRow_width {sc : ScalarContext Name} : ∀ (ts : List (Attribute Name)) (es : List (Expr Name))
    (as : List (Attribute Name)), unifyRow (nameOps up) sc ts es = .ok as → as.length ≤ ts.length
  | [], es, as, h => by rw [unifyRow] at h <;> first | (cases h; simp) | simp
  | t :: ts, [], as, h => by rw [unifyRow] at h <;> first | (cases h; simp) | simp
  | t :: ts, e :: es, as, h => by
    rw [unifyRow] at h
    obtain ⟨u, h1, h⟩ := Chk.bind_eq_ok.1 h
    obtain ⟨u', h2, h⟩ := Chk.bind_eq_ok.1 h
    cases u' with
    | tuple _ => cases h
    | scalar typ isNull =>
      obtain ⟨rest, h3, h⟩ := Chk.bind_eq_ok.1 h
      cases h
      have := unifyRow_width ts es _ h3
      simp only [List.length_cons]
      omega

theorem foldRows_width {sc : ScalarContext Name} : ∀ (rows : List (List (Expr Name))) (ts as : List (Attribute Name)),
    foldRows (nameOps up) sc ts rows = .ok as → as.length ≤ ts.length
  | [], ts, as, h => by rw [foldRows] at h; cases h; exact Nat.le_refl _
  | row :: rows, ts, as, h => by
    rw [foldRows] at h
    obtain ⟨us, h1, h⟩ := Chk.bind_eq_ok.1 h
    exact Nat.le_trans (foldRows_width rows us as h) (unifyRow_width ts row us h1)

theorem unifyAttributes_width : ∀ (ls rs as : List (Attribute Name)), unifyAttributes ls rs = .ok as →
    as.length = min ls.length rs.length
  | [], rs, as, h => by rw [unifyAttributes] at h <;> first | (cases h; simp) | simp
  | l :: ls, [], as, h => by rw [unifyAttributes] at h <;> first | (cases h; simp) | simp
  | l :: ls, r :: rs, as, h => by
    rw [unifyAttributes] at h
    obtain ⟨u, h1, h⟩ := Chk.bind_eq_ok.1 h
    cases u with
    | tuple _ => cases h
    | scalar typ isNull =>
      obtain ⟨rest, h3, h⟩ := Chk.bind_eq_ok.1 h
      cases h
      have := unifyAttributes_width ls rs _ h3
      simp only [List.length_cons]
      omega

theorem new_narrow (w : Nat) (ctx : SetContext Name) : Narrow (up := up) w (ScalarContext.new ctx) := by
  intro n fields h
  cases h

mutual

theorem select_width {w : Nat} (hw : 1 ≤ w) {ctx : SetContext Name} (hc : Narrower up w ctx) :
    ∀ (x : Select Name) {r : RowType Name}, inferSelect (nameOps up) ctx x = .ok r →
      r.attributes.length ≤ w * x.places
  | .mk common x orderBy limit, r, h => by
    rw [inferSelect] at h
    obtain ⟨sc, _, h⟩ := Chk.bind_eq_ok.1 h
    obtain ⟨r', h1, h⟩ := Chk.bind_eq_ok.1 h
    obtain ⟨_, _, h⟩ := Chk.bind_eq_ok.1 h
    obtain ⟨_, _, h⟩ := Chk.bind_eq_ok.1 h
    cases h
    rw [Select.places]
    exact setExpr_width hw hc x h1

theorem setExpr_width {w : Nat} (hw : 1 ≤ w) {ctx : SetContext Name} (hc : Narrower up w ctx) :
    ∀ (x : SetExpr Name) {r : RowType Name}, inferSetExpr (nameOps up) ctx x = .ok r →
      r.attributes.length ≤ w * x.places
  | .values rows, r, h => by
    rw [inferSetExpr] at h
    obtain ⟨as, h1, h⟩ := Chk.bind_eq_ok.1 h
    cases h
    cases rows with
    | nil => rw [inferValues] at h1; cases h1
    | cons row rows =>
      rw [inferValues] at h1
      obtain ⟨ts, h2, h1⟩ := Chk.bind_eq_ok.1 h1
      have h3 := foldRows_width _ _ _ h1
      have h4 := firstRow_width _ _ _ h2
      have := Nat.le_mul_of_pos_left row.length hw
      rw [SetExpr.places]
      show as.length ≤ _
      omega
  | .query mode columns froms wher groupBy, r, h => by
    rw [inferSetExpr] at h
    obtain ⟨⟨sc, as⟩, h1, h⟩ := Chk.bind_eq_ok.1 h
    obtain ⟨_, _, h⟩ := Chk.bind_eq_ok.1 h
    obtain ⟨_, _, h⟩ := Chk.bind_eq_ok.1 h
    obtain ⟨hn, _, ha⟩ := from_width hw froms (new_narrow w ctx) hc h1
    cases columns with
    | all =>
      rw [inferColumns] at h
      cases h
      rw [SetExpr.places]
      show (generateColumns _ _ _).1.length ≤ _
      rw [generateColumns_length]
      exact ha
    | list cs =>
      rw [inferColumns] at h
      obtain ⟨bs, h2, h⟩ := Chk.bind_eq_ok.1 h
      cases h
      rw [SetExpr.places]
      exact columnList_width hw hn cs _ _ h2
  | .op o l r, s, h => by
    rw [inferSetExpr] at h
    obtain ⟨lt, h1, h⟩ := Chk.bind_eq_ok.1 h
    obtain ⟨rt, h2, h⟩ := Chk.bind_eq_ok.1 h
    obtain ⟨as, h3, h⟩ := Chk.bind_eq_ok.1 h
    cases h
    have h4 := setExpr_width hw hc l h1
    have h5 := setExpr_width hw hc r h2
    have h6 := unifyAttributes_width _ _ _ h3
    rw [SetExpr.places]
    show as.length ≤ _
    rcases Nat.le_total l.places r.places with h | h
    · rw [Nat.min_eq_left h]
      omega
    · rw [Nat.min_eq_right h]
      omega

theorem table_width {w : Nat} (hw : 1 ≤ w) :
    ∀ (t : TableExpr Name) {sc sc' : ScalarContext Name} {as : List (Attribute Name)}, Narrow (up := up) w sc →
      Narrower up w sc.setContext → inferTable (nameOps up) sc t = .ok (sc', as) →
      Narrow (up := up) w sc' ∧ sc'.setContext = sc.setContext ∧ as.length ≤ w * t.places
  | .named name alias, sc, sc', as, hs, hc, h => by
    rw [inferTable] at h
    obtain ⟨typ, h1, h⟩ := Chk.bind_eq_ok.1 h
    obtain ⟨n, h2, h⟩ := Chk.bind_eq_ok.1 h
    obtain ⟨sc2, h3, h⟩ := Chk.bind_eq_ok.1 h
    cases h
    have h4 := hc _ _ h1
    obtain ⟨h5, h6⟩ := addRelation_narrow h3 hs h4
    refine ⟨h5, h6, ?_⟩
    rw [TableExpr.places]
    omega
  | .select s _, sc, sc', as, hs, hc, h => by
    rw [inferTable] at h
    obtain ⟨typ, h1, h⟩ := Chk.bind_eq_ok.1 h
    cases h
    rw [TableExpr.places]
    exact ⟨hs, rfl, select_width hw hc s h1⟩
  | .join l r _ _, sc, sc', as, hs, hc, h => by
    rw [inferTable] at h
    obtain ⟨⟨sc1, ls⟩, h1, h⟩ := Chk.bind_eq_ok.1 h
    obtain ⟨⟨sc2, rs⟩, h2, h⟩ := Chk.bind_eq_ok.1 h
    cases h
    obtain ⟨a1, a2, a3⟩ := table_width hw l hs hc h1
    obtain ⟨b1, b2, b3⟩ := table_width hw r a1 (a2 ▸ hc) h2
    refine ⟨b1, b2.trans a2, ?_⟩
    rw [TableExpr.places, List.length_append, Nat.mul_add]
    omega

theorem from_width {w : Nat} (hw : 1 ≤ w) :
    ∀ (ts : List (TableExpr Name)) {sc sc' : ScalarContext Name} {as : List (Attribute Name)}, Narrow (up := up) w sc →
      Narrower up w sc.setContext → inferFrom (nameOps up) sc ts = .ok (sc', as) →
      Narrow (up := up) w sc' ∧ sc'.setContext = sc.setContext ∧ as.length ≤ w * tablesPlaces ts
  | [], sc, sc', as, hs, hc, h => by
    rw [inferFrom] at h
    cases h
    exact ⟨hs, rfl, by simp⟩
  | t :: ts, sc, sc', as, hs, hc, h => by
    rw [inferFrom] at h
    obtain ⟨⟨sc1, ls⟩, h1, h⟩ := Chk.bind_eq_ok.1 h
    obtain ⟨⟨sc2, rs⟩, h2, h⟩ := Chk.bind_eq_ok.1 h
    cases h
    obtain ⟨a1, a2, a3⟩ := table_width hw t hs hc h1
    obtain ⟨b1, b2, b3⟩ := from_width hw ts a1 (a2 ▸ hc) h2
    refine ⟨b1, b2.trans a2, ?_⟩
    rw [tablesPlaces, List.length_append, Nat.mul_add]
    omega

end
end

theorem tablesPlaces_append {a b : List (TableExpr N)} :
    tablesPlaces (a ++ b) = tablesPlaces a + tablesPlaces b := by
  induction a with
  | nil => simp [tablesPlaces]
  | cons x a ih => simp [tablesPlaces, ih, Nat.add_assoc]

/-- The number of places of the value of `k` words. -/
def PlacesOf : (s : Nt) → Grammar.Ty s → Nat → Prop
  | .sqlStatement, v, k => ∀ q, v = .statement (.select q) → 2 * q.places ≤ k
  | .statement, v, k => ∀ q, v = .select q → 2 * q.places ≤ k
  | .selectStatement, v, k => 2 * v.places ≤ k
  | .selectCoreList, v, k => 2 * v.places ≤ k
  | .selectCore, v, k => 2 * v.places ≤ k
  | .tupleList, v, k => v ≠ [] ∧ ∀ r, v.head? = some r → 2 * r.length ≤ k
  | .tuple, v, k => 2 * v.length ≤ k
  | .resultColumns, v, k => ∀ l, v = .list l → 2 * l.length ≤ k + 1
  | .resultColumnList, v, k => 2 * v.length ≤ k + 1
  | .fromClause, v, k => 2 * tablesPlaces v ≤ k
  | .tableExpressionList, v, k => 2 * tablesPlaces v ≤ k + 1
  | .tableExpression, v, k => 2 * v.places ≤ k + 1
  | .tableOrSubQuery, v, k => 2 * v.places ≤ k + 1
  | .expressionList, v, k => 2 * v.length ≤ k + 1
  | .joinOperator, _, k => 1 ≤ k
  | .qualifiedIdentifier, _, k => 1 ≤ k
  | .identifier, _, k => 1 ≤ k
  | _, _, _ => True

theorem gr_pos {s : Nt} {w : List Lexeme} {v : Grammar.Ty s} (h : Gr s w v) (hs : s = .expression ∨ s = .resultColumn) :
    1 ≤ w.length := by
  have h1 := gr_partsOf h
  rcases hs with rfl | rfl
  · rw [PartsOf] at h1
    omega
  · cases h with
    | resultColumn_1 h => have := gr_partsOf h; rw [PartsOf] at this; omega
    | resultColumn_2 h _ => have := gr_partsOf h; rw [PartsOf] at this; simp only [List.length_append]; omega
    | resultColumn_3 h => simp

theorem gr_placesOf {s : Nt} {w : List Lexeme} {v : Grammar.Ty s} (h : Gr s w v) : PlacesOf s v w.length := by
  induction h <;>
    simp_all only [PlacesOf, List.length_cons, List.length_append, List.length_nil, Select.places, SetExpr.places,
      TableExpr.places, tablesPlaces, tablesPlaces_append] <;> try omega
  case sqlStatement_1 h => rintro q ⟨⟩; exact h q rfl
  case statement_1 h => rintro q ⟨⟩; exact h
  case selectCore_1 c _ _ _ _ _ _ h =>
    cases c with
    | all => rw [SetExpr.places, tablesPlaces]; omega
    | list l => have := h l rfl; rw [SetExpr.places]; omega
  case selectCore_2 c _ _ _ _ _ _ _ _ h _ =>
    cases c with
    | all => rw [SetExpr.places]; omega
    | list l => have := h l rfl; rw [SetExpr.places]; omega
  case selectCore_3 t _ h =>
    cases t with
    | nil => exact absurd rfl h.1
    | cons r t => have := h.2 r rfl; rw [SetExpr.places]; omega
  case tupleList_1 h => exact ⟨by simp, by rintro r ⟨⟩; exact h⟩
  case tupleList_2 l t _ _ h _ =>
    cases l with
    | nil => exact absurd rfl h.1
    | cons r l => exact ⟨by simp, by rintro r ⟨⟩; have := h.2 r rfl; omega⟩
  case resultColumns_2 h => rintro l ⟨⟩; exact h
  case resultColumnList_1 h => have := gr_pos h (.inr rfl); omega
  case resultColumnList_2 h _ => have := gr_pos h (.inr rfl); omega
  case expressionList_1 h => have := gr_pos h (.inl rfl); omega
  case expressionList_2 h _ => have := gr_pos h (.inl rfl); omega
  all_goals rintro q ⟨⟩

end Verif.Sql
