import Verif.Proof.SqlKeywords
/-!
# Written statements are read back
-/

namespace Verif.Sql.Writing
open Grammar Lexing Parser

/-- Words that can stand in a text. -/
def AllWords (w : List Lexeme) : Prop := ∀ l ∈ w, IsWord l

theorem allWords_nil : AllWords [] := by simp [AllWords]

theorem allWords_cons {l w} : AllWords (l :: w) ↔ IsWord l ∧ AllWords w := by simp [AllWords]

theorem allWords_append {v w} : AllWords (v ++ w) ↔ AllWords v ∧ AllWords w := by
  simp only [AllWords, List.mem_append]
  constructor
  · exact fun h => ⟨fun l hl => h l (.inl hl), fun l hl => h l (.inr hl)⟩
  · rintro ⟨h1, h2⟩ l (h | h)
    · exact h1 l h
    · exact h2 l h

/-- Words that can stand in a text and are an `s` with value `v`. -/
def Wr (s : Nt) (w : List Lexeme) (v : Grammar.Ty s) : Prop := Gr s w v ∧ AllWords w

/-- A part of a statement: the grammar rule and the words. -/
macro "wr" t:term : tactic =>
  `(tactic| exact ⟨$t, by simp_all +decide [Wr, allWords_nil, allWords_cons, allWords_append, isWord_kw, qualified, literal, mode, setOperator, joinType,
    joinOperator, direction, collation, alias, columnNames]⟩)

theorem wr_none {s : Nt} : Wr (.opt s) [] none := ⟨.optNone, allWords_nil⟩

theorem wr_some {s : Nt} {w : List Lexeme} {v : Grammar.Ty s} (h : Wr s w v) : Wr (.opt s) w (some v) := ⟨.optSome h.1, h.2⟩

theorem wr_name {n : Name} (h : NameOk n) : Wr .identifier [name n] n :=
  ⟨.identifier_1, by simp only [allWords_cons]; exact ⟨h, allWords_nil⟩⟩

theorem wr_string {s : Str} (h : StringOk s) : Wr .stringLiteral [string s] s :=
  ⟨.stringLiteral_1, by simp only [allWords_cons]; exact ⟨h, allWords_nil⟩⟩

theorem wr_qualified {q : List Name} (h : QualifiedOk q) : Wr .qualifiedIdentifier (qualified q) q := by
  obtain ⟨hl, hn⟩ := h
  match q with
  | [] => simp at hl
  | [a] =>
    have ha := wr_name (hn a (by simp))
    exact ⟨.qualifiedIdentifier_1 ha.1, ha.2⟩
  | [a, b] =>
    have ha := wr_name (hn a (by simp))
    have hb := wr_name (hn b (by simp))
    wr .qualifiedIdentifier_2 ha.1 hb.1
  | [a, b, c] =>
    have ha := wr_name (hn a (by simp))
    have hb := wr_name (hn b (by simp))
    have hc := wr_name (hn c (by simp))
    wr .qualifiedIdentifier_3 ha.1 hb.1 hc.1
  | _ :: _ :: _ :: _ :: _ =>
    simp only [List.length_cons] at hl
    omega

theorem names_wr : ∀ {ns : List Name} {w l}, (∀ n ∈ ns, NameOk n) → Wr .identifierList w l →
    Wr .identifierList (w ++ ns.flatMap fun n => [kw .comma, name n]) (l ++ ns)
  | [], w, l, _, h => by simpa using h
  | n :: ns, w, l, hn, h => by
    have h1 := wr_name (hn n (by simp))
    have h2 : Wr .identifierList (w ++ (kw .comma :: [name n])) (l ++ [n]) := by
      wr .identifierList_2 h.1 h1.1
    have h3 := names_wr (fun m hm => hn m (List.mem_cons_of_mem _ hm)) h2
    simpa using h3

theorem names_eq : ∀ (n : Name) (ns : List Name),
    names (n :: ns) = [name n] ++ ns.flatMap fun n => [kw .comma, name n]
  | n, [] => rfl
  | n, m :: ns => by
    rw [names, names_eq m ns]
    rfl

theorem wr_names {ns : List Name} (h : NamesOk ns) : Wr .identifierList (names ns) ns := by
  obtain ⟨h0, hn⟩ := h
  match ns with
  | [] => exact absurd rfl h0
  | n :: ns =>
    have h1 := wr_name (hn n (by simp))
    rw [names_eq]
    exact names_wr (l := [n]) (fun m hm => hn m (List.mem_cons_of_mem _ hm)) ⟨.identifierList_1 h1.1, h1.2⟩

/-- No word of the expression has the character. -/
def without (c : Char) : Re → Bool
  | .one rs => rs.all fun r => !(decide (r.1.toNat ≤ c.toNat) && decide (c.toNat ≤ r.2.toNat))
  | .seq a b => without c a && without c b
  | .maybe a => without c a
  | .many a => without c a

theorem without_ok {c : Char} {r : Re} {t : Str} (h : r.Matches t) (hw : without c r = true) : c ∉ t := by
  induction h with
  | @one d rs hr =>
    obtain ⟨p, hm, h1, h2⟩ := hr
    have := List.all_eq_true.mp hw p hm
    intro hc
    rw [List.mem_singleton] at hc
    subst hc
    have h1' : p.1.toNat ≤ c.toNat := h1
    have h2' : c.toNat ≤ p.2.toNat := h2
    simp [h1', h2'] at this
  | seq _ _ ih1 ih2 =>
    rw [without, Bool.and_eq_true] at hw
    rw [List.mem_append]
    exact fun h => h.elim (ih1 hw.1) (ih2 hw.2)
  | absent => simp
  | present _ ih => exact ih hw
  | nil => simp
  | cons _ _ ih1 ih2 =>
    rw [List.mem_append]
    exact fun h => h.elim (ih1 hw) (ih2 hw)

/-- The words of the pattern that is the only one of its kind. -/
theorem isWord_matches {k : Kind} {s : Str} (h : IsWord (k, s)) (n : Nat) {re : Re}
    (hn : ∀ i, i < 84 → (Lexing.patterns[i]?).bind (·.1) = some k → i = n)
    (hr : Lexing.patterns[n]? = some (some k, re)) : re.Matches s := by
  obtain ⟨i, re', hi, hw⟩ := h
  obtain ⟨k', r', hi', hm⟩ := hw.isWord
  have hl := (List.getElem?_eq_some_iff.mp hi).1
  have h1 := hn i hl (by rw [hi]; rfl)
  subst h1
  rw [hr] at hi'
  cases hi'
  exact hm

theorem number_one {s : Str} (h : IsWord (.NUMERIC_LIT_1, s)) : number s = (.NUMERIC_LIT_1, s) := by
  have hm : numeric1.Matches s := isWord_matches h 2 (by decide +kernel) rfl
  have hx := without_ok (c := 'x') hm (by decide +kernel)
  have hd : ∃ c r, s = c :: r ∧ c ≠ '.' := by
    unfold numeric1 Re.some digit at hm
    cases hm with
    | seq h1 _ =>
      cases h1 with
      | seq h1 _ =>
        cases h1 with
        | one hr =>
          refine ⟨_, _, rfl, ?_⟩
          rintro rfl
          obtain ⟨p, hm, h1, _⟩ := hr
          rw [List.mem_singleton] at hm
          subst hm
          exact absurd h1 (by decide)
  obtain ⟨c, r, rfl, hc⟩ := hd
  unfold number
  split
  · rename_i he
    cases he
    exact absurd rfl hc
  · rename_i he
    cases he
    exact absurd (by simp) hx
  · rfl

theorem number_two {s : Str} (h : IsWord (.NUMERIC_LIT_2, s)) : number s = (.NUMERIC_LIT_2, s) := by
  have hm : numeric2.Matches s := isWord_matches h 4 (by decide +kernel) rfl
  unfold numeric2 chars at hm
  cases hm with
  | seq h1 _ =>
    cases h1 with
    | one hr =>
      obtain ⟨p, hm, h1, h2⟩ := hr
      have hp : p = ('.', '.') := by simpa using hm
      subst hp
      rw [Char.le_antisymm h2 h1]
      rfl

theorem number_hex {s : Str} (h : IsWord (.HEX_LIT, s)) : number s = (.HEX_LIT, s) := by
  have hm : hex.Matches s := isWord_matches h 1 (by decide +kernel) rfl
  unfold hex chars at hm
  cases hm with
  | seq h1 h3 =>
    cases h1 with
    | one hr =>
      obtain ⟨p, hm, h1, h2⟩ := hr
      have hp : p = ('0', '0') := by simpa using hm
      subst hp
      rw [Char.le_antisymm h2 h1]
      cases h3 with
      | seq h1 h3 =>
        cases h1 with
        | one hr =>
          obtain ⟨p, hm, h1, h2⟩ := hr
          have hp : p = ('x', 'x') := by simpa using hm
          subst hp
          rw [Char.le_antisymm h2 h1]
          rfl

theorem wr_number {s : Str} (h : NumberOk s) : Wr .numericLiteral [number s] s := by
  rcases h with h | h | h
  · rw [number_one h]
    exact ⟨.numericLiteral_1, allWords_cons.mpr ⟨h, allWords_nil⟩⟩
  · rw [number_two h]
    exact ⟨.numericLiteral_2, allWords_cons.mpr ⟨h, allWords_nil⟩⟩
  · rw [number_hex h]
    exact ⟨.numericLiteral_3, allWords_cons.mpr ⟨h, allWords_nil⟩⟩

theorem wr_literal {l : Literal} (h : LiteralOk l) : Wr .literalValue (literal l) l := by
  cases l with
  | string s => have h1 := wr_string h; exact ⟨.literalValue_2 h1.1, h1.2⟩
  | numeric s => have h1 := wr_number h; exact ⟨.literalValue_1 h1.1, h1.2⟩
  | null => wr .literalValue_3
  | currentTime => wr .literalValue_4
  | currentDate => wr .literalValue_5
  | currentTimestamp => wr .literalValue_6
  | date s => have h1 := wr_string h; wr .literalValue_7 h1.1
  | time s => have h1 := wr_string h; wr .literalValue_8 h1.1
  | timestamp s => have h1 := wr_string h; wr .literalValue_9 h1.1

/-! ## Levels -/

def WrE : Nat → List Lexeme → Expr Name → Prop
  | 0 => fun w e => Wr .orExpression w e
  | 1 => fun w e => Wr .andExpression w e
  | 2 => fun w e => Wr .notExpression w e
  | 3 => fun w e => Wr .complexExpression w e
  | 4 => fun w e => Wr .comparativeExpression w e
  | 5 => fun w e => Wr .additiveExpression w e
  | 6 => fun w e => Wr .multiplicativeExpression w e
  | 7 => fun w e => Wr .unaryExpression w e
  | _ => fun w e => Wr .primaryExpression w e

theorem wrE_down {w e} : ∀ {p : Nat}, WrE (p + 1) w e → WrE p w e
  | 0, h => ⟨.orExpression_1 h.1, h.2⟩
  | 1, h => ⟨.andExpression_1 h.1, h.2⟩
  | 2, h => ⟨.notExpression_1 h.1, h.2⟩
  | 3, h => ⟨.complexExpression_1 h.1, h.2⟩
  | 4, h => ⟨.comparativeExpression_1 h.1, h.2⟩
  | 5, h => ⟨.additiveExpression_1 h.1, h.2⟩
  | 6, h => ⟨.multiplicativeExpression_1 h.1, h.2⟩
  | 7, h => ⟨.unaryExpression_1 h.1, h.2⟩
  | _ + 8, h => h

theorem wrE_le {w e} {p q : Nat} (hpq : p ≤ q) (h : WrE q w e) : WrE p w e := by
  induction hpq with
  | refl => exact h
  | step _ ih => exact ih (wrE_down h)

theorem wrE_expression {w e} {p : Nat} (h : WrE p w e) : Wr .expression w e :=
  have h0 := wrE_le (Nat.zero_le p) h
  ⟨.expression_1 h0.1, h0.2⟩

theorem wrE_at {w e} {p : Nat} (h : WrE (level e) w e) : WrE p (atLevel p e w) e := by
  unfold atLevel
  split
  · have h0 := wrE_expression h
    have h8 : WrE (p + 8) (kw .lpar :: (w ++ [kw .rpar])) e := by
      wr .primaryExpression_1 (.expressionList_1 h0.1)
    exact wrE_le (by omega) h8
  · exact wrE_le (by omega) h

theorem wr_mode (m : SelectMode) : Wr .selectMode (mode m) m := by
  cases m
  · exact ⟨.selectMode_1 .optNone, allWords_nil⟩
  · wr .selectMode_2

theorem wr_setOperator (o : SetOperator) : Wr .compoundOperator (setOperator o) o := by
  cases o
  · wr .compoundOperator_3
  · wr .compoundOperator_4
  · wr .compoundOperator_1
  · wr .compoundOperator_2

theorem wr_joinType (t : JoinType) : ∃ j, Wr (.opt .joinType) (joinType t) j ∧ t = j.getD .inner := by
  cases t
  · exact ⟨none, wr_none, rfl⟩
  · exact ⟨some .left, wr_some (by wr .joinType_1 .optNone), rfl⟩
  · exact ⟨some .right, wr_some (by wr .joinType_2 .optNone), rfl⟩
  · exact ⟨some .full, wr_some (by wr .joinType_3 .optNone), rfl⟩

theorem wr_joinOperator (o : JoinOperator) : Wr .joinOperator (joinOperator o) o := by
  cases o with
  | join t =>
    obtain ⟨j, h, rfl⟩ := wr_joinType t
    refine ⟨.joinOperator_1 h.1, ?_⟩
    exact allWords_append.mpr ⟨h.2, allWords_cons.mpr ⟨isWord_kw rfl, allWords_nil⟩⟩
  | natural t =>
    obtain ⟨j, h, rfl⟩ := wr_joinType t
    refine ⟨.joinOperator_2 h.1, ?_⟩
    exact allWords_cons.mpr ⟨isWord_kw rfl, allWords_append.mpr ⟨h.2, allWords_cons.mpr ⟨isWord_kw rfl, allWords_nil⟩⟩⟩
  | cross => wr .joinOperator_3

theorem wr_direction (d : OrderingDirection) : Wr .orderingDirection (direction d) d := by
  cases d
  · exact ⟨.orderingDirection_1 .optNone, allWords_nil⟩
  · wr .orderingDirection_2

theorem wr_collation {o : Option Name} (h : OptionOk o) : Wr (.opt .orderingCollation) (collation o) o := by
  cases o with
  | none => exact wr_none
  | some n =>
    have h1 := wr_name (h n rfl)
    refine wr_some ?_
    wr .orderingCollation_1 h1.1

theorem wr_as : Wr (.opt (.tok .AS)) [kw .AS] (some (kw .AS).2) := wr_some (by wr .tok)

theorem wr_alias {o : Option Name} (h : OptionOk o) : Wr (.opt .tableAlias) (alias o) o := by
  cases o with
  | none => exact wr_none
  | some n =>
    have h1 := wr_name (h n rfl)
    have h2 := wr_as
    refine wr_some ?_
    wr .tableAlias_1 h2.1 h1.1

theorem wr_column {w e} {r : Option Name} (he : Wr .expression w e) (h : OptionOk r) :
    Wr .resultColumn (w ++ alias r) (.expr e r) := by
  cases r with
  | none =>
    rw [alias, List.append_nil]
    exact ⟨.resultColumn_1 he.1, he.2⟩
  | some n =>
    have h1 := wr_name (h n rfl)
    have h2 := wr_as
    wr .resultColumn_2 he.1 h2.1 h1.1

theorem wr_columnNames {o : Option (List Name)} (h : ∀ ns, o = some ns → NamesOk ns) :
    Wr (.opt .columnNameList) (columnNames o) o := by
  cases o with
  | none => exact wr_none
  | some ns =>
    have h1 := wr_names (h ns rfl)
    refine wr_some ?_
    wr .columnNameList_1 h1.1

theorem wr_cte {n : Name} {cs : Option (List Name)} {w q} (hn : NameOk n) (h : ∀ ns, cs = some ns → NamesOk ns)
    (hq : Wr .selectStatement w q) :
    Wr .commonTableExpression (name n :: (columnNames cs ++ (kw .AS :: kw .lpar :: (w ++ [kw .rpar])))) (.mk n cs q) := by
  have h0 := wr_name hn
  cases cs with
  | none => wr .commonTableExpression_1 h0.1 hq.1
  | some ns =>
    have h1 := wr_names (h ns rfl)
    have := Gr.commonTableExpression_2 (t1 := (kw .lpar).2) (t3 := (kw .rpar).2) (t4 := (kw .AS).2) (t5 := (kw .lpar).2)
      (t7 := (kw .rpar).2) h0.1 h1.1 hq.1
    refine ⟨by rw [columnNames, List.cons_append, List.append_assoc]; exact this, ?_⟩
    simp_all +decide [Wr, allWords_nil, allWords_cons, allWords_append, isWord_kw, columnNames]

/-! ## Expressions and queries -/

theorem wr_binary {op : BinaryOperator} {v w l r} (hl : WrE (binaryLevel op) v l) (hr : WrE (binaryLevel op + 1) w r) :
    WrE (binaryLevel op) (v ++ (kw (binaryOperator op) :: w)) (.binary op l r) := by
  have hw : AllWords (v ++ (kw (binaryOperator op) :: w)) := by
    cases op <;> exact allWords_append.mpr ⟨hl.2, allWords_cons.mpr ⟨isWord_kw rfl, hr.2⟩⟩
  cases op with
  | multiply => exact ⟨.multiplicativeExpression_2 hl.1 hr.1, hw⟩
  | divide => exact ⟨.multiplicativeExpression_3 hl.1 hr.1, hw⟩
  | add => exact ⟨.additiveExpression_2 hl.1 hr.1, hw⟩
  | subtract => exact ⟨.additiveExpression_3 hl.1 hr.1, hw⟩
  | concat => exact ⟨.additiveExpression_4 hl.1 hr.1, hw⟩
  | and => exact ⟨.andExpression_2 hl.1 hr.1, hw⟩
  | or => exact ⟨.orExpression_2 hl.1 hr.1, hw⟩

theorem wr_comparison {op : ComparisonOperator} {v w l r} (hl : WrE 4 v l) (hr : WrE 5 w r) :
    WrE 4 (v ++ (kw (comparisonOperator op) :: w)) (.comparison op l r) := by
  have hw : AllWords (v ++ (kw (comparisonOperator op) :: w)) := by
    cases op <;> exact allWords_append.mpr ⟨hl.2, allWords_cons.mpr ⟨isWord_kw rfl, hr.2⟩⟩
  cases op with
  | equal => exact ⟨.comparativeExpression_2 hl.1 hr.1, hw⟩
  | notEqual => exact ⟨.comparativeExpression_3 hl.1 hr.1, hw⟩
  | lessThan => exact ⟨.comparativeExpression_4 hl.1 hr.1, hw⟩
  | lessEqual => exact ⟨.comparativeExpression_6 hl.1 hr.1, hw⟩
  | greaterThan => exact ⟨.comparativeExpression_5 hl.1 hr.1, hw⟩
  | greaterEqual => exact ⟨.comparativeExpression_7 hl.1 hr.1, hw⟩
  | like => exact ⟨.comparativeExpression_10 hl.1 hr.1, hw⟩

mutual

theorem expr_wr : (e : Expr Name) → ExprOk e → WrE (level e) (expr e) e
  | .literal l, h => by
    have h1 := wr_literal (l := l) (by simpa only [ExprOk] using h)
    rw [expr]
    exact ⟨.primaryExpression_4 h1.1, h1.2⟩
  | .ident q, h => by
    have h1 := wr_qualified (q := q) (by simpa only [ExprOk] using h)
    rw [expr]
    exact ⟨.primaryExpression_5 h1.1, h1.2⟩
  | .tuple es, h => by
    rw [ExprOk] at h
    have h1 := exprs_wr es (fun h0 => by rw [h0] at h; simp at h) h.2
    rw [expr]
    wr .primaryExpression_2 h1.1 (by omega)
  | .select s, h => by
    rw [ExprOk] at h
    have h1 := select_wr s h
    rw [expr]
    wr .primaryExpression_3 h1.1
  | .unary .negate e, h => by
    rw [ExprOk] at h
    have h1 : WrE 7 _ e := wrE_at (expr_wr e h)
    rw [expr]
    exact ⟨.unaryExpression_3 h1.1, allWords_cons.mpr ⟨isWord_kw rfl, h1.2⟩⟩
  | .unary .not e, h => by
    rw [ExprOk] at h
    have h1 : WrE 3 _ e := wrE_at (expr_wr e h)
    rw [expr]
    exact ⟨.notExpression_2 h1.1, allWords_cons.mpr ⟨isWord_kw rfl, h1.2⟩⟩
  | .unary .isNull e, h => by
    rw [ExprOk] at h
    have h1 : WrE 4 _ e := wrE_at (expr_wr e h)
    rw [expr]
    exact ⟨.comparativeExpression_8 h1.1, allWords_append.mpr ⟨h1.2,
      allWords_cons.mpr ⟨isWord_kw rfl, allWords_cons.mpr ⟨isWord_kw rfl, allWords_nil⟩⟩⟩⟩
  | .binary op l r, h => by
    rw [ExprOk] at h
    rw [expr]
    exact wr_binary (wrE_at (expr_wr l h.1)) (wrE_at (expr_wr r h.2))
  | .comparison op l r, h => by
    rw [ExprOk] at h
    rw [expr]
    exact wr_comparison (wrE_at (expr_wr l h.1)) (wrE_at (expr_wr r h.2))
  | .inSet e set, h => by
    rw [ExprOk] at h
    rw [expr]
    exact setSpec_wr set h.2 (wrE_at (expr_wr e h.1))
  | .between e l u, h => by
    rw [ExprOk] at h
    rw [expr]
    have h1 : WrE 4 _ e := wrE_at (expr_wr e h.1)
    have h2 : WrE 5 _ l := wrE_at (expr_wr l h.2.1)
    have h3 : WrE 5 _ u := wrE_at (expr_wr u h.2.2)
    exact ⟨.comparativeExpression_22 h1.1 h2.1 h3.1, allWords_append.mpr ⟨h1.2, allWords_cons.mpr ⟨isWord_kw rfl,
      allWords_append.mpr ⟨h2.2, allWords_cons.mpr ⟨isWord_kw rfl, h3.2⟩⟩⟩⟩⟩
  | .case e whens els, h => by
    rw [ExprOk] at h
    rw [expr]
    have h1 := exprOption_wr e h.1
    have h2 := whens_wr whens h.2.1 h.2.2.1
    have h3 : Wr (.opt .elseClause) (clause .ELSE els) els := by
      cases els with
      | none => rw [clause]; exact wr_none
      | some e =>
        have := wrE_expression (expr_wr e (by simpa only [ExprOptionOk] using h.2.2.2))
        rw [clause]
        exact wr_some (by wr .elseClause_1 this.1)
    exact ⟨.complexExpression_2 (.caseExpression_1 h1.1 h2.1 h3.1), allWords_cons.mpr ⟨isWord_kw rfl,
      allWords_append.mpr ⟨h1.2, allWords_append.mpr ⟨h2.2, allWords_append.mpr ⟨h3.2,
        allWords_cons.mpr ⟨isWord_kw rfl, allWords_nil⟩⟩⟩⟩⟩⟩

theorem exprOption_wr : (o : Option (Expr Name)) → ExprOptionOk o → Wr (.opt .expression) (exprOption o) o
  | none, _ => by rw [exprOption]; exact wr_none
  | some e, h => by
    rw [ExprOptionOk] at h
    rw [exprOption]
    exact wr_some (wrE_expression (expr_wr e h))

theorem exprs_wr : (es : List (Expr Name)) → es ≠ [] → ExprsOk es → Wr .expressionList (exprs es) es
  | [], h0, _ => absurd rfl h0
  | e :: es, _, h => by
    rw [ExprsOk] at h
    have h1 := wrE_expression (expr_wr e h.1)
    rw [exprs]
    exact exprsTail_wr es h.2 (l := [e]) ⟨.expressionList_1 h1.1, h1.2⟩

theorem exprsTail_wr : (es : List (Expr Name)) → ExprsOk es → ∀ {w l}, Wr .expressionList w l →
    Wr .expressionList (w ++ exprsTail es) (l ++ es)
  | [], _, w, l, hl => by rw [exprsTail]; simpa using hl
  | e :: es, h, w, l, hl => by
    rw [ExprsOk] at h
    have h1 := wrE_expression (expr_wr e h.1)
    have h2 : Wr .expressionList (w ++ (kw .comma :: expr e)) (l ++ [e]) := by wr .expressionList_2 hl.1 h1.1
    have h3 := exprsTail_wr es h.2 h2
    rw [exprsTail]
    simpa using h3

theorem whens_wr : (ws : List (When Name)) → ws ≠ [] → WhensOk ws → Wr .whenClauses (whenClauses ws) ws
  | [], h0, _ => absurd rfl h0
  | .mk g b :: ws, _, h => by
    rw [WhensOk] at h
    have h1 := wrE_expression (expr_wr g h.1)
    have h2 := wrE_expression (expr_wr b h.2.1)
    have h3 : Wr .whenClauses (kw .WHEN :: (expr g ++ (kw .THEN :: expr b))) [.mk g b] := by
      wr .whenClauses_1 (.whenClause_1 h1.1 h2.1)
    have h4 := whensTail_wr ws h.2.2 h3
    rw [whenClauses]
    simpa using h4

theorem whensTail_wr : (ws : List (When Name)) → WhensOk ws → ∀ {w l}, Wr .whenClauses w l →
    Wr .whenClauses (w ++ whenClauses ws) (l ++ ws)
  | [], _, w, l, hl => by rw [whenClauses]; simpa using hl
  | .mk g b :: ws, h, w, l, hl => by
    rw [WhensOk] at h
    have h1 := wrE_expression (expr_wr g h.1)
    have h2 := wrE_expression (expr_wr b h.2.1)
    have h3 : Wr .whenClauses (w ++ (kw .WHEN :: (expr g ++ (kw .THEN :: expr b)))) (l ++ [.mk g b]) := by
      wr .whenClauses_2 hl.1 (.whenClause_1 h1.1 h2.1)
    have h4 := whensTail_wr ws h.2.2 h3
    rw [whenClauses]
    simpa using h4

theorem setSpec_wr : (set : SetSpec Name) → SetSpecOk set → ∀ {w e}, WrE 4 w e →
    WrE 4 (w ++ (kw .IN :: setSpec set)) (.inSet e set)
  | .select s, h, w, e, he => by
    rw [SetSpecOk] at h
    have h1 := select_wr s h
    rw [setSpec]
    exact ⟨.comparativeExpression_18 he.1 h1.1, allWords_append.mpr ⟨he.2, allWords_cons.mpr ⟨isWord_kw rfl,
      allWords_cons.mpr ⟨isWord_kw rfl, allWords_append.mpr ⟨h1.2, allWords_cons.mpr ⟨isWord_kw rfl, allWords_nil⟩⟩⟩⟩⟩⟩
  | .list [], h, w, e, he => by
    rw [setSpec, exprs]
    exact ⟨.comparativeExpression_14 he.1, allWords_append.mpr ⟨he.2, allWords_cons.mpr ⟨isWord_kw rfl,
      allWords_cons.mpr ⟨isWord_kw rfl, allWords_cons.mpr ⟨isWord_kw rfl, allWords_nil⟩⟩⟩⟩⟩
  | .list (x :: es), h, w, e, he => by
    rw [SetSpecOk] at h
    have h1 := exprs_wr (x :: es) (by simp) h
    rw [setSpec]
    exact ⟨.comparativeExpression_16 he.1 h1.1, allWords_append.mpr ⟨he.2, allWords_cons.mpr ⟨isWord_kw rfl,
      allWords_cons.mpr ⟨isWord_kw rfl, allWords_append.mpr ⟨h1.2, allWords_cons.mpr ⟨isWord_kw rfl, allWords_nil⟩⟩⟩⟩⟩⟩
  | .name q, h, w, e, he => by
    rw [SetSpecOk] at h
    have h1 := wr_qualified h
    rw [setSpec]
    exact ⟨.comparativeExpression_20 he.1 h1.1, allWords_append.mpr ⟨he.2, allWords_cons.mpr ⟨isWord_kw rfl, h1.2⟩⟩⟩

theorem select_wr : (s : Select Name) → SelectOk s → Wr .selectStatement (select s) s
  | .mk [] e ts l, h => by
    rw [SelectOk] at h
    have h1 := core_list_wr e h.2.1
    obtain ⟨o, h2, rfl⟩ := terms_wr ts h.2.2.1
    have h3 := limit_wr l h.2.2.2
    rw [select, withClause, List.nil_append]
    exact ⟨.selectStatement_2 h1.1 h2.1 h3.1, allWords_append.mpr ⟨h1.2, allWords_append.mpr ⟨h2.2, h3.2⟩⟩⟩
  | .mk (c :: cs) e ts l, h => by
    rw [SelectOk] at h
    have h0 := ctes_wr (c :: cs) (by simp) h.1
    have h1 := core_list_wr e h.2.1
    obtain ⟨o, h2, rfl⟩ := terms_wr ts h.2.2.1
    have h3 := limit_wr l h.2.2.2
    rw [select]
    exact ⟨.selectStatement_1 h0.1 h1.1 h2.1 h3.1,
      allWords_append.mpr ⟨h0.2, allWords_append.mpr ⟨h1.2, allWords_append.mpr ⟨h2.2, h3.2⟩⟩⟩⟩

theorem ctes_wr : (cs : List (Cte Name)) → cs ≠ [] → CtesOk cs → Wr .tableExpressions (withClause cs) cs
  | [], h0, _ => absurd rfl h0
  | .mk n ns q :: cs, _, h => by
    rw [CtesOk] at h
    have h1 := wr_cte h.1 h.2.1 (select_wr q h.2.2.1)
    have h2 := ctesTail_wr cs h.2.2.2 (l := [.mk n ns q]) ⟨.commonTableExpressionList_1 h1.1, h1.2⟩
    rw [withClause]
    have h3 : Wr .tableExpressions (kw .WITH :: _) _ :=
      ⟨.tableExpressions_1 h2.1, allWords_cons.mpr ⟨isWord_kw rfl, h2.2⟩⟩
    simpa using h3

theorem ctesTail_wr : (cs : List (Cte Name)) → CtesOk cs → ∀ {w l}, Wr .commonTableExpressionList w l →
    Wr .commonTableExpressionList (w ++ ctesTail cs) (l ++ cs)
  | [], _, w, l, hl => by rw [ctesTail]; simpa using hl
  | .mk n ns q :: cs, h, w, l, hl => by
    rw [CtesOk] at h
    have h1 := wr_cte h.1 h.2.1 (select_wr q h.2.2.1)
    have h2 : Wr .commonTableExpressionList (w ++ (kw .comma :: _)) (l ++ [.mk n ns q]) :=
      ⟨.commonTableExpressionList_2 hl.1 h1.1, allWords_append.mpr ⟨hl.2, allWords_cons.mpr ⟨isWord_kw rfl, h1.2⟩⟩⟩
    have h3 := ctesTail_wr cs h.2.2.2 h2
    rw [ctesTail]
    simpa using h3

theorem terms_wr : (ts : List (OrderTerm Name)) → TermsOk ts →
    ∃ o, Wr (.opt .orderByClause) (orderClause ts) o ∧ ts = o.getD []
  | [], _ => ⟨none, by rw [orderClause]; exact wr_none, rfl⟩
  | .mk e c d :: ts, h => by
    rw [TermsOk] at h
    have h1 := wrE_expression (expr_wr e h.1)
    have h2 := wr_collation h.2.1
    have h3 := wr_direction d
    have h4 : Wr .orderingTermList (expr e ++ (collation c ++ direction d)) [.mk e c d] :=
      ⟨.orderingTermList_1 (.orderingTerm_1 h1.1 h2.1 h3.1),
        allWords_append.mpr ⟨h1.2, allWords_append.mpr ⟨h2.2, h3.2⟩⟩⟩
    have h5 := termsTail_wr ts h.2.2 h4
    have h6 : Wr .orderByClause (kw .ORDER :: kw .BY :: _) _ :=
      ⟨.orderByClause_1 h5.1, allWords_cons.mpr ⟨isWord_kw rfl, allWords_cons.mpr ⟨isWord_kw rfl, h5.2⟩⟩⟩
    refine ⟨some (.mk e c d :: ts), wr_some ?_, rfl⟩
    rw [orderClause]
    simpa using h6

theorem termsTail_wr : (ts : List (OrderTerm Name)) → TermsOk ts → ∀ {w l}, Wr .orderingTermList w l →
    Wr .orderingTermList (w ++ termsTail ts) (l ++ ts)
  | [], _, w, l, hl => by rw [termsTail]; simpa using hl
  | .mk e c d :: ts, h, w, l, hl => by
    rw [TermsOk] at h
    have h1 := wrE_expression (expr_wr e h.1)
    have h2 := wr_collation h.2.1
    have h3 := wr_direction d
    have h4 : Wr .orderingTermList (w ++ (kw .comma :: (expr e ++ (collation c ++ direction d)))) (l ++ [.mk e c d]) :=
      ⟨.orderingTermList_2 hl.1 (.orderingTerm_1 h1.1 h2.1 h3.1),
        allWords_append.mpr ⟨hl.2, allWords_cons.mpr ⟨isWord_kw rfl,
          allWords_append.mpr ⟨h1.2, allWords_append.mpr ⟨h2.2, h3.2⟩⟩⟩⟩⟩
    have h5 := termsTail_wr ts h.2.2 h4
    rw [termsTail]
    simpa using h5

theorem limit_wr : (l : Option (Limit Name)) → LimitOk l → Wr (.opt .limitClause) (limit l) l
  | none, _ => by rw [limit]; exact wr_none
  | some (.mk n none), h => by
    rw [LimitOk] at h
    have h1 := wrE_expression (expr_wr n h.1)
    rw [limit, clause, List.append_nil]
    exact wr_some ⟨.limitClause_1 h1.1, allWords_cons.mpr ⟨isWord_kw rfl, h1.2⟩⟩
  | some (.mk n (some o)), h => by
    rw [LimitOk, ExprOptionOk] at h
    have h1 := wrE_expression (expr_wr n h.1)
    have h2 := wrE_expression (expr_wr o h.2)
    rw [limit, clause]
    exact wr_some ⟨.limitClause_3 h1.1 h2.1, allWords_cons.mpr ⟨isWord_kw rfl,
      allWords_append.mpr ⟨h1.2, allWords_cons.mpr ⟨isWord_kw rfl, h2.2⟩⟩⟩⟩

theorem where_wr : (o : Option (Expr Name)) → ExprOptionOk o → Wr (.opt .whereClause) (clause .WHERE o) o
  | none, _ => by rw [clause]; exact wr_none
  | some e, h => by
    rw [ExprOptionOk] at h
    have h1 := wrE_expression (expr_wr e h)
    rw [clause]
    exact wr_some ⟨.whereClause_1 h1.1, allWords_cons.mpr ⟨isWord_kw rfl, h1.2⟩⟩

theorem group_wr : (o : Option (GroupBy Name)) → GroupOk o → Wr (.opt .groupByClause) (groupClause o) o
  | none, _ => by rw [groupClause]; exact wr_none
  | some (.mk es none), h => by
    rw [GroupOk] at h
    have h1 := exprs_wr es h.1.1 h.1.2
    rw [groupClause, clause, List.append_nil]
    exact wr_some ⟨.groupByClause_1 h1.1, allWords_cons.mpr ⟨isWord_kw rfl, allWords_cons.mpr ⟨isWord_kw rfl, h1.2⟩⟩⟩
  | some (.mk es (some e)), h => by
    rw [GroupOk, ExprOptionOk] at h
    have h1 := exprs_wr es h.1.1 h.1.2
    have h2 := wrE_expression (expr_wr e h.2)
    rw [groupClause, clause]
    exact wr_some ⟨.groupByClause_2 h1.1 h2.1, allWords_cons.mpr ⟨isWord_kw rfl, allWords_cons.mpr ⟨isWord_kw rfl,
      allWords_append.mpr ⟨h1.2, allWords_cons.mpr ⟨isWord_kw rfl, h2.2⟩⟩⟩⟩⟩

theorem core_wr : (q : SetExpr Name) → Simple q → SetExprOk q → Wr .selectCore (setExpr q) q
  | .op _ _ _, h0, _ => h0.elim
  | .values rows, _, h => by
    rw [SetExprOk] at h
    have h1 := rows_wr rows h.1 h.2
    rw [setExpr]
    exact ⟨.selectCore_3 h1.1, allWords_cons.mpr ⟨isWord_kw rfl, h1.2⟩⟩
  | .query m cs [] p g, _, h => by
    rw [SetExprOk] at h
    have h1 := wr_mode m
    have h2 := resultColumns_wr cs h.1
    have h3 := where_wr p h.2.2.1
    have h4 := group_wr g h.2.2.2
    rw [setExpr, fromClause, List.nil_append]
    exact ⟨.selectCore_1 h1.1 h2.1 h3.1 h4.1, allWords_cons.mpr ⟨isWord_kw rfl, allWords_append.mpr ⟨h1.2,
      allWords_append.mpr ⟨h2.2, allWords_append.mpr ⟨h3.2, h4.2⟩⟩⟩⟩⟩
  | .query m cs (t :: ts) p g, _, h => by
    rw [SetExprOk] at h
    have h1 := wr_mode m
    have h2 := resultColumns_wr cs h.1
    have h0 := from_wr (t :: ts) (by simp) h.2.1
    have h3 := where_wr p h.2.2.1
    have h4 := group_wr g h.2.2.2
    rw [setExpr]
    exact ⟨.selectCore_2 h1.1 h2.1 h0.1 h3.1 h4.1, allWords_cons.mpr ⟨isWord_kw rfl, allWords_append.mpr ⟨h1.2,
      allWords_append.mpr ⟨h2.2, allWords_append.mpr ⟨h0.2, allWords_append.mpr ⟨h3.2, h4.2⟩⟩⟩⟩⟩⟩

theorem core_list_wr : (q : SetExpr Name) → SetExprOk q → Wr .selectCoreList (setExpr q) q
  | .op o l r, h => by
    rw [SetExprOk] at h
    have h1 := core_list_wr l h.1
    have h2 := wr_setOperator o
    have h3 := core_wr r h.2.1 h.2.2
    rw [setExpr]
    exact ⟨.selectCoreList_2 h1.1 h2.1 h3.1, allWords_append.mpr ⟨h1.2, allWords_append.mpr ⟨h2.2, h3.2⟩⟩⟩
  | .values rows, h => by
    rw [SetExprOk] at h
    have h1 := rows_wr rows h.1 h.2
    rw [setExpr]
    exact ⟨.selectCoreList_1 (.selectCore_3 h1.1), allWords_cons.mpr ⟨isWord_kw rfl, h1.2⟩⟩
  | .query m cs [] p g, h => by
    rw [SetExprOk] at h
    have h1 := wr_mode m
    have h2 := resultColumns_wr cs h.1
    have h3 := where_wr p h.2.2.1
    have h4 := group_wr g h.2.2.2
    rw [setExpr, fromClause, List.nil_append]
    exact ⟨.selectCoreList_1 (.selectCore_1 h1.1 h2.1 h3.1 h4.1), allWords_cons.mpr ⟨isWord_kw rfl,
      allWords_append.mpr ⟨h1.2, allWords_append.mpr ⟨h2.2, allWords_append.mpr ⟨h3.2, h4.2⟩⟩⟩⟩⟩
  | .query m cs (t :: ts) p g, h => by
    rw [SetExprOk] at h
    have h1 := wr_mode m
    have h2 := resultColumns_wr cs h.1
    have h0 := from_wr (t :: ts) (by simp) h.2.1
    have h3 := where_wr p h.2.2.1
    have h4 := group_wr g h.2.2.2
    rw [setExpr]
    exact ⟨.selectCoreList_1 (.selectCore_2 h1.1 h2.1 h0.1 h3.1 h4.1), allWords_cons.mpr ⟨isWord_kw rfl,
      allWords_append.mpr ⟨h1.2, allWords_append.mpr ⟨h2.2, allWords_append.mpr ⟨h0.2,
        allWords_append.mpr ⟨h3.2, h4.2⟩⟩⟩⟩⟩⟩

theorem rows_wr : (rows : List (List (Expr Name))) → rows ≠ [] → RowsOk rows → Wr .tupleList (tuples rows) rows
  | [], h0, _ => absurd rfl h0
  | r :: rows, _, h => by
    rw [RowsOk] at h
    have h1 := exprs_wr r h.1.1 h.1.2
    have h2 : Wr .tupleList (kw .lpar :: (exprs r ++ [kw .rpar])) [r] := by wr .tupleList_1 (.tuple_1 h1.1)
    have h3 := rowsTail_wr rows h.2 h2
    rw [tuples]
    simpa using h3

theorem rowsTail_wr : (rows : List (List (Expr Name))) → RowsOk rows → ∀ {w l}, Wr .tupleList w l →
    Wr .tupleList (w ++ tuplesTail rows) (l ++ rows)
  | [], _, w, l, hl => by rw [tuplesTail]; simpa using hl
  | r :: rows, h, w, l, hl => by
    rw [RowsOk] at h
    have h1 := exprs_wr r h.1.1 h.1.2
    have h2 : Wr .tupleList (w ++ (kw .comma :: kw .lpar :: (exprs r ++ [kw .rpar]))) (l ++ [r]) := by
      wr .tupleList_2 hl.1 (.tuple_1 h1.1)
    have h3 := rowsTail_wr rows h.2 h2
    rw [tuplesTail]
    simpa using h3

theorem from_wr : (ts : List (TableExpr Name)) → ts ≠ [] → TablesOk ts → Wr .fromClause (fromClause ts) ts
  | [], h0, _ => absurd rfl h0
  | t :: ts, _, h => by
    rw [TablesOk] at h
    have h1 := table_wr t h.1
    have h2 := tablesTail_wr ts h.2 (l := [t]) ⟨.tableExpressionList_1 h1.1, h1.2⟩
    rw [fromClause]
    exact ⟨.fromClause_1 h2.1, allWords_cons.mpr ⟨isWord_kw rfl, h2.2⟩⟩

theorem tablesTail_wr : (ts : List (TableExpr Name)) → TablesOk ts → ∀ {w l}, Wr .tableExpressionList w l →
    Wr .tableExpressionList (w ++ tablesTail ts) (l ++ ts)
  | [], _, w, l, hl => by rw [tablesTail]; simpa using hl
  | t :: ts, h, w, l, hl => by
    rw [TablesOk] at h
    have h1 := table_wr t h.1
    have h2 : Wr .tableExpressionList (w ++ (kw .comma :: table t)) (l ++ [t]) := by
      wr .tableExpressionList_2 hl.1 h1.1
    have h3 := tablesTail_wr ts h.2 h2
    rw [tablesTail]
    simpa using h3

theorem table_wr : (t : TableExpr Name) → TableOk t → Wr .tableExpression (table t) t
  | .named q a, h => by
    rw [TableOk] at h
    have h1 := wr_qualified h.1
    have h2 := wr_alias h.2
    rw [table]
    exact ⟨.tableExpression_1 (.tableOrSubQuery_1 h1.1 h2.1), allWords_append.mpr ⟨h1.2, h2.2⟩⟩
  | .select s a, h => by
    rw [TableOk] at h
    have h1 := select_wr s h.1
    have h2 := wr_alias h.2
    rw [table]
    exact ⟨.tableExpression_1 (.tableOrSubQuery_2 h1.1 h2.1), allWords_cons.mpr ⟨isWord_kw rfl,
      allWords_append.mpr ⟨h1.2, allWords_cons.mpr ⟨isWord_kw rfl, h2.2⟩⟩⟩⟩
  | .join l r o c, h => by
    rw [TableOk] at h
    have h1 := table_wr l h.1
    have h2 := wr_joinOperator o
    have h3 := operand_wr r h.2.1
    have h4 := constraint_wr c h.2.2
    rw [table]
    exact ⟨.tableExpression_2 h1.1 h2.1 h3.1 h4.1,
      allWords_append.mpr ⟨h1.2, allWords_append.mpr ⟨h2.2, allWords_append.mpr ⟨h3.2, h4.2⟩⟩⟩⟩

theorem operand_wr : (t : TableExpr Name) → TableOk t → Wr .tableOrSubQuery (tableOperand t (table t)) t
  | .named q a, h => by
    rw [TableOk] at h
    have h1 := wr_qualified h.1
    have h2 := wr_alias h.2
    rw [table, tableOperand]
    · exact ⟨.tableOrSubQuery_1 h1.1 h2.1, allWords_append.mpr ⟨h1.2, h2.2⟩⟩
    · simp
  | .select s a, h => by
    rw [TableOk] at h
    have h1 := select_wr s h.1
    have h2 := wr_alias h.2
    rw [table, tableOperand]
    · exact ⟨.tableOrSubQuery_2 h1.1 h2.1, allWords_cons.mpr ⟨isWord_kw rfl,
        allWords_append.mpr ⟨h1.2, allWords_cons.mpr ⟨isWord_kw rfl, h2.2⟩⟩⟩⟩
    · simp
  | .join l r o c, h => by
    rw [TableOk] at h
    have h1 := table_wr l h.1
    have h2 := wr_joinOperator o
    have h3 := operand_wr r h.2.1
    have h4 := constraint_wr c h.2.2
    rw [tableOperand, table]
    exact ⟨.tableOrSubQuery_3 (.tableExpression_2 h1.1 h2.1 h3.1 h4.1), allWords_cons.mpr ⟨isWord_kw rfl,
      allWords_append.mpr ⟨allWords_append.mpr ⟨h1.2, allWords_append.mpr ⟨h2.2, allWords_append.mpr ⟨h3.2, h4.2⟩⟩⟩,
        allWords_cons.mpr ⟨isWord_kw rfl, allWords_nil⟩⟩⟩⟩

theorem constraint_wr : (c : JoinConstraint Name) → ConstraintOk c → Wr .joinConstraint (constraint c) c
  | .expr e, h => by
    rw [ConstraintOk] at h
    have h1 := wrE_expression (expr_wr e h)
    rw [constraint]
    exact ⟨.joinConstraint_1 h1.1, allWords_cons.mpr ⟨isWord_kw rfl, h1.2⟩⟩
  | .columns ns, h => by
    rw [ConstraintOk] at h
    have h1 := wr_names h
    rw [constraint]
    wr .joinConstraint_2 h1.1

theorem resultColumns_wr : (c : ResultColumns Name) → ResultColumnsOk c → Wr .resultColumns (resultColumns c) c
  | .all, _ => by rw [resultColumns]; wr .resultColumns_1
  | .list cs, h => by
    rw [ResultColumnsOk] at h
    have h1 := columns_wr cs h.1 h.2
    rw [resultColumns]
    exact ⟨.resultColumns_2 h1.1, h1.2⟩

theorem columns_wr : (cs : List (ResultColumn Name)) → cs ≠ [] → ColumnsOk cs → Wr .resultColumnList (columns cs) cs
  | [], h0, _ => absurd rfl h0
  | .allFrom n :: cs, _, h => by
    rw [ColumnsOk] at h
    have h1 := wr_name h.1
    have h2 : Wr .resultColumnList (name n :: kw .dot :: [kw .star]) [.allFrom n] := by
      wr .resultColumnList_1 (.resultColumn_3 h1.1)
    have h3 := columnsTail_wr cs h.2 h2
    rw [columns]
    simpa using h3
  | .expr e r :: cs, _, h => by
    rw [ColumnsOk] at h
    have h1 := wr_column (wrE_expression (expr_wr e h.1)) h.2.1
    have h3 := columnsTail_wr cs h.2.2 (l := [.expr e r]) ⟨.resultColumnList_1 h1.1, h1.2⟩
    rw [columns]
    simpa using h3

theorem columnsTail_wr : (cs : List (ResultColumn Name)) → ColumnsOk cs → ∀ {w l}, Wr .resultColumnList w l →
    Wr .resultColumnList (w ++ columnsTail cs) (l ++ cs)
  | [], _, w, l, hl => by rw [columnsTail]; simpa using hl
  | .allFrom n :: cs, h, w, l, hl => by
    rw [ColumnsOk] at h
    have h1 := wr_name h.1
    have h2 : Wr .resultColumnList (w ++ (kw .comma :: name n :: kw .dot :: [kw .star])) (l ++ [.allFrom n]) := by
      wr .resultColumnList_2 hl.1 (.resultColumn_3 h1.1)
    have h3 := columnsTail_wr cs h.2 h2
    rw [columnsTail]
    simpa using h3
  | .expr e r :: cs, h, w, l, hl => by
    rw [ColumnsOk] at h
    have h1 := wr_column (wrE_expression (expr_wr e h.1)) h.2.1
    have h2 : Wr .resultColumnList (w ++ (kw .comma :: (expr e ++ alias r))) (l ++ [.expr e r]) :=
      ⟨.resultColumnList_2 hl.1 h1.1, allWords_append.mpr ⟨hl.2, allWords_cons.mpr ⟨isWord_kw rfl, h1.2⟩⟩⟩
    have h3 := columnsTail_wr cs h.2.2 h2
    rw [columnsTail]
    simpa using h3

end

/-! ## Statements -/

theorem assignment_wr {a : Assignment Name} (h : AssignmentOk a) : Wr .assignment (assignment a) a := by
  have h1 := wr_names h.1
  have h2 := wrE_expression (expr_wr _ h.2)
  exact ⟨.assignment_1 h1.1 h2.1, allWords_append.mpr ⟨h1.2, allWords_cons.mpr ⟨isWord_kw rfl, h2.2⟩⟩⟩

theorem assignments_tail_wr : ∀ {as : List (Assignment Name)} {w l}, (∀ a ∈ as, AssignmentOk a) → Wr .assignments w l →
    Wr .assignments (w ++ as.flatMap fun a => kw .comma :: assignment a) (l ++ as)
  | [], w, l, _, h => by simpa using h
  | a :: as, w, l, ha, h => by
    have h1 := assignment_wr (ha a (by simp))
    have h2 : Wr .assignments (w ++ (kw .comma :: assignment a)) (l ++ [a]) :=
      ⟨.assignments_2 h.1 h1.1, allWords_append.mpr ⟨h.2, allWords_cons.mpr ⟨isWord_kw rfl, h1.2⟩⟩⟩
    have h3 := assignments_tail_wr (fun m hm => ha m (List.mem_cons_of_mem _ hm)) h2
    simpa using h3

theorem assignments_eq : ∀ (a : Assignment Name) (as : List (Assignment Name)),
    assignments (a :: as) = assignment a ++ as.flatMap fun a => kw .comma :: assignment a
  | a, [] => by simp [assignments]
  | a, b :: as => by
    rw [assignments, assignments_eq b as]
    rfl

theorem assignments_wr {as : List (Assignment Name)} (h0 : as ≠ []) (h : ∀ a ∈ as, AssignmentOk a) :
    Wr .assignments (assignments as) as := by
  match as with
  | [] => exact absurd rfl h0
  | a :: as =>
    have h1 := assignment_wr (h a (by simp))
    rw [assignments_eq]
    exact assignments_tail_wr (l := [a]) (fun m hm => h m (List.mem_cons_of_mem _ hm)) ⟨.assignments_1 h1.1, h1.2⟩

theorem statement_wr : (s : Statement Name) → StatementOk s → Wr .statement (statement s) s
  | .select s, h => by
    have h1 := select_wr s h
    exact ⟨.statement_1 h1.1, h1.2⟩
  | .insert ⟨q, cs, e⟩, h => by
    have h1 := wr_qualified h.1
    have h2 := wr_columnNames h.2.1
    have h3 := core_wr _ h.2.2.1 h.2.2.2
    exact ⟨.statement_2 (.insertStatement_1 .optNone h1.1 h2.1 h3.1), allWords_cons.mpr ⟨isWord_kw rfl,
      allWords_cons.mpr ⟨isWord_kw rfl, allWords_append.mpr ⟨h1.2, allWords_append.mpr ⟨h2.2, h3.2⟩⟩⟩⟩⟩
  | .delete ⟨q, p⟩, h => by
    have h1 := wr_qualified h.1
    have h2 := where_wr _ h.2
    exact ⟨.statement_3 (.deleteStatement_1 .optNone h1.1 h2.1), allWords_cons.mpr ⟨isWord_kw rfl,
      allWords_cons.mpr ⟨isWord_kw rfl, allWords_append.mpr ⟨h1.2, h2.2⟩⟩⟩⟩
  | .update ⟨q, as, p⟩, h => by
    have h1 := wr_qualified h.1
    have h2 := assignments_wr h.2.1 h.2.2.1
    have h3 := where_wr _ h.2.2.2
    exact ⟨.statement_4 (.updateStatement_1 .optNone h1.1 h2.1 h3.1), allWords_cons.mpr ⟨isWord_kw rfl,
      allWords_append.mpr ⟨h1.2, allWords_cons.mpr ⟨isWord_kw rfl, allWords_append.mpr ⟨h2.2, h3.2⟩⟩⟩⟩⟩

/-- A name of at most two parts is a name after an optional schema. -/
theorem schema_wr {q : List Name} (h : q.length ≤ 2 ∧ QualifiedOk q) : ∃ v w s n,
    qualified q = v ++ w ∧ Wr (.opt .schemaName) v s ∧ Wr .identifier w n ∧ q = s.toList ++ [n] := by
  obtain ⟨hl, h0, hn⟩ := h
  match q with
  | [] => simp at h0
  | [a] => exact ⟨[], [name a], none, a, rfl, wr_none, wr_name (hn a (by simp)), rfl⟩
  | [a, b] =>
    have ha := wr_name (hn a (by simp))
    refine ⟨[name a] ++ [kw .dot], [name b], some a, b, rfl, wr_some ?_, wr_name (hn b (by simp)), rfl⟩
    exact ⟨.schemaName_1 ha.1, allWords_append.mpr ⟨ha.2, allWords_cons.mpr ⟨isWord_kw rfl, allWords_nil⟩⟩⟩
  | _ :: _ :: _ :: _ => simp at hl

theorem words_wr : (x : SqlStatement Name) → Writable x → Wr .sqlStatement (words x) x
  | .statement s, h => by
    have h1 := statement_wr s h
    exact ⟨.sqlStatement_1 h1.1, h1.2⟩
  | .explainQueryPlan s, h => by
    have h1 := statement_wr s h
    exact ⟨.sqlStatement_3 h1.1, allWords_cons.mpr ⟨isWord_kw rfl, allWords_cons.mpr ⟨isWord_kw rfl,
      allWords_cons.mpr ⟨isWord_kw rfl, h1.2⟩⟩⟩⟩
  | .attach ⟨q, p⟩, h => by
    have h1 := wr_string h.1
    obtain ⟨v, w, s, n, h2, h3, h4, h5⟩ := schema_wr h.2
    simp only at h5 h2
    rw [words]
    simp only [h2]
    subst h5
    exact ⟨.sqlStatement_4 (.attachStatement_1 h1.1 h3.1 h4.1), allWords_cons.mpr ⟨isWord_kw rfl,
      allWords_cons.mpr ⟨isWord_kw rfl, allWords_cons.mpr ⟨(allWords_cons.mp h1.2).1, allWords_cons.mpr ⟨isWord_kw rfl,
        allWords_append.mpr ⟨h3.2, h4.2⟩⟩⟩⟩⟩⟩
  | .describe ⟨q⟩, h => by
    obtain ⟨v, w, s, n, h2, h3, h4, h5⟩ := schema_wr h
    simp only at h5 h2
    rw [words]
    simp only [h2]
    subst h5
    exact ⟨.sqlStatement_5 (.describeStatement_1 h3.1 h4.1), allWords_cons.mpr ⟨isWord_kw rfl,
      allWords_append.mpr ⟨h3.2, h4.2⟩⟩⟩

/-! ## Texts -/

theorem blank_space : Blank [' '] := blank_iff.mpr (by decide)

theorem laid_spaced : ∀ {ws : List Lexeme}, AllWords ws → Laid ws (spaced ws)
  | [], _ => .none .nil
  | [w], h => by
    have := Laid.last (g := []) (g' := []) .nil (allWords_cons.mp h).1 .nil
    simpa [spaced] using this
  | w :: v :: ws, h => by
    rw [allWords_cons] at h
    have := Laid.more (g := []) .nil h.1 blank_space (laid_spaced h.2)
    simpa [spaced] using this

/-- The words of a text are words. -/
theorem tokens_words {off : Nat} {s : Str} {toks inv} (h : Tokens off s toks inv) : AllWords (toks.map wordOf) := by
  induction h with
  | done => exact allWords_nil
  | stuck _ => exact allWords_nil
  | skip _ _ _ _ ih => exact ih
  | @token off t r i k re toks inv hw hi _ ih =>
    refine allWords_cons.mpr ⟨⟨i, re, ?_, ?_⟩, ih⟩
    · simp only [wordOf, hi, Option.bind_some, Option.getD_some]
    · exact ⟨List.prefix_refl _, hw.isWord, fun j k r' u hj hu hm =>
        hw.best j k r' u hj (hu.trans (List.prefix_append _ _)) hm⟩

end Verif.Sql.Writing
