import Verif.Proof.SqlColumns
/-! # VALUES and set operations -/

namespace Verif.Sql

variable {up : Char → List Char}

theorem inferFirstRow_ok {sc : ScalarContext Name} {row : List (Expr Name)} {c : Nat}
    {as : List (Attribute Name)} (h : inferFirstRow (nameOps up) sc c row = .ok as) :
    as.length = row.length ∧ ∀ (i : Nat) (a : Attribute Name), as[i]? = some a →
      a.name = ⟨"_col".toList ++ Nat.toDigits 10 (c + i)⟩ ∧
      ∃ e, row[i]? = some e ∧ inferExpr (nameOps up) sc e = .ok (.scalar a.typ a.isNull) := by
  induction row generalizing c as with
  | nil => cases h; exact ⟨rfl, fun i a h => by simp at h⟩
  | cons e es ih =>
    unfold inferFirstRow at h
    obtain ⟨t, h1, h⟩ := Chk.bind_eq_ok.1 h
    cases t with
    | tuple _ => cases h
    | scalar typ isNull =>
      obtain ⟨rest, h2, h⟩ := Chk.bind_eq_ok.1 h
      cases h
      obtain ⟨h3, h4⟩ := ih h2
      refine ⟨by simp [h3], ?_⟩
      intro i a ha
      cases i with
      | zero =>
        cases ha
        exact ⟨rfl, e, rfl, h1⟩
      | succ i =>
        obtain ⟨h5, h6⟩ := h4 i a ha
        refine ⟨?_, h6⟩
        rw [h5, show c + 1 + i = c + (i + 1) by omega]

theorem inferFirstRow_complete {sc : ScalarContext Name} {row : List (Expr Name)} {c : Nat}
    (h : ∀ e ∈ row, ∃ t n, inferExpr (nameOps up) sc e = .ok (.scalar t n)) :
    ∃ as, inferFirstRow (nameOps up) sc c row = .ok as := by
  induction row generalizing c with
  | nil => exact ⟨_, rfl⟩
  | cons e es ih =>
    obtain ⟨t, n, h1⟩ := h e List.mem_cons_self
    obtain ⟨as, h2⟩ := ih (c := c + 1) fun e he => h e (List.mem_cons_of_mem _ he)
    unfold inferFirstRow
    rw [h1, Chk.bind_ok]
    simp only [h2]
    exact ⟨_, rfl⟩

theorem unify_scalar {a : Attribute Name} {t u : ScalarType} (h : a.scalar.unify t = .ok u) :
    ∃ n, t = .scalar a.typ n ∧ u = .scalar a.typ (a.isNull || n) := by
  cases t with
  | tuple _ => simp [Attribute.scalar, ScalarType.unify, err] at h
  | scalar typ n =>
    unfold Attribute.scalar ScalarType.unify at h
    split at h
    · rename_i he
      cases h
      cases he
      exact ⟨n, rfl, rfl⟩
    · cases h

theorem unifyRow_ok {sc : ScalarContext Name} {as bs : List (Attribute Name)} {row : List (Expr Name)}
    (h : unifyRow (nameOps up) sc as row = .ok bs) :
    bs.length = min as.length row.length ∧ ∀ (i : Nat) (b : Attribute Name), bs[i]? = some b →
      ∃ a e n, as[i]? = some a ∧ row[i]? = some e ∧
        inferExpr (nameOps up) sc e = .ok (.scalar b.typ n) ∧ a.name = b.name ∧ a.typ = b.typ ∧
        b.isNull = (a.isNull || n) := by
  induction as generalizing row bs with
  | nil =>
    cases row <;>
    · cases h
      exact ⟨by simp, fun i a h => by simp at h⟩
  | cons a as ih =>
    cases row with
    | nil =>
      cases h
      exact ⟨by simp, fun i a h => by simp at h⟩
    | cons e es =>
      unfold unifyRow at h
      obtain ⟨t, h1, h⟩ := Chk.bind_eq_ok.1 h
      obtain ⟨u, h2, h⟩ := Chk.bind_eq_ok.1 h
      obtain ⟨n, rfl, rfl⟩ := unify_scalar h2
      obtain ⟨rest, h3, h⟩ := Chk.bind_eq_ok.1 h
      cases h
      obtain ⟨h4, h5⟩ := ih h3
      refine ⟨by simp [h4], ?_⟩
      intro i b hb
      cases i with
      | zero =>
        cases hb
        exact ⟨a, e, n, rfl, rfl, h1, rfl, rfl, rfl⟩
      | succ i => exact h5 i b hb

theorem unifyRow_complete {sc : ScalarContext Name} {as : List (Attribute Name)} {row : List (Expr Name)}
    (h : ∀ (i : Nat) (a : Attribute Name) (e : Expr Name), as[i]? = some a → row[i]? = some e →
      ∃ n, inferExpr (nameOps up) sc e = .ok (.scalar a.typ n)) :
    ∃ bs, unifyRow (nameOps up) sc as row = .ok bs := by
  induction as generalizing row with
  | nil => cases row <;> exact ⟨_, rfl⟩
  | cons a as ih =>
    cases row with
    | nil => exact ⟨_, rfl⟩
    | cons e es =>
      obtain ⟨n, h1⟩ := h 0 a e rfl rfl
      obtain ⟨bs, h2⟩ := ih (row := es) fun i a e ha he => h (i + 1) a e ha he
      unfold unifyRow
      rw [h1, Chk.bind_ok]
      unfold Attribute.scalar ScalarType.unify
      rw [if_pos rfl, Chk.bind_ok]
      simp only [h2]
      exact ⟨_, rfl⟩

theorem foldRows_ok {sc : ScalarContext Name} {done rows : List (List (Expr Name))}
    {as bs : List (Attribute Name)} (hv : ValuesColumns up sc done as)
    (h : foldRows (nameOps up) sc as rows = .ok bs) :
    bs.length = rows.foldl (fun m row => min m row.length) as.length ∧
    ValuesColumns up sc (done ++ rows) bs := by
  induction rows generalizing done as with
  | nil => cases h; exact ⟨rfl, by simpa using hv⟩
  | cons row rows ih =>
    unfold foldRows at h
    obtain ⟨cs, h1, h⟩ := Chk.bind_eq_ok.1 h
    obtain ⟨h2, h3⟩ := unifyRow_ok h1
    have hv' : ValuesColumns up sc (done ++ [row]) cs := by
      intro i b hb
      obtain ⟨a, e, n, ha, he, hi, hname, htyp, hnull⟩ := h3 i b hb
      obtain ⟨h4, h5, h6⟩ := hv i a ha
      refine ⟨hname ▸ h4, ?_, ?_⟩
      · intro r hr
        rcases List.mem_append.1 hr with hr | hr
        · obtain ⟨e', n', h7, h8, h9⟩ := h5 r hr
          exact ⟨e', n', h7, htyp ▸ h8, fun hn => by rw [hnull, h9 hn]; rfl⟩
        · cases List.mem_singleton.1 hr
          exact ⟨e, n, he, hi, fun hn => by rw [hnull, hn]; simp⟩
      · intro hb
        rw [hnull] at hb
        rcases Bool.or_eq_true_iff.1 hb with hb | hb
        · obtain ⟨r, hr, e', h7, h8⟩ := h6 hb
          exact ⟨r, List.mem_append_left _ hr, e', h7, htyp ▸ h8⟩
        · exact ⟨row, by simp, e, he, hb ▸ hi⟩
    obtain ⟨h4, h5⟩ := ih hv' h
    rw [h2] at h4
    exact ⟨h4, by simpa using h5⟩

theorem inferValues_ok {sc : ScalarContext Name} {row : List (Expr Name)} {rows : List (List (Expr Name))}
    {as : List (Attribute Name)} (h : inferValues (nameOps up) sc (row :: rows) = .ok as) :
    as.length = rows.foldl (fun m row => min m row.length) row.length ∧
    ValuesColumns up sc (row :: rows) as := by
  unfold inferValues at h
  obtain ⟨cs, h1, h⟩ := Chk.bind_eq_ok.1 h
  obtain ⟨h2, h3⟩ := inferFirstRow_ok h1
  have hv : ValuesColumns up sc [row] cs := by
    intro i a ha
    obtain ⟨h4, e, he, hi⟩ := h3 i a ha
    refine ⟨by simpa using h4, ?_, ?_⟩
    · intro r hr
      cases List.mem_singleton.1 hr
      exact ⟨e, _, he, hi, id⟩
    · intro hn
      exact ⟨row, by simp, e, he, hn ▸ hi⟩
  obtain ⟨h4, h5⟩ := foldRows_ok hv h
  rw [h2] at h4
  exact ⟨h4, h5⟩

theorem foldRows_complete {sc : ScalarContext Name} {rows : List (List (Expr Name))}
    {as : List (Attribute Name)}
    (h : ∀ row ∈ rows, ∀ (i : Nat) (a : Attribute Name) (e : Expr Name), as[i]? = some a →
      row[i]? = some e → ∃ n, inferExpr (nameOps up) sc e = .ok (.scalar a.typ n)) :
    ∃ bs, foldRows (nameOps up) sc as rows = .ok bs := by
  induction rows generalizing as with
  | nil => exact ⟨_, rfl⟩
  | cons row rows ih =>
    obtain ⟨cs, h1⟩ := unifyRow_complete (h row List.mem_cons_self)
    obtain ⟨h2, h3⟩ := unifyRow_ok h1
    obtain ⟨bs, h4⟩ := ih (as := cs) (by
      intro r hr i b e hb he
      obtain ⟨a, _, _, ha, _, _, _, ht, _⟩ := h3 i b hb
      rw [← ht]
      exact h r (List.mem_cons_of_mem _ hr) i a e ha he)
    unfold foldRows
    rw [h1, Chk.bind_ok]
    exact ⟨bs, h4⟩

/-- VALUES are accepted if every column has a type. -/
theorem inferValues_complete {sc : ScalarContext Name} {row : List (Expr Name)}
    {rows : List (List (Expr Name))}
    (h : ∀ i, i < row.length → ∃ typ n, ColumnType up sc (row :: rows) i typ n) :
    ∃ as, inferValues (nameOps up) sc (row :: rows) = .ok as := by
  obtain ⟨as, h1⟩ := inferFirstRow_complete (up := up) (sc := sc) (row := row) (c := 0) (by
    intro e he
    obtain ⟨i, hi, he⟩ := List.getElem_of_mem he
    obtain ⟨typ, _, h2, _⟩ := h i hi
    obtain ⟨e', n, h3, h4, _⟩ := h2 row List.mem_cons_self
    rw [List.getElem?_eq_getElem hi, he] at h3
    cases h3
    exact ⟨typ, n, h4⟩)
  obtain ⟨h2, h3⟩ := inferFirstRow_ok h1
  obtain ⟨bs, h4⟩ := foldRows_complete (up := up) (sc := sc) (rows := rows) (as := as) (by
    intro r hr i a e ha he
    obtain ⟨_, e0, he0, hi0⟩ := h3 i a ha
    have hi : i < row.length := by
      rw [← h2]
      exact (List.getElem?_eq_some_iff.1 ha).1
    obtain ⟨typ, _, h5, _⟩ := h i hi
    obtain ⟨e1, n1, h6, h7, _⟩ := h5 row List.mem_cons_self
    obtain ⟨e2, n2, h8, h9, _⟩ := h5 r (List.mem_cons_of_mem _ hr)
    rw [he0] at h6
    cases h6
    rw [he] at h8
    cases h8
    rw [hi0] at h7
    cases h7
    exact ⟨n2, h9⟩)
  unfold inferValues
  rw [h1, Chk.bind_ok]
  exact ⟨bs, h4⟩

/-- What the fold over two column lists returns. -/
theorem unifyAttributes_ok_iff {ls rs as : List (Attribute Name)} :
    unifyAttributes ls rs = .ok as ↔
      as.length = min ls.length rs.length ∧ ∀ (i : Nat) (l r : Attribute Name), ls[i]? = some l →
        rs[i]? = some r → l.typ = r.typ ∧ as[i]? = some ⟨l.name, l.typ, l.isNull || r.isNull⟩ := by
  induction ls generalizing rs as with
  | nil =>
    constructor
    · intro h; cases h; exact ⟨by simp, fun i l r h => by simp at h⟩
    · rintro ⟨h, _⟩
      cases as with
      | nil => rfl
      | cons _ _ => simp at h
  | cons l ls ih =>
    cases rs with
    | nil =>
      constructor
      · intro h; cases h; exact ⟨by simp, fun i l r _ h => by simp at h⟩
      · rintro ⟨h, _⟩
        cases as with
        | nil => rfl
        | cons _ _ => simp at h
    | cons r rs =>
      unfold unifyAttributes
      constructor
      · intro h
        obtain ⟨u, h2, h⟩ := Chk.bind_eq_ok.1 h
        obtain ⟨n, hr, rfl⟩ := unify_scalar h2
        obtain ⟨rest, h3, h⟩ := Chk.bind_eq_ok.1 h
        cases h
        obtain ⟨h4, h5⟩ := ih.1 h3
        have ht : l.typ = r.typ := by
          unfold Attribute.scalar at hr
          exact ((ScalarType.scalar.injEq ..).mp hr).1.symm
        have hn : n = r.isNull := by
          unfold Attribute.scalar at hr
          exact ((ScalarType.scalar.injEq ..).mp hr).2.symm
        subst hn
        refine ⟨by simp [h4], ?_⟩
        intro i l' r' hl hr
        cases i with
        | zero =>
          cases hl
          cases hr
          exact ⟨ht, rfl⟩
        | succ i => exact h5 i l' r' hl hr
      · rintro ⟨h1, h2⟩
        cases as with
        | nil => simp at h1
        | cons a as =>
          obtain ⟨h3, h4⟩ := h2 0 l r rfl rfl
          cases h4
          have h5 := (ih (rs := rs) (as := as)).2 ⟨by simp at h1; omega,
            fun i l' r' hl hr => h2 (i + 1) l' r' hl hr⟩
          unfold Attribute.scalar ScalarType.unify
          rw [if_pos h3, Chk.bind_ok]
          simp only [h5]
          rfl

end Verif.Sql
