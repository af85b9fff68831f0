import Verif.Proof.SqlRename
import Verif.Props.SqlStatements
import Verif.Props.SqlExpr

namespace Verif.Props

open Verif Sql

/-- **C139** for contexts, without the statements that have `t.*` in them.  If tables and columns, and every name in a
statement, are given other names, the statement is accepted or rejected as before, with the same error. -/
theorem C139_statement_partial (up : Char → List Char) (f : Name → Name) (hf : Renaming up f)
    (ctx ctx' : SetContext Name) (hc : ctx.Renamed up f ctx') (s : SqlStatement Name) (hs : s.starFree) :
    (s.map f).validateType (nameOps up) ctx' = s.validateType (nameOps up) ctx :=
  sqlStatement_ren (ren_of hf) (renContext_of hc) s hs

/-- **C139** for queries: the columns of the result have the new names, and the same types. -/
theorem C139_query_partial (up : Char → List Char) (f : Name → Name) (hf : Renaming up f)
    (ctx ctx' : SetContext Name) (hc : ctx.Renamed up f ctx') (s : Select Name) (hs : s.starFree) :
    (∀ r, inferSelect (nameOps up) ctx s = .ok r → inferSelect (nameOps up) ctx' (s.map f) = .ok (r.map f)) ∧
      ∀ e, inferSelect (nameOps up) ctx s = .error e → inferSelect (nameOps up) ctx' (s.map f) = .error e := by
  have h := inferSelect_ren (ren_of hf) (renContext_of hc) s hs
  exact ⟨fun r hr => by rw [h, hr]; rfl, fun e he => by rw [h, he]; rfl⟩

/-- **C139** for databases: databases with the same tables under other names give such contexts. -/
theorem C139_database (up : Char → List Char) (f : Name → Name) (db db' : Database Name) (h : db.Renamed up f db')
    (hs : Sorted up db.schemata) (ho : ∀ e ∈ db.schemata, Sorted up e.2.objects)
    (hs' : Sorted up db'.schemata) (ho' : ∀ e ∈ db'.schemata, Sorted up e.2.objects) (d : Name) :
    (SetContext.new (nameOps up) db d).Renamed up f (SetContext.new (nameOps up) db' (f d)) :=
  database_renamed hs ho hs' ho' h d

/-! ## A renaming: `i` and `z` are exchanged -/

def exchangeChar (c : Char) : Char :=
  if c = 'i' then 'z' else if c = 'z' then 'i' else if c = 'I' then 'Z' else if c = 'Z' then 'I' else c

def exchangeName (n : Name) : Name := ⟨n.string.map exchangeChar⟩

theorem exchangeChar_twice (c : Char) : exchangeChar (exchangeChar c) = c := by
  unfold exchangeChar
  by_cases h1 : c = 'i'
  · subst h1; decide
  · by_cases h2 : c = 'z'
    · subst h2; decide
    · by_cases h3 : c = 'I'
      · subst h3; decide
      · by_cases h4 : c = 'Z'
        · subst h4; decide
        · simp only [h1, h2, h3, h4, if_false]

theorem upper_eq {c d : Char} (h : c.toUpper = d) : c = d ∨ (c.toNat ≤ 122 ∧ c.toNat = d.toNat + 32) := by
  unfold Char.toUpper at h
  split at h
  · rename_i hc
    have h1 : c.toNat ≤ 122 := hc.2
    have h2 : 97 ≤ c.toNat := hc.1
    have h3 : (c.val + ('A'.val - 'a'.val)).toNat = d.toNat := by rw [← h]; rfl
    rw [UInt32.toNat_add] at h3
    have h4 : ('A'.val - 'a'.val).toNat = 4294967264 := by decide
    have h5 : c.val.toNat = c.toNat := rfl
    rw [h4, h5] at h3
    exact .inr ⟨h1, by omega⟩
  · exact .inl h

theorem exchangeChar_upper (c : Char) : (exchangeChar c).toUpper = exchangeChar c.toUpper := by
  by_cases h1 : c = 'i'
  · subst h1; decide
  · by_cases h2 : c = 'z'
    · subst h2; decide
    · by_cases h3 : c = 'I'
      · subst h3; decide
      · by_cases h4 : c = 'Z'
        · subst h4; decide
        · have other : ∀ d : Char, c ≠ d → (c.toNat ≤ 122 → c.toNat ≠ d.toNat + 32) → c.toUpper ≠ d := by
            intro d hd hn h
            rcases upper_eq h with h | ⟨h, h'⟩
            · exact hd h
            · exact hn h h'
          have e1 := other 'i' h1 (fun h => by show c.toNat ≠ 137; omega)
          have e2 := other 'z' h2 (fun h => by show c.toNat ≠ 154; omega)
          have e3 := other 'I' h3 (fun _ h => h1 (char_eq_of_toNat h))
          have e4 := other 'Z' h4 (fun _ h => h2 (char_eq_of_toNat h))
          unfold exchangeChar
          simp only [h1, h2, h3, h4, e1, e2, e3, e4, if_false]

theorem exchangeName_upper (n : Name) : (exchangeName n).upper asciiUp = (n.upper asciiUp).map exchangeChar := by
  unfold Name.upper exchangeName
  simp only
  induction n.string with
  | nil => rfl
  | cons c cs ih =>
    rw [List.map_cons, List.flatMap_cons, List.flatMap_cons, List.map_append, ih]
    show [(exchangeChar c).toUpper] ++ _ = [exchangeChar c.toUpper] ++ _
    rw [exchangeChar_upper]

/-- It is a renaming; it does not keep the order of names. -/
theorem exchange_renaming : Renaming asciiUp exchangeName where
  same a b := by
    rw [exchangeName_upper, exchangeName_upper]
    refine ⟨fun h => ?_, fun h => by rw [h]⟩
    have := congrArg (List.map exchangeChar) h
    simpa only [List.map_map, Function.comp_def, exchangeChar_twice, List.map_id'] using this
  numbered n k := by
    unfold exchangeName Name.numbered
    simp only [List.map_append]
    congr 2
    refine (List.map_congr_left fun c hc => ?_).trans (List.map_id _)
    have hd : ∀ c, c ∈ Nat.toDigits 10 k → c.isDigit = true :=
      fun c h => Nat.isDigit_of_mem_toDigits (by omega) (by omega) h
    have := hd c hc
    unfold exchangeChar
    by_cases h1 : c = 'i'
    · subst h1; exact absurd this (by decide)
    · by_cases h2 : c = 'z'
      · subst h2; exact absurd this (by decide)
      · by_cases h3 : c = 'I'
        · subst h3; exact absurd this (by decide)
        · by_cases h4 : c = 'Z'
          · subst h4; exact absurd this (by decide)
          · simp only [h1, h2, h3, h4, if_false, id]
  col := by decide
  first := by decide

/-- `users (zd, name, actzve)` instead of `users (id, name, active)`, in `mazn` instead of `main`. -/
def renamedDb : Database Name := sampleDb.map exchangeName

def renamedCtx : SetContext Name := SetContext.new (nameOps asciiUp) renamedDb (exchangeName (Name.ofString "MAIN"))

/-- The hypotheses of `C139_database` hold of it. -/
theorem renamedCtx_renamed : sampleCtx.Renamed asciiUp exchangeName renamedCtx := by
  refine C139_database asciiUp exchangeName sampleDb renamedDb (database_map_renamed exchange_renaming _) ?_ ?_ ?_ ?_ _
  all_goals unfold Sorted
  all_goals decide

/-- The hypotheses of `C139_statement_partial` hold of `UPDATE users SET name = 'x', Active = NOT active …`. -/
example : (sampleUpdate.map exchangeName).validateType (nameOps asciiUp) renamedCtx = .ok () ∧
    exchangeName (Name.ofString "Active") = Name.ofString "Actzve" := by
  refine ⟨?_, by decide⟩
  have := C139_statement_partial asciiUp exchangeName exchange_renaming sampleCtx renamedCtx renamedCtx_renamed
    (.statement (.update sampleUpdate)) (by simp [SqlStatement.starFree, Statement.starFree, sampleUpdate,
      Expr.starFree, Expr.starFreeOption])
  exact this.trans sampleUpdate_ok

/-- `SELECT id FROM users`. -/
def idQuery : Select Name :=
  .mk [] (.query .all (.list [.expr (.ident [Name.ofString "id"]) (some (Name.ofString "id"))])
    [.named [Name.ofString "users"] none] none none) [] none

/-- The hypotheses of `C139_query_partial` hold of it. -/
example : inferSelect (nameOps asciiUp) renamedCtx (idQuery.map exchangeName) =
    .ok (.plain [⟨Name.ofString "zd", .numeric, false⟩]) := by
  have := (C139_query_partial asciiUp exchangeName exchange_renaming sampleCtx renamedCtx renamedCtx_renamed
    idQuery (by simp [idQuery, Select.starFree, Cte.starFreeList, SetExpr.starFree, ResultColumns.starFree,
      ResultColumn.starFreeList, TableExpr.starFreeList, TableExpr.starFree, Expr.starFree, Expr.starFreeOption,
      GroupBy.starFreeOption, OrderTerm.starFreeList, Limit.starFreeOption])).1 _
    (show inferSelect (nameOps asciiUp) sampleCtx idQuery = .ok (.plain [⟨Name.ofString "id", .numeric, false⟩]) by
      decide +kernel)
  rw [this]
  decide +kernel

/-- `SELECT users.* FROM users UNION SELECT active, id, name FROM users`. -/
def starQuery : Select Name :=
  .mk [] (.op .union
    (.query .all (.list [.allFrom (Name.ofString "users")]) [.named [Name.ofString "users"] none] none none)
    (.query .all (.list [.expr (.ident [Name.ofString "active"]) none, .expr (.ident [Name.ofString "id"]) none,
      .expr (.ident [Name.ofString "name"]) none]) [.named [Name.ofString "users"] none] none none)) [] none

/-- **C139** fails for statements with `t.*`: it lists the columns in the order of their names, so that other names
give another order.  A statement that is accepted is rejected after renaming. -/
theorem C139_star_refuted : ∃ (up : Char → List Char) (f : Name → Name) (ctx ctx' : SetContext Name)
    (s : SqlStatement Name), Renaming up f ∧ ctx.Renamed up f ctx' ∧ s.validateType (nameOps up) ctx = .ok () ∧
      (s.map f).validateType (nameOps up) ctx' = .error (.err .incompatible) :=
  ⟨asciiUp, exchangeName, sampleCtx, renamedCtx, .statement (.select starQuery), exchange_renaming, renamedCtx_renamed,
    by decide +kernel, by decide +kernel⟩

end Verif.Props
