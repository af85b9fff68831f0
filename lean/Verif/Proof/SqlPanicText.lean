import Verif.Proof.SqlPanic
import Verif.Spec.SqlWriting
/-! # Which dead constructions can be reached in a statement that has a text -/

namespace Verif.Sql
open Writing

/-! ## The parts that are looked at have a text -/

/-- The part can be written. -/
def Work.Ok : Work Name → Prop
  | .expr _ e => ExprOk e
  | .table _ t => TableOk t
  | .query _ s => SelectOk s
  | .rows _ x => SetExprOk x
  | .statement _ s => StatementOk s

theorem exprsOk_mem {es : List (Expr Name)} (h : ExprsOk es) : ∀ e ∈ es, ExprOk e := by
  induction es with
  | nil => exact fun _ h => nomatch h
  | cons x es ih =>
    rw [ExprsOk] at h
    intro e he
    rcases List.mem_cons.1 he with rfl | he
    · exact h.1
    · exact ih h.2 e he

theorem whensOk_mem {ws : List (When Name)} (h : WhensOk ws) : ∀ g b, .mk g b ∈ ws → ExprOk g ∧ ExprOk b := by
  induction ws with
  | nil => exact fun _ _ h => nomatch h
  | cons x ws ih =>
    obtain ⟨g0, b0⟩ := x
    rw [WhensOk] at h
    intro g b he
    rcases List.mem_cons.1 he with he | he
    · cases he; exact ⟨h.1, h.2.1⟩
    · exact ih h.2.2 g b he

theorem ctesOk_mem {cs : List (Cte Name)} (h : CtesOk cs) : ∀ i n q, .mk i n q ∈ cs → SelectOk q := by
  induction cs with
  | nil => exact fun _ _ _ h => nomatch h
  | cons x cs ih =>
    obtain ⟨i0, n0, q0⟩ := x
    rw [CtesOk] at h
    intro i n q he
    rcases List.mem_cons.1 he with he | he
    · cases he; exact h.2.2.1
    · exact ih h.2.2.2 i n q he

theorem termsOk_mem {ts : List (OrderTerm Name)} (h : TermsOk ts) : ∀ e c d, .mk e c d ∈ ts → ExprOk e := by
  induction ts with
  | nil => exact fun _ _ _ h => nomatch h
  | cons x ts ih =>
    obtain ⟨e0, c0, d0⟩ := x
    rw [TermsOk] at h
    intro e c d he
    rcases List.mem_cons.1 he with he | he
    · cases he; exact h.1
    · exact ih h.2.2 e c d he

theorem rowsOk_mem {rows : List (List (Expr Name))} (h : RowsOk rows) : ∀ row ∈ rows, ExprsOk row := by
  induction rows with
  | nil => exact fun _ h => nomatch h
  | cons x rows ih =>
    rw [RowsOk] at h
    intro row he
    rcases List.mem_cons.1 he with rfl | he
    · exact h.1.2
    · exact ih h.2 row he

theorem tablesOk_mem {ts : List (TableExpr Name)} (h : TablesOk ts) : ∀ t ∈ ts, TableOk t := by
  induction ts with
  | nil => exact fun _ h => nomatch h
  | cons x ts ih =>
    rw [TablesOk] at h
    intro t he
    rcases List.mem_cons.1 he with rfl | he
    · exact h.1
    · exact ih h.2 t he

theorem columnsOk_mem {cs : List (ResultColumn Name)} (h : ColumnsOk cs) : ∀ e r, .expr e r ∈ cs → ExprOk e := by
  induction cs with
  | nil => exact fun _ _ h => nomatch h
  | cons x cs ih =>
    intro e r he
    cases x with
    | allFrom n =>
      rw [ColumnsOk] at h
      rcases List.mem_cons.1 he with he | he
      · cases he
      · exact ih h.2 e r he
    | expr e0 r0 =>
      rw [ColumnsOk] at h
      rcases List.mem_cons.1 he with he | he
      · cases he; exact h.1
      · exact ih h.2.2 e r he

theorem mem_mid {α : Type} {pre : List α} {a : α} {post : List α} : a ∈ pre ++ a :: post :=
  List.mem_append_right _ List.mem_cons_self

theorem next_ok {ops : NameOps Name} {w w' : Work Name} (h : Next ops w w') (hw : w.Ok) : w'.Ok := by
  cases h with
  | tuple => simp only [Work.Ok, ExprOk] at hw ⊢; exact exprsOk_mem hw.2 _ mem_mid
  | select => simpa only [Work.Ok, ExprOk] using hw
  | unary => simpa only [Work.Ok, ExprOk] using hw
  | binaryLeft | comparisonLeft | betweenOperand | inOperand => simp only [Work.Ok, ExprOk] at hw ⊢; exact hw.1
  | binaryRight | comparisonRight => simp only [Work.Ok, ExprOk] at hw ⊢; exact hw.2
  | betweenLower => simp only [Work.Ok, ExprOk] at hw ⊢; exact hw.2.1
  | betweenUpper => simp only [Work.Ok, ExprOk] at hw ⊢; exact hw.2.2
  | inElement _ hx => simp only [Work.Ok, ExprOk, SetSpecOk] at hw ⊢; exact exprsOk_mem hw.2 _ hx
  | inSelect => simp only [Work.Ok, ExprOk, SetSpecOk] at hw ⊢; exact hw.2
  | caseOperand => simp only [Work.Ok, ExprOk, ExprOptionOk] at hw ⊢; exact hw.1
  | caseGuard => simp only [Work.Ok, ExprOk] at hw ⊢; exact (whensOk_mem hw.2.2.1 _ _ mem_mid).1
  | caseFirst => simp only [Work.Ok, ExprOk, WhensOk] at hw ⊢; exact hw.2.2.1.2.1
  | caseSecond => simp only [Work.Ok, ExprOk, WhensOk] at hw ⊢; exact hw.2.2.1.2.2.2.1
  | caseLater => simp only [Work.Ok, ExprOk] at hw ⊢; exact (whensOk_mem hw.2.2.1 _ _ mem_mid).2
  | caseElse => simp only [Work.Ok, ExprOk, ExprOptionOk] at hw ⊢; exact hw.2.2.2
  | joinLeft => simp only [Work.Ok, TableOk] at hw ⊢; exact hw.1
  | joinRight => simp only [Work.Ok, TableOk] at hw ⊢; exact hw.2.1
  | tableSelect => simp only [Work.Ok, TableOk] at hw ⊢; exact hw.1
  | common => simp only [Work.Ok, SelectOk] at hw ⊢; exact ctesOk_mem hw.1 _ _ _ mem_mid
  | body => simp only [Work.Ok, SelectOk] at hw ⊢; exact hw.2.1
  | order => simp only [Work.Ok, SelectOk] at hw ⊢; exact termsOk_mem hw.2.2.1 _ _ _ mem_mid
  | limit => simp only [Work.Ok, SelectOk, LimitOk] at hw ⊢; exact hw.2.2.2.1
  | offset => simp only [Work.Ok, SelectOk, LimitOk, ExprOptionOk] at hw ⊢; exact hw.2.2.2.2
  | firstRow => simp only [Work.Ok, SetExprOk, RowsOk] at hw ⊢; exact exprsOk_mem hw.2.1.2 _ mem_mid
  | laterRow => simp only [Work.Ok, SetExprOk] at hw ⊢; exact exprsOk_mem (rowsOk_mem hw.2 _ mem_mid) _ mem_mid
  | «from» => simp only [Work.Ok, SetExprOk] at hw ⊢; exact tablesOk_mem hw.2.1 _ mem_mid
  | «where» => simp only [Work.Ok, SetExprOk, ExprOptionOk] at hw ⊢; exact hw.2.2.1
  | group => simp only [Work.Ok, SetExprOk, GroupOk] at hw ⊢; exact exprsOk_mem hw.2.2.2.1.2 _ mem_mid
  | having => simp only [Work.Ok, SetExprOk, GroupOk, ExprOptionOk] at hw ⊢; exact hw.2.2.2.2
  | column => simp only [Work.Ok, SetExprOk, ResultColumnsOk] at hw ⊢; exact columnsOk_mem hw.1.2 _ _ mem_mid
  | opLeft => simp only [Work.Ok, SetExprOk] at hw ⊢; exact hw.1
  | opRight => simp only [Work.Ok, SetExprOk] at hw ⊢; exact hw.2.2
  | selectStatement => exact hw
  | insertSource => exact hw.2.2.2
  | assignment => exact (hw.2.2.1 _ mem_mid).2
  | updateWhere => simp only [Work.Ok, StatementOk, ExprOptionOk] at hw ⊢; exact hw.2.2.2
  | deleteWhere => simp only [Work.Ok, StatementOk, ExprOptionOk] at hw ⊢; exact hw.2

theorem reaches_ok {ops : NameOps Name} {w w' : Work Name} (h : Reaches ops w w') (hw : w.Ok) : w'.Ok := by
  induction h with
  | here => exact hw
  | step h _ ih => exact ih (next_ok h hw)

/-! ## The tables are the same everywhere -/

/-- The tables that are known there. -/
def Work.context {N : Type} : Work N → SetContext N
  | .expr sc _ => sc.setContext
  | .table sc _ => sc.setContext
  | .query ctx _ => ctx
  | .rows ctx _ => ctx
  | .statement ctx _ => ctx

theorem next_context {N : Type} {ops : NameOps N} {w w' : Work N} (h : Next ops w w') (hs : w.Scalars) :
    w'.context = w.context := by
  cases h with
  | joinRight hl => exact (inferTable_scalars _ hl hs).2
  | order hc _ => exact (addCommon_scalars hc (scalars_new _)).2
  | «from» hf | «where» hf | group hf _ | having hf _ | column hf _ => exact (inferFrom_scalars hf (scalars_new _)).2
  | assignment _ hc _ | updateWhere _ hc _ | deleteWhere _ hc => exact (tableContext_scalars hc).2
  | _ => rfl

theorem reaches_context {N : Type} {ops : NameOps N} {w w' : Work N} (h : Reaches ops w w') (hs : w.Scalars) :
    w'.context = w.context := by
  induction h with
  | here => rfl
  | step h _ ih => exact (ih (next_scalars h hs)).trans (next_context h hs)

/-- What is dead in a statement that has a text, if there is a default schema. -/
theorem dead_written {ops : NameOps Name} {w : Work Name} (hd : Dead ops w) (hok : w.Ok)
    (hdef : w.context.namespaces.get ops w.context.defaultNamespace ≠ none) :
    (∃ sc e, w = .expr sc (.inSet e (.list [])) ∧ (Work.expr sc e).Accepted ops) ∨
    ∃ sc operand guard es els, w = .expr sc (.case operand [.mk guard (.tuple es)] els) ∧ 2 ≤ es.length ∧
      (∀ e, operand = some e → (Work.expr sc e).Accepted ops) ∧ (Work.expr sc (.tuple es)).Accepted ops := by
  cases hd with
  | emptyList he => exact .inl ⟨_, _, rfl, he⟩
  | tupleBranch ho ht =>
    simp only [Work.Ok, ExprOk, WhensOk] at hok
    exact .inr ⟨_, _, _, _, _, rfl, hok.2.2.1.2.1.1, ho, ht⟩
  | noBranch =>
    simp only [Work.Ok, ExprOk] at hok
    exact absurd rfl hok.2.1
  | noRows =>
    simp only [Work.Ok, SetExprOk] at hok
    exact absurd rfl hok.1
  | inTable _ hq | table hq | insert hq | update hq | delete hq =>
    obtain ⟨_, _, _, h⟩ := hq
    exact absurd h hdef

end Verif.Sql
