import Verif.Spec.SqlSpelling
/-!
# Replacing identifiers by themselves
-/

namespace Verif.Sql

theorem map_opt_id {α : Type} (o : Option α) : o.map id = o := by cases o <;> rfl

theorem map_names_id {α : Type} (o : Option (List α)) : o.map (fun cs => cs.map id) = o := by cases o <;> simp

mutual

theorem Expr.map_id {N : Type} : ∀ e : Expr N, e.map id = e
  | .literal l => by simp only [Expr.map]
  | .ident q => by simp only [Expr.map, List.map_id]
  | .tuple es => by rw [Expr.map, Expr.mapList_id]
  | .select s => by rw [Expr.map, Select.map_id]
  | .unary op e => by rw [Expr.map, Expr.map_id]
  | .binary op l r => by rw [Expr.map, Expr.map_id l, Expr.map_id r]
  | .comparison op l r => by rw [Expr.map, Expr.map_id l, Expr.map_id r]
  | .inSet e set => by rw [Expr.map, Expr.map_id, SetSpec.map_id]
  | .between e l u => by rw [Expr.map, Expr.map_id e, Expr.map_id l, Expr.map_id u]
  | .case e whens els => by rw [Expr.map, Expr.mapOption_id e, When.mapList_id, Expr.mapOption_id els]

theorem Expr.mapList_id {N : Type} : ∀ es : List (Expr N), Expr.mapList id es = es
  | [] => rfl
  | e :: es => by rw [Expr.mapList, Expr.map_id, Expr.mapList_id]

theorem Expr.mapOption_id {N : Type} : ∀ e : Option (Expr N), Expr.mapOption id e = e
  | none => rfl
  | some e => by rw [Expr.mapOption, Expr.map_id]

theorem When.mapList_id {N : Type} : ∀ ws : List (When N), When.mapList id ws = ws
  | [] => rfl
  | .mk guard body :: ws => by rw [When.mapList, Expr.map_id guard, Expr.map_id body, When.mapList_id]

theorem SetSpec.map_id {N : Type} : ∀ s : SetSpec N, s.map id = s
  | .select s => by rw [SetSpec.map, Select.map_id]
  | .list es => by rw [SetSpec.map, Expr.mapList_id]
  | .name q => by simp only [SetSpec.map, List.map_id]

theorem Select.map_id {N : Type} : ∀ s : Select N, s.map id = s
  | .mk common expr orderBy limit => by
    rw [Select.map, Cte.mapList_id, SetExpr.map_id, OrderTerm.mapList_id, Limit.mapOption_id]

theorem Cte.map_id {N : Type} : ∀ c : Cte N, c.map id = c
  | .mk identifier names query => by rw [Cte.map, map_names_id, Select.map_id]; rfl

theorem Cte.mapList_id {N : Type} : ∀ cs : List (Cte N), Cte.mapList id cs = cs
  | [] => rfl
  | c :: cs => by rw [Cte.mapList, Cte.map_id, Cte.mapList_id]

theorem OrderTerm.mapList_id {N : Type} : ∀ ts : List (OrderTerm N), OrderTerm.mapList id ts = ts
  | [] => rfl
  | .mk e collation direction :: ts => by rw [OrderTerm.mapList, Expr.map_id, map_opt_id, OrderTerm.mapList_id]

theorem Limit.mapOption_id {N : Type} : ∀ l : Option (Limit N), Limit.mapOption id l = l
  | none => rfl
  | some (.mk rows offset) => by rw [Limit.mapOption, Expr.map_id, Expr.mapOption_id]

theorem SetExpr.map_id {N : Type} : ∀ s : SetExpr N, s.map id = s
  | .values rows => by rw [SetExpr.map, Expr.mapRows_id]
  | .query mode columns froms wher groupBy => by
    rw [SetExpr.map, ResultColumns.map_id, TableExpr.mapList_id, Expr.mapOption_id, GroupBy.mapOption_id]
  | .op o l r => by rw [SetExpr.map, SetExpr.map_id l, SetExpr.map_id r]

theorem Expr.mapRows_id {N : Type} : ∀ rows : List (List (Expr N)), Expr.mapRows id rows = rows
  | [] => rfl
  | row :: rows => by rw [Expr.mapRows, Expr.mapList_id, Expr.mapRows_id]

theorem TableExpr.map_id {N : Type} : ∀ t : TableExpr N, t.map id = t
  | .named name alias => by simp only [TableExpr.map, List.map_id, map_opt_id]
  | .select s alias => by rw [TableExpr.map, Select.map_id, map_opt_id]
  | .join l r op constraint => by rw [TableExpr.map, TableExpr.map_id l, TableExpr.map_id r, JoinConstraint.map_id]

theorem JoinConstraint.map_id {N : Type} : ∀ c : JoinConstraint N, c.map id = c
  | .expr e => by rw [JoinConstraint.map, Expr.map_id]
  | .columns names => by simp only [JoinConstraint.map, List.map_id]

theorem TableExpr.mapList_id {N : Type} : ∀ ts : List (TableExpr N), TableExpr.mapList id ts = ts
  | [] => rfl
  | t :: ts => by rw [TableExpr.mapList, TableExpr.map_id, TableExpr.mapList_id]

theorem ResultColumns.map_id {N : Type} : ∀ c : ResultColumns N, c.map id = c
  | .all => rfl
  | .list cs => by rw [ResultColumns.map, ResultColumn.mapList_id]

theorem ResultColumn.mapList_id {N : Type} : ∀ cs : List (ResultColumn N), ResultColumn.mapList id cs = cs
  | [] => rfl
  | .allFrom name :: cs => by rw [ResultColumn.mapList, ResultColumn.mapList_id]; rfl
  | .expr e rename :: cs => by rw [ResultColumn.mapList, Expr.map_id, map_opt_id, ResultColumn.mapList_id]

theorem GroupBy.mapOption_id {N : Type} : ∀ g : Option (GroupBy N), GroupBy.mapOption id g = g
  | none => rfl
  | some (.mk groupings having) => by rw [GroupBy.mapOption, Expr.mapList_id, Expr.mapOption_id]

end

theorem Assignment.map_id {N : Type} (a : Assignment N) : a.map id = a := by
  simp only [Assignment.map, List.map_id, Expr.map_id]

theorem Statement.map_id {N : Type} : ∀ s : Statement N, s.map id = s
  | .select s => by rw [Statement.map, Select.map_id]
  | .insert ⟨n, c, s⟩ => by rw [Statement.map, InsertStatement.map, map_names_id, SetExpr.map_id, List.map_id]
  | .delete ⟨n, w⟩ => by simp only [Statement.map, DeleteStatement.map, List.map_id, Expr.mapOption_id]
  | .update ⟨n, a, w⟩ => by
    have : a.map (Assignment.map id) = a := by
      rw [show (Assignment.map id : Assignment N → Assignment N) = id from funext Assignment.map_id, List.map_id]
    simp only [Statement.map, UpdateStatement.map, List.map_id, Expr.mapOption_id, this]

theorem SqlStatement.map_id {N : Type} : ∀ s : SqlStatement N, s.map id = s
  | .statement s => by rw [SqlStatement.map, Statement.map_id]
  | .explainQueryPlan s => by rw [SqlStatement.map, Statement.map_id]
  | .attach ⟨n, p⟩ => by simp only [SqlStatement.map, List.map_id]
  | .describe ⟨n⟩ => by simp only [SqlStatement.map, List.map_id]

end Verif.Sql
