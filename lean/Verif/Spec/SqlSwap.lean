import Verif.Model.SqlAst
/-!
# Specification: statements with exchanged operands

`Swap` relates two parts of statements that differ in the order of the operands of binary operators, of the sides of
comparisons (`a < b` and `b > a`), of the bounds of BETWEEN, of the elements of lists after IN, and of the rows of VALUES
if they have the same length; at any depth and any number of times.
-/

namespace Verif.Sql

/-- The operator that says the same with the sides exchanged. -/
def ComparisonOperator.mirror : ComparisonOperator → ComparisonOperator
  | .lessThan => .greaterThan
  | .lessEqual => .greaterEqual
  | .greaterThan => .lessThan
  | .greaterEqual => .lessEqual
  | op => op

mutual

def Expr.Swap : Expr N → Expr N → Prop
  | .literal l, .literal l' => l = l'
  | .ident q, .ident q' => q = q'
  | .tuple es, .tuple es' => exprsSwap es es'
  | .select s, .select s' => s.Swap s'
  | .unary op e, .unary op' e' => op = op' ∧ e.Swap e'
  | .binary op l r, .binary op' l' r' => op = op' ∧ (l.Swap l' ∧ r.Swap r' ∨ l.Swap r' ∧ r.Swap l')
  | .comparison op l r, .comparison op' l' r' =>
    op = op' ∧ l.Swap l' ∧ r.Swap r' ∨ op.mirror = op' ∧ l.Swap r' ∧ r.Swap l'
  | .inSet e set, .inSet e' set' => e.Swap e' ∧ set.Swap set'
  | .between e l u, .between e' l' u' => e.Swap e' ∧ (l.Swap l' ∧ u.Swap u' ∨ l.Swap u' ∧ u.Swap l')
  | .case e ws els, .case e' ws' els' => exprSwap e e' ∧ whensSwap ws ws' ∧ exprSwap els els'
  | _, _ => False

def exprSwap : Option (Expr N) → Option (Expr N) → Prop
  | none, none => True
  | some e, some e' => e.Swap e'
  | _, _ => False

def exprsSwap : List (Expr N) → List (Expr N) → Prop
  | [], [] => True
  | e :: es, e' :: es' => e.Swap e' ∧ exprsSwap es es'
  | _, _ => False

def rowsSwap : List (List (Expr N)) → List (List (Expr N)) → Prop
  | [], [] => True
  | r :: rs, r' :: rs' => exprsSwap r r' ∧ rowsSwap rs rs'
  | _, _ => False

def whensSwap : List (When N) → List (When N) → Prop
  | [], [] => True
  | .mk g b :: ws, .mk g' b' :: ws' => g.Swap g' ∧ b.Swap b' ∧ whensSwap ws ws'
  | _, _ => False

def SetSpec.Swap : SetSpec N → SetSpec N → Prop
  | .select s, .select s' => s.Swap s'
  | .list es, .list es' => ∃ ms, exprsSwap es ms ∧ ms.Perm es'
  | .name q, .name q' => q = q'
  | _, _ => False

def Select.Swap : Select N → Select N → Prop
  | .mk common x orderBy limit, .mk common' x' orderBy' limit' =>
    ctesSwap common common' ∧ x.Swap x' ∧ termsSwap orderBy orderBy' ∧ limitSwap limit limit'

def ctesSwap : List (Cte N) → List (Cte N) → Prop
  | [], [] => True
  | .mk i ns q :: cs, .mk i' ns' q' :: cs' => i = i' ∧ ns = ns' ∧ q.Swap q' ∧ ctesSwap cs cs'
  | _, _ => False

def termsSwap : List (OrderTerm N) → List (OrderTerm N) → Prop
  | [], [] => True
  | .mk e c d :: ts, .mk e' c' d' :: ts' => e.Swap e' ∧ c = c' ∧ d = d' ∧ termsSwap ts ts'
  | _, _ => False

def limitSwap : Option (Limit N) → Option (Limit N) → Prop
  | none, none => True
  | some (.mk e o), some (.mk e' o') => e.Swap e' ∧ exprSwap o o'
  | _, _ => False

def SetExpr.Swap : SetExpr N → SetExpr N → Prop
  | .values rows, .values rows' =>
    ∃ ms, rowsSwap rows ms ∧ (ms = rows' ∨ ms.Perm rows' ∧ ∃ k, ∀ r ∈ ms, r.length = k)
  | .query m columns froms wher groupBy, .query m' columns' froms' wher' groupBy' =>
    m = m' ∧ columns.Swap columns' ∧ tablesSwap froms froms' ∧ exprSwap wher wher' ∧ groupSwap groupBy groupBy'
  | .op o l r, .op o' l' r' => o = o' ∧ l.Swap l' ∧ r.Swap r'
  | _, _ => False

def TableExpr.Swap : TableExpr N → TableExpr N → Prop
  | .named n a, .named n' a' => n = n' ∧ a = a'
  | .select s a, .select s' a' => s.Swap s' ∧ a = a'
  | .join l r o c, .join l' r' o' c' => l.Swap l' ∧ r.Swap r' ∧ o = o' ∧ c.Swap c'
  | _, _ => False

def JoinConstraint.Swap : JoinConstraint N → JoinConstraint N → Prop
  | .expr e, .expr e' => e.Swap e'
  | .columns ns, .columns ns' => ns = ns'
  | _, _ => False

def tablesSwap : List (TableExpr N) → List (TableExpr N) → Prop
  | [], [] => True
  | t :: ts, t' :: ts' => t.Swap t' ∧ tablesSwap ts ts'
  | _, _ => False

def ResultColumns.Swap : ResultColumns N → ResultColumns N → Prop
  | .all, .all => True
  | .list cs, .list cs' => columnsSwap cs cs'
  | _, _ => False

def columnsSwap : List (ResultColumn N) → List (ResultColumn N) → Prop
  | [], [] => True
  | .allFrom n :: cs, .allFrom n' :: cs' => n = n' ∧ columnsSwap cs cs'
  | .expr e a :: cs, .expr e' a' :: cs' => e.Swap e' ∧ a = a' ∧ columnsSwap cs cs'
  | _, _ => False

def groupSwap : Option (GroupBy N) → Option (GroupBy N) → Prop
  | none, none => True
  | some (.mk es h), some (.mk es' h') => exprsSwap es es' ∧ exprSwap h h'
  | _, _ => False

end

def assignmentsSwap : List (Assignment N) → List (Assignment N) → Prop
  | [], [] => True
  | a :: as, a' :: as' => a.columns = a'.columns ∧ a.expr.Swap a'.expr ∧ assignmentsSwap as as'
  | _, _ => False

def Statement.Swap : Statement N → Statement N → Prop
  | .select s, .select s' => s.Swap s'
  | .insert s, .insert s' => s.tableName = s'.tableName ∧ s.columns = s'.columns ∧ s.source.Swap s'.source
  | .update s, .update s' => s.tableName = s'.tableName ∧ assignmentsSwap s.assignments s'.assignments ∧
    exprSwap s.wher s'.wher
  | .delete s, .delete s' => s.tableName = s'.tableName ∧ exprSwap s.wher s'.wher
  | _, _ => False

def SqlStatement.Swap : SqlStatement N → SqlStatement N → Prop
  | .statement s, .statement s' => s.Swap s'
  | .explainQueryPlan s, .explainQueryPlan s' => s.Swap s'
  | .attach s, .attach s' => s = s'
  | .describe s, .describe s' => s = s'
  | _, _ => False

end Verif.Sql
