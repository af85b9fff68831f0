from gengram import *
o=[];w=o.append
by={'columnNameList':'leaves (names v)','assignments':'v.flatMap fun a => leaves (assignment a)','assignment':'leaves (assignment v)','selectStatement':'leaves (select v)',
'tableExpressions':'v.flatMap cteLeaves','commonTableExpressionList':'v.flatMap cteLeaves','commonTableExpression':'cteLeaves v',
'selectCoreList':'leaves (setExpr v)','selectCore':'leaves (setExpr v)','tupleList':'v.flatMap fun r => leaves (exprs r)','tuple':'leaves (exprs v)','expressionList':'leaves (exprs v)','resultColumns':'leaves (resultColumns v)',
'resultColumnList':'leaves (columns v)','resultColumn':'leaves (columns [v])','qualifiedIdentifier':'leaves (names v)','fromClause':'leaves (fromClause v)','tableExpressionList':'leaves (fromClause v)','tableExpression':'leaves (table v)','tableOrSubQuery':'leaves (table v)',
'tableAlias':'[v.string]','joinConstraint':'leaves (constraint v)','identifierList':'leaves (names v)','groupByClause':'leaves (groupClause (some v))','orderByClause':'leaves (orderClause v)','orderingTermList':'leaves (orderClause v)','orderingTerm':'leaves (orderClause [v])',
'orderingCollation':'[v.string]','limitClause':'leaves (limit (some v))','attachStatement':'leaves (words (.attach v))','describeStatement':'leaves (words (.describe v))','schemaName':'[v.string]','whenClauses':'leaves (whenClauses v)','whenClause':'leaves (whenClauses [v])',
'literalValue':'leaves (literal v)','identifier':'[v.string]','numericLiteral':'[v]','stringLiteral':"[\'\\\'\' :: (v ++ [\'\\\'\'])]",
'compoundOperator':'[]','selectMode':'[]','joinOperator':'[]','joinType':'[]','orderingDirection':'[]'}
skip={'sqlStatement','statement','insertStatement','deleteStatement','updateStatement'}
w('''import Verif.Proof.SqlWriting
import Verif.Spec.SqlLeaves
/-!
# The names, numbers and strings of words are those of the value
-/

namespace Verif.Sql.Writing
open Grammar Lexing

theorem leaves_append (a b : List Lexeme) : leaves (a ++ b) = leaves a ++ leaves b := by
  simp [leaves]

theorem leaves_cons (k : Kind) (t : Str) (w : List Lexeme) :
    leaves ((k, t) :: w) = if isLeaf k then t :: leaves w else leaves w := by
  simp only [leaves, List.filter_cons]
  split <;> simp

theorem leaves_nil : leaves [] = [] := rfl

theorem leaves_kw {k : Kind} (h : isLeaf k = false) (w : List Lexeme) : leaves (kw k :: w) = leaves w := by
  rw [kw, leaves_cons, h]; rfl

theorem leaves_name (n : Name) (w : List Lexeme) : leaves (name n :: w) = n.string :: leaves w := by
  rw [name, leaves_cons]; rfl

theorem leaves_string (s : Str) (w : List Lexeme) :
    leaves (string s :: w) = ('\\'' :: (s ++ ['\\''])) :: leaves w := by
  rw [string, leaves_cons]; rfl

theorem leaves_number (s : Str) (w : List Lexeme) : leaves (number s :: w) = s :: leaves w := by
  unfold number
  split <;> (rw [leaves_cons]; rfl)

theorem leaves_atLevel (p : Nat) (e : Expr Name) (w : List Lexeme) : leaves (atLevel p e w) = leaves w := by
  unfold atLevel
  split
  · rw [leaves_kw rfl, leaves_append, leaves_kw rfl, leaves_nil, List.append_nil]
  · rfl

theorem leaves_tableOperand (t : TableExpr Name) (w : List Lexeme) : leaves (tableOperand t w) = leaves w := by
  unfold tableOperand
  split
  · rw [leaves_kw rfl, leaves_append, leaves_kw rfl, leaves_nil, List.append_nil]
  · rfl

theorem leaves_names (ns : List Name) : leaves (names ns) = ns.map (·.string) := by
  induction ns with
  | nil => rfl
  | cons n ns ih => cases ns with
    | nil => rw [names, leaves_name]; rfl
    | cons m ns => rw [names, leaves_name, leaves_kw rfl, ih]; rfl

theorem leaves_qualified (ns : List Name) : leaves (qualified ns) = ns.map (·.string) := by
  induction ns with
  | nil => rfl
  | cons n ns ih => cases ns with
    | nil => rw [qualified, leaves_name]; rfl
    | cons m ns => rw [qualified, leaves_name, leaves_kw rfl, ih]; rfl

theorem leaves_mode (m : SelectMode) : leaves (mode m) = [] := by cases m <;> rfl
theorem leaves_setOperator (m : SetOperator) : leaves (setOperator m) = [] := by cases m <;> rfl
theorem leaves_joinType (m : JoinType) : leaves (joinType m) = [] := by cases m <;> rfl
theorem leaves_joinOperator (m : JoinOperator) : leaves (joinOperator m) = [] := by
  cases m with
  | join t => cases t <;> rfl
  | natural t => cases t <;> rfl
  | cross => rfl
theorem leaves_direction (m : OrderingDirection) : leaves (direction m) = [] := by cases m <;> rfl

theorem leaves_alias (o : Option Name) : leaves (alias o) = o.toList.map (·.string) := by
  cases o
  · rfl
  · rw [alias, leaves_kw rfl, leaves_name]; rfl

theorem leaves_collation (o : Option Name) : leaves (collation o) = o.toList.map (·.string) := by
  cases o
  · rfl
  · rw [collation, leaves_kw rfl, leaves_name]; rfl

theorem leaves_columnNames (o : Option (List Name)) : leaves (columnNames o) = (o.getD []).map (·.string) := by
  cases o
  · rfl
  · rw [columnNames, leaves_kw rfl, leaves_append, leaves_names, leaves_kw rfl]; simp [leaves]

theorem leaves_binary (op : BinaryOperator) (w : List Lexeme) : leaves (kw (binaryOperator op) :: w) = leaves w := by
  cases op <;> exact leaves_kw rfl w

theorem leaves_comparison (op : ComparisonOperator) (w : List Lexeme) :
    leaves (kw (comparisonOperator op) :: w) = leaves w := by
  cases op <;> exact leaves_kw rfl w

theorem leaves_exprsTail (es : List (Expr Name)) : leaves (exprsTail es) = es.flatMap fun e => leaves (expr e) := by
  induction es with
  | nil => simp [exprsTail, leaves]
  | cons e es ih => rw [exprsTail, leaves_kw rfl, leaves_append, ih]; rfl

theorem leaves_exprs (es : List (Expr Name)) : leaves (exprs es) = es.flatMap fun e => leaves (expr e) := by
  cases es with
  | nil => simp [exprs, leaves]
  | cons e es => rw [exprs, leaves_append, leaves_exprsTail]; rfl

theorem leaves_whens (ws : List (When Name)) : leaves (whenClauses ws) =
    ws.flatMap fun x => match x with | .mk g b => leaves (expr g) ++ leaves (expr b) := by
  induction ws with
  | nil => simp [whenClauses, leaves]
  | cons x ws ih =>
    cases x
    rw [whenClauses, leaves_kw rfl, leaves_append, leaves_kw rfl, leaves_append, ih]; simp

theorem leaves_exprOption (o : Option (Expr Name)) :
    leaves (exprOption o) = o.toList.flatMap fun e => leaves (expr e) := by
  cases o
  · rw [exprOption]; rfl
  · rw [exprOption]; simp

theorem leaves_clause {k : Kind} (h : isLeaf k = false) (o : Option (Expr Name)) :
    leaves (clause k o) = o.toList.flatMap fun e => leaves (expr e) := by
  cases o
  · rw [clause]; rfl
  · rw [clause, leaves_kw h]; simp

theorem leaves_where (o : Option (Expr Name)) :
    leaves (clause .WHERE o) = o.toList.flatMap fun e => leaves (expr e) := leaves_clause rfl o
theorem leaves_else (o : Option (Expr Name)) :
    leaves (clause .ELSE o) = o.toList.flatMap fun e => leaves (expr e) := leaves_clause rfl o
theorem leaves_having (o : Option (Expr Name)) :
    leaves (clause .HAVING o) = o.toList.flatMap fun e => leaves (expr e) := leaves_clause rfl o
theorem leaves_offset (o : Option (Expr Name)) :
    leaves (clause .OFFSET o) = o.toList.flatMap fun e => leaves (expr e) := leaves_clause rfl o

/-- The leaves of a common table expression. -/
def cteLeaves : Cte Name → List Str
  | .mk n cs q => n.string :: ((cs.getD []).map (·.string) ++ leaves (select q))

theorem leaves_ctesTail (cs : List (Cte Name)) : leaves (ctesTail cs) = cs.flatMap cteLeaves := by
  induction cs with
  | nil => simp [ctesTail, leaves]
  | cons c cs ih =>
    cases c
    rw [ctesTail, leaves_kw rfl, leaves_name, leaves_append, leaves_columnNames, leaves_kw rfl, leaves_kw rfl,
      leaves_append, leaves_kw rfl, ih]
    simp [cteLeaves]

theorem leaves_withClause (cs : List (Cte Name)) : leaves (withClause cs) = cs.flatMap cteLeaves := by
  cases cs with
  | nil => simp [withClause, leaves]
  | cons c cs =>
    cases c
    rw [withClause, leaves_kw rfl, leaves_name, leaves_append, leaves_columnNames, leaves_kw rfl, leaves_kw rfl,
      leaves_append, leaves_kw rfl, leaves_ctesTail]
    simp [cteLeaves]

/-- The leaves of a term of ORDER BY. -/
def termLeaves : OrderTerm Name → List Str
  | .mk e c _ => leaves (expr e) ++ c.toList.map (·.string)

theorem leaves_termsTail (ts : List (OrderTerm Name)) : leaves (termsTail ts) = ts.flatMap termLeaves := by
  induction ts with
  | nil => simp [termsTail, leaves]
  | cons c cs ih =>
    cases c
    rw [termsTail, leaves_kw rfl, leaves_append, leaves_append, leaves_append, leaves_collation, leaves_direction, ih]
    simp [termLeaves]

theorem leaves_orderClause (ts : List (OrderTerm Name)) : leaves (orderClause ts) = ts.flatMap termLeaves := by
  cases ts with
  | nil => simp [orderClause, leaves]
  | cons c cs =>
    cases c
    rw [orderClause, leaves_kw rfl, leaves_kw rfl, leaves_append, leaves_append, leaves_append, leaves_collation,
      leaves_direction, leaves_termsTail]
    simp [termLeaves]

theorem leaves_tuplesTail (ts : List (List (Expr Name))) :
    leaves (tuplesTail ts) = ts.flatMap fun r => leaves (exprs r) := by
  induction ts with
  | nil => simp [tuplesTail, leaves]
  | cons c cs ih => rw [tuplesTail, leaves_kw rfl, leaves_kw rfl, leaves_append, leaves_kw rfl, ih]; simp

theorem leaves_tuples (ts : List (List (Expr Name))) : leaves (tuples ts) = ts.flatMap fun r => leaves (exprs r) := by
  cases ts with
  | nil => simp [tuples, leaves]
  | cons c cs => rw [tuples, leaves_kw rfl, leaves_append, leaves_kw rfl, leaves_tuplesTail]; simp

theorem leaves_tablesTail (ts : List (TableExpr Name)) :
    leaves (tablesTail ts) = ts.flatMap fun t => leaves (table t) := by
  induction ts with
  | nil => simp [tablesTail, leaves]
  | cons c cs ih => rw [tablesTail, leaves_kw rfl, leaves_append, ih]; simp

theorem leaves_fromClause (ts : List (TableExpr Name)) :
    leaves (fromClause ts) = ts.flatMap fun t => leaves (table t) := by
  cases ts with
  | nil => simp [fromClause, leaves]
  | cons c cs => rw [fromClause, leaves_kw rfl, leaves_append, leaves_tablesTail]; simp

/-- The leaves of a column of a result. -/
def columnLeaves : ResultColumn Name → List Str
  | .allFrom n => [n.string]
  | .expr e r => leaves (expr e) ++ r.toList.map (·.string)

theorem leaves_columnsTail (cs : List (ResultColumn Name)) : leaves (columnsTail cs) = cs.flatMap columnLeaves := by
  induction cs with
  | nil => simp [columnsTail, leaves]
  | cons c cs ih => cases c with
    | allFrom n =>
      rw [columnsTail, leaves_kw rfl, leaves_name, leaves_kw rfl, leaves_kw rfl, ih]; simp [columnLeaves]
    | expr e r =>
      rw [columnsTail, leaves_kw rfl, leaves_append, leaves_append, leaves_alias, ih]; simp [columnLeaves]

theorem leaves_columns (cs : List (ResultColumn Name)) : leaves (columns cs) = cs.flatMap columnLeaves := by
  cases cs with
  | nil => simp [columns, leaves]
  | cons c cs => cases c with
    | allFrom n => rw [columns, leaves_name, leaves_kw rfl, leaves_kw rfl, leaves_columnsTail]; simp [columnLeaves]
    | expr e r => rw [columns, leaves_append, leaves_append, leaves_alias, leaves_columnsTail]; simp [columnLeaves]

theorem leaves_assignments (cs : List (Assignment Name)) :
    leaves (assignments cs) = cs.flatMap fun a => leaves (assignment a) := by
  induction cs with
  | nil => rfl
  | cons c cs ih => cases cs with
    | nil => rw [assignments]; simp
    | cons d cs => rw [assignments, leaves_append, leaves_kw rfl, ih]; rfl

/-- The leaves of a value. -/
def LeavesOf : (s : Nt) → Grammar.Ty s → List Str
''')
def bb(n,t): return by.get(ln(n),'leaves (expr v)' if t=='Expr Name' else '[]')
for n,t,_ in G:
    b=bb(n,t)
    w(f'  | .{ln(n)}, {"v" if " v" in b or "(v" in b or "[v" in b or b[0]=="v" else "_"} => {b}\n')
w('''  | .tok k, v => if isLeaf k then [v] else []
  | .opt _, none => []
  | .opt s, some v => LeavesOf s v

/-- Categories that keep all their leaves. -/
def Keeps : Nt → Bool
  | .sqlStatement | .statement | .insertStatement | .deleteStatement | .updateStatement => false
  | .opt s => Keeps s
  | _ => true

theorem leavesOf_none (s : Nt) : LeavesOf (.opt s) none = [] := rfl



theorem leavesOf_where (o : Option (Expr Name)) :
    LeavesOf (.opt .whereClause) o = o.toList.flatMap fun e => leaves (expr e) := by
  cases o <;> simp [LeavesOf]
theorem leavesOf_else (o : Option (Expr Name)) :
    LeavesOf (.opt .elseClause) o = o.toList.flatMap fun e => leaves (expr e) := by
  cases o <;> simp [LeavesOf]
theorem leavesOf_expression (o : Option (Expr Name)) :
    LeavesOf (.opt .expression) o = o.toList.flatMap fun e => leaves (expr e) := by
  cases o <;> simp [LeavesOf]
theorem leavesOf_names (o : Option (List Name)) :
    LeavesOf (.opt .columnNameList) o = (o.getD []).map (·.string) := by
  cases o <;> simp [LeavesOf, leaves_names]
theorem leavesOf_alias (o : Option Name) : LeavesOf (.opt .tableAlias) o = o.toList.map (·.string) := by
  cases o <;> simp [LeavesOf]
theorem leavesOf_collation (o : Option Name) : LeavesOf (.opt .orderingCollation) o = o.toList.map (·.string) := by
  cases o <;> simp [LeavesOf]
theorem leavesOf_schema (o : Option Name) : LeavesOf (.opt .schemaName) o = o.toList.map (·.string) := by
  cases o <;> simp [LeavesOf]
theorem leavesOf_order (o : Option (List (OrderTerm Name))) :
    LeavesOf (.opt .orderByClause) o = (o.getD []).flatMap termLeaves := by
  cases o <;> simp [LeavesOf, leaves_orderClause]
theorem leavesOf_limit (o : Option (Limit Name)) : LeavesOf (.opt .limitClause) o = leaves (limit o) := by
  cases o with
  | none => rw [limit]; rfl
  | some v => simp only [LeavesOf]
theorem leavesOf_group (o : Option (GroupBy Name)) : LeavesOf (.opt .groupByClause) o = leaves (groupClause o) := by
  cases o with
  | none => rw [groupClause]; rfl
  | some v => simp only [LeavesOf]
theorem leavesOf_joinType (o : Option JoinType) : LeavesOf (.opt .joinType) o = [] := by
  cases o <;> simp [LeavesOf]
theorem leavesOf_tok {k : Kind} (h : isLeaf k = false) (o : Option Str) : LeavesOf (.opt (.tok k)) o = [] := by
  cases o <;> simp [LeavesOf, h]

theorem leavesOf_all (o : Option Str) : LeavesOf (.opt (.tok .ALL)) o = [] := leavesOf_tok rfl o
theorem leavesOf_as (o : Option Str) : LeavesOf (.opt (.tok .AS)) o = [] := leavesOf_tok rfl o
theorem leavesOf_outer (o : Option Str) : LeavesOf (.opt (.tok .OUTER)) o = [] := leavesOf_tok rfl o
theorem leavesOf_asc (o : Option Str) : LeavesOf (.opt (.tok .ASC)) o = [] := leavesOf_tok rfl o

set_option linter.unusedSimpArgs false in
theorem gr_leaves {s : Nt} {w : List Lexeme} {v : Grammar.Ty s} (h : Gr s w v) :
    Keeps s = true → leaves w = LeavesOf s v := by
  induction h with
  | tok => intro _; simp [leaves_cons, leaves_nil, LeavesOf]
  | optNone => intro _; rfl
  | optSome _ ih => exact ih
''')
defs='LeavesOf, leaves_append, leaves_cons, leaves_nil, isLeaf, leaves_name, leaves_string, leaves_number, leaves_atLevel, leaves_tableOperand, leaves_names, leaves_qualified, leaves_mode, leaves_setOperator, leaves_joinOperator, leaves_direction, leaves_alias, leaves_collation, leaves_columnNames, leaves_binary, leaves_comparison, leaves_exprs, leaves_whens, leaves_exprOption, leaves_where, leaves_else, leaves_having, leaves_offset, kw, leaves_withClause, leaves_orderClause, leaves_tuples, leaves_fromClause, leaves_columns, leaves_assignments, cteLeaves, termLeaves, columnLeaves, leavesOf_where, leavesOf_else, leavesOf_expression, leavesOf_names, leavesOf_alias, leavesOf_collation, leavesOf_schema, leavesOf_order, leavesOf_limit, leavesOf_group, leavesOf_joinType, leavesOf_all, leavesOf_as, leavesOf_outer, leavesOf_asc, assignment, select, setExpr, resultColumns, table, constraint, groupClause, limit, words, literal, expr, setSpec'
for n,t,alts in G:
    for i,(els,val,cond,body) in enumerate(alts,1):
        hy=[j for j,e in enumerate(els) if e[0]!='tok']
        pats=['_' for _ in hy]+(['_'] if cond else [])+[f'ih{j}' for j in hy]
        if ln(n) in skip:
            w(f'  | {ln(n)}_{i} => exact fun h => (by cases h)\n');continue
        w(f'  | {ln(n)}_{i} {" ".join(pats)} =>\n'.replace('  =>',' =>'))
        w('    intro _\n')
        for j in hy: w(f'    have h{j} := ih{j} rfl\n')
        m=len(els)
        if m==1 and els[0][0]=='nt' and types[els[0][1]]==t and bb(els[0][1],t)==bb(n,t):
            w('    exact h0\n');continue
        if hy: w('    clear '+' '.join(f'ih{j}' for j in hy)+'\n')
        hs=', '.join(f'h{j}' for j in hy)
        w(f'    simp +decide [{hs+", " if hs else ""}lvs]\n'.replace('lvs',defs))
w('\nend Verif.Sql.Writing\n')
open('/verif/lean/Verif/Proof/SqlLeaves.lean','w').write(''.join(o))
