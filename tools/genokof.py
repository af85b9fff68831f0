from gengram import *
o=[];w=o.append
by={'sqlStatement':'Writable v','statement':'StatementOk v','insertStatement':'StatementOk (.insert v)','deleteStatement':'StatementOk (.delete v)','updateStatement':'StatementOk (.update v)',
'assignments':'v ≠ [] ∧ ∀ a ∈ v, AssignmentOk a','assignment':'AssignmentOk v','selectStatement':'SelectOk v','tableExpressions':'CtesOk v','commonTableExpressionList':'CtesOk v','commonTableExpression':'CtesOk [v]',
'selectCoreList':'SetExprOk v','selectCore':'Simple v ∧ SetExprOk v','tupleList':'v ≠ [] ∧ RowsOk v','tuple':'v ≠ [] ∧ ExprsOk v','expressionList':'v ≠ [] ∧ ExprsOk v','resultColumns':'ResultColumnsOk v',
'resultColumnList':'v ≠ [] ∧ ColumnsOk v','resultColumn':'ColumnsOk [v]','qualifiedIdentifier':'QualifiedOk v','fromClause':'TablesOk v','tableExpressionList':'TablesOk v','tableExpression':'TableOk v','tableOrSubQuery':'TableOk v',
'tableAlias':'NameOk v','joinConstraint':'ConstraintOk v','identifierList':'NamesOk v','columnNameList':'NamesOk v','groupByClause':'GroupOk (some v)','orderByClause':'TermsOk v','orderingTermList':'TermsOk v','orderingTerm':'TermsOk [v]',
'orderingCollation':'NameOk v','limitClause':'LimitOk (some v)','attachStatement':'Writable (.attach v)','describeStatement':'Writable (.describe v)','schemaName':'NameOk v','whenClauses':'v ≠ [] ∧ WhensOk v','whenClause':'WhensOk [v]',
'literalValue':'LiteralOk v','identifier':'NameOk v','numericLiteral':'NumberOk v','stringLiteral':'StringOk v'}
w('''import Verif.Proof.SqlWriting
/-!
# Statements with a text can be written
-/

namespace Verif.Sql.Writing
open Grammar Lexing

theorem exprsOk_append {a b : List (Expr Name)} : ExprsOk (a ++ b) ↔ ExprsOk a ∧ ExprsOk b := by
  induction a with
  | nil => simp [ExprsOk]
  | cons x a ih => simp [ExprsOk, ih, and_assoc]

theorem rowsOk_append {a b : List (List (Expr Name))} : RowsOk (a ++ b) ↔ RowsOk a ∧ RowsOk b := by
  induction a with
  | nil => simp [RowsOk]
  | cons x a ih => simp [RowsOk, ih, and_assoc]

theorem ctesOk_append {a b : List (Cte Name)} : CtesOk (a ++ b) ↔ CtesOk a ∧ CtesOk b := by
  induction a with
  | nil => simp [CtesOk]
  | cons x a ih => cases x; simp [CtesOk, ih, and_assoc]

theorem termsOk_append {a b : List (OrderTerm Name)} : TermsOk (a ++ b) ↔ TermsOk a ∧ TermsOk b := by
  induction a with
  | nil => simp [TermsOk]
  | cons x a ih => cases x; simp [TermsOk, ih, and_assoc]

theorem tablesOk_append {a b : List (TableExpr Name)} : TablesOk (a ++ b) ↔ TablesOk a ∧ TablesOk b := by
  induction a with
  | nil => simp [TablesOk]
  | cons x a ih => simp [TablesOk, ih, and_assoc]

theorem columnsOk_append {a b : List (ResultColumn Name)} : ColumnsOk (a ++ b) ↔ ColumnsOk a ∧ ColumnsOk b := by
  induction a with
  | nil => simp [ColumnsOk]
  | cons x a ih => cases x <;> simp [ColumnsOk, ih, and_assoc]

theorem whensOk_append {a b : List (When Name)} : WhensOk (a ++ b) ↔ WhensOk a ∧ WhensOk b := by
  induction a with
  | nil => simp [WhensOk]
  | cons x a ih => cases x; simp [WhensOk, ih, and_assoc]

/-- What is known of the value of words. -/
def OkOf : (s : Nt) → Grammar.Ty s → Prop
''')
for n,t,_ in G:
    b=by.get(ln(n),'ExprOk v' if t=='Expr Name' else 'True')
    w(f'  | .{ln(n)}, {"v" if b!="True" else "_"} => {b}\n')
w('''  | .tok _, _ => True
  | .opt _, none => True
  | .opt s, some v => OkOf s v

theorem optOk_names {o : Option (List Name)} (h : OkOf (.opt .columnNameList) o) : ∀ ns, o = some ns → NamesOk ns := by
  rintro ns rfl
  exact h

theorem optOk_alias {o : Option Name} (h : OkOf (.opt .tableAlias) o) : OptionOk o := by
  rintro n rfl
  exact h

theorem optOk_collation {o : Option Name} (h : OkOf (.opt .orderingCollation) o) : OptionOk o := by
  rintro n rfl
  exact h

theorem optOk_schema {o : Option Name} {n : Name} (h : OkOf (.opt .schemaName) o) (hn : NameOk n) :
    (o.toList ++ [n]).length ≤ 2 ∧ QualifiedOk (o.toList ++ [n]) := by
  cases o with
  | none => exact ⟨by simp, by simp, by simpa using hn⟩
  | some m => exact ⟨by simp, by simp, by simpa using ⟨h, hn⟩⟩

theorem optOk_order {o : Option (List (OrderTerm Name))} (h : OkOf (.opt .orderByClause) o) : TermsOk (o.getD []) := by
  cases o
  · simp [TermsOk]
  · exact h

theorem optOk_limit {o : Option (Limit Name)} (h : OkOf (.opt .limitClause) o) : LimitOk o := by
  cases o
  · simp [LimitOk]
  · exact h

theorem optOk_where {o : Option (Expr Name)} (h : OkOf (.opt .whereClause) o) : ExprOptionOk o := by
  cases o
  · simp [ExprOptionOk]
  · rw [ExprOptionOk]
    exact h

theorem optOk_else {o : Option (Expr Name)} (h : OkOf (.opt .elseClause) o) : ExprOptionOk o := by
  cases o
  · simp [ExprOptionOk]
  · rw [ExprOptionOk]
    exact h

theorem optOk_expr {o : Option (Expr Name)} (h : OkOf (.opt .expression) o) : ExprOptionOk o := by
  cases o
  · simp [ExprOptionOk]
  · rw [ExprOptionOk]
    exact h

theorem optOk_group {o : Option (GroupBy Name)} (h : OkOf (.opt .groupByClause) o) : GroupOk o := by
  cases o
  · simp [GroupOk]
  · exact h

set_option linter.unusedSimpArgs false in
theorem gr_okOf {s : Nt} {w : List Lexeme} {v : Grammar.Ty s} (h : Gr s w v) : AllWords w → OkOf s v := by
  induction h with
  | tok => intro _; trivial
  | optNone => intro _; trivial
  | optSome _ ih => exact ih
''')
defs='OkOf, Writable, StatementOk, AssignmentOk, SelectOk, CtesOk, SetExprOk, Simple, RowsOk, ExprsOk, ResultColumnsOk, ColumnsOk, QualifiedOk, TablesOk, TableOk, ConstraintOk, NamesOk, GroupOk, TermsOk, LimitOk, WhensOk, LiteralOk, NumberOk, NameOk, StringOk, OptionOk, ExprOk, ExprOptionOk, SetSpecOk, exprsOk_append, rowsOk_append, ctesOk_append, termsOk_append, tablesOk_append, columnsOk_append, whensOk_append'
special={('SelectStatement',1):'⟨h0, h1, optOk_order h2, optOk_limit h3⟩',('SelectStatement',2):'⟨trivial, h0, optOk_order h1, optOk_limit h2⟩',
('SelectCore',1):'⟨trivial, h2, trivial, optOk_where h3, optOk_group h4⟩',('SelectCore',2):'⟨trivial, h2, h3, optOk_where h4, optOk_group h5⟩',
('InsertStatement',1):'⟨h3, optOk_names h4, h5⟩',('DeleteStatement',1):'⟨h3, optOk_where h4⟩',('UpdateStatement',1):'⟨h2, h4.1, h4.2, optOk_where h5⟩',
('CaseExpression',1):'⟨optOk_expr h1, h2.1, h2.2, optOk_else h3⟩',('Statement',4):'h0',('Statement',3):'h0',('Statement',2):'h0',('Statement',1):'h0',
('Assignments',2):'⟨by simp, fun a ha => (List.mem_append.mp ha).elim (h0.2 a) fun h => by rw [List.mem_singleton.mp h]; exact h2⟩',
('IdentifierList',2):'⟨by simp, fun a ha => (List.mem_append.mp ha).elim (h0.2 a) fun h => by rw [List.mem_singleton.mp h]; exact h2⟩',
('PrimaryExpression',2):'⟨by have := List.length_pos_iff.mpr h1.1; omega, h1.2⟩',
('TableOrSubQuery',1):'⟨h0, optOk_alias h1⟩',('TableOrSubQuery',2):'⟨h1, optOk_alias h3⟩',('OrderingTerm',1):'⟨h0, optOk_collation h1, trivial⟩',
('AttachStatement',1):'⟨h2, optOk_schema h4 h5⟩',('DescribeStatement',1):'optOk_schema h1 h2',
('Identifier',1):'(allWords_cons.mp hw).1',('StringLiteral',1):'(allWords_cons.mp hw).1',('NumericLiteral',1):'.inl (allWords_cons.mp hw).1',('NumericLiteral',2):'.inr (.inl (allWords_cons.mp hw).1)',('NumericLiteral',3):'.inr (.inr (allWords_cons.mp hw).1)'}
for n,t,alts in G:
    for i,(els,val,cond,body) in enumerate(alts,1):
        hy=[j for j,e in enumerate(els) if e[0]!='tok']
        pats=['_' for _ in hy]+(['hc'] if cond else [])+[f'ih{j}' for j in hy]
        w(f'  | {ln(n)}_{i} {" ".join(pats)} =>\n'.replace('  =>',' =>'))
        b=by.get(ln(n),'ExprOk v' if t=='Expr Name' else 'True')
        if b=='True':
            w('    exact fun _ => trivial\n');continue
        w('    intro hw\n')
        m=len(els);c='hw'
        for j,(kd,e,v) in enumerate(els):
            last=j==m-1
            if kd=='tok': c=f'(allWords_cons.mp {c}).2'
            else:
                w(f'    have h{j} := ih{j} '+(c if last else f'(allWords_append.mp {c}).1')+'\n')
                c=f'(allWords_append.mp {c}).2'
        if (n,i) in special: w('    exact '+special[(n,i)]+'\n');continue
        if m==1 and els[0][0]=='nt' and types[els[0][1]]==t and by.get(ln(els[0][1]),'ExprOk v' if t=='Expr Name' else 'True')==b:
            w('    exact h0\n');continue
        w('    clear hw '+' '.join(f'ih{j}' for j in hy)+'\n')
        w('    simp_all ['+defs+']\n')
w('\nend Verif.Sql.Writing\n')
open('/verif/lean/Verif/Proof/SqlWritable.lean','w').write(''.join(o))
