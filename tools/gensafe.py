from gengram import *
o=[];w=o.append
byT={'SqlStatement Name':'v.Safe','Statement Name':'v.Safe','InsertStatement Name':'v.source.Safe','DeleteStatement Name':'Expr.OptionSafe v.wher',
'UpdateStatement Name':'(∀ a ∈ v.assignments, a.expr.Safe) ∧ Expr.OptionSafe v.wher','List (Assignment Name)':'∀ a ∈ v, a.expr.Safe','Assignment Name':'v.expr.Safe',
'Select Name':'v.Safe','List (Cte Name)':'Cte.AllSafe v','Cte Name':'Cte.AllSafe [v]','SetExpr Name':'v.Safe',
'List (List (Expr Name))':'v ≠ [] ∧ Expr.RowsSafe v','List (Expr Name)':'v ≠ [] ∧ Expr.AllSafe v',
'ResultColumns Name':'v.Safe','List (ResultColumn Name)':'ResultColumn.AllSafe v',
'ResultColumn Name':'ResultColumn.AllSafe [v]',
'List (TableExpr Name)':'TableExpr.AllSafe v','TableExpr Name':'v.Safe',
'Expr Name':'v.Safe ∧ (v.IsTuple → ∃ k t r, w = (k, t) :: r ∧ (k = .lpar ∨ k = .plus))','GroupBy Name':'GroupBy.OptionSafe (some v)',
'List (OrderTerm Name)':'OrderTerm.AllSafe v',
'OrderTerm Name':'OrderTerm.AllSafe [v]',
'Limit Name':'Limit.OptionSafe (some v)',
'List (When Name)':'v ≠ [] ∧ When.AllSafe v ∧ ∀ x ∈ v, ¬ x.result.IsTuple','When Name':'When.AllSafe [v] ∧ ¬ v.result.IsTuple'}
w('''import Verif.Spec.SqlRespelt
import Verif.Spec.SqlSafe
import Verif.Spec.SqlSound
/-!
# Statements without panics, from their words

Statements in which no `(` is followed by `)` and no THEN by `(` or `+` are safe.
-/

namespace Verif.Sql

def When.result {N : Type} : When N → Expr N
  | .mk _ b => b

end Verif.Sql

namespace Verif.Sql.Grammar

theorem Calm.tail {x : Lexeme} {w : List Lexeme} (h : Calm (x :: w)) : Calm w :=
  fun a k t k' t' b e => h (x :: a) k t k' t' b (by rw [e]; rfl)

theorem Calm.left {v w : List Lexeme} (h : Calm (v ++ w)) : Calm v :=
  fun a k t k' t' b e => h a k t k' t' (b ++ w) (by rw [e]; simp)

theorem Calm.right {v w : List Lexeme} (h : Calm (v ++ w)) : Calm w :=
  fun a k t k' t' b e => h (v ++ a) k t k' t' b (by rw [e]; simp)

theorem Calm.empty_list {w : List Lexeme} {t t'} (h : Calm ((.lpar, t) :: (.rpar, t') :: w)) : False :=
  (h [] _ _ _ _ _ rfl).1 ⟨rfl, rfl⟩

theorem Calm.then_tuple {w : List Lexeme} {t k t'} (h : Calm ((.THEN, t) :: (k, t') :: w))
    (hk : k = .lpar ∨ k = .plus) : False :=
  (h [] _ _ _ _ _ rfl).2 ⟨rfl, hk⟩

theorem allSafe_append {a b : List (Expr Name)} : Expr.AllSafe (a ++ b) ↔ Expr.AllSafe a ∧ Expr.AllSafe b := by
  induction a with
  | nil => simp [Expr.AllSafe]
  | cons x a ih => simp [Expr.AllSafe, ih, and_assoc]

theorem rowsSafe_append {a b : List (List (Expr Name))} :
    Expr.RowsSafe (a ++ b) ↔ Expr.RowsSafe a ∧ Expr.RowsSafe b := by
  induction a with
  | nil => simp [Expr.RowsSafe]
  | cons x a ih => simp [Expr.RowsSafe, ih, and_assoc]

theorem ctesSafe_append {a b : List (Cte Name)} : Cte.AllSafe (a ++ b) ↔ Cte.AllSafe a ∧ Cte.AllSafe b := by
  induction a with
  | nil => simp [Cte.AllSafe]
  | cons x a ih => cases x; simp [Cte.AllSafe, ih, and_assoc]

theorem termsSafe_append {a b : List (OrderTerm Name)} :
    OrderTerm.AllSafe (a ++ b) ↔ OrderTerm.AllSafe a ∧ OrderTerm.AllSafe b := by
  induction a with
  | nil => simp [OrderTerm.AllSafe]
  | cons x a ih => cases x; simp [OrderTerm.AllSafe, ih, and_assoc]

theorem tablesSafe_append {a b : List (TableExpr Name)} :
    TableExpr.AllSafe (a ++ b) ↔ TableExpr.AllSafe a ∧ TableExpr.AllSafe b := by
  induction a with
  | nil => simp [TableExpr.AllSafe]
  | cons x a ih => simp [TableExpr.AllSafe, ih, and_assoc]

theorem columnsSafe_append {a b : List (ResultColumn Name)} :
    ResultColumn.AllSafe (a ++ b) ↔ ResultColumn.AllSafe a ∧ ResultColumn.AllSafe b := by
  induction a with
  | nil => simp [ResultColumn.AllSafe]
  | cons x a ih => cases x <;> simp [ResultColumn.AllSafe, ih, and_assoc]

theorem whensSafe_append {a b : List (When Name)} : When.AllSafe (a ++ b) ↔ When.AllSafe a ∧ When.AllSafe b := by
  induction a with
  | nil => simp [When.AllSafe]
  | cons x a ih => cases x; simp [When.AllSafe, ih, and_assoc]

theorem goodBranches_of {l : List (When Name)} (h : l ≠ []) (h' : ∀ x ∈ l, ¬ x.result.IsTuple) : GoodBranches l := by
  match l with
  | [] => exact absurd rfl h
  | [.mk g b] => exact fun es he => h' _ (List.mem_singleton.mpr rfl) ⟨es, he⟩
  | _ :: _ :: _ => simp [GoodBranches]

/-- What is known of the value of calm words. -/
def SafeOf : (s : Nt) → List Lexeme → Ty s → Prop
''')
for n,t,_ in G:
    b=byT.get(t,'True')
    if n in('WhereClause','ElseClause'): b='v.Safe'
    w(f'  | .{ln(n)}, {"w" if "w =" in b else "_"}, {"v" if b!="True" else "_"} => {b}\n')
w('''  | .tok _, _, _ => True
  | .opt _, _, none => True
  | .opt s, w, some v => SafeOf s w v

theorem optSafe_order {w : List Lexeme} {o : Option (List (OrderTerm Name))} (h : SafeOf (.opt .orderByClause) w o) :
    OrderTerm.AllSafe (o.getD []) := by
  cases o
  · trivial
  · exact h

theorem optSafe_limit {w : List Lexeme} {o : Option (Limit Name)} (h : SafeOf (.opt .limitClause) w o) :
    Limit.OptionSafe o := by
  cases o
  · trivial
  · exact h

theorem optSafe_where {w : List Lexeme} {o : Option (Expr Name)} (h : SafeOf (.opt .whereClause) w o) :
    Expr.OptionSafe o := by
  cases o
  · trivial
  · exact h

theorem optSafe_group {w : List Lexeme} {o : Option (GroupBy Name)} (h : SafeOf (.opt .groupByClause) w o) :
    GroupBy.OptionSafe o := by
  cases o
  · trivial
  · exact h

set_option linter.unusedSimpArgs false in
theorem gr_safe {s : Nt} {w : List Lexeme} {v : Ty s} (h : Gr s w v) : Calm w → SafeOf s w v := by
  induction h with
  | tok => intro _; trivial
  | optNone => intro _; trivial
  | optSome _ ih => exact ih
''')
defs='SafeOf, SqlStatement.Safe, Statement.Safe, Select.Safe, Cte.AllSafe, Expr.Safe, Expr.AllSafe, Expr.OptionSafe, Expr.RowsSafe, When.AllSafe, When.result, SetSpec.Safe, SetExpr.Safe, TableExpr.Safe, TableExpr.AllSafe, ResultColumns.Safe, ResultColumn.AllSafe, GroupBy.OptionSafe, OrderTerm.AllSafe, Limit.OptionSafe, allSafe_append, rowsSafe_append, whensSafe_append, ctesSafe_append, tablesSafe_append, termsSafe_append, columnsSafe_append'
cur=None
for n,t,alts in G:
    for i,(els,val,cond,body) in enumerate(alts,1):
        hy=[j for j,e in enumerate(els) if e[0]!='tok']
        nts_=[f't{j}' for j,e in enumerate(els) if e[0]=='tok']
        vsn=[]
        for j in hy:
            v=els[j][2] or f'o{j}'
            vsn.append('e' if v=='[e]' else v)
        bt={}
        for j,v in zip(hy,vsn):
            kd,e=els[j][0],els[j][1]
            ty='Option Str' if kd=='opttok' else ('Option '+wrapT(types[e]) if kd=='optnt' else ('Expr Name' if els[j][2]=='[e]' else types[e]))
            bt.setdefault(ty,[]).append(v)
        order=[v for vs in bt.values() for v in vs]
        imps=['_']*len(hy)+nts_+['v'+v for v in order]
        pats=imps+['_' for _ in hy]+(['hc'] if cond else [])+[f'ih{j}' for j in hy]
        w(f'  | @{ln(n)}_{i} {" ".join(pats)} =>\n'.replace('  =>',' =>'))
        if byT.get(t,'True')=='True':
            w('    exact fun _ => trivial\n');continue
        w('    intro hw\n')
        m=len(els)
        c='hw'
        if (n,i) in (('ComparativeExpression',14),('ComparativeExpression',15)):
            w('    exact absurd hw.right'+'.tail'*(i-13)+'.empty_list (fun h => h)\n');continue
        if n=='WhenClause':
            w('''    have h1 := ih1 hw.tail.left
    have h3 := ih3 hw.tail.right.tail
    refine ⟨⟨h1.1, h3.1, trivial⟩, fun hb => ?_⟩
    obtain ⟨k, t, r, rfl, hk⟩ := h3.2 hb
    exact hw.tail.right.then_tuple hk
''');continue
        for j,(kd,e,v) in enumerate(els):
            last=j==m-1
            if kd=='tok':
                c+='.tail'
            else:
                w(f'    have h{j} := ih{j} {c}'+('' if last else '.left')+'\n')
                c+='.right'
        opts=[(j,v) for j,v in zip(hy,vsn) if els[j][0]=='optnt']
        if n=='SelectStatement':
            w('    exact '+('⟨h0, h1, optSafe_order h2, optSafe_limit h3⟩' if i==1 else '⟨trivial, h0, optSafe_order h1, optSafe_limit h2⟩')+'\n');continue
        if n=='SelectCore' and i<3:
            w('    exact '+('⟨h2, trivial, optSafe_where h3, optSafe_group h4⟩' if i==1 else '⟨h2, h3, optSafe_where h4, optSafe_group h5⟩')+'\n');continue
        if n in('InsertStatement',): w('    exact h5\n');continue
        if n in('DeleteStatement',): w('    exact optSafe_where h4\n');continue
        if n in('UpdateStatement',): w('    exact ⟨h4, optSafe_where h5⟩\n');continue
        if n=='CaseExpression':
            w('''    refine ⟨?_, fun hb => ?_⟩
    · refine ⟨?_, goodBranches_of h2.1 h2.2.2, h2.2.1, ?_⟩
      · cases ve
        · trivial
        · exact h1.1
      · cases vo
        · trivial
        · exact h3
    · obtain ⟨_, hb⟩ := hb
      cases hb
''');continue
        if t=='Expr Name':
            if val.startswith('(.tuple') or val.startswith('.tuple'):
                w('    exact ⟨h1.2, fun _ => ⟨_, _, _, rfl, .inl rfl⟩⟩\n');continue
            if n=='PrimaryExpression' and i==1: w('    exact ⟨h1.2.1, fun _ => ⟨_, _, _, rfl, .inl rfl⟩⟩\n');continue
            if len(els)==1 and n!='PrimaryExpression': w('    exact h0\n');continue
            if val in ('e',):
                if n in('WhereClause','ElseClause'): w('    exact h1.1\n');continue
                w('''    exact ⟨h1.1, fun _ => ⟨_, _, _, rfl, .inr rfl⟩⟩
''');continue
            w('''    refine ⟨?_, fun hb => ?_⟩
    · simp_all ['''+defs+''']
    · obtain ⟨_, hb⟩ := hb
      cases hb
''');continue
        if n=='Assignments' and i==2: w('''    intro a ha
    rcases List.mem_append.mp ha with ha | ha
    · exact h0 a ha
    · rw [List.mem_singleton.mp ha]
      exact h2
''');continue
        if n=='WhenClause+' and i==2: w('''    refine ⟨by simp, whensSafe_append.mpr ⟨h0.2.1, h1.1⟩, fun x hx => ?_⟩
    rcases List.mem_append.mp hx with hx | hx
    · exact h0.2.2 x hx
    · rw [List.mem_singleton.mp hx]
      exact h1.2
''');continue
        w('    simp_all ['+defs+']\n')
w('\nend Verif.Sql.Grammar\n')
open('/verif/lean/Verif/Proof/SqlWordsSafe.lean','w').write(''.join(o))
