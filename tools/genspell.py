from gengram import *
o=[];w=o.append
rel={
'SqlStatement':'a.map f = b.map f','Statement':'a.map f = b.map f','InsertStatement':'a.map f = b.map f',
'ColumnNameList':'a.map f = b.map f','DeleteStatement':'a.map f = b.map f','UpdateStatement':'a.map f = b.map f',
'Assignments':'a.map (Assignment.map f) = b.map (Assignment.map f)','Assignment':'a.map f = b.map f',
'SelectStatement':'a.map f = b.map f','TableExpressions':'Cte.mapList f a = Cte.mapList f b',
'CommonTableExpressionList':'Cte.mapList f a = Cte.mapList f b','CommonTableExpression':'a.map f = b.map f',
}
byT={'SetExpr Name':'a.map f = b.map f','SetOperator':'a = b','SelectMode':'a = b',
'List (List (Expr Name))':'Expr.mapRows f a = Expr.mapRows f b','List (Expr Name)':'Expr.mapList f a = Expr.mapList f b',
'ResultColumns Name':'a.map f = b.map f','List (ResultColumn Name)':'ResultColumn.mapList f a = ResultColumn.mapList f b',
'ResultColumn Name':'ResultColumn.mapList f [a] = ResultColumn.mapList f [b]','List Name':'a.map f = b.map f',
'List (TableExpr Name)':'TableExpr.mapList f a = TableExpr.mapList f b','TableExpr Name':'a.map f = b.map f',
'Name':'f a = f b','JoinOperator':'a = b','JoinType':'a = b','JoinConstraint Name':'a.map f = b.map f',
'Expr Name':'a.map f = b.map f','GroupBy Name':'GroupBy.mapOption f (some a) = GroupBy.mapOption f (some b)',
'List (OrderTerm Name)':'OrderTerm.mapList f a = OrderTerm.mapList f b',
'OrderTerm Name':'OrderTerm.mapList f [a] = OrderTerm.mapList f [b]','OrderingDirection':'a = b',
'Limit Name':'Limit.mapOption f (some a) = Limit.mapOption f (some b)',
'AttachStatement Name':'a.qualifiedName.map f = b.qualifiedName.map f ∧ a.path = b.path','DescribeStatement Name':'a.qualifiedName.map f = b.qualifiedName.map f',
'List (When Name)':'When.mapList f a = When.mapList f b','When Name':'When.mapList f [a] = When.mapList f [b]',
'Literal':'a = b','Str':'a = b'}
w('''import Verif.Spec.SqlRespelt
/-!
# Words spelt differently

A statement whose words are spelt differently is a statement again, and stands for the same up to the replacement of
identifiers.
-/

namespace Verif.Sql.Grammar

variable {K : Type} {f : Name → K}

theorem Respelt.split {a b w : List Lexeme} (h : Respelt f (a ++ b) w) :
    ∃ a' b', w = a' ++ b' ∧ Respelt f a a' ∧ Respelt f b b' := by
  induction a generalizing w with
  | nil => exact ⟨[], w, rfl, .nil, h⟩
  | cons x a ih =>
    cases h with
    | cons hx h =>
      obtain ⟨a', b', rfl, h1, h2⟩ := ih h
      exact ⟨_ :: a', b', rfl, .cons hx h1, h2⟩

theorem Respelt.word {k : Kind} {t : Str} {r w : List Lexeme} (h : Respelt f ((k, t) :: r) w) :
    ∃ t' r', w = (k, t') :: r' ∧ SameWord f (k, t) (k, t') ∧ Respelt f r r' := by
  cases h with
  | @cons x y _ r' hx h =>
    obtain ⟨k', t'⟩ := y
    obtain rfl : k = k' := hx.1
    exact ⟨t', r', rfl, hx, h⟩

theorem Respelt.none {w : List Lexeme} (h : Respelt f [] w) : w = [] := by
  cases h
  rfl

section
variable (f)

theorem mapList_append (a b : List (Expr Name)) : Expr.mapList f (a ++ b) = Expr.mapList f a ++ Expr.mapList f b := by
  induction a with
  | nil => rfl
  | cons x a ih => simp [Expr.mapList, ih]

theorem mapList_length (a : List (Expr Name)) : (Expr.mapList f a).length = a.length := by
  induction a with
  | nil => rfl
  | cons x a ih => simp [Expr.mapList, ih]

theorem mapRows_append (a b : List (List (Expr Name))) :
    Expr.mapRows f (a ++ b) = Expr.mapRows f a ++ Expr.mapRows f b := by
  induction a with
  | nil => rfl
  | cons x a ih => simp [Expr.mapRows, ih]

theorem mapWhens_append (a b : List (When Name)) :
    When.mapList f (a ++ b) = When.mapList f a ++ When.mapList f b := by
  induction a with
  | nil => rfl
  | cons x a ih => cases x; simp [When.mapList, ih]

theorem mapCtes_append (a b : List (Cte Name)) :
    Cte.mapList f (a ++ b) = Cte.mapList f a ++ Cte.mapList f b := by
  induction a with
  | nil => rfl
  | cons x a ih => simp [Cte.mapList, ih]

theorem mapTables_append (a b : List (TableExpr Name)) :
    TableExpr.mapList f (a ++ b) = TableExpr.mapList f a ++ TableExpr.mapList f b := by
  induction a with
  | nil => rfl
  | cons x a ih => simp [TableExpr.mapList, ih]

theorem mapTerms_append (a b : List (OrderTerm Name)) :
    OrderTerm.mapList f (a ++ b) = OrderTerm.mapList f a ++ OrderTerm.mapList f b := by
  induction a with
  | nil => rfl
  | cons x a ih => cases x; simp [OrderTerm.mapList, ih]

theorem mapColumns_append (a b : List (ResultColumn Name)) :
    ResultColumn.mapList f (a ++ b) = ResultColumn.mapList f a ++ ResultColumn.mapList f b := by
  induction a with
  | nil => rfl
  | cons x a ih => cases x <;> simp [ResultColumn.mapList, ih]

/-- Values that are the same after the replacement of identifiers. -/
def Same : (s : Nt) → Ty s → Ty s → Prop
''')
for n,t,_ in G: w(f'  | .{ln(n)}, a, b => {rel.get(n) or byT[t]}\n')
w('''  | .tok _, _, _ => True
  | .opt _, none, none => True
  | .opt s, some a, some b => Same s a b
  | .opt _, none, some _ => False
  | .opt _, some _, none => False

end

''')
defs='Same, SqlStatement.map, Statement.map, InsertStatement.map, DeleteStatement.map, UpdateStatement.map, Assignment.map, Select.map, Cte.map, Cte.mapList, Expr.map, Expr.mapList, Expr.mapOption, Expr.mapRows, When.mapList, SetSpec.map, SetExpr.map, TableExpr.map, TableExpr.mapList, JoinConstraint.map, ResultColumns.map, ResultColumn.mapList, GroupBy.mapOption, OrderTerm.mapList, Limit.mapOption, mapList_append, mapRows_append, mapWhens_append, mapCtes_append, mapTables_append, mapTerms_append, mapColumns_append'
w('''theorem same_order {a b : Option (List (OrderTerm Name))} (h : Same f (.opt .orderByClause) a b) :
    OrderTerm.mapList f (a.getD []) = OrderTerm.mapList f (b.getD []) := by
  cases a <;> cases b
  · rfl
  · exact False.elim h
  · exact False.elim h
  · exact h

theorem same_where {a b : Option (Expr Name)} (h : Same f (.opt .whereClause) a b) :
    Expr.mapOption f a = Expr.mapOption f b := by
  cases a <;> cases b
  · rfl
  · exact False.elim h
  · exact False.elim h
  · exact congrArg some h

theorem same_group {a b : Option (GroupBy Name)} (h : Same f (.opt .groupByClause) a b) :
    GroupBy.mapOption f a = GroupBy.mapOption f b := by
  cases a <;> cases b
  · rfl
  · exact False.elim h
  · exact False.elim h
  · exact h

theorem same_query {m m' : SelectMode} {c c' : ResultColumns Name} {t t' : List (TableExpr Name)}
    {p p' : Option (Expr Name)} {g g' : Option (GroupBy Name)} (h1 : m = m') (h2 : c.map f = c'.map f)
    (h3 : TableExpr.mapList f t = TableExpr.mapList f t') (h4 : Expr.mapOption f p = Expr.mapOption f p')
    (h5 : GroupBy.mapOption f g = GroupBy.mapOption f g') :
    Same f .selectCore (.query m c t p g) (.query m' c' t' p' g') := by
  show SetExpr.map f _ = SetExpr.map f _
  rw [SetExpr.map, SetExpr.map, h1, h2, h3, h4, h5]

theorem same_limit {a b : Option (Limit Name)} (h : Same f (.opt .limitClause) a b) :
    Limit.mapOption f a = Limit.mapOption f b := by
  cases a <;> cases b
  · rfl
  · exact False.elim h
  · exact False.elim h
  · exact h

theorem same_select {c c' : List (Cte Name)} {q q' : SetExpr Name} {o o' : List (OrderTerm Name)}
    {l l' : Option (Limit Name)} (h1 : Cte.mapList f c = Cte.mapList f c') (h2 : q.map f = q'.map f)
    (h3 : OrderTerm.mapList f o = OrderTerm.mapList f o') (h4 : Limit.mapOption f l = Limit.mapOption f l') :
    Same f .selectStatement (.mk c q o l) (.mk c' q' o' l') := by
  show Select.map f _ = Select.map f _
  rw [Select.map, Select.map, h1, h2, h3, h4]

''')
w('''macro "same_tac" : tactic => `(tactic| (
  simp only ['''+defs+''', List.map_append, List.map_cons, List.map_nil, List.append_cancel_right_eq,
    Option.getD_none, Option.getD_some, Option.toList_none, Option.toList_some, List.nil_append, List.cons_append,
    Option.map_none, Option.map_some, List.cons.injEq, and_true, true_and, SqlStatement.statement.injEq] at * <;>
  simp_all))

set_option maxHeartbeats 1600000 in
theorem gr_respell {s : Nt} {w : List Lexeme} {v : Ty s} (h : Gr s w v) :
    ∀ {w'}, Respelt f w w' → ∃ v', Gr s w' v' ∧ Same f s v v' := by
  induction h with
  | tok =>
    intro w' hr
    obtain ⟨t, r, rfl, h1, hr⟩ := hr.word
    obtain rfl := hr.none
    exact ⟨t, .tok, trivial⟩
  | optNone =>
    intro w' hr
    obtain rfl := hr.none
    exact ⟨none, .optNone, trivial⟩
  | optSome _ ih =>
    intro w' hr
    obtain ⟨v', h1, h2⟩ := ih hr
    exact ⟨some v', .optSome h1, h2⟩
''')
for n,t,alts in G:
    for i,(els,val,cond,body) in enumerate(alts,1):
        hy=[j for j,e in enumerate(els) if e[0]!='tok']
        nts_=[f't{j}' for j,e in enumerate(els) if e[0]=='tok']
        vsn=[]
        for j in hy:
            v=els[j][2] or f'o{j}'
            vsn.append('e' if v=='[e]' else v)
        bt={}
        for j,v in zip(hy,vsn):
            kd,e=els[j][0],els[j][1]
            ty='Option Str' if kd=='opttok' else ('Option '+wrapT(types[e]) if kd=='optnt' else ('Expr Name' if els[j][2]=='[e]' else types[e]))
            bt.setdefault(ty,[]).append(v)
        order=[v for vs in bt.values() for v in vs]
        imps=['_']*len(hy)+nts_+['v'+v for v in order]
        pats=imps+['_' for _ in hy]+(['hc'] if cond else [])+[f'ih{j}' for j in hy]
        w(f'  | @{ln(n)}_{i} {" ".join(pats)} =>\n'.replace('  =>',' =>'))
        w('    intro w\' hr\n')
        m=len(els)
        for j,(kd,e,v) in enumerate(els):
            last=j==m-1
            if kd=='tok':
                w(f'    obtain ⟨s{j}, r{j}, rfl, m{j}, hr⟩ := hr.word\n')
                if last: w('    obtain rfl := hr.none\n')
            elif last: w(f'    have p{j} := hr\n')
            else: w(f'    obtain ⟨a{j}, r{j}, rfl, p{j}, hr⟩ := hr.split\n')
        for j in hy: w(f'    obtain ⟨x{j}, g{j}, q{j}⟩ := ih{j} p{j}\n')
        ctor=f'.{ln(n)}_{i}'
        gs=' '.join(f'g{j}' for j in hy)
        # destruct options used
        opts=[(j,v) for j,v in zip(hy,vsn) if els[j][0]=='optnt']
        special=None
        if n=='Identifier': w(f'    exact ⟨_, .identifier_1, m0.2.2 rfl⟩\n');continue
        if n in('NumericLiteral',): w(f'    obtain rfl := m0.2.1 (by simp)\n    exact ⟨_, {ctor}, rfl⟩\n');continue
        if n=='StringLiteral': w(f'    obtain rfl := m0.2.1 (by simp)\n    exact ⟨_, .stringLiteral_1, rfl⟩\n');continue
        if n=='PrimaryExpression' and i==1:
            w('''    match x1, g1, q1 with
    | [], _, q1 => simp [Same, Expr.mapList] at q1
    | [e'], g1, q1 => exact ⟨_, .primaryExpression_1 g1, by simpa [Same, Expr.mapList] using q1⟩
    | _ :: _ :: _, _, q1 => simp [Same, Expr.mapList] at q1
''');continue
        if cond:
            w('''    refine ⟨_, .primaryExpression_2 g1 ?_, ?_⟩
    · have := congrArg List.length q1
      rw [mapList_length, mapList_length] at this
      omega
    · simpa [Same, Expr.map] using q1
''');continue
        if n=='SelectStatement':
            c,q,oo,l=('q0','q1','q2','q3') if i==1 else ('rfl','q0','q1','q2')
            w(f'    exact ⟨_, {ctor} {gs}, same_select {c} {q} (same_order {oo}) (same_limit {l})⟩\n');continue
        if n=='SelectCore' and i<3:
            fr,p,g=('rfl','q3','q4') if i==1 else ('q3','q4','q5')
            w(f'    exact ⟨_, {ctor} {gs}, same_query q1 q2 {fr} (same_where {p}) (same_group {g})⟩\n');continue
        w(f'    refine ⟨_, {ctor} {gs}, ?_⟩\n'.replace(' ,',','))
        w('    clear '+' '.join([f'g{j}' for j in hy]+[f'ih{j}' for j in hy]+[f'p{j}' for j in hy])+'\n' if hy else '')
        ind='    '
        for j,v in opts: w(f'    all_goals rcases v{v} with _ | v{v} <;> rcases x{j} with _ | x{j} <;> try exact False.elim q{j}\n')
        w('    all_goals same_tac\n')
w('\nend Verif.Sql.Grammar\n')
open('/verif/lean/Verif/Proof/SqlRespelt.lean','w').write(''.join(o))
