from gengram import *
o=[];w=o.append
w('''import Verif.Spec.SqlSynonyms
/-!
# Words that can be left out or replaced make no difference
-/

namespace Verif.Sql.Writing
open Grammar

/-- What is known of the plain words of a category. -/
def PlainOf : (s : Nt) → List Lexeme → Grammar.Ty s → Prop
  | .tok k, w, v => w = [(k, v)]
  | .joinType, w, v => ∃ j : Option JoinType, Gr (.opt .joinType) (w.flatMap plain) j ∧ j.getD .inner = v
  | .opt (.tok k), w, _ => k = .ALL ∨ k = .AS ∨ k = .OUTER ∨ k = .ASC →
    ∃ j : Option Str, Gr (.opt (.tok k)) (w.flatMap plain) j
  | .opt .joinType, w, v => ∃ j : Option JoinType, Gr (.opt .joinType) (w.flatMap plain) j ∧
    j.getD .inner = Option.getD (α := JoinType) v .inner
  | .opt (.opt _), _, _ => True
  | .opt s, w, v => Gr (.opt s) (w.flatMap plain) v
  | s, w, v => Gr s (w.flatMap plain) v

set_option linter.unusedSimpArgs false in
theorem gr_plainOf {s : Nt} {w : List Lexeme} {v : Grammar.Ty s} (h : Gr s w v) : PlainOf s w v := by
  induction h with
  | tok => rfl
  | @optNone s =>
    cases s <;> first | exact .optNone | exact trivial | exact ⟨none, .optNone, rfl⟩ | exact fun _ => ⟨none, .optNone⟩
  | @optSome s w v _ ih =>
    cases s <;> first | exact .optSome ih | exact trivial | skip
    · exact ih
    · cases (ih : w = [(_, v)])
      rintro (rfl | rfl | rfl | rfl)
      · exact ⟨_, .optSome (.tok (t := v))⟩
      · exact ⟨_, .optSome (.tok (t := v))⟩
      · exact ⟨none, .optNone⟩
      · exact ⟨none, .optNone⟩
''')
special={('JoinType',1):'by\n      obtain ⟨j, hj⟩ := ih1 (by simp)\n      exact ⟨_, .optSome (.joinType_1 hj), rfl⟩',
('JoinType',2):'by\n      obtain ⟨j, hj⟩ := ih1 (by simp)\n      exact ⟨_, .optSome (.joinType_2 hj), rfl⟩',
('JoinType',3):'by\n      obtain ⟨j, hj⟩ := ih1 (by simp)\n      exact ⟨_, .optSome (.joinType_3 hj), rfl⟩',
('JoinType',4):'⟨none, .optNone, rfl⟩',
}
retarget={('LimitClause',3):('limitClause_2',),}
# find indices
for n,t,alts in G:
    for i,(els,val,cond,body) in enumerate(alts,1):
        if n=='ComparativeExpression' and 'ISNULL' in body: retarget[(n,i)]=[f'comparativeExpression_{j}' for j,a in enumerate(alts,1) if a[3].endswith('IS NULL')]
        if n=='ComparativeExpression' and 'NOTNULL' in body: retarget[(n,i)]=[f'comparativeExpression_{j}' for j,a in enumerate(alts,1) if a[3].endswith('IS NOT NULL')]
for n,t,alts in G:
    for i,(els,val,cond,body) in enumerate(alts,1):
        hy=[j for j,e in enumerate(els) if e[0]!='tok']
        pats=['_' for _ in hy]+(['hc'] if cond else [])+[f'ih{j}' for j in hy]
        w(f'  | {ln(n)}_{i} {" ".join(pats)} =>\n'.replace('  =>',' =>'))
        if (n,i) in special: w(f'    exact {special[(n,i)]}\n');continue
        args=[]
        ind=[]
        post=None
        for j in hy:
            kd,e,v=els[j]
            if kd=='opttok': ind.append(f'    obtain ⟨j{j}, ih{j}⟩ := ih{j} (by simp)\n')
            if ln(e)=='joinType':
                ind.append(f'    obtain ⟨j{j}, ih{j}, e{j}⟩ := ih{j}\n'); post=f'e{j}'
            elif kd in('nt','optnt'): ind.append(f'    replace ih{j} : Gr {"(.opt ."+ln(e)+")" if kd=="optnt" else "."+ln(e)} (List.flatMap plain _) _ := ih{j}\n')
            args.append(f'ih{j}')
        if cond: args.append('hc')
        for x in ind: w(x)
        c=retarget.get((n,i),[f'{ln(n)}_{i}'])[0]
        if post: w(f'    rw [← {post}]\n')
        w(f'    simp only [PlainOf, List.flatMap_append, List.flatMap_cons, List.flatMap_nil, plain, List.cons_append, List.nil_append]\n' if not(len(els)==1 and els[0][0]=='nt') else '')
        w(f'    exact Gr.{c} {" ".join(args)}\n'.replace(' \n','\n'))
w('\nend Verif.Sql.Writing\n')
open('/verif/lean/Verif/Proof/SqlSynonyms.lean','w').write(''.join(o))
