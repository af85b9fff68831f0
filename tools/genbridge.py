import re,itertools
from gengram import *
act=open('/verif/lean/Verif/Model/SqlParserActions.lean').read()
var={}
for m in re.finditer(r'def reduce(\d+) \(st.*?(?=\n/--|\n\ndef)',act,re.S):
    p=int(m.group(1)); vs=re.findall(r'\.ok \(\.variant(\d+) ',m.group(0)); 
    var[prods[p][0]]=int(vs[-1])
ntnum={n:NT[n] for n,_,_ in G}
KI={k:i for i,k in enumerate(kinds)}
# map (nt, rhs) -> p
pm={}
for p,(l,r) in enumerate(prods): pm[(l,tuple(r))]=p
used=set()
o=[];w=o.append
w('''import Verif.Proof.SqlLrComplete
/-!
# From the grammar to derivations of the generated parser

Every derivation of the grammar (`Verif/Spec/SqlGrammar.lean`) is one with the productions of the parser, where
optional parts have been expanded, and the reductions compute the value the grammar gives.
-/

namespace Verif.Sql.Parser
open Grammar

theorem Ders.cast {Xs w w' vs} (h : Ders Xs w vs) (e : w = w') : Ders Xs w' vs := e ▸ h

/-- What a derivation of the grammar is for the parser. -/
def DerOf : (s : Nt) → List Lexeme → Grammar.Ty s → Prop
''')
for n,t,_ in G: w(f'  | .{ln(n)}, w, v => Ders [.n {ntnum[n]}] w [.variant{var[ntnum[n]]} v]\n')
w('''  | .tok k, w, v => w = [(k, v)]
  | .opt s, w, v => (w = [] ∧ v = none) ∨ ∃ x, v = some x ∧ DerOf s w x

theorem stringBody_quoted (s : Str) : stringBody ('\\'' :: (s ++ ['\\''])) = .ok s := by
  cases s with
  | nil => rfl
  | cons c r =>
    have h1 : ((c :: r) ++ ['\\'']).getLast (by simp) = '\\'' := List.getLast_concat
    have h2 : ((c :: r) ++ ['\\'']).dropLast = c :: r := List.dropLast_concat
    simp only [List.cons_append] at h1 h2
    simp only [List.cons_append, stringBody, h1, h2]
    rfl

theorem gr_ders {s : Nt} {w : List Lexeme} {v : Grammar.Ty s} (h : Gr s w v) : DerOf s w v := by
  induction h with
  | tok => exact rfl
  | optNone => exact .inl ⟨rfl, rfl⟩
  | optSome _ ih => exact .inr ⟨_, rfl, ih⟩
''')
sound={} # p -> (ctor, elements with choice)
for n,t,alts in G:
    for i,(els,val,cond,body) in enumerate(alts,1):
        hy=[j for j,e in enumerate(els) if e[0]!='tok']
        nts_=[f't{j}' for j,e in enumerate(els) if e[0]=='tok']
        vsn=[]
        for j in hy:
            v=els[j][2] or f'o{j}'
            vsn.append('e' if v=='[e]' else v)
        bt={}
        for j,v in zip(hy,vsn):
            kd,e=els[j][0],els[j][1]
            ty='Option Str' if kd=='opttok' else ('Option '+wrapT(types[e]) if kd=='optnt' else ('Expr Name' if els[j][2]=='[e]' else types[e]))
            bt.setdefault(ty,[]).append(v)
        imps=['_']*len(hy)+nts_+[('es' if cond else '_') for vs in bt.values() for v in vs]
        pats=imps+['_' for _ in hy]+(['hc'] if cond else [])+[f'ih{j}' for j in hy]
        w(f'  | @{ln(n)}_{i} {" ".join(pats)} =>\n'.replace('  =>',' =>'))
        opts=[j for j in hy if els[j][0].startswith('opt')]
        def emit(k,choice,ind):
            if k<len(opts):
                j=opts[k]
                w(f'{ind}rcases ih{j} with ⟨rfl, rfl⟩ | ⟨x{j}, rfl, ih{j}⟩\n')
                for c in (0,1):
                    sub=len(o)
                    emit(k+1,{**choice,j:c},ind+'  ')
                    # bullet on first line
                    o[sub]=ind+'· '+o[sub].lstrip() 
                return
            rhs=[];terms=[]
            for j,(kd,e,v) in enumerate(els):
                if kd=='tok': rhs.append(('t',KI[e]));terms.append(f'(Ders.word (k := .{e}) (t := t{j}))' if e!='STRING_LIT' else "(Ders.word (k := .STRING_LIT) (t := '\\'' :: (t0 ++ ['\\''])))")
                elif kd=='nt': rhs.append(('n',ntnum[e]));terms.append(f'ih{j}')
                elif choice[j]:
                    if kd=='opttok': rhs.append(('t',KI[e]));terms.append(f'T{j}')
                    else: rhs.append(('n',ntnum[e]));terms.append(f'ih{j}')
            p=pm[(ntnum[n],tuple(rhs))]
            used.add(p)
            sound.setdefault(p,[]).append((f'{ln(n)}_{i}',els,choice,cond,val))
            if not terms: e='Ders.nil'
            else:
                e=terms[-1]
                for x in reversed(terms[:-1]): e=f'({x}.append {e})'
            pre=''
            lines_=[]
            for j in opts:
                if choice[j] and els[j][0]=='opttok':
                    lines_.append(f'have T{j} : Ders [.t (code .{els[j][1]})] _ _ := Ders.word (k := .{els[j][1]}) (t := x{j})')
                    lines_.insert(0,f'obtain rfl := ih{j}')
            red='⟨_, _, _, rfl, fun st => rfl⟩'
            if p==190: red='⟨_, _, _, rfl, fun st => by simp [reduce190, pop0, action147, stringBody_quoted, bind, Except.bind]⟩'
            if cond:
                pass
                red='⟨_, _, _, rfl, fun st => by\n'+ind+'    match es, hc with\n'+ind+'    | [], _ => rfl\n'+ind+'    | [_], hc => exact absurd rfl hc\n'+ind+'    | _ :: _ :: _, _ => rfl⟩'
            lines_.append(f'exact (Ders.single {p} (by decide) {e} {red}).cast (by simp)')
            for x in lines_: w(ind+x+'\n')
        emit(0,{},'    ')
w('\nend Verif.Sql.Parser\n')
if __name__=='__main__':
    print('unused',[p for p in range(223) if p not in used])
    open('/verif/lean/Verif/Proof/SqlGrammarDer.lean','w').write(''.join(o))
