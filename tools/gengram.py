import re,itertools,json
from lr1 import prods,NT,T,red
KN={'"!="':'ne','"("':'lpar','")"':'rpar','"*"':'star','"+"':'plus','","':'comma','"-"':'minus','"."':'dot','"/"':'slash','"<"':'lt','"<="':'le','"="':'eq','">"':'gt','">="':'ge','"||"':'bars'}
kinds=[KN.get(t) or t.strip('"') for t in T]
kindset=set(kinds)
symtok={t.strip('"'):k for t,k in KN.items()}
# lines of the grammar
src=open('/repo/src/sql/parser.lalrpop').read().split('\n')
lines={}
cur=None
for i,l in enumerate(src,1):
    m=re.match(r'(?:pub )?([A-Za-z]+): ',l)
    if m and i>130:
        cur=m.group(1);a=i
        if l.rstrip().endswith(';'): lines[cur]=(i,i)
    if l.rstrip() in('};','}') and cur and cur not in lines: lines[cur]=(a,i)
G=[] # (nt,type,[alts])
for l in open('grammar.dsl').read().split('\n'):
    if not l.strip(): continue
    if not l.startswith(' '):
        n,t=l.split(' : ');G.append((n,t,[]))
    else:
        body,val=l.strip().split(' => ')
        cond=None
        if ' if ' in val: val,cond=val.split(' if ')
        els=[]
        m=re.match(r"STRING_LIT:(.*)$",body)
        if m: els=[('tok','STRING_LIT',m.group(1))]
        else:
            for e in body.split():
                v=None
                if ':' in e and e!=':': e,v=e.split(':',1)
                opt=e.endswith('?') and len(e)>1
                if opt: e=e[:-1]
                if e in symtok: k=('tok',symtok[e],v)
                elif e in kindset: k=('opttok' if opt else 'tok',e,v)
                else: k=('optnt' if opt else 'nt',e,v)
                els.append(k)
        G[-1][2].append((els,val,cond,body))
def ln(n):
    return 'whenClauses' if n=='WhenClause+' else n[0].lower()+n[1:]
types={n:t for n,t,_ in G}
lines['WhenClause+']=lines['CaseExpression']
def wrapT(t): return f'({t})' if ' ' in t else t
def fill(xs,ind,width=116):
    out='';line=ind
    for x in xs:
        if len(line)+len(x)+1>width: out+=line.rstrip()+'\n';line=ind
        line+=x+' '
    return out+line.rstrip()
if __name__=='__main__':
    o=[];w=o.append
    w('''import Verif.Model.SqlAst
import Verif.Model.SqlNames
import Verif.Model.Text
/-!
# The grammar of SQL statements (`src/sql/parser.lalrpop`)

What the grammar file says, as an inductive relation: `Gr s w v` means that the sequence of words `w` is an `s` and
stands for `v`.  There is one rule for every alternative of `src/sql/parser.lalrpop`, with the value its action
gives; the rules say nothing about states, tables or stacks.  Where an alternative computes different values in an
`if`, there are two rules.
-/

namespace Verif.Sql.Grammar

/-- The kinds of words, called as in `src/sql/parser.lalrpop` L29-134. -/
inductive Kind where
''')
    w(fill(['| '+k for k in kinds],'  ')+'\n  deriving DecidableEq, Repr\n\n')
    w('''/-- A word of the input: its kind and its text. -/
abbrev Lexeme := Kind × Str

/-- The syntactic categories: the nonterminals of `src/sql/parser.lalrpop`, single words, and optional parts. -/
inductive Nt where
''')
    w(fill(['| '+ln(n) for n,_,_ in G],'  ')+'\n  | tok (k : Kind)\n  | opt (s : Nt)\n  deriving DecidableEq, Repr\n\n')
    w('''/-- The type of the values of a category. -/
@[reducible] def Ty : Nt → Type
''')
    for n,t,_ in G: w(f'  | .{ln(n)} => {t}\n')
    w('  | .tok _ => Str\n  | .opt s => Option (Ty s)\n\n')
    w('''/-- `Gr s w v`: the words `w` are an `s` with value `v`. -/
inductive Gr : (s : Nt) → List Lexeme → Ty s → Prop where
  /-- a single word -/
  | tok {k : Kind} {t : Str} : Gr (.tok k) [(k, t)] t
  /-- an optional part that is absent -/
  | optNone {s : Nt} : Gr (.opt s) [] none
  /-- an optional part that is present -/
  | optSome {s : Nt} {w : List Lexeme} {v : Ty s} : Gr s w v → Gr (.opt s) w (some v)
''')
    for n,t,alts in G:
        a,b=lines[n]
        for i,(els,val,cond,body) in enumerate(alts,1):
            binders={};hyps=[];word=[];ws=[];ts=[]
            for j,(k,e,v) in enumerate(els):
                if k=='tok':
                    if v is None: tv=f't{j}';ts.append(tv)
                    elif e=='STRING_LIT': tv=v;ts.append('s')
                    else: tv=v;ts.append(v)
                    word.append(('t',f'(.{e}, {tv})'))
                else:
                    wv=f'w{j}';ws.append(wv);word.append(('w',wv))
                    if k=='opttok': s=f'(.opt (.tok .{e}))';ty='Option Str';v=v or f'o{j}'
                    elif k=='optnt': s=f'(.opt .{ln(e)})';ty='Option '+wrapT(types[e])
                    else: s=f'.{ln(e)}';ty=types[e]
                    hyps.append(f'Gr {s} {wv} {v}')
                    if v=='[e]': binders['e']='Expr Name'
                    else: binders[v]=ty
            expr=None
            for k,x in reversed(word):
                if expr is None: expr= f'[{x}]' if k=='t' else x
                else: expr = f'{x} :: {expr}' if k=='t' else f'{x} ++ {expr}'
            # fix: t :: (w ++ ...) needs parentheses
            def build(ws_):
                if len(ws_)==1: return f'[{ws_[0][1]}]' if ws_[0][0]=='t' else ws_[0][1]
                k,x=ws_[0];r=build(ws_[1:])
                if k=='t': return f'{x} :: ({r})' if '++' in r and not r.startswith('[') and re.search(r'\+\+',re.sub(r'\(.*?\)','',r)) else f'{x} :: {r}'
                return f'{x} ++ ({r})' if len(ws_)>2 or ws_[1][0]=='t' and len(ws_)>2 else f'{x} ++ {r}'
            expr=build(word)
            bs=''
            if ws: bs+=' {'+' '.join(ws)+' : List Lexeme}'
            if ts: bs+=' {'+' '.join(ts)+' : Str}'
            bytype={}
            for v,ty in binders.items(): bytype.setdefault(ty,[]).append(v)
            for ty,vs in bytype.items(): bs+=' {'+' '.join(vs)+' : '+ty+'}'
            if cond: hyps.append(cond)
            w(f'  /-- `{n} = {body.replace("ExpressionList:[e]","ExpressionList:e") if "STRING" not in body else "STRING_LIT"}` (`src/sql/parser.lalrpop` L{a}-{b}) -/\n' if a!=b else f'  /-- `{n} = {"STRING_LIT" if "STRING" in body else body}` (`src/sql/parser.lalrpop` L{a}) -/\n')
            w(f'  | {ln(n)}_{i}{bs} :\n')
            toks=[h+' →' for h in hyps]+[f'Gr .{ln(n)} '+(f'({expr})' if ' ' in expr and not (expr.startswith('[') and len(word)==1) else expr)+' '+(val if ' ' not in val or val[0] in '([⟨' else f'({val})')]
            w(fill(toks,'      ')+'\n')
    w('\nend Verif.Sql.Grammar\n')
    open('/verif/lean/Verif/Spec/SqlGrammar.lean','w').write(''.join(o))
