#!/usr/bin/env python3
"""Transcribes the semantic actions and reductions of /repo/src/sql/parser.rs into Lean."""
import json,re,sys
D=json.load(open('/root/lr/ext.json'))
red=D['red']
L=open('/repo/src/sql/parser.rs').read().split('\n')
TYPES={
"&'input str":'Str',
"core::option::Option<&'input str>":'Option Str',
"(&'input str, &'input str)":'Str × Str',
"core::option::Option<(&'input str, &'input str)>":'Option (Str × Str)',
'Box<ast::Expression>':'Expr Name','ast::Assignment':'Assignment Name','Vec<ast::Assignment>':'List (Assignment Name)',
'ast::AttachStatement':'AttachStatement Name','Vec<symbols::Name>':'List Name',
'core::option::Option<Vec<symbols::Name>>':'Option (List Name)','ast::CommonTableExpression':'Cte Name',
'Vec<ast::CommonTableExpression>':'List (Cte Name)','ast::SetOperator':'SetOperator','ast::DeleteStatement':'DeleteStatement Name',
'ast::DescribeStatement':'DescribeStatement Name','core::option::Option<Box<ast::Expression>>':'Option (Expr Name)',
'Vec<Box<ast::Expression>>':'List (Expr Name)','Vec<Box<ast::TableExpression>>':'List (TableExpr Name)','ast::GroupBy':'GroupBy Name',
'core::option::Option<ast::GroupBy>':'Option (GroupBy Name)','symbols::Name':'Name','ast::InsertStatement':'InsertStatement Name',
'ast::JoinConstraint':'JoinConstraint Name','ast::JoinOperator':'JoinOperator','ast::JoinType':'JoinType',
'core::option::Option<ast::JoinType>':'Option JoinType','ast::Limit':'Limit Name','core::option::Option<ast::Limit>':'Option (Limit Name)',
'ast::Literal':'Literal','String':'Str','Vec<ast::Ordering>':'List (OrderTerm Name)','core::option::Option<Vec<ast::Ordering>>':'Option (List (OrderTerm Name))',
'core::option::Option<symbols::Name>':'Option Name','ast::OrderingDirection':'OrderingDirection','ast::Ordering':'OrderTerm Name',
'Box<ast::ResultColumn>':'ResultColumn Name','Vec<Box<ast::ResultColumn>>':'List (ResultColumn Name)','ast::ResultColumns':'ResultColumns Name',
'Box<ast::SetExpression>':'SetExpr Name','ast::SelectMode':'SelectMode','ast::SelectStatement':'Select Name','ast::SqlStatement':'SqlStatement Name',
'ast::Statement':'Statement Name','Box<ast::TableExpression>':'TableExpr Name','core::option::Option<Vec<ast::CommonTableExpression>>':'Option (List (Cte Name))',
'Vec<Vec<Box<ast::Expression>>>':'List (List (Expr Name))','ast::UpdateStatement':'UpdateStatement Name','ast::WhenClause':'When Name',
'alloc::vec::Vec<ast::WhenClause>':'List (When Name)'}
def ty(t): return TYPES[t.strip()]
# user bodies; x0.. are the arguments
U={0:'x0',1:'.statement x0',2:'.explainQueryPlan x2',3:'.attach x0',4:'.describe x0',5:'.select x0',6:'.insert x0',7:'.delete x0',8:'.update x0',
9:'⟨x3, x4, x5⟩',10:'x1',11:'⟨x3, x4⟩',12:'⟨x2, x4, x5⟩',13:'[x0]',14:'append x0 x2',15:'⟨x0, x2⟩',
16:'.mk x0 x1 (x2.getD []) x3',17:'.mk [] x0 (x1.getD []) x2',18:'x1',19:'[x0]',20:'append x0 x2',21:'.mk x0 none x3',22:'.mk x0 (some x2) x6',
23:'x0',24:'.op x1 x0 x2',25:'.union',26:'.unionAll',27:'.intersect',28:'.except',29:'.query x1 x2 [] x3 x4',30:'.query x1 x2 x3 x4 x5',
31:'.values x1',32:'.all',33:'.distinct',34:'[x0]',35:'append x0 x2',36:'x1',37:'.all',38:'.list x0',39:'[x0]',40:'append x0 x2',
41:'.expr x0 none',42:'.expr x0 (some x2)',43:'.allFrom x0',44:'[x0]',45:'[x0, x2]',46:'[x0, x2, x4]',47:'x1',48:'[x0]',49:'append x0 x2',50:'x0',
51:'.join x0 x2 x1 x3',52:'.named x0 x1',53:'.select x1 x3',54:'x1',55:'x1',56:'.join (x0.getD .inner)',57:'.natural (x1.getD .inner)',58:'.cross',
59:'.left',60:'.right',61:'.full',62:'.inner',63:'.expr x1',64:'.columns x2',65:'[x0]',66:'append x0 x2',67:'x1',68:'.mk x2 none',69:'.mk x2 (some x4)',
70:'x2',71:'[x0]',72:'append x0 x2',73:'.mk x0 x1 x2',74:'x1',75:'.ascending',76:'.descending',77:'.mk x1 none',78:'.mk x1 (some x3)',79:'.mk x1 (some x3)',
80:'.new x4 x5 x2',81:'.new x1 x2',82:'x0',83:'[x0]',84:'append x0 x2',
85:'match x1 with\n  | [e] => e\n  | es => .tuple es',86:'.select x1',87:'.literal x0',88:'.ident x0',89:'x0',90:'x1',91:'.unary .negate x1',92:'x0',
93:'.binary .multiply x0 x2',94:'.binary .divide x0 x2',95:'x0',96:'.binary .add x0 x2',97:'.binary .subtract x0 x2',98:'.binary .concat x0 x2',99:'x0',
100:'.comparison .equal x0 x2',101:'.comparison .notEqual x0 x2',102:'.comparison .lessThan x0 x2',103:'.comparison .greaterThan x0 x2',
104:'.comparison .lessEqual x0 x2',105:'.comparison .greaterEqual x0 x2',106:'.unary .isNull x0',107:'.unary .not (.unary .isNull x0)',
108:'.comparison .like x0 x2',109:'.unary .isNull x0',110:'.unary .not (.unary .isNull x0)',111:'.unary .not (.unary .isNull x0)',
112:'.inSet x0 (.list [])',113:'.unary .not (.inSet x0 (.list []))',114:'.inSet x0 (.list x3)',115:'.unary .not (.inSet x0 (.list x4))',
116:'.inSet x0 (.select x3)',117:'.unary .not (.inSet x0 (.select x4))',118:'.inSet x0 (.name x2)',119:'.unary .not (.inSet x0 (.name x3))',
120:'.between x0 x2 x4',121:'.unary .not (.between x0 x3 x5)',122:'x0',123:'x0',124:'.case x1 x2 x3',125:'.mk x1 x3',126:'x1',127:'x0',128:'.unary .not x1',129:'x0',
130:'.binary .and x0 x2',131:'x0',132:'.binary .or x0 x2',133:'x0',134:'.numeric x0',135:'.string x0',136:'.null',137:'.currentTime',138:'.currentDate',
139:'.currentTimestamp',140:'.date x1',141:'.time x1',142:'.timestamp x1',143:'⟨x0⟩',144:'x0',145:'x0',146:'x0',147:'stringBody x0',
150:'[x0]',151:'append x0 x1',184:'(x0, x1)'}
for k in range(148,184,2):
    if k!=150: U[k]='some x0';U[k+1]='none'
# parse actions
i=next(k for k,l in enumerate(L) if l.startswith('fn __action0<'))
acts={}
k=i
while k<len(L):
    m=re.match(r'fn __action(\d+)<',L[k])
    if m:
        n=int(m[1]); j=k
        while L[j]!='}': j+=1
        body='\n'.join(L[k:j+1])
        sig,b=body.split('\n{\n',1)
        ret=re.search(r'\n\) -> (.*)$',sig)[1]
        ps=[]
        for l in sig.split('\n'):
            m2=re.match(r"    (\((?:_|__lookbehind|__lookahead), )?.*\(usize, (.*), usize\),$",l)
            if m2: ps.append(ty(m2[2]))
        acts[n]=dict(n=n,a=k+1,b=j+1,ret=ty(ret),ps=ps,body=b,loc='__lookbehind: &usize' in sig)
        k=j
    k+=1
assert sorted(acts)==list(range(264))
# composed: 185..263 (except 184)
def composed(n):
    a=acts[n]
    # statements: sequences of __tempI = __actionM(args)
    b=a['body']
    calls=re.findall(r'(?:let (__temp\d+) = )?__action(\d+)\(\s*input,\s*((?:[^()]|\n)*?)\s*\)',b)
    env={}
    res=None
    for tmp,m,args in calls:
        m=int(m)
        al=[x.strip() for x in args.replace('\n',' ').split(',') if x.strip()]
        al=[x for x in al if not x.startswith('&__') and x not in ('__lookbehind','__lookahead')]
        out=[]
        for x in al:
            if x in env: out.append(env[x])
            else:
                mm=re.match(r'__(\d+)$',x); out.append('x'+mm[1])
        assert len(out)==len(acts[m]['ps']),(n,m,out,acts[m]['ps'])
        term=f'action{m}'+''.join(' '+y for y in out)
        if tmp: env[tmp]='('+term+')' if out else term
        else: res=term
    return res
VT={}
i=next(k for k,l in enumerate(L) if 'enum __Symbol' in l)
for l in L[i+2:i+51]:
    m=re.match(r'\s+Variant(\d+)\((.*)\),$',l); VT[int(m[1])]=ty(m[2])
o=[];w=o.append
w('''import Verif.Model.SqlAst
import Verif.Model.SqlNames
import Verif.Model.Text
/-!
# Semantic actions and reductions of the SQL parser (`src/sql/parser.rs`)

The functions `__action0` to `__action263` and `__reduce0` to `__reduce222` of the generated parser, in the
order of the source.  Positions in the input, which every symbol of the generated code carries along, are
left out: no action of this grammar looks at them.  A name is a `Name`; boxes are dropped.
-/

namespace Verif.Sql.Parser

/-- `append` (`src/sql/ast/mod.rs` L550-554). -/
def append {α : Type} (list : List α) (item : α) : List α := list ++ [item]

/-- The UTF-8 length of a character is one. -/
def oneByte (c : Char) : Bool := c.toNat < 128

/-- `s[1..s.len() - 1]` (`src/sql/parser.lalrpop` L554): slicing panics when the range is not in order or cuts a
character. -/
def stringBody (s : Str) : Res Str :=
  match s with
  | c :: d :: r => if oneByte c && oneByte ((d :: r).getLast (by simp)) then .ok (d :: r).dropLast else .error .panic
  | _ => .error .panic

''')
w(f'/-- `__Symbol` (`src/sql/parser.rs` L{i+1}-{i+52}). -/\ninductive Symbol where\n')
for k in range(49): w(f'  | variant{k} (v : {VT[k]})\n')
w('\n/-! ## Semantic actions -/\n\n')
for n in range(264):
    a=acts[n]
    used=U[n] if n in U else composed(n)
    ps=[]
    for k,t in enumerate(a['ps']):
        nm=f'x{k}' if re.search(rf'\bx{k}\b',used) else f'_x{k}'
        ps.append((nm,t))
    # group
    sig=''
    for nm,t in ps: sig+=f' ({nm} : {t})'
    ret=a['ret']
    if n==147 : ret='Res Str'
    head=f'def action{n}{sig} : {ret} :='
    w(f"/-- `__action{n}` (`src/sql/parser.rs` L{a['a']}-{a['b']}). -/\n")
    if len(head)+len(used)+1<=106 and '\n' not in used: w(f'{head} {used}\n\n')
    else:
        # wrap head
        parts=head.split(' (');cur=parts[0];lines=[]
        for p in parts[1:]:
            p=' ('+p
            if len(cur)+len(p)>104: lines.append(cur);cur='   '
            cur+=p
        lines.append(cur)
        w('\n'.join(lines)+'\n  '+used+'\n\n')
w('/-! ## Reductions -/\n\n/-- `__symbol_type_mismatch` (`src/sql/parser.rs` L2687-2690). -/\ndef mismatch {α : Type} : Res α := .error .panic\n\n')
pops={}
for k,l in enumerate(L):
    m=re.match(r'    fn __pop_Variant(\d+)<',l)
    if m: pops[int(m[1])]=k+1
for k in range(49):
    if k in pops:
        t=VT[k]
        t='('+t+')' if '×' in t else t
        w(f'''/-- `__pop_Variant{k}` (`src/sql/parser.rs` L{pops[k]}-{pops[k]+10}). -/
def pop{k} : List Symbol → Res ({t} × List Symbol)
  | .variant{k} v :: r => .ok (v, r)
  | _ => mismatch

''')
for r in red:
    args=[x.strip() for x in r['args'].split(',')][1:]
    args=[x for x in args if not x.startswith('&')]
    names={f'__sym{k}':f's{k}' for k,_ in r['pops']}
    assert all(x in names for x in args),r
    assert len(args)==len(acts[r['act']]['ps'])
    a=' '.join(['action%d'%r['act']]+[names[x] for x in args])
    w(f"/-- `__reduce{r['n']}` (`src/sql/parser.rs` L{r['line']}-{r['end']}): `{r['lhs']} = {r['rhs']}`. -/\ndef reduce{r['n']} (st : List Symbol) : Res (List Symbol) :=")
    usedargs=set(args)
    if not r['pops'] and r['act']!=147:
        w(f" .ok (.variant{r['push']} {a if ' ' not in a else '('+a+')'} :: st)\n\n")
    else:
        w(' do\n')
        for k,v in r['pops']:
            # is the argument used by the action?
            w(f'  let (s{k}, st) ← pop{v} st\n')
        if r['act']==147: w(f"  let v ← {a}\n  .ok (.variant{r['push']} v :: st)\n\n")
        else: w(f"  .ok (.variant{r['push']} ({a}) :: st)\n\n")
CH=[]
w('/-- The `match` on the action in `__reduce` (`src/sql/parser.rs` L1989-2686): the function to call, the number of states it\nmakes the parser pop, and the nonterminal. -/\ndef reductions : List ((List Symbol → Res (List Symbol)) × Nat × Nat) := [\n')
cur='  '
for r in red:
    x=f"(reduce{r['n']}, {r['pop']}, {r['nt']})"+(', ' if r['n']<222 else '')
    if len(cur)+len(x)>104: w(cur.rstrip()+'\n');cur='  '
    cur+=x
w(cur+'\n]\n\nend Verif.Sql.Parser\n')
open(sys.argv[1],'w').write(''.join(o))
json.dump({str(k):dict(ps=v['ps'],ret=v['ret']) for k,v in acts.items()},open('/root/lr/acts.json','w'))
