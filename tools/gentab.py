#!/usr/bin/env python3
"""Transcribes the tables of /repo/src/sql/parser.rs into Lean (Verif/Model/SqlParserTables.lean)."""
import json,re,sys
sys.path.insert(0,'/root/lr')
D=json.load(open('/root/lr/ext.json'))
ACT,EOF,T,red=D['ACT'],D['EOF'],D['T'],D['red']
L=open('/repo/src/sql/parser.rs').read().split('\n')
o=[]
w=o.append
w('''import Verif.Model.Basic
/-!
# Tables of the SQL parser (`src/sql/parser.rs`)

`src/sql/parser.rs` is the output of LALRPOP 0.19.8 for `src/sql/parser.lalrpop`; it is checked in, and the
SHA3-256 sum in its second line is the one of `src/sql/parser.lalrpop` in the same commit.  This file
transcribes its tables.  Rows of the action table list the entries that are not zero.
-/

namespace Verif.Sql.Parser

''')
a0,a1=D['lines']['act'];e0,e1=D['lines']['eof'];g0,g1=D['lines']['goto']
CH=24
def wrap(line):
    out=[];cur='  '
    parts=re.split(r'(?<=\),) ',line)
    for k,piece in enumerate(parts):
        if len(cur)+len(piece)>104: out.append(cur.rstrip());cur='   '
        cur+=piece+' '
    out.append(cur.rstrip())
    return '\n'.join(out)+'\n'
names=[]
for c in range(0,len(ACT),CH):
    e=min(c+CH,len(ACT))
    names.append(f'actionRows{c//CH}')
    w(f'/-- `__ACTION` (`src/sql/parser.rs` L{a0+1+2*c}-{a0+2*e}), states {c} to {e-1}. -/\ndef {names[-1]} : List (List (Nat × Int)) := [\n')
    for s in range(c,e):
        ents=', '.join(f'({t}, {a})' for t,a in enumerate(ACT[s]) if a)
        w(f'  -- state {s}\n'+wrap(f'[{ents}]'+(',' if s<e-1 else '')))
    w(']\n\n')
w(f'/-- `__ACTION` (`src/sql/parser.rs` L{a0}-{a1}): for every state the terminals with a non-zero entry. -/\ndef actionRows : List (List (Nat × Int)) :=\n')
cur='  ['
for k,n in enumerate(names):
    n+= ', ' if k<len(names)-1 else '].flatten'
    if len(cur)+len(n)>100: w(cur.rstrip()+'\n');cur='   '
    cur+=n
w(cur+'\n\n')
w(f'/-- `__EOF_ACTION` (`src/sql/parser.rs` L{e0}-{e1}). -/\ndef eofActions : List Int := [\n')
for i in range(0,len(EOF),16):
    w('  '+', '.join(map(str,EOF[i:i+16]))+(',' if i+16<len(EOF) else '')+'\n')
w(']\n\n')
w(f'/-- `__goto` (`src/sql/parser.rs` L{g0}-{g1}): for a nonterminal the listed states, and the state for all others. -/\ndef gotoRows : List (Nat × List (Nat × Nat) × Nat) := [\n')
G=sorted((int(k),v) for k,v in D['goto'].items())
for i,(n,v) in enumerate(G):
    ents=', '.join(f'({a}, {b})' for a,b in v['cases'])
    line=f'({n}, [{ents}], {v["def"]})'+(',' if i<len(G)-1 else '')
    out=[];cur='  '
    for piece in line.split(' '):
        if len(cur)+len(piece)>104: out.append(cur.rstrip());cur='    '
        cur+=piece+' '
    out.append(cur.rstrip())
    w('\n'.join(out)+'\n')
w(']\n\n')
i=next(k for k,l in enumerate(L) if 'const __TERMINAL' in l)
w(f'/-- `__TERMINAL` (`src/sql/parser.rs` L{i+1}-{i+1+len(T)+1}): the names of the terminals. -/\ndef terminalNames : List String := [\n')
q=[json.dumps(t) for t in T]
cur='  '
for k,x in enumerate(q):
    x+=', ' if k<len(q)-1 else ''
    if len(cur)+len(x)>104: w(cur.rstrip()+'\n');cur='  '
    cur+=x
w(cur+'\n]\n\n')
i=next(k for k,l in enumerate(L) if 'fn __token_to_integer' in l)
j=i
m={}
while not L[j].strip().startswith('_ => None'):
    mm=re.match(r'Token\((\d+), _\) if true => Some\((\d+)\),',L[j].strip())
    if mm: m[int(mm[1])]=int(mm[2])
    j+=1
w(f'/-- `__token_to_integer` (`src/sql/parser.rs` L{i+1}-{j+3}): the terminal of every pattern of the lexer. -/\ndef tokenTerminals : List Nat := [\n')
v=[m[k] for k in range(83)]
for i in range(0,83,21):
    w('  '+', '.join(map(str,v[i:i+21]))+(',' if i+21<83 else '')+'\n')
w(']\n\nend Verif.Sql.Parser\n')
open(sys.argv[1],'w').write(''.join(o))
