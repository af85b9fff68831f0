import sys
from lr1 import *
import weights as W
# order items: kernel first (d>0 or start), then closure order
rows=[]
for s in range(329):
    I=items[s]
    order=[k for k in I if k[1]>0 or k==(223,0)]
    order.sort()
    done=set(order);i=0
    while i<len(order):
        p,d=order[i];i+=1
        r=prods[p][1]
        if d<len(r) and r[d][0]=='n':
            for q in byl.get(r[d][1],[]):
                if (q,0) not in done: done.add((q,0));order.append((q,0))
    assert done==set(I),s
    rows.append([p+256*(d+16*sum(1<<t for t in I[(p,d)])) for p,d in order])
o=[];w=o.append
w('''import Verif.Model.SqlParser
/-!
# Annotations for the tables of the SQL parser

Data used in proofs only: the productions of the generated grammar (the comments in the `__reduce` functions of
`src/sql/parser.rs`), for every state its LR(1) items, nullable and first sets, and weights that bound the number of
reductions.  Nothing is assumed about this data; `Verif/Proof/SqlLrCheck.lean` checks it against the tables.
-/

namespace Verif.Sql.Parser

/-- A terminal or a nonterminal, by its number. -/
inductive Sym where
  | t (k : Nat)
  | n (k : Nat)
  deriving DecidableEq, Repr

''')
def symL(x): return f'.{x[0]} {x[1]}'
RB=16
rn=[]
for c in range(0,224,RB):
    e=min(c+RB,224); rn.append(f'rules{c//RB}')
    w(f'/-- Productions {c} to {e-1}. -/\ndef {rn[-1]} : List (Nat × List Sym) := [\n')
    for i in range(c,e):
        l,r=prods[i]
        com=red[i]['lhs']+' = '+red[i]['rhs'] if i<223 else '__SqlStatement = SqlStatement'
        w(f"  ({l}, [{', '.join(map(symL,r))}])"+(',' if i<e-1 else '')+f'  -- {i}: {com}\n')
    w(']\n\n')
w('/-- The productions, in the order of the `__reduce` functions, in blocks of 16; the last one is the start production. -/\ndef ruleTable : List (List (Nat × List Sym)) :=\n  ['+', '.join(rn)+']\n\n')
w('/-- The productions of every nonterminal. -/\ndef rulesBy : List (List Nat) := [\n')
for n in range(80): w(f"  {byl.get(n,[])}"+(',' if n<79 else '')+'\n')
w(']\n\n')
w('/-- Bit `A` is set when nonterminal `A` derives the empty sequence. -/\ndef nullMask : Nat := '+str(sum(1<<n for n in nullable))+'\n\n')
w('/-- For every nonterminal the terminals its derivations can start with, as bits. -/\ndef firstMasks : List Nat := [\n')
for n in range(80): w('  '+str(sum(1<<t for t in first[n]))+(',' if n<79 else '')+'\n')
w(']\n\n')
CH=12
names=[]
for c in range(0,329,CH):
    e=min(c+CH,329)
    names.append(f'itemRows{c//CH}')
    w(f'/-- Items of states {c} to {e-1}. -/\ndef {names[-1]} : List (List Nat) := [\n')
    for s in range(c,e):
        cur='  ['
        for k,x in enumerate(rows[s]):
            t=hex(x)+(', ' if k<len(rows[s])-1 else '')
            if len(cur)+len(t)>108: w(cur.rstrip()+'\n');cur='   '
            cur+=t
        w(cur+']'+(',' if s<e-1 else '')+'\n')
    w(']\n\n')
w('/-- Items of every state, in blocks of 12 states: the production in the lowest 8 bits, the position of the dot in the\nnext 4, then the lookahead terminals as bits (bit 83 is the end of the input). -/\ndef itemTable : List (List (List Nat)) :=\n')
cur='  ['
for k,n in enumerate(names):
    t=n+(', ' if k<len(names)-1 else ']')
    if len(cur)+len(t)>104: w(cur.rstrip()+'\n');cur='   '
    cur+=t
w(cur+'\n\n')
w('/-- For every state the nonterminals that follow a dot in its items, in blocks of 12 states. -/\ndef ntTable : List (List (List Nat)) := [\n')
for c in range(0,329,12):
    e=min(c+12,329)
    w('  ['+', '.join(str(sorted({prods[p][1][d][1] for (p,d) in items[s] if d<len(prods[p][1]) and prods[p][1][d][0]=='n'})) for s in range(c,e))+']'+(',' if e<329 else ']')+'\n')
w('\n')
w('/-- Two for the nonterminals after which an empty production can be reduced. -/\ndef ntBonus : List Nat := '+str([W.bs.get(('n',i),0) for i in range(80)])+'\n\n')
w('/-- Weights of the terminals. -/\ndef termWeights : List Nat := '+str([W.w[('t',i)] for i in range(83)])+'\n\n')
w('/-- Weights of the nonterminals. -/\ndef ntWeights : List Nat := '+str([W.w[('n',i)] for i in range(80)])+'\n\n')
w('/-- The states that can reduce an empty production. -/\ndef emptyStates : List Nat := '+str(sorted(W.eps))+'\n\nend Verif.Sql.Parser\n')
open(sys.argv[1],'w').write(''.join(o))
