import json,re
D=json.load(open('ext.json'))
ACT,EOF,T,red=D['ACT'],D['EOF'],D['T'],D['red']
goto={int(k):v for k,v in D['goto'].items()}
NT={}
for r in red: NT[r['lhs']]=r['nt']
def split(s):
    # split on ", " not inside quotes
    out=[];cur='';q=False
    i=0
    while i<len(s):
        c=s[i]
        if c=='"': q=not q
        if not q and s.startswith(', ',i): out.append(cur);cur='';i+=2;continue
        cur+=c;i+=1
    if cur: out.append(cur)
    return [x.strip() for x in out if x.strip()]
TI={t:i for i,t in enumerate(T)}
prods=[]
for r in red:
    rhs=[]
    for x in split(r['rhs']):
        if x in TI: rhs.append(('t',TI[x]))
        else: rhs.append(('n',NT[x]))
    assert len(rhs)==r['pop'],r
    prods.append((r['nt'],rhs))
NSTART=79
prods.append((NSTART,[('n',NT['SqlStatement'])]))
NNT=80
EOFT=83
def gotof(s,n):
    g=goto.get(n)
    if g is None: return 0
    for k,v in g['cases']:
        if k==s: return v
    return g['def']
byl={}
for i,(l,r) in enumerate(prods): byl.setdefault(l,[]).append(i)
nullable=set();ch=True
while ch:
    ch=False
    for l,r in prods:
        if l not in nullable and all(k=='n' and x in nullable for k,x in r): nullable.add(l);ch=True
first={n:set() for n in range(NNT)};ch=True
while ch:
    ch=False
    for l,r in prods:
        for k,x in r:
            new={x} if k=='t' else first[x]
            if not new<=first[l]: first[l]|=new;ch=True
            if k=='t' or x not in nullable: break
def firsts(beta,la):
    out=set()
    for k,x in beta:
        if k=='t': out.add(x);return out
        out|=first[x]
        if x not in nullable: return out
    return out|la
items={0:{(223,0):{EOFT}}}
work=[0]
def closure(I):
    ch=list(I)
    while ch:
        p,d=ch.pop()
        l,r=prods[p]
        if d<len(r) and r[d][0]=='n':
            f=firsts(r[d+1:],I[(p,d)])
            for q in byl.get(r[d][1],[]):
                if not f<=I.setdefault((q,0),set()):
                    I[(q,0)]|=f; ch.append((q,0))
                elif not prods[q][1] and (q,0) not in I: pass
def action(s,t): return EOF[s] if t==EOFT else ACT[s][t]
edges={}
while work:
    s=work.pop()
    I=items[s]; closure(I)
    nxt={}
    for (p,d),la in I.items():
        r=prods[p][1]
        if d<len(r): nxt.setdefault(r[d],{}).setdefault((p,d+1),set()).update(la)
    for sym,K in nxt.items():
        if sym[0]=='t':
            a=action(s,sym[1]); assert a>0,(s,sym); t=a-1
        else: t=gotof(s,sym[1])
        edges[(s,sym)]=t
        J=items.setdefault(t,{})
        ch=False
        for k,la in K.items():
            if k not in J or not la<=J[k]:
                J.setdefault(k,set()).update(la); ch=True
        if ch: work.append(t)
# check
bad=0
for s,I in items.items():
    closure(I)
    exp={}
    for (p,d),la in I.items():
        r=prods[p][1]
        if d<len(r):
            if r[d][0]=='t': exp.setdefault(r[d][1],set()).add(edges[(s,r[d])]+1)
        else:
            for t in la: exp.setdefault(t,set()).add(-(p+1))
    for t in range(84):
        e=exp.get(t,{0})
        if len(e)!=1 or action(s,t) not in e:
            bad+=1; print('BAD',s,t,e,action(s,t))
if __name__=='__main__':
    print(len(items),sum(len(I) for I in items.values()),max(len(I) for I in items.values()),bad, len(edges))
    ins={}
    for (s,sym),t in edges.items(): ins.setdefault(t,set()).add(sym)
    print({len(v) for v in ins.values()}, nullable)
    print([x for x in range(329) if x not in items])
