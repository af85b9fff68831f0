from lr1 import *
ins={}
for (s,sym),t in edges.items(): ins.setdefault(t,set()).add(sym)
insym={t:list(v)[0] for t,v in ins.items()}
preds={}
for (s,sym),t in edges.items(): preds.setdefault(t,set()).add(s)
eps=set()
for s in items:
    for t in range(84):
        a=action(s,t)
        if a<0 and not prods[-a-1][1]: eps.add(s)
b={s:(2 if s in eps else 0) for s in items}
print('eps states',sorted(eps))
bs={}
for s in items:
    if s in insym: bs[insym[s]]=max(bs.get(insym[s],0),b[s])
w={}
syms=[('t',i) for i in range(83)]+[('n',i) for i in range(80)]
for x in syms: w[x]=1
used=set()
for s in items:
    for t in range(84):
        a=action(s,t)
        if a<0: used.add(-a-1)
print('unused prods',[p for p in range(224) if p not in used])
ch=True;it=0
while ch:
    ch=False;it+=1
    for p,(l,r) in enumerate(prods):
        if p not in used or p==223: continue
        need=w[('n',l)]+bs.get(('n',l),0)+1
        if r and sum(w[x] for x in r)<need:
            # raise first token if any, else the only symbol
            x=next((y for y in r if y[0]=='t'),r[0])
            w[x]+=need-sum(w[y] for y in r);ch=True
    if it>200: print('diverge');break
print(it,{x:v for x,v in w.items() if v>1})
print(max(w.values()))
for s in items:
    for t in range(84):
        a=action(s,t)
        if a>0: pass
        if a<0 and not prods[-a-1][1]:
            l=prods[-a-1][0]; assert b[s]>w[('n',l)]+b[gotof(s,l)],(s,l)
print(max(w[('t',t)]+b[action(s,t)-1] for s in items for t in range(83) if action(s,t)>0))
