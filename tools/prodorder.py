from lr1 import *
opt=set([0, 1, 2, 3, 4, 5, 13, 22, 24, 28, 35, 37, 44, 46, 56, 65, 69, 78])
done=set();order=[]
ch=True
while ch:
    ch=False
    for p in range(223):
        l,r=prods[p]
        if l in done or l in opt: continue
        if all(x[0]=='t' or x[1] in done for x in r):
            done.add(l);order.append(p);ch=True
print(order); print(set(range(79))-opt-done)
