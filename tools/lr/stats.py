from g1 import *
c=build(); e=c.run(); assert not e
nts=[]
for l,r,rhs in c.P:
    if l not in nts: nts.append(l)
print(len(nts)); print(nts)
kern=0;clos=0;mk=0;mc=0
for s in range(nst):
    k={};cl={}
    for (i,d),la in c.items[s].items():
        if d>0: k[(i,d)]=la
        else:
            l=c.P[i][0]
            assert cl.setdefault(l,la)==la,(s,l)
    kern+=len(k);clos+=len(cl);mk=max(mk,len(k));mc=max(mc,len(cl))
print(kern,mk,clos,mc)
