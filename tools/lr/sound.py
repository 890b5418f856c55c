"""Which refined classes can be on the stack above a state, and with which next token, when the tables run."""
import sys, itertools
sys.path.insert(0,'/verif/tools/lr')
from g1 import *
c=build(); e=c.run(); assert not e
P=c.P
ALL=sum(1<<t for t in range(1,64))
prodsof={}
for (l,r,rhs) in P:
    if r: prodsof.setdefault(r,[]).append((l,rhs))
sub={}   # class -> set of superclasses (reflexive)
up={}
for (l,r,rhs) in P:
    if r==0: up.setdefault(rhs[0],[]).append(l)
def supers(a):
    if a not in sub:
        s={a}; w=[a]
        while w:
            x=w.pop()
            for y in up.get(x,[]):
                if y not in s: s.add(y); w.append(y)
        sub[a]=s
    return sub[a]
R=[{} for _ in range(nst)]
redm={}
def redmask(s,r):
    if (s,r) not in redm:
        m=0
        for t in range(1,64):
            if action(s,t)==('r',r): m|=1<<t
        redm[(s,r)]=m
    return redm[(s,r)]
errs={}
clos=[{P[i][0] for (i,d) in c.items[s] if d==0} for s in range(nst)]
def process(s0,r):
    ch=False
    rhs=rules[r-1][1]
    # path
    st=[s0]; opts=[]
    for x in rhs:
        s=st[-1]
        if isterm(x):
            a=action(s,tnum(x))
            if a[0]!='s': return False
            st.append(a[1]); opts.append([(None,ALL)])
        else:
            o=[(a,m) for a,m in R[s].items() if c.base[a]==x]
            if not o: return False
            st.append(goto(s,ntnum[x])); opts.append(o)
    rm=redmask(st[-1],r)
    if not rm: return False
    # filter by following symbol
    for i in range(len(rhs)):
        if i+1<len(rhs):
            if isterm(rhs[i+1]): opts[i]=[(a,m) for a,m in opts[i] if m>>tnum(rhs[i+1])&1]
        else: opts[i]=[(a,m&rm) for a,m in opts[i] if m&rm]
        if not opts[i]: return False
    for combo in itertools.product(*opts):
        ok=True
        for i in range(len(rhs)-1):
            if not isterm(rhs[i]) and not isterm(rhs[i+1]):
                m=combo[i][1]; b=combo[i+1][0]
                f=c.first[b] | (combo[i+1][1] if b in c.null else 0)
                if not m&f: ok=False
        if not ok: continue
        mask=combo[-1][1] if combo else rm
        hit=None
        for (l,frhs) in prodsof[r]:
            if all(a is None or b in supers(a) for (a,_),b in zip(combo,frhs)) and (hit is None or l in clos[s0] and hit not in clos[s0]): hit=l
        if hit is None: errs[(s0,r,tuple(a for a,_ in combo))]=mask; continue
        o=R[s0].get(hit,0)
        if o|mask!=o: R[s0][hit]=o|mask; ch=True
    return ch
def fix():
    ch=True; n=0
    # reachable states
    while ch:
        ch=False; n+=1
        reach={0}; w=[0]
        while w:
            s=w.pop()
            for t in range(1,64):
                a=action(s,t)
                if a[0]=='s' and a[1] not in reach: reach.add(a[1]); w.append(a[1])
            for a in R[s]:
                g=goto(s,ntnum[c.base[a]])
                if g not in reach: reach.add(g); w.append(g)
        for s0 in sorted(reach):
            for r in range(2,len(rules)+1):
                if process(s0,r): ch=True
    print('rounds',n,'reach',len(reach))
fix()
print('labels',sum(len(x) for x in R),'errs',len(errs))
tn=lambda m:[names[t-1] for t in range(1,len(names)+1) if m>>t&1]
if __name__=='__main__':
    g={}
    for (s0,r,cl),m in errs.items(): g.setdefault((r,cl),[]).append((s0,m))
    for k,v in sorted(g.items(),key=str)[:60]: print(k,rules[k[0]-1],[s for s,_ in v][:5],tn(v[0][1])[:12])
