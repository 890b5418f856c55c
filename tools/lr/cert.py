import sys; sys.path.insert(0,'/tmp/lr')
from lr import *
import gram
rules=gram.rules
T={}
for i,n in enumerate(names):
    T[n.strip("'") if len(n)>1 else n]=i+1
def isterm(x): return x[0] in "'_"
def tnum(x):
    if x=="'\\n'": return 59
    if x[0]=="'": return T[x[1]]
    return T[x]
ntnum={}
for k,(l,_) in enumerate(rules,1): ntnum[l]=R1[k]
class Cert:
    # prods: list of (lhs, rule, rhs); base: dict lhs->nt name ; rule 0 = unit
    def __init__(self,prods,base,start):
        self.P=prods; self.base=base
        self.by={}
        for i,(l,r,rhs) in enumerate(prods): self.by.setdefault(l,[]).append(i)
        for (l,r,rhs) in prods:
            for x in rhs:
                if not isterm(x): assert x in self.by,x
            if r:
                assert rules[r-1][0]==base[l],(l,r)
                assert [x if isterm(x) else base[x] for x in rhs]==rules[r-1][1],(l,r,rhs)
            else: assert len(rhs)==1 and base[rhs[0]]==base[l]
        # nullable, first (bit masks)
        self.null=set(); ch=True
        while ch:
            ch=False
            for l,r,rhs in prods:
                if l not in self.null and all((not isterm(x)) and x in self.null for x in rhs): self.null.add(l); ch=True
        self.first={l:0 for l in self.by}
        ch=True
        while ch:
            ch=False
            for l,r,rhs in prods:
                f=self.firstseq(rhs,0)
                if f|self.first[l]!=self.first[l]: self.first[l]|=f; ch=True
        self.items=[{} for _ in range(nst)]
        self.start=start
    def firstseq(self,rhs,la):
        f=0
        for x in rhs:
            if isterm(x): return f|(1<<tnum(x))
            f|=self.first[x]
            if x not in self.null: return f
        return f|la
    def run(self):
        work=[]
        def add(s,i,d,la):
            o=self.items[s].get((i,d),None)
            if o is None or (o|la)!=o:
                self.items[s][(i,d)]=(o or 0)|la
                work.append((s,i,d))
        for i in self.by[self.start]: add(0,i,0,1<<1)
        errs={}
        while work:
            s,i,d=work.pop()
            la=self.items[s][(i,d)]
            l,r,rhs=self.P[i]
            if d<len(rhs):
                x=rhs[d]
                if isterm(x):
                    a=action(s,tnum(x))
                    if a[0]!='s': errs[('shift',s,i,d)]=a; continue
                    add(a[1],i,d+1,la)
                else:
                    f=self.firstseq(rhs[d+1:],la)
                    for j in self.by[x]: add(s,j,0,f)
                    if r!=0:
                        g=goto(s,ntnum[self.base[x]])
                        add(g,i,d+1,la)
            else:
                pass
        for s in range(nst):
            for (i,d),la in self.items[s].items():
                l,r,rhs=self.P[i]
                if d==len(rhs) and r!=0:
                    for t in range(64):
                        if la>>t&1:
                            a=action(s,t)
                            if a!=('r',r): errs[('red',s,i,t)]=a
        return errs
if __name__=='__main__':
    prods=[(l,k,rhs) for k,(l,rhs) in enumerate(rules,1)]
    c=Cert(prods,{l:l for l,_ in rules},'file')
    e=c.run()
    g={}
    for k,a in e.items():
        if k[0]=='shift': g.setdefault(('shift',k[2],k[3]),[]).append((k[1],a))
        else: g.setdefault(('red',k[2]),{}).setdefault((names[k[3]-1]),[]).append((k[1],a))
    for k,v in sorted(g.items(),key=str):
        print(k,prods[k[1]], {t:len(x) for t,x in v.items()} if k[0]=='red' else v[:4])
    print(sum(len(x) for x in c.items))
