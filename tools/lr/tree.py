import sys
sys.path.insert(0,'/tmp/lr')
from g1 import *
c=build()
toks=sys.argv[1:]
toks=["'\\n'" if t=='NL' else t for t in toks]
n=len(toks)
W={}
for i,t in enumerate(toks): W[(t,i,i+1)]=('leaf',i)
ch=True
def seqs(rhs,i):
    # all (j, children) 
    if not rhs: yield i,[]; return
    for (s,a,b) in list(W):
        if s==rhs[0] and a==i:
            for j,cs in seqs(rhs[1:],b): yield j,[(s,a,b)]+cs
while ch:
    ch=False
    for pi,(l,r,rhs) in enumerate(c.P):
        for i in range(n+1):
            for j,cs in list(seqs(rhs,i)):
                if (l,i,j) not in W: W[(l,i,j)]=('node',pi,cs); ch=True
def show(k):
    w=W[k]
    if w[0]=='leaf': return '.leaf %d'%w[1]
    return '.node %d [%s]'%(w[1],', '.join(show(x) for x in w[2]))
print(show((c.P[0][0],0,n)))
