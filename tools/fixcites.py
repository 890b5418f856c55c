#!/usr/bin/env python3
"""Rewrites `file.go:a-b `Func`` citations in the model to the exact range of the function, if the range is not inside it."""
import re, glob, os, sys
repo='/repo'
files={}
for root,_,fs in os.walk(repo):
    for f in fs:
        if f.endswith('.go') and not f.endswith('_test.go'): files.setdefault(f,[]).append(os.path.join(root,f))
funcs={}
def load(p):
    if p in funcs: return funcs[p]
    L=open(p,errors='replace').read().split('\n'); d={}
    cur=None
    for i,l in enumerate(L,1):
        m=re.match(r'^func (?:\(\w+ \*?(\w+)\) )?(\w+)[\(\[]',l) or re.match(r'^(?:var|type|const) ()(\w+)\b',l)
        if m:
            cur=(m.group(2),i)
            if not l.rstrip().endswith(('{','(')) : d.setdefault(m.group(2),[]).append((i,i)); cur=None
        if cur and l in ('}',')'):
            d.setdefault(cur[0],[]).append((cur[1],i)); cur=None
    funcs[p]=d
    return d
tot=0
for m in sorted(glob.glob('/verif/lean/Verif/Model/*.lean')):
    s=open(m).read()
    def rep(x):
        global tot
        path,a,b,name=x.group(1),int(x.group(2)),int(x.group(3) or x.group(2)),x.group(4)
        base=os.path.basename(path)
        ps=[p for p in files.get(base,[]) if p.endswith('/'+path)] or files.get(base,[])
        nm=re.split(r'[.]',name)[-1].strip()
        best=None
        for p in ps:
            for (u,v) in load(p).get(nm,[]):
                if best is None or abs(u-a)<abs(best[0]-a): best=(u,v)
        if best is None or nm in ('ValueKind','GetParamName','assignComments'): return x.group(0)
        u,v=best
        if u<=a and b<=v and a>u+2: return x.group(0)   # deliberately a part
        if a<=u and v<=b and u-a<=12 and b-v<=1: return x.group(0)  # exact with doc comment
        new=f'{path}:{u}-{v} `{name}`' if u!=v else f'{path}:{u} `{name}`'
        if new!=x.group(0):
            tot+=1; print(os.path.basename(m),x.group(0),'->',f'{u}-{v}')
        return new
    t=re.sub(r'([\w/.]+\.go):(\d+)(?:-(\d+))? `([\w.]+)`',rep,s)
    if '-w' in sys.argv and t!=s: open(m,'w').write(t)
print(tot)
