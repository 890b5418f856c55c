import re
s=open('/repo/build/parse.y').read()
s=s.split('\n%%\n')[1]
# strip actions & comments
out='';d=0;i=0
while i<len(s):
    c=s[i]
    if s.startswith('//',i): 
        while s[i]!='\n': i+=1
        continue
    if s.startswith('/*',i):
        i=s.index('*/',i)+2; continue
    if c=="'" :
        j=s.index("'",i+1)
        if d==0: out+=s[i:j+1]
        i=j+1; continue
    if c=='"':
        j=s.index('"',i+1); i=j+1
        continue
    if c=='{': d+=1
    elif c=='}': d-=1
    elif d==0: out+=c
    i+=1
toks=re.findall(r"'[^']*'|%prec|[A-Za-z_]+|[:|]",out)
rules=[];lhs=None;i=0;cur=None
def flush():
    global cur
    if cur is not None: rules.append((lhs,cur))
    cur=None
while i<len(toks):
    t=toks[i]
    if i+1<len(toks) and toks[i+1]==':' :
        flush(); lhs=t; cur=[]; i+=2; continue
    if t=='|': flush(); cur=[]
    elif t=='%prec': i+=1
    else: cur.append(t)
    i+=1
flush()
if __name__=='__main__':
    from lr import *
    for k,(l,r) in enumerate(rules,1):
        print(k,l,'->',' '.join(r), '' if R2[k]==len(r) else 'MISMATCH')
