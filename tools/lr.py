import re
S=open('/repo/build/parse.y.go').read()
def arr(n):
    m=re.search(r'var %s = \[\.\.\.\]int\d+\{(.*?)\n\}'%n,S,re.S)
    return [int(x) for x in re.findall(r'-?\d+',m.group(1))]
Exca,Act,Pact,Pgo,R1,R2,Chk,Def,Tok1,Tok2=[arr('yy'+n) for n in 'Exca Act Pact Pgo R1 R2 Chk Def Tok1 Tok2'.split()]
LAST=1052; FLAG=-1000
names=re.findall(r'"((?:[^"\\]|\\.)*)"',re.search(r'var yyToknames = \[\.\.\.\]string\{(.*?)\n\}',S,re.S).group(1))
nst=len(Pact)
def action(s,t):
    n=Pact[s]
    if n>FLAG:
        n+=t
        if 0<=n<LAST:
            n=Act[n]
            if Chk[n]==t: return ('s',n)
    n=Def[s]
    if n==-2:
        xi=0
        while not(Exca[xi]==-1 and Exca[xi+1]==s): xi+=2
        xi+=2
        while True:
            n=Exca[xi]
            if n<0 or n==t: break
            xi+=2
        n=Exca[xi+1]
        if n<0: return ('acc',)
    if n==0: return ('err',)
    return ('r',n)
def goto(s,nt):
    g=Pgo[nt]; j=g+s+1
    if j>=LAST: return Act[g]
    st=Act[j]
    if Chk[st]!=-nt: return Act[g]
    return st
NT={}
if __name__=='__main__':
    print(nst,len(Act),len(Pgo),len(R1),len(R2),len(Chk),len(Def),names)
    print(Exca)
