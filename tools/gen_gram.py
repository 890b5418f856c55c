from gram import rules
from lr import *
order=[]
for l,_ in rules:
    if l not in order: order.append(l)
def nt(x): 
    p=x.split('_')
    r=p[0]+''.join(w.capitalize() for w in p[1:])
    return {'file':'file','elif':'elif_','def':'def_'}.get(r,r)
nums={}
for k,(l,_) in enumerate(rules,1):
    assert nums.setdefault(l,R1[k])==R1[k]
kw={'_EOF':'eof','_INDENT':'indent','_UNINDENT':'unindent','_COMMENT':'comment','_DEF':'def_','_IDENT':'ident','_ARROW':'arrow','_FOR':'for_','_IN':'in_','_IF':'if_','_ELSE':'else_','_ELIF':'elif','_RETURN':'return_','_AUGM':'augm','_PASS':'pass','_BREAK':'break_','_CONTINUE':'continue_','_LOAD':'load','_STAR_STAR':'starStar','_LAMBDA':'lambda','_NOT':'not','_INT_DIV':'intDiv','_EQ':'eq','_LE':'le','_NE':'ne','_GE':'ge','_OR':'or','_AND':'and','_BIT_LSH':'lsh','_BIT_RSH':'rsh','_IS':'is','_STRING':'string','_INT':'int'}
def sym(x):
    if x=="'\\n'": return '.t K.newline'
    if x[0]=="'": return '.t (ch \'%s\')'%x[1]
    if x in kw: return '.t K.'+kw[x]
    return '.n .'+nt(x)
o=[]
o.append('''import Verif.Model.Lexer
/-
The grammar of BUILD and .bzl files as written in /repo/build/parse.y:208-1056, without the semantic actions. This is a specification: the
parser (Model/Parser.lean) does not use it, it runs on the generated tables.
-/
namespace Verif.Grammar
open Verif Verif.Lexer

/-- the nonterminals of parse.y -/
inductive NT where''')
o.append('  '+' '.join('| '+nt(x) for x in order))
o.append('''deriving DecidableEq, Repr

/-- a terminal (a token kind) or a nonterminal -/
inductive Sym where
  | t (k : Kind)
  | n (a : NT)
deriving DecidableEq, Repr

/-- the token kind of a character -/
def ch (c : Char) : Kind := c.toNat

/-- build/parse.y:208-1056: the productions in the order of the file, so that production number `r` of the generated parser is entry
`r - 1`. -/
def productions : List (NT × List Sym) := [''')
lines=[]
for k,(l,r) in enumerate(rules,1):
    lines.append('  (.%s, [%s])'%(nt(l),', '.join(sym(x) for x in r)))
o.append(',\n'.join(lines)+']')
o.append('\nend Verif.Grammar')
open('/verif/lean/Verif/Model/Grammar.lean','w').write('\n'.join(o)+'\n')
# preds
preds=[set() for _ in range(nst)]
todo=True
# terminals
for s in range(nst):
    for t in range(64):
        a=action(s,t)
        if a[0]=='s': preds[a[1]].add(s)
# gotos: fixpoint by valid paths
def back(S,n):
    for _ in range(n):
        S=set().union(*[preds[x] for x in S]) if S else set()
    return S
ch=True
while ch:
    ch=False
    for s in range(nst):
        rs={a[1] for t in range(64) for a in [action(s,t)] if a[0]=='r'}
        for r in rs:
            if r==1: continue
            for b in back({s},R2[r]):
                g=goto(b,R1[r])
                if b not in preds[g]: preds[g].add(b); ch=True
ntn=', '.join('%s=%d'%(nt(x),nums[x]) for x in order)
print(ntn)
symnum={}
# verify rhs
bad=0
from lr import names
inv={}
for k,(l,r) in enumerate(rules,1):
    pass
for s in range(nst):
    rs={a[1] for t in range(64) for a in [action(s,t)] if a[0]=='r'}
    for r in rs:
        S={s}
        for x in reversed(rules[r-1][1]):
            for y in S:
                c=Chk[y]
                if c<0: ok = x in nums and nums[x]==-c
                else: ok = x not in nums
                if not ok: bad+=1; print('bad',s,r,x,y,c)
            S=set().union(*[preds[y] for y in S])
print('bad',bad, sum(len(p) for p in preds), max(len(p) for p in preds))
open('preds.txt','w').write(repr([sorted(p) for p in preds]))
open('ntnum.txt','w').write(repr([(nt(x),nums[x]) for x in order]))
