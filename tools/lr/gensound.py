"""Writes Proofs/SoundCheck.lean: labels of the stack entries, for C62."""
import sys
sys.path.insert(0,'/verif/tools/lr')
import sound
from sound import *
src=open('/verif/tools/lr/genfine.py').read().split('plain=')[0].split('c=build()')[1].split('\n',1)[1]
exec(src)
N=len(nts); assert N==86, N
R[0]['file']=ALL
o=['''import Verif.Proofs.FineCheck
/-
A certificate that the parser tables parse only the refined grammar: for every state, the classes that can be on the stack directly above
it, each with the tokens that can come next (as a bit mask). The kernel checks that the labels are closed under the actions of the tables.
Generated by tools/lr/gensound.py; nothing here is trusted, `check_walk` is a theorem.
-/
namespace Verif.Parser
open Verif Verif.Lexer Verif.LR Verif.Grammar

def allMask : Nat := %d

def allProds : Nat := %d
'''%((1<<64)-2,(1<<max(len(v) for v in prodsof.values()))-1)]
def tab(name,doc,rows):
    o.append('\n/-- %s -/\ndef %s : List (List (Nat × Nat)) := ['%(doc,name))
    o.append(',\n'.join('  ['+', '.join('(%d, %d)'%p for p in r)+']' for r in rows)+']')
A=(1<<64)-2
def m(x): return A if x in (ALL,ALL|1) else x
tab('labTab','labels above each state: class, tokens that can come next',[sorted((64+idx[a],m(v)) for a,v in R[s].items()) for s in range(nst)])
moves=[];reds=[]
for s in range(nst):
    mv={};rd={}
    for t in range(64):
        a=action(s,t)
        if a[0]=='s': mv[t]=a[1]
        if a[0]=='r': rd[a[1]]=rd.get(a[1],0)|1<<t
    for a in R[s]: 
        if a!='file': mv[64+ntnum[c.base[a]]]=goto(s,ntnum[c.base[a]])
    moves.append(sorted(mv.items())); reds.append(sorted(rd.items()))
tab('moveTab','shifts and gotos of each state',moves)
tab('redTab','reductions of each state with the tokens they are done on',reds)
o.append('\n/-- per production of parse.y: number, symbols, and the refined productions: classes, right-hand sides -/\ndef ruleTab : List (Nat × List Nat × List Nat × List (List Nat)) := [')
L=lambda xs:'['+', '.join(map(str,xs))+']'
rt=[]
for r in range(1,len(rules)+1):
    ps=prodsof.get(r,[])
    xs=[tnum(x) if isterm(x) else 64+ntnum[x] for x in rules[r-1][1]]
    rt.append('  (%d, %s, %s, %s)'%(r,L(xs),L(64+idx[l] for l,_ in ps),L(L(map(code,f)) for _,f in ps)))
o.append(',\n'.join(rt)+']')
# superclasses in order
def order(a):
    out=[a]; ss=supers(a)
    while len(out)<len(ss):
        for b in sorted(ss,key=str):
            if b not in out and any(x in out for (l,r,rhs) in P if r==0 and l==b for x in rhs): out.append(b)
    return out
sl=[[64+idx[b] for b in order(a)] for a in nts]
o.append('\n/-- the classes each class is included in, itself first -/\ndef supList : List (List Nat) := ['+',\n  '.join(map(L,sl))+']')
o.append('\ndef rowN : List (List Nat) → Nat → List Nat\n  | [], _ => []\n  | r :: _, 0 => r\n  | _ :: l, n + 1 => rowN l n')
o.append('\n/-- the same as bit masks -/\ndef supTab : List Nat := '+L(sum(1<<b for b in x) for x in sl))
o.append('\n/-- the classes by number -/\ndef classTab : List FNT := ['+', '.join('.'+con(l) for l in nts)+']')
o.append(open('/verif/tools/lr/sound_tail.txt').read())
open('/verif/lean/Verif/Proofs/SoundCheck.lean','w').write('\n'.join(o))
