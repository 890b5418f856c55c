import sys
sys.path.insert(0,'/tmp/lr')
from g1 import *
c=build(); e=c.run(); assert not e
lv={'cond':2,'is':3,'or':4,'and':5,'cmp':6,'bor':7,'bxor':8,'band':9,'shift':10,'add':11,'mul':12,'un':13}
kw={'_EOF':'eof','_INDENT':'indent','_UNINDENT':'unindent','_COMMENT':'comment','_DEF':'def_','_IDENT':'ident','_ARROW':'arrow','_FOR':'for_','_IN':'in_','_IF':'if_','_ELSE':'else_','_ELIF':'elif','_RETURN':'return_','_AUGM':'augm','_PASS':'pass','_BREAK':'break_','_CONTINUE':'continue_','_LOAD':'load','_STAR_STAR':'starStar','_LAMBDA':'lambda','_NOT':'not','_INT_DIV':'intDiv','_EQ':'eq','_LE':'le','_NE':'ne','_GE':'ge','_OR':'or','_AND':'and','_BIT_LSH':'lsh','_BIT_RSH':'rsh','_IS':'is','_STRING':'string','_INT':'int'}
def camel(x):
    p=x.split('_'); r=p[0]+''.join(w.capitalize() for w in p[1:])
    return {'elif':'elif_'}.get(r,r)
special={'primary':'primary','primary_int':'primaryInt','number_int':'numberInt','lambda_body':'lambdaBody','cond':'any 2','is':'any 3','stmts':'anyStmts','if_chain':'anyIfChain'}
def con(x):
    if x in special: return special[x]
    if x[-2:] in('_c','_o') and x[:-2] in lv: return 'test %d %s'%(lv[x[:-2]],'true' if x[-1]=='o' else 'false')
    if x[-2:] in('_c','_o'): return {'for_clause':'forClause','fci':'clauses'}[x[:-2]]+(' true' if x[-1]=='o' else ' false')
    if x[-2:] in('_b','_l'): return camel(x[:-2])+(' true' if x[-1]=='l' else ' false')
    return camel(x)
nts=[]
for l,r,rhs in c.P:
    if l not in nts: nts.append(l)
idx={l:i for i,l in enumerate(nts)}
def fsym(x):
    if x=="'\\n'": return '.t K.newline'
    if x[0]=="'": return '.t (ch \'%s\')'%x[1]
    if x in kw: return '.t K.'+kw[x]
    k=con(x)
    return '.n (.%s)'%k if ' ' in k else '.n .'+k
def code(x): return tnum(x) if isterm(x) else 64+idx[x]
plain=[con(l) for l in nts if ' ' not in con(l)]
o=[]
o.append('''import Verif.Model.Grammar
/-
An unambiguous grammar for the same language as the one in /repo/build/parse.y:208-1056, with operator precedence spelled out by levels instead of
by `%left` declarations (parse.y:177-203). This is a specification: the parser does not use it, it runs on the generated tables.

Every production names the production of parse.y it refines (by number, from 1), or 0 if it only includes one class in
another. `test p o` are the tests whose topmost operator binds at least as tightly as level `p`: 2 conditional, 3 `is`, 4 `or`, 5 `and`,
6 comparisons, 7 `|`, 8 `^`, 9 `&`, 10 shifts, 11 sums, 12 products, 13 unary operators and primary expressions. With `o = true` they end with a
`lambda` that is not in parentheses, which extends as far to the right as possible. For statements the flag says that they end with a suite on the
same line, which swallows the line ends that follow.
-/
namespace Verif.Grammar
open Verif Verif.Lexer

/-- the classes of the refined grammar -/
inductive FNT where
  | test (p : Nat) (o : Bool)
  | any (p : Nat)
  | suite (l : Bool) | stmts (l : Bool) | stmt (l : Bool) | blockStmt (l : Bool) | ifChain (l : Bool) | ifElseBlock (l : Bool)
  | forClause (o : Bool) | clauses (o : Bool)''')
o.append('  '+' '.join('| '+x for x in plain))
o.append('''deriving DecidableEq, Repr

/-- the nonterminal of parse.y a class refines -/
def FNT.base : FNT → NT
  | .test .. => .test | .any _ => .test
  | .suite _ => .suite | .stmts _ => .stmts | .stmt _ => .stmt | .blockStmt _ => .blockStmt | .ifChain _ => .ifChain | .ifElseBlock _ => .ifElseBlock
  | .forClause _ => .forClause | .clauses _ => .forClauseWithIfClausesOpt''')
for l in nts:
    if ' ' not in con(l): o.append('  | .%s => .%s'%(con(l),camel(c.base[l])))
o.append('''
inductive FSym where
  | t (k : Kind)
  | n (a : FNT)
deriving DecidableEq, Repr

def FSym.base : FSym → Sym
  | .t k => .t k
  | .n a => .n a.base

/-- build/parse.y:177-203 and 208-1056: the refined productions. -/
def fine : List (FNT × Nat × List FSym) := [''')
o.append(',\n'.join('  (.%s, %d, [%s])'%(con(l),r,', '.join(map(fsym,rhs))) for l,r,rhs in c.P)+']')
o.append('\nend Verif.Grammar')
open('/verif/lean/Verif/Model/Fine.lean','w').write('\n'.join(o)+'\n')
# certificate
o=[]
o.append('''import Verif.Model.Fine
import Verif.Proofs.LRCheck
/-
A certificate that the parser tables parse the refined grammar: for every state, the items (production, position of the dot, possible
next tokens as a bit mask) it can be in the middle of. The kernel checks that the items are closed under the actions of the tables.
Generated by tools/genfine.py; nothing here is trusted, `check_all` is a theorem.
-/
namespace Verif.Parser
open Verif Verif.Lexer Verif.LR Verif.Grammar

/-- number of a class (64 and up; tokens have smaller numbers) -/
def fntNum : FNT → Nat''')
seen=[]
for l in nts:
    o.append('  | .%s => %d'%(con(l),64+idx[l]))
o.append('  | _ => 0')
o.append('''
def fsymNum : FSym → Nat
  | .t k => tokNum k
  | .n a => fntNum a

/-- the productions in numbers -/
def fcode : List (Nat × Nat × List Nat) := [''')
o.append(',\n'.join('  (%d, %d, [%s])'%(64+idx[l],r,', '.join(str(code(x)) for x in rhs)) for l,r,rhs in c.P)+']')
o.append('''
/-- number in the tables of the nonterminal that class `64 + i` refines -/
def baseTab : List Nat := [%s]'''%', '.join(str(ntnum[c.base[l]]) for l in nts))
o.append('''
/-- first tokens of the classes -/
def firstTab : List Nat := [%s]'''%', '.join(str(c.first[l]) for l in nts))
o.append('''
/-- which classes derive the empty sequence -/
def nullTab : Nat := %d'''%sum(1<<idx[l] for l in c.null))
def tab(name,doc,rows):
    o.append('\n/-- %s -/\ndef %s : List (List (Nat × Nat)) := ['%(doc,name))
    o.append(',\n'.join('  ['+', '.join('(%d, %d)'%p for p in r)+']' for r in rows)+']')
reds=[];trans=[];clos=[];kern=[]
for s in range(nst):
    R={};Tr={};C={};Kk={}
    for (i,d),la in c.items[s].items():
        l,r,rhs=c.P[i]
        if d>0: Kk[16*i+d]=la
        else: C[64+idx[l]]=la
        if d==len(rhs):
            if r: R[r]=R.get(r,0)|la
        else:
            x=rhs[d]
            if isterm(x): Tr[tnum(x)]=action(s,tnum(x))[1]
            elif r: Tr[64+ntnum[c.base[x]]]=goto(s,ntnum[c.base[x]])
    reds.append(sorted(R.items()));trans.append(sorted(Tr.items()));clos.append(sorted(C.items()));kern.append(sorted(Kk.items()))
tab('redsTab','reductions of each state: production, next tokens',reds)
tab('transTab','transitions of each state: symbol, next state',trans)
tab('closTab','classes that can start in each state, with what can follow',clos)
tab('kernTab','items of each state that are under way: 16 * production + dot, what can follow',kern)
o.append(open('/verif/tools/lr/cert_tail.txt').read())
open('/verif/lean/Verif/Proofs/FineCheck.lean','w').write('\n'.join(o)+'\n')
