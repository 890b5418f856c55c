import re
src=open('Verif/Model/Fine.lean').read()
i=src.index('def fine')
prods=re.findall(r'^  \((\..*?|\.\w+), (\d+), \[(.*)\]\)[,\]]$', src[i:], re.M)
prods=[(a,int(r),rhs) for a,r,rhs in prods]
print(len(prods))
binop={95:"*",96:"%",97:"/",98:"//",99:"+",100:"-",101:"<",102:">",103:"==",104:"<=",105:"!=",106:">=",107:"in",109:"or",110:"and",111:"|",112:"&",113:"^",114:"<<",115:">>"}
unop={91:"not",92:"-",93:"+",94:"~"}
stm={1:'st1f',2:'st2s',3:'st3s'}
for k in [6,7,8,9,10,11,12,13,14,15,16,17,18,19,20,21,22,23,24,27,28,29,30,31,32,33,34]: stm[k]=f'st{k}s'
out='''import Verif.Proofs.ParsedS
/-
Every production of the refined grammar preserves the properties `P`.
-/
namespace Verif.Round
open Verif Verif.Syntax Verif.Lexer Verif.Print Verif.Parser Verif.Grammar Verif.Props.Grammar

theorem parsed_steps : ∀ q ∈ fine, Step q := by
  unfold fine
'''
for a,r,rhs in prods:
    if r==0:
        if a.startswith('.any '): t='st_any'
        elif a.startswith('.test'): t='st_up (by decide) (by decide)'
        elif a=='.primaryExpr': t='st_primary' if '.primary]' in rhs+']' else 'st_primaryInt'
        elif a=='.anyStmts': t='st_stmts'
        elif a=='.anyIfChain': t='st_chain'
        else: raise Exception((a,r,rhs))
    elif r in binop: t=f'st_bin b!"{binop[r]}" (by decide) (by decide) (by decide) (by decide) (by decide) (by decide) (fun _ _ _ => rfl)'
    elif r==108: t='st_notIn (by decide) (by decide) (by decide)'
    elif r in unop: t=f'st_un b!"{unop[r]}" (by decide) (by decide) (by decide) (fun _ _ => rfl)'
    elif r in (35,36,37): t=f'st_branch b!"{["pass","break","continue"][r-35]}" (by decide) (by decide) (by decide) (fun _ => rfl)'
    elif r in stm: t=stm[r]
    elif a=='.lambdaBody': t='st85l'
    elif a=='.primaryInt': t='st41i'
    elif r in (4,5,25,26,38,39,124,125,126,127,128,129): t='st_true (fun _ _ => rfl)'
    else: t=f'st{r}'
    out+=f'  refine List.forall_mem_cons.2 ⟨{t}, ?_⟩\n'
out+='  exact forall_nil\n\nend Verif.Round\n'
open('Verif/Proofs/ParsedT.lean','w').write(out)
