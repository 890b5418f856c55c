import sys
sys.path.insert(0,'/tmp/lr')
from gram import rules
def nt(x):
    p=x.split('_')
    r=p[0]+''.join(w.capitalize() for w in p[1:])
    return {'elif':'elif_'}.get(r,r)
L='arguments argumentsOpt parameters parametersOpt parametersType parametersTypeOpt tests testsOpt keyvalues keyvaluesNoComma forClauseWithIfClausesOpt forClausesWithIfClausesOpt smallStmtsContinuation'.split()
P='commaOpt commas commasOpt linebreaksOpt semiOpt elif_'.split()
A='loadArguments loadArgument'.split()
O='exprOpt testOpt'.split()
S='file stmts comments suite stmt blockStmt ifElseBlock ifChain'.split()
def cls(x):
    if x[0]=="'" or x[0]=='_': return 'T'
    x=nt(x)
    return 'L' if x in L else 'P' if x in P else 'A' if x in A else 'O' if x in O else 'S' if x in S else 'I' if x=='ident' else 'G' if x=='string' else 'M' if x=='simpleStmt' else 'E'
out=[]
skip=[]
for k,(l,r) in enumerate(rules,1):
    c=cls(l)
    if c=='S' : skip.append(k); continue
    n=len(r)
    a='t%d'
    names=' '.join(['t%d'%i for i in range(1,n+1)]+['v%d'%i for i in range(1,n+1)]+['v']+['h%d'%i for i in range(1,n+1)]+['h'])
    b='theorem step%d : StepOK ComP %d := prod%d rfl (fun %s => by\n'%(k-1,k-1,n,names)
    facts=[];cs=[]
    for i,x in enumerate(r,1):
        ci=cls(x)
        cs.append('c%d'%i)
        if ci=='T': b+='  obtain ⟨u%d, rfl, k%d, rfl⟩ := h%d\n  have c%d := tokC_one k%d (by decide)\n'%(i,i,i,i,i)
        elif ci=='P': b+='  have c%d : tokC t%d = [] := h%d\n'%(i,i,i)
        elif ci=='E': b+='  obtain ⟨c%d, p%d⟩ := h%d\n'%(i,i,i); facts.append('p%d.1'%i)
        elif ci=='L': b+='  obtain ⟨c%d, q%d⟩ := h%d\n  have q%d\' := comL_plain q%d\n'%(i,i,i,i,i); facts.append("q%d'"%i)
        elif ci=='O': b+='  obtain ⟨c%d, p%d⟩ := h%d\n'%(i,i,i); facts.append('p%d'%i)
        elif ci=='A': b+='  obtain ⟨c%d, a%d, b%d⟩ := h%d\n'%(i,i,i,i); facts+=['a%d'%i,'b%d'%i]
        elif ci=='I': b+='  obtain ⟨c%d, y%d, z%d, e%d⟩ := h%d\n  have p%d : Plain v%d.expr := by rw [e%d]; exact ⟨rfl, rfl, rfl⟩\n'%((i,)*8); facts.append('p%d.1'%i)
        elif ci=='G': b+='  obtain ⟨c%d, y%d, z%d, o%d, m%d, n%d, e%d⟩ := h%d\n  have p%d : Plain v%d.expr := by rw [e%d]; exact ⟨rfl, rfl, rfl⟩\n'%((i,)*11); facts.append('p%d.1'%i)
        else: raise Exception((k,ci))
    b+='  cases h\n' if k!=54 and k!=116 and k!=17 else ''
    tk=('c1' if n==1 else 'by simp only [tokC_append, List.append_nil'+''.join(', '+x for x in cs)+']') if n else '(rfl : tokC [] = [])'
    fs=', '.join(facts)
    simp='[comE, comC, comL, comI'+(', '+fs if fs else '')+']'
    es=[i for i,x in enumerate(r,1) if cls(x) in 'EIG']
    if c=='P': b+='  exact (show tokC _ = [] from %s)'%tk
    elif c=='E' and k not in (54,116,17):
        alts=['exact p%d'%i for i in es]
        if len(es)==2: alts+=['exact plain_binary _ _ p%d.1 p%d.1'%tuple(es),'exact plain_tuple p%d p%d'%tuple(es)]
        if k==108: alts=['exact plain_binary _ b!"not in" p1.1 p4.1']
        if len(es)==1: alts+=['exact plain_unary _ _ p%d.1'%es[0]]
        alts+=['exact plain_unary _ _ rfl','exact ⟨by simp %s, rfl, rfl⟩'%simp]
        if k==81: alts=['exact ⟨by simp [e1, mkTyped, comE, comC, p3.1], by simp [e1, mkTyped, isCommentBlock], by simp [e1, mkTyped, okE]⟩']
        if k==82: alts=['exact plain_binary _ _ (by simp [e1, mkTyped, comE, comC, p3.1]) p5.1']
        if k in(83,84): alts=['exact plain_unary _ _ (by simp [e2, mkTyped, comE, comC, p4.1])']
        if k==44: alts=['exact ⟨by simp [comE, comC, a6, b6, e4, asString], rfl, rfl⟩']
        b+='  refine ⟨%s, ?_⟩\n'%tk
        b+='  first\n'+''.join('  | %s\n'%x for x in alts)
        b=b.rstrip('\n')
    elif c=='E':
        if k==17:
            b+='''  obtain ⟨c, sp, n, ps, b, cp, fc, fm, t, he, rfl⟩ := sem17 h
  rw [he] at p1
  obtain ⟨h1, h2, h3⟩ := p1
  simp only [comE, List.append_eq_nil_iff] at h1
  exact ⟨%s, by simp [comE, h1, p3.1], rfl, h3⟩'''%tk
        if k==54:
            b+='''  rw [sem54] at h
  cases h
  refine ⟨%s, ?_⟩
  unfold parenOrTuple
  dsimp only
  split
  · rename_i hx
    cases hl : v2.exprs with
    | nil => rw [hl] at hx; cases hx.1
    | cons x l =>
      rw [hl] at q2'
      have hq' : comE x = [] := by rw [comL, List.append_eq_nil_iff] at q2'; exact q2'.1
      exact ⟨by simp [comE, comC, hq'], rfl, rfl⟩
  · exact ⟨by simp [comE, comC, q2'], rfl, rfl⟩'''%tk
        if k==116:
            b+='''  rw [sem116] at h
  cases h
  refine ⟨%s, ?_⟩
  unfold mkIs
  dsimp only
  have hp := p3.1
  split
  · rename_i c o op x hx
    rw [hx] at hp
    have hx' : comE x = [] := by simp only [comE, List.append_eq_nil_iff] at hp; exact hp.2
    split
    · exact plain_binary _ _ p1.1 hx'
    · exact plain_binary _ _ p1.1 hp
  · exact plain_binary _ _ p1.1 hp'''%tk
    elif c=='O': b+='  exact ⟨%s, %s⟩'%(tk,'p1.1' if es else 'rfl')
    elif c=='I': b+='  exact ⟨%s, _, _, rfl⟩'%tk
    elif c=='G': b+='  exact ⟨%s, _, _, _, _, _, rfl⟩'%tk
    elif c=='A':
        if k==63: b+='  exact ⟨%s, a1, b1⟩'%tk
        if k==64: b+='  exact ⟨%s, by simp [comI_append, a1, a3], by simp [comI_append, b1, b3]⟩'%tk
        if k==65: b+='  exact ⟨%s, rfl, rfl⟩'%tk
        if k==66: b+='  exact ⟨%s, rfl, by simp [e1, asIdent, comI, comC]⟩'%tk
    elif c in 'LM':
        alts=[]
        ls=[i for i,x in enumerate(r,1) if cls(x)=='L']
        sing='fun x hx => by simp at hx; subst hx; exact p%d'
        for i in ls: alts.append('exact q%d'%i)
        for i in ls:
            for j in es: alts.append('exact plain_snoc q%d p%d'%(i,j))
        for j in es: alts.append('exact '+sing%j)
        alts.append('exact fun x hx => by simp at hx')
        alts.append('exact nofun')
        if k==146: alts=['exact plain_snoc q1 ⟨by simp [comE, comC, p3.1], rfl, rfl⟩']
        if k==148: alts=['exact fun x hx => (List.mem_append.1 hx).elim (q1 x) (q2 x)']
        if c=='M':
            b+='  exact ⟨%s, by simp, fun x hx => (List.mem_cons.1 hx).elim (fun e => e ▸ p1) (q2 x)⟩'%tk
        else:
            b+='  refine ⟨%s, ?_⟩\n  first\n'%tk+''.join('  | %s\n'%x for x in alts)
            b=b.rstrip('\n')
    out.append(b+')\n')
open('/tmp/lr/com_steps.lean','w').write('\n'.join(out))
print(skip)
