import re
src=open('/verif/lean/Verif/Model/Grammar.lean').read()
i=src.index('def productions')
prods=[]
for line in src[i:].split('\n'):
    m=re.match(r'  \(\.(\w+), \[(.*)\]\)[,\]]?$',line)
    if m: prods.append(m.groups())
assert len(prods)==148,len(prods)
special={1000,40,42,91,92,93,94,11,64,138,140,141,142,2,7,10,12,14,17,18,22,24,44,54,116}
manual=open('/tmp/fitmanual.lean').read()
L=[open('/tmp/fithead.lean').read()]
for k,(a,rhs) in enumerate(prods):
    r=k+1
    if r in special: continue
    n=0 if not rhs.strip() else rhs.count('.t ')+rhs.count('.n ')
    vs=(' '.join(f't{i}' for i in range(1,n+1))+' '+' '.join(f'v{i}' for i in range(1,n+1))).strip()
    hs=' '.join(f'h{i}' for i in range(1,n+1))
    toks=re.findall(r"\.([tn]) (\(ch '.'\)|[\w.]+)",rhs)
    assert len(toks)==n,(rhs,toks)
    have=''.join(f"  have e{i+1} := QTok.text h{i+1} hp (by decide) (by decide) (by decide)\n" for i,(c,x) in enumerate(toks) if c=='t' and x not in('K.string','K.newline','K.comment'))
    LC='argumentsOpt arguments parametersOpt parameters parametersTypeOpt parametersType testsOpt tests keyvaluesNoComma keyvalues forClauseWithIfClausesOpt forClausesWithIfClausesOpt'.split()
    for i,(c,x) in enumerate(toks):
        if c=='n' and x[1:] in LC: have+=f"  have o{i+1} := fitO_of (T := T) v{i+1}.exprs h{i+1}\n"
        if c=='n' and x=='.ident': have+=f"  obtain ⟨n{i+1}, g{i+1}, k{i+1}⟩ := h{i+1}\n"
        if c=='n' and x=='.string': have+=f"  obtain ⟨n{i+1}, g{i+1}, k{i+1}, l{i+1}⟩ := h{i+1}\n"
    uses=''.join(f'h{i}, ' for i in range(1,n+1)).rstrip(', ')
    L.append(f'''theorem fr{r} (hp : ∀ s : Bytes, 10 ∉ s → T s = true) : QStep T {k} := q{n} rfl fun {vs} v _ {hs} h => by
  cases h
{have}  qauto
''')
L.append(manual)
L.append('theorem fit_steps (hp : ∀ s : Bytes, 10 ∉ s → T s = true) : ∀ r, r < 148 → QStep T r')
for k in range(148): L.append(f'  | {k}, _ => fr{k+1} hp')
L.append('  | n + 148, h => absurd h (by omega)')
L.append('\nend\nend Verif.Printed\n')
open('/verif/lean/Verif/Proofs/FitStep.lean','w').write('\n'.join(L))
