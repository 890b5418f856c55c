import re
src=open('/verif/lean/Verif/Model/Grammar.lean').read()
i=src.index('def productions')
prods=[]
for line in src[i:].split('\n'):
    m=re.match(r'  \(\.(\w+), \[(.*)\]\)[,\]]?$',line)
    if m: prods.append(m.groups())
assert len(prods)==148,len(prods)
special={64,2,7,10,12,14,17,18,22,24,44,48,54,116}
manual=open('/tmp/neatmanual2.lean').read()
L=[open('/tmp/neathead.lean').read()]
for k,(a,rhs) in enumerate(prods):
    r=k+1
    if r in special: continue
    n=0 if not rhs.strip() else rhs.count('.t ')+rhs.count('.n ')
    vs=(' '.join(f't{i}' for i in range(1,n+1))+' '+' '.join(f'v{i}' for i in range(1,n+1))).strip()
    hs=' '.join(f'h{i}' for i in range(1,n+1))
    toks=re.findall(r"\.([tn]) (\(ch '.'\)|[\w.]+)",rhs)
    have=''
    for i,(c,x) in enumerate(toks):
        if c=='n' and x in('.ident','.string'): have+=f"  obtain ⟨n{i+1}, g{i+1}, k{i+1}⟩ := h{i+1}\n"
        if c=='t': have+=f"  clear h{i+1}\n"
    L.append(f'''theorem nr{r} : NStep {k} := g{n} rfl fun {vs} v hT {hs} h => by
  cases h
  clear hT
{have}  nauto
''')
L.append(manual)
L.append('theorem neat_steps : ∀ r, r < 148 → NStep r')
for k in range(148): L.append(f'  | {k}, _ => nr{k+1}')
L.append('  | n + 148, h => absurd h (by omega)')
L.append('\nend Verif.Printed\n')
open('/verif/lean/Verif/Proofs/NeatStep.lean','w').write('\n'.join(L))
