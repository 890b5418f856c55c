#!/usr/bin/env python3
"""Checks the citations in the model: `path/file.go:a-b `Name`` must contain an occurrence of Name near a definition.
Prints definitions without a citation, and citations whose range lies outside the file or does not mention the quoted name."""
import re, glob, os, sys
repo='/repo'
files={}
for root,_,fs in os.walk(repo):
    for f in fs:
        if f.endswith(('.go','.y','.bzl','.md','.star')):
            files.setdefault(f,[]).append(os.path.join(root,f))
def cand(path):
    base=os.path.basename(path)
    c=[p for p in files.get(base,[]) if p.endswith('/'+path)]
    return c or files.get(base,[])
bad=0
for m in sorted(glob.glob('/verif/lean/Verif/Model/*.lean')):
    s=open(m).read()
    for x in re.finditer(r'([\w/.]+\.(?:go|y)):(\d+)(?:-(\d+))?(?:,? `([^`]+)`)?',s):
        path,a,b,name=x.group(1),int(x.group(2)),int(x.group(3) or x.group(2)),x.group(4)
        ok=False
        for p in cand(path):
            L=open(p,errors='replace').read().split('\n')
            if b>len(L) or a>b: continue
            t='\n'.join(L[max(0,a-2):b+1])
            if name is None or not re.match(r'^[\w.() *]+$',name): ok=True
            else:
                n=re.findall(r'\w+',name)
                if any(re.search(r'\b'+re.escape(k)+r'\b',t) for k in n): ok=True
        if not ok:
            bad+=1
            print(os.path.basename(m),s[:x.start()].count('\n')+1,x.group(0))
    if '-d' in sys.argv:
        # definitions without any citation in their doc comment
        for d in re.finditer(r'^(?:/--(?P<doc>(?:(?!-/)[\s\S])*)-/\n)?(?:@\[[^\]]*\]\s*)?(?:partial |private |noncomputable )?(?:def|inductive|structure|abbrev) (?P<n>[\w.\']+)',s,re.M):
            doc=d.group('doc') or ''
            if not re.search(r'\.(go|y|bzl)\b',doc) and not re.search(r':\d+|\d+-\d+',doc):
                print('  nocite',os.path.basename(m),d.group('n'),'|',doc.strip()[:80].replace('\n',' '))
print(bad,'suspicious citations')
