#!/usr/bin/env python3
"""Regenerates MANIFEST.json from the theorem names in lean/Verif/Props and notes.json."""
import re, json, glob, os
root = os.path.dirname(os.path.dirname(os.path.abspath(__file__)))
thms = {}
for f in sorted(glob.glob(root + '/lean/Verif/Props/*.lean')):
    ns = []
    for line in open(f):
        m = re.match(r'namespace (\S+)', line)
        if m: ns.append(m.group(1))
        m = re.match(r'end (\S+)', line)
        if m and ns and ns[-1] == m.group(1): ns.pop()
        m = re.match(r'(?:@\[[^\]]*\] )?theorem (C\d\d\w*)', line)
        if m:
            name = '.'.join(ns + [m.group(1)])
            thms.setdefault(m.group(1).split('_')[0], []).append(name)
notes = json.load(open(root + '/tools/notes.json'))
claims = []
for l in open(root + '/properties.jsonl'):
    d = json.loads(l)
    i = d['id']
    n = notes.get(i, {})
    ts = thms.get(i, [])
    if not ts: continue
    st = n.get('status', 'partial' if any(t.endswith('_partial') for t in ts) else 'proved')
    claims.append({'property': i, 'status': st, 'theorems': ts, 'note': n.get('note', '')})
json.dump({'claims': claims}, open(root + '/MANIFEST.json', 'w'), indent=1, ensure_ascii=False)
print(len(claims), 'claims', sum(len(c['theorems']) for c in claims), 'theorems')
