#!/usr/bin/env python3
"""Seeded-bug runs: mutate.py muts.json
Each entry: {"definition","file","old","new","claim","note"?}. Works in a scratch copy (/tmp/mut/lean), rebuilds, and appends
one line per entry to seeded/LOG.jsonl with the declarations that no longer check. Entries already logged are skipped."""
import sys, json, os, re, subprocess, shutil
root = os.path.dirname(os.path.dirname(os.path.abspath(__file__)))
mut = '/tmp/mut'
os.makedirs(mut, exist_ok=True)
def sync(): subprocess.run(['rsync', '-a', '--delete', root + '/lean', mut + '/'], check=True) if shutil.which('rsync') else subprocess.run(f'rm -rf {mut}/lean && cp -a {root}/lean {mut}/', shell=True, check=True)
def decl_at(path, line):
    name = '?'
    for i, l in enumerate(open(path), 1):
        if i > line: break
        m = re.match(r'(?:@\[[^\]]*\] )?(?:private )?(?:theorem|def|example|instance)\s*(\S*)', l)
        if m: name = m.group(1) if m.group(1) not in ('', ':') else 'example@%d' % i
    return name
log = root + '/seeded/LOG.jsonl'
done = set()
if os.path.exists(log):
    for l in open(log):
        if l.strip(): d = json.loads(l); done.add((d['definition'], d['edit']))
for m in json.load(open(sys.argv[1])):
    edit = f"{m['old']}  ==>  {m['new']}"
    if (m['definition'], edit) in done: continue
    sync()
    p = mut + '/lean/' + m['file']
    s = open(p).read()
    if s.count(m['old']) < 1: print('NOT FOUND', m['definition'], m['old']); continue
    if s.count(m['old']) > 1 and not m.get('first'): print('AMBIGUOUS', m['definition'], m['old']); continue
    open(p, 'w').write(s.replace(m['old'], m['new'], 1))
    r = subprocess.run('lake build 2>&1', shell=True, cwd=mut + '/lean', capture_output=True, text=True)
    failed, bad = [], []
    for l in r.stdout.split('\n'):
        q = re.match(r'error: (Verif/\S+\.lean):(\d+):', l)
        if q:
            d = q.group(1) + ':' + decl_at(mut + '/lean/' + q.group(1), int(q.group(2)))
            if d not in failed: failed.append(d)
    blocked = [x for x in re.findall(r'^- (Verif\.\S+)', r.stdout, re.M)]
    model_err = any(f.startswith('Verif/Model') for f in failed)
    print('%-28s %s' % (m['definition'], 'MODEL DOES NOT COMPILE' if model_err else ('SURVIVED' if not failed else ', '.join(failed))))
    if model_err: print(r.stdout[:1500]); continue
    rec = {'definition': m['definition'], 'edit': edit, 'claim_broken': m['claim'], 'theorems_failed': failed,
           'theorems_tightened': m.get('tightened', [])}
    if m.get('note'): rec['note'] = m['note']
    if not failed and not m.get('log_survivor'):
        print('  -> not logged; tighten or set log_survivor'); continue
    open(log, 'a').write(json.dumps(rec, ensure_ascii=False) + '\n')
