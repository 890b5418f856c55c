#!/usr/bin/env python3
"""Writes lean/Verif/Model/ParseTables.lean from /repo/build/parse.y.go."""
import re
S = open('/repo/build/parse.y.go').read()
LINES = S.split('\n')
def arr(n):
    m = re.search(r'var %s = \[\.\.\.\]int\d+\{(.*?)\n\}' % n, S, re.S)
    a = S[:m.start()].count('\n') + 1
    b = S[:m.end()].count('\n') + 1
    return [int(x) for x in re.findall(r'-?\d+', m.group(1))], a, b
out = ['/-', 'Generated by tools/gen_tables.py from /repo/build/parse.y.go: the tables of the LALR parser, copied verbatim.',
       'A table is stored in rows of 32 entries so that the kernel can look entries up quickly.', '-/',
       'namespace Verif.LR', '',
       '/-- Entry `n` of a table stored in rows of 32 (no counterpart in Go). -/',
       'def look (t : List (List Int)) (n : Nat) : Int := (t.getD (n / 32) []).getD (n % 32) 0', '']
for n in 'Exca Act Pact Pgo R1 R2 Chk Def Tok1 Tok2'.split():
    xs, a, b = arr('yy' + n)
    rows = [xs[i:i+32] for i in range(0, len(xs), 32)]
    out.append('/-- build/parse.y.go:%d-%d `yy%s` (%d entries). -/' % (a, b, n, len(xs)))
    out.append('def yy%s : List (List Int) :=' % n)
    out.append('  [' + ',\n   '.join('[' + ', '.join(map(str, r)) + ']' for r in rows) + ']')
    out.append('')
out.append('end Verif.LR')
open('/verif/lean/Verif/Model/ParseTables.lean', 'w').write('\n'.join(out) + '\n')
