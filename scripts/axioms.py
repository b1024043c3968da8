#!/usr/bin/env python3
"""Rewrite the table of axioms at the end of DESIGN.md from MANIFEST.json (needs a built project)."""
import json, re, subprocess, collections
m = json.load(open('/verif/MANIFEST.json'))
ths = []
for c in m['claims']:
    for t in c['theorems']:
        if t not in ths:
            ths.append(t)
src = 'import Verif\n' + ''.join(f'#print axioms {t}\n' for t in ths)
open('/tmp/axioms_all.lean', 'w').write(src)
out = subprocess.run(['lake', 'env', 'lean', '/tmp/axioms_all.lean'], cwd='/verif/lean', capture_output=True, text=True).stdout
out = re.sub(r'\n\s+', ' ', out)
groups = collections.OrderedDict()
for l in out.splitlines():
    a = re.match(r"'(.*)' depends on axioms: \[(.*)\]", l)
    b = re.match(r"'(.*)' does not depend on any axioms", l)
    if a:
        groups.setdefault(', '.join(sorted(x.strip() for x in a.group(2).split(','))), []).append(a.group(1))
    elif b:
        groups.setdefault('none', []).append(b.group(1))
    elif 'error' in l:
        print(l)
n = sum(len(v) for v in groups.values())
print(n, 'of', len(ths))
mark = '<!-- axioms -->'
d = open('/verif/DESIGN.md').read().split(mark)[0]
t = mark + '\n'
for k, v in groups.items():
    t += f'\nAxioms: {k} ({len(v)} theorems)\n\n' + ', '.join('`' + x + '`' for x in v) + '\n'
open('/verif/DESIGN.md', 'w').write(d + t)
