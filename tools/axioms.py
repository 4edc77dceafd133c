#!/usr/bin/env python3
"""Rewrite the axiom list at the end of DESIGN.md: for every theorem of MANIFEST.json the axioms reported by Lean."""
import json, os, re, subprocess, tempfile
root = os.path.dirname(os.path.dirname(os.path.abspath(__file__)))
names = [t for c in json.load(open(root + '/MANIFEST.json'))['claims'] for t in c['theorems']]
with tempfile.NamedTemporaryFile('w', suffix='.lean', delete=False) as f:
    f.write('import Verif\n' + ''.join(f'#print axioms {n}\n' for n in names))
out = subprocess.run(['lake', 'env', 'lean', f.name], cwd=root + '/lean', capture_output=True, text=True).stdout
groups = {}
for n in names:
    m = re.search(r"'" + re.escape(n) + r"' (does not depend on any axioms|depends on axioms: \[([^\]]*)\])", out)
    assert m, n
    groups.setdefault(' '.join((m.group(2) or 'none').split()), []).append(n.replace('Uecho.', ''))
lines = ['<!-- axioms -->', '', '### Axioms of each theorem', '']
for g in sorted(groups, key=len):
    lines += [f'**{g}** ({len(groups[g])} theorems):', '', ', '.join(sorted(groups[g])), '']
p = root + '/DESIGN.md'
s = open(p).read()
open(p, 'w').write(s[:s.index('<!-- axioms -->')] + '\n'.join(lines))
