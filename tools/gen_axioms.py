#!/usr/bin/env python3
"""Write AXIOMS.md: the axioms every theorem of MANIFEST.json depends on, as reported by Lean."""
import json, os, re, subprocess, tempfile
root = os.path.dirname(os.path.dirname(os.path.abspath(__file__)))
names = [(c['property'], t) for c in json.load(open(root + '/MANIFEST.json'))['claims'] for t in c['theorems']]
with tempfile.NamedTemporaryFile('w', suffix='.lean', delete=False) as f:
    f.write('import Verif\n' + ''.join('#print axioms %s\n' % n for _, n in names))
out = subprocess.run(['lake', 'env', 'lean', f.name], cwd=root + '/lean', capture_output=True, text=True).stdout
os.unlink(f.name)
ax = {}
for m in re.finditer(r"'(\S+)' (?:depends on axioms: \[([^\]]*)\]|does not depend on any axioms)", out):
    ax[m.group(1)] = ' '.join((m.group(2) or '').split()) or 'none'
groups = {}
for p, n in names:
    groups.setdefault(ax[n], []).append(n.replace('Pyogp.', ''))
with open(root + '/AXIOMS.md', 'w') as f:
    f.write('# Axioms per theorem (`#print axioms`, generated by tools/gen_axioms.py)\n')
    for a in sorted(groups):
        f.write('\n## %s\n\n%s\n' % (a, ', '.join('`%s`' % n for n in groups[a])))
print({a: len(v) for a, v in groups.items()})
