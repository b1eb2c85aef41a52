#!/usr/bin/env python3
"""Writes AXIOMS.md: the axioms each theorem of MANIFEST.json depends on (needs a built project)."""
import json, os, re, subprocess, tempfile
root = os.path.dirname(os.path.dirname(os.path.abspath(__file__)))
claims = json.load(open(root + '/MANIFEST.json'))['claims']
thms = [t for c in claims for t in c['theorems']]
src = 'import Verif\n' + ''.join('#print axioms %s\n' % t for t in thms)
with tempfile.NamedTemporaryFile('w', suffix='.lean', delete=False) as f: f.write(src)
out = subprocess.run(['lake', 'env', 'lean', f.name], cwd=root + '/lean', capture_output=True, text=True).stdout
os.unlink(f.name)
out = re.sub(r'\n\s+', ' ', out)
ax = {}
for m in re.finditer(r"'(\S+)' (?:depends on axioms: \[(.*?)\]|does not depend on any axioms)", out):
    ax[m.group(1)] = m.group(2) or 'none'
with open(root + '/AXIOMS.md', 'w') as f:
    f.write('# Axioms of the theorems in MANIFEST.json (by `#print axioms`; written by tools/mkaxioms.py)\n\n| property | theorem | axioms |\n|---|---|---|\n')
    for c in claims:
        for t in c['theorems']: f.write('| %s | `%s` | %s |\n' % (c['property'], t, ax[t]))
print(len(thms), sorted(set(ax.values())))
