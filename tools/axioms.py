#!/usr/bin/env python3
"""Write AXIOMS.txt: the axioms each theorem of MANIFEST.json depends on.

Run after `lake build`; asks Lean in a scratch file outside the project.
"""
import json, os, re, subprocess, tempfile
root = os.path.join(os.path.dirname(os.path.abspath(__file__)), '..')
man = json.load(open(os.path.join(root, 'MANIFEST.json')))
names = [t for c in man['claims'] for t in c['theorems']]
with tempfile.NamedTemporaryFile('w', suffix='.lean', delete=False) as f:
    f.write('import Verif\n' + ''.join('#print axioms %s\n' % n for n in names))
out = subprocess.run(['lake', 'env', 'lean', f.name], cwd=os.path.join(root, 'lean'),
                     capture_output=True, text=True).stdout
os.unlink(f.name)
found = dict()
for m in re.finditer(r"'([\w.]+)' (?:depends on axioms: \[([^\]]*)\]|(does not depend on any axioms))", out):
    found[m.group(1)] = re.sub(r'\s+', ' ', m.group(2) or 'none')
with open(os.path.join(root, 'AXIOMS.txt'), 'w') as g:
    for n in names:
        g.write('%-60s %s\n' % (n, found.get(n, 'NOT FOUND')))
