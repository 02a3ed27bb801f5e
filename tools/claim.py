#!/usr/bin/env python3
"""Insert or replace claims in MANIFEST.json.

Reads lines `Cxx|status|theorem,theorem|note` from stdin; theorem names are
relative to Asdf.Props.
"""
import json, os, sys
path = os.path.join(os.path.dirname(os.path.abspath(__file__)), '..', 'MANIFEST.json')
man = json.load(open(path))
claims = {c['property']: c for c in man['claims']}
for line in sys.stdin:
    line = line.strip()
    if not line:
        continue
    pid, status, thms, note = line.split('|', 3)
    claims[pid] = {'property': pid, 'status': status,
                   'theorems': ['Asdf.Props.' + t.strip() for t in thms.split(',') if t.strip()],
                   'note': note}
man['claims'] = [claims[k] for k in sorted(claims)]
json.dump(man, open(path, 'w'), indent=1)
open(path, 'a').write('\n')
