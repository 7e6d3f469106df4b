#!/usr/bin/env python3
"""Write MANIFEST.json from the property theorems in lean/Verif/Props.

Every theorem named Cnn_... belongs to property Cnn. Status and notes come from
tools/status.json (default: proved, no note); a property all of whose theorems are
missing is left out.
"""
import json, re, glob, os
root = os.path.join(os.path.dirname(__file__), '..')
notes = json.load(open(os.path.join(root, 'tools', 'status.json')))
thms = {}
for f in sorted(glob.glob(os.path.join(root, 'lean/Verif/Props/*.lean'))):
    for m in re.finditer(r'^theorem (C\d\d)_(\w+)', open(f).read(), re.M):
        thms.setdefault(m.group(1), []).append('Vpin.%s_%s' % (m.group(1), m.group(2)))
claims = []
for line in open(os.path.join(root, 'properties.jsonl')):
    p = json.loads(line)['id']
    n = notes.get(p, {})
    if p in thms or n.get('status') == 'not_applicable':
        claims.append({'property': p, 'status': n.get('status', 'proved'),
                       'theorems': thms.get(p, []), 'note': n.get('note', '')})
json.dump({'claims': claims}, open(os.path.join(root, 'MANIFEST.json'), 'w'), indent=1)
print(len(claims), 'claims', sum(len(c['theorems']) for c in claims), 'theorems')
