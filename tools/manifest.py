#!/usr/bin/env python3
"""Writes MANIFEST.json: collects every theorem of lean/Verif/Props whose name begins with a property id."""
import glob, json, re, os
here = os.path.dirname(os.path.dirname(os.path.abspath(__file__)))
NOTES = json.load(open(os.path.join(here, 'tools', 'notes.json')))
ths = {}
for p in sorted(glob.glob(os.path.join(here, 'lean/Verif/Props/*.lean'))):
    ns = []
    for l in open(p):
        m = re.match(r'namespace (\S+)', l)
        if m: ns.append(m.group(1))
        m = re.match(r'end (\S+)', l)
        if m and ns and ns[-1] == m.group(1): ns.pop()
        m = re.match(r'theorem ((C\d\d)_\S+)', l)
        if m: ths.setdefault(m.group(2), []).append('.'.join(ns + [m.group(1)]))
claims = []
for l in open(os.path.join(here, 'properties.jsonl')):
    i = json.loads(l)['id']
    t = ths.get(i, [])
    n = NOTES.get(i, {})
    status = n.get('status', 'proved')
    if not t: continue
    claims.append({'property': i, 'status': status, 'theorems': t, 'note': n.get('note', '')})
json.dump({'claims': claims}, open(os.path.join(here, 'MANIFEST.json'), 'w'), indent=1)
print(len(claims), sum(len(c['theorems']) for c in claims))
