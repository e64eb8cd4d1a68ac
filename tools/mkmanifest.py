#!/usr/bin/env python3
"""Write MANIFEST.json.  Theorem names are collected from the sources: every theorem in
lean/Verif/Props whose name starts with `Cnn_`.  Status and notes are given below."""
import json, re, glob, os
root = os.path.dirname(os.path.dirname(os.path.abspath(__file__)))
props = [json.loads(l) for l in open(root + '/properties.jsonl')]
thms = {}
for f in sorted(glob.glob(root + '/lean/Verif/Props/**/*.lean', recursive=True)):
    ns = []
    for line in open(f):
        m = re.match(r'namespace (\S+)', line)
        if m: ns.append(m.group(1))
        m = re.match(r'end (\S+)', line)
        if m and ns and ns[-1] == m.group(1): ns.pop()
        m = re.match(r'theorem (C(\d\d)_\S+)', line)
        if m: thms.setdefault('C' + m.group(2), []).append('.'.join(ns + [m.group(1)]))
exec(open(root + '/tools/status.py').read())  # STATUS: id -> (status, note)
claims = []
for p in props:
    i = p['id']
    st, note = STATUS.get(i, (None, ''))
    t = thms.get(i, [])
    if st is None:
        if not t: st, note = 'not_applicable', 'no theorem yet'
        else: st = 'partial' if any('_partial' in x or '_violation' in x for x in t) else 'proved'
    if st in ('proved', 'partial') and not t: raise SystemExit(f'{i}: status {st} without theorem')
    claims.append({'property': i, 'status': st, 'theorems': t, 'note': note})
json.dump({'claims': claims}, open(root + '/MANIFEST.json', 'w'), indent=1)
from collections import Counter
print(Counter(c['status'] for c in claims))
