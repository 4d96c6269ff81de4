#!/usr/bin/env python3
"""Regenerate MANIFEST.json from the theorems named cNN_* in lean/Verif/Props."""
import json, re, glob, os
root = os.path.join(os.path.dirname(__file__), '..')
notes = json.load(open(os.path.join(root, 'tools', 'manifest_notes.json')))
thms = {}
for f in sorted(glob.glob(os.path.join(root, 'lean/Verif/Props/*.lean'))):
    ns = None
    for l in open(f):
        m = re.match(r'namespace (\S+)', l)
        if m: ns = m.group(1)
        m = re.match(r'theorem (c(\d\d)_\w+)', l)
        if m:
            thms.setdefault('C' + m.group(2), []).append(f'{ns}.{m.group(1)}')
claims = []
for l in open(os.path.join(root, 'properties.jsonl')):
    d = json.loads(l)
    i = d['id']
    ts = thms.get(i, [])
    if not ts:
        print('no theorem yet:', i); continue
    n = notes.get(i, {})
    status = n.get('status') or ('partial' if any(t.endswith('_partial') for t in ts) else 'proved')
    claims.append({'property': i, 'status': status, 'theorems': ts, 'note': n.get('note', '')})
json.dump({'claims': claims}, open(os.path.join(root, 'MANIFEST.json'), 'w'), indent=1)
