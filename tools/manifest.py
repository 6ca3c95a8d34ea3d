#!/usr/bin/env python3
"""Regenerate /verif/MANIFEST.json from the property theorems and tools/notes.json."""
import glob, json, os, re
root = os.path.dirname(os.path.dirname(os.path.abspath(__file__)))
notes = json.load(open(os.path.join(root, 'tools', 'notes.json')))
props = [json.loads(l) for l in open(os.path.join(root, 'properties.jsonl')) if l.strip()]
thms = {}
for f in sorted(glob.glob(os.path.join(root, 'lean/Verif/**/Props*.lean'), recursive=True)):
    txt = open(f).read()
    ns = re.search(r'^namespace (\S+)', txt, re.M).group(1)
    for m in re.finditer(r'^theorem (C\d+)(_\w+)', txt, re.M):
        thms.setdefault(m.group(1), []).append(ns + '.' + m.group(1) + m.group(2))
claims = []
for p in props:
    i = p['id']
    t = thms.get(i, [])
    n = notes.get(i, {})
    if not t and not n:
        continue
    st = n.get('status') or ('partial' if any(x.endswith('_partial') for x in t) else 'proved')
    claims.append({'property': i, 'status': st, 'theorems': t, 'note': n.get('note', '')})
json.dump({'claims': claims}, open(os.path.join(root, 'MANIFEST.json'), 'w'), indent=1)
open(os.path.join(root, 'MANIFEST.json'), 'a').write('\n')
known = {p['id'] for p in props}
for k in thms:
    if k not in known:
        print('theorem for unknown property', k)
print(len(claims), 'claims', sum(len(c['theorems']) for c in claims), 'theorems')
