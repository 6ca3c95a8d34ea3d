#!/usr/bin/env python3
"""Append or update properties: tools/props.py < lines.jsonl (objects with the same id are replaced)."""
import json, sys, os
p = os.path.join(os.path.dirname(__file__), '..', 'properties.jsonl')
rows = [json.loads(l) for l in open(p) if l.strip()]
idx = {r['id']: i for i, r in enumerate(rows)}
for l in sys.stdin:
    if not l.strip():
        continue
    n = json.loads(l)
    if n['id'] in idx:
        rows[idx[n['id']]].update(n)
    else:
        for k in ('title', 'statement', 'quantifier', 'why_tests_cant', 'anchors'):
            assert k in n, (n['id'], k)
        idx[n['id']] = len(rows)
        rows.append(n)
with open(p, 'w') as f:
    for r in rows:
        f.write(json.dumps(r) + '\n')
