#!/usr/bin/env python3
"""Regenerate MANIFEST.json from the theorem names under lean/Verif/Props."""
import json, re, pathlib
root = pathlib.Path(__file__).resolve().parent.parent
props = [json.loads(l) for l in (root/'properties.jsonl').read_text().splitlines() if l.strip()]
notes = json.loads((root/'tools'/'notes.json').read_text())
thms = {}
for f in sorted((root/'lean/Verif/Props').glob('*.lean')):
    ns = []
    for m in re.finditer(r'^(?:namespace (\S+)|end (\S+)|theorem (C(\d\d+)_\w+))', f.read_text(), re.M):
        if m.group(1):
            ns.append(m.group(1))
        elif m.group(2):
            if ns and ns[-1] == m.group(2):
                ns.pop()
        else:
            thms.setdefault('C'+m.group(4), []).append('.'.join(ns + [m.group(3)]))
claims = []
for p in props:
    i = p['id']; n = notes.get(i, {})
    t = thms.get(i, [])
    if not t:
        if n.get('status') == 'not_applicable':
            claims.append(dict(property=i, status='not_applicable', theorems=[], note=n.get('note','')))
        continue
    st = n.get('status') or ('partial' if any(x.endswith('_partial') for x in t) else 'proved')
    claims.append(dict(property=i, status=st, theorems=t, note=n.get('note','')))
(root/'MANIFEST.json').write_text(json.dumps({'claims': claims}, indent=1)+'\n')
miss=[p['id'] for p in props if p['id'] not in {c['property'] for c in claims}]
print('claims', len(claims), 'missing', miss)
