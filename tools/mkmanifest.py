#!/usr/bin/env python3
"""Generates MANIFEST.json from the theorem names Cxx_* in lean/Verif/Props and the notes below."""
import re, json, glob
notes = json.load(open('/verif/tools/notes.json'))
th = {}
for f in sorted(glob.glob('/verif/lean/Verif/Props/*.lean')):
    ns = 'City.Props'
    for m in re.finditer(r'^(?:@\[[^\]]*\] )?theorem (C\d\d+)(_\w+)', open(f).read(), re.M):
        th.setdefault(m[1], []).append(f'{ns}.{m[1]}{m[2]}')
ids = [json.loads(l)['id'] for l in open('/verif/properties.jsonl')]
claims = []
for i in ids:
    n = notes.get(i, {})
    if i in th:
        st = n.get('status') or ('partial' if any(t.endswith('_partial') or 'refuted' in t for t in th[i]) else 'proved')
        claims.append(dict(property=i, status=st, theorems=th[i], note=n.get('note', '')))
    elif n:
        claims.append(dict(property=i, status=n['status'], theorems=[], note=n['note']))
json.dump({'claims': claims}, open('/verif/MANIFEST.json', 'w'), indent=1)
print(len(claims), 'claims', sum(len(c['theorems']) for c in claims), 'theorems')
from collections import Counter
print(Counter(c['status'] for c in claims), 'missing', [i for i in ids if i not in th and i not in notes])
