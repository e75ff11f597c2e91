#!/usr/bin/env python3
"""Rebuild MANIFEST.json from the theorem names in lean/Verif/Props and the statuses in tools/status.json."""
import json, re, glob, os
root = os.path.dirname(os.path.dirname(os.path.abspath(__file__)))
props = [json.loads(l) for l in open(root + '/properties.jsonl')]
status = json.load(open(root + '/tools/status.json'))
names = {}
for f in sorted(glob.glob(root + '/lean/Verif/Props/*.lean')):
    for m in re.finditer(r'^theorem (C(\d\d+)_\w+)', open(f).read(), re.M):
        names.setdefault('C' + m.group(2), []).append('Verif.' + m.group(1))
claims = []
for p in props:
    i = p['id']
    s = status.get(i, ['not_applicable', 'Not modelled yet.'])
    th = names.get(i, [])
    claims.append(dict(property=i, status=s[0] if th else 'not_applicable', theorems=th, note=s[1]))
extra = set(names) - {p['id'] for p in props}
assert not extra, extra
json.dump({'claims': claims}, open(root + '/MANIFEST.json', 'w'), indent=1, ensure_ascii=False)
print({k: sum(c['status'] == k for c in claims) for k in ('proved', 'partial', 'not_applicable')})
