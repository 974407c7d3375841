#!/usr/bin/env python3
"""Writes MANIFEST.json: status per property, theorems found by name in lean/Verif/Props."""
import json, re, glob
status = {
}
exec(open('/verif/tools/manifest_more.py').read())
props = [json.loads(l)['id'] for l in open('/verif/properties.jsonl')]
thms = {}
for f in sorted(glob.glob('/verif/lean/Verif/Props/*.lean')):
    for m in re.finditer(r'^theorem (C(\d\d+)_\w+)', open(f).read(), re.M):
        thms.setdefault('C' + m.group(2), []).append('Sneturfahi.Props.' + m.group(1))
claims = []
for p in props:
    if p not in thms:
        print('no theorem for', p)
        continue
    st, note = status.get(p, ('proved', ''))
    claims.append({'property': p, 'status': st, 'theorems': thms[p], 'note': note})
json.dump({'claims': claims}, open('/verif/MANIFEST.json', 'w'), indent=1, ensure_ascii=False)
