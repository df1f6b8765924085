#!/usr/bin/env python3
"""Regenerates MANIFEST.json from the theorem names `Cnn_*` in lean/Verif/Props and the notes in tools/notes.json."""
import json, re, glob, os
root = os.path.join(os.path.dirname(os.path.abspath(__file__)), '..')
thms = {}
for f in sorted(glob.glob(root + '/lean/Verif/Props/**/*.lean', recursive=True)):
    for m in re.finditer(r'^theorem (C\d\d+)_(\w+)', open(f).read(), re.M):
        thms.setdefault(m.group(1), []).append('Verif.Props.%s_%s' % (m.group(1), m.group(2)))
notes = json.load(open(root + '/tools/notes.json'))
claims = []
for line in open(root + '/properties.jsonl'):
    p = json.loads(line)['id']
    ts = thms.pop(p, [])
    n = notes.get(p, {})
    if not ts and not n:
        continue
    status = n.get('status') or ('partial' if any(t.endswith('_partial') or '_false' in t for t in ts) else 'proved')
    claims.append({'property': p, 'status': status, 'theorems': ts, 'note': n.get('note', '')})
assert not thms, thms
json.dump({'claims': claims}, open(root + '/MANIFEST.json', 'w'), indent=1)
print(len(claims), 'claims', sum(len(c['theorems']) for c in claims), 'theorems')
