#!/usr/bin/env python3
"""Generate MANIFEST.json.  Theorem names are collected from lean/Verif/Props by their C-number."""
import json, re, glob, collections
NOTES = json.load(open('/verif/tools/notes.json'))
thms = collections.defaultdict(list)
for f in sorted(glob.glob('/verif/lean/Verif/Props/*.lean')):
    for m in re.finditer(r'^theorem (C(\d+)_\w+)', open(f).read(), re.M):
        thms['C' + m.group(2)].append('Elgas.' + m.group(1))
claims = []
for l in open('/verif/properties.jsonl'):
    pid = json.loads(l)['id']
    n = NOTES.get(pid, {})
    if not thms[pid] and n.get('status') != 'not_applicable':
        print('missing', pid); continue
    claims.append({"property": pid, "status": n.get('status', 'proved'), "theorems": thms[pid], "note": n.get('note', '')})
json.dump({"claims": claims}, open('/verif/MANIFEST.json', 'w'), indent=1)
print(len(claims), 'claims', sum(len(c['theorems']) for c in claims), 'theorems')
