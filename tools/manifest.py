#!/usr/bin/env python3
"""Regenerates /verif/MANIFEST.json from the theorem names in lean/Verif/Props and the notes below."""
import json, re, glob, os
root = os.path.dirname(os.path.dirname(os.path.abspath(__file__)))
notes = json.load(open(os.path.join(root, 'tools', 'notes.json')))
thms = {}
for f in sorted(glob.glob(os.path.join(root, 'lean/Verif/Props/*.lean'))):
    for m in re.finditer(r'^theorem (C\d+_\w+)', open(f).read(), re.M):
        thms.setdefault(m.group(1).split('_')[0], []).append('Mbus.' + m.group(1))
claims = []
for line in open(os.path.join(root, 'properties.jsonl')):
    p = json.loads(line)['id']
    t = thms.get(p, [])
    n = notes.get(p, {})
    if isinstance(n, str): n = {"note": n}
    if not t:
        if n.get("status") != "not_applicable": continue
        st = "not_applicable"
    else:
        st = "partial" if any(x.endswith('_partial') or x.endswith('_violation') for x in t) else "proved"
    claims.append({"property": p, "status": n.get("status", st), "theorems": t, "note": n.get("note", "")})
json.dump({"claims": claims}, open(os.path.join(root, 'MANIFEST.json'), 'w'), indent=1)
print(len(claims), 'claims', [c['property'] for c in claims if c['status'] != 'proved'])
