#!/usr/bin/env python3
"""Writes MANIFEST.json from the theorem names in lean/Verif/Props (Cnn_...) and the notes below."""
import re, json, glob, os
root = os.path.dirname(os.path.dirname(os.path.abspath(__file__)))
notes = json.load(open(os.path.join(root, 'tools', 'notes.json')))
names = {}
for f in sorted(glob.glob(os.path.join(root, 'lean/Verif/Props/*.lean'))):
    ns = ''
    for m in re.finditer(r'^(?:namespace (\S+)|theorem (C(\d\d)_\w+))', open(f).read(), re.M):
        if m.group(1): ns = m.group(1)
        else: names.setdefault('C' + m.group(3), []).append(ns + '.' + m.group(2))
claims = []
for l in open(os.path.join(root, 'properties.jsonl')):
    i = json.loads(l)['id']
    n = notes.get(i, {})
    if i in names:
        st = n.get('status', 'partial' if any(x.endswith('_partial') for x in names[i]) else 'proved')
        claims.append({"property": i, "status": st, "theorems": names[i], "note": n.get('note', '')})
    elif n.get('status') == 'not_applicable':
        claims.append({"property": i, "status": "not_applicable", "theorems": [], "note": n['note']})
json.dump({"claims": claims}, open(os.path.join(root, 'MANIFEST.json'), 'w'), indent=1, ensure_ascii=False)
print(len(claims), 'claims')
