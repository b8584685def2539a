#!/usr/bin/env python3
"""Write /verif/MANIFEST.json: theorem names are collected from lean/Verif/Props/*.lean by their Cxx_ prefix,
status and note come from tools/status.json."""
import json, re, glob, os
root = os.path.dirname(os.path.dirname(os.path.abspath(__file__)))
names = {}
for f in sorted(glob.glob(root + '/lean/Verif/Props/*.lean')):
    ns = []
    for line in open(f):
        m = re.match(r'namespace (\S+)', line)
        if m: ns.append(m.group(1))
        m = re.match(r'end (\S+)', line)
        if m and ns and ns[-1] == m.group(1): ns.pop()
        m = re.match(r'theorem (C\d\d\d?)_(\S+)', line)
        if m:
            names.setdefault(m.group(1), []).append('.'.join(ns + [m.group(1) + '_' + m.group(2)]))
st = json.load(open(root + '/tools/status.json'))
props = [json.loads(l)['id'] for l in open(root + '/properties.jsonl') if l.strip()]
claims = []
for p in props:
    if p in names and p in st:
        claims.append({"property": p, "status": st[p][0], "theorems": names[p], "note": st[p][1]})
    elif p in names or p in st:
        print('incomplete', p)
json.dump({"claims": claims}, open(root + '/MANIFEST.json', 'w'), indent=1)
print(len(claims), 'claims,', sum(len(c['theorems']) for c in claims), 'theorems; missing:', [p for p in props if p not in names])
