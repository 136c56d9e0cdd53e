#!/usr/bin/env python3
"""Generates MANIFEST.json: theorem names are collected by prefix from lean/Verif/Props."""
import re, json, glob, os
root = os.path.dirname(os.path.dirname(os.path.abspath(__file__)))
names = {}
for f in sorted(glob.glob(root + '/lean/Verif/Props/**/*.lean', recursive=True)):
    ns = []
    for line in open(f):
        m = re.match(r'namespace (\S+)', line)
        if m: ns.append(m.group(1))
        m = re.match(r'end (\S+)', line)
        if m and ns and ns[-1] == m.group(1): ns.pop()
        m = re.match(r'theorem (C\d+)(\S*)', line)
        if m:
            names.setdefault(m.group(1), []).append('.'.join(ns + [m.group(1) + m.group(2)]))
ann = json.load(open(root + '/tools/status.json'))
ids = [json.loads(l)['id'] for l in open(root + '/properties.jsonl')]
claims = []
for i in ids:
    st, note = ann.get(i, ["partial", "not yet modelled"])
    claims.append({"property": i, "status": st, "theorems": names.get(i, []), "note": note})
json.dump({"claims": claims}, open(root + '/MANIFEST.json', 'w'), indent=1)
print({i: len(names.get(i, [])) for i in ids})
