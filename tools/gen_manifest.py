#!/usr/bin/env python3
"""Writes MANIFEST.json: every theorem in lean/Verif/Props whose name starts with Cnn, plus the notes and findings below."""
import json, re, glob, os
root = os.path.dirname(os.path.dirname(os.path.abspath(__file__)))
notes = json.load(open(os.path.join(root, 'tools', 'claim_notes.json')))
props = [json.loads(l)['id'] for l in open(os.path.join(root, 'properties.jsonl'))]
th = {p: [] for p in props}
for f in sorted(glob.glob(os.path.join(root, 'lean/Verif/Props/*.lean'))):
    ns = []
    for line in open(f):
        m = re.match(r'namespace (\S+)', line)
        if m: ns.append(m.group(1))
        m = re.match(r'end (\S+)', line)
        if m and ns and ns[-1] == m.group(1): ns.pop()
        m = re.match(r'theorem ((C\d+)\w*)', line)
        if m: th[m.group(2)].append('.'.join(ns + [m.group(1)]))
claims = []
for p in props:
    n = notes.get(p, {})
    names = th[p] + n.get('extra', [])
    if not names: continue
    claims.append({'property': p, 'status': n.get('status', 'proved'), 'theorems': names, 'note': n.get('note', '')})
json.dump({'claims': claims}, open(os.path.join(root, 'MANIFEST.json'), 'w'), indent=1, ensure_ascii=False)
print(len(claims), 'claims')
