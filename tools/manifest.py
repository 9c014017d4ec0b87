#!/usr/bin/env python3
"""Collect the property theorems (names starting with Cnn_) from lean/Verif/Props and write
MANIFEST.json and tools/Axioms.lean.txt (input of tools/axioms.sh)."""
import re, json, glob, os
root = os.path.dirname(os.path.dirname(os.path.abspath(__file__)))
os.chdir(root)
exec(open('tools/status.py').read())   # PARTIAL: dict id -> note ; NOTES: dict id -> note
thms = {}
mods = []
for f in sorted(glob.glob('lean/Verif/Props/**/*.lean', recursive=True)):
    mods.append(f[len('lean/'):-5].replace('/', '.'))
    ns = []
    for line in open(f):
        m = re.match(r'namespace (\S+)', line)
        if m: ns.append(m.group(1)); continue
        m = re.match(r'section\b', line) or re.match(r'noncomputable section', line)
        if m: ns.append(None); continue
        m = re.match(r'end\b', line)
        if m:
            if ns: ns.pop()
            continue
        m = re.match(r'(?:private |protected )?theorem (C(\d\d+)_\S+)', line)
        if m:
            full = '.'.join([x for x in ns if x] + [m.group(1)])
            thms.setdefault('C' + m.group(2), []).append(full)
ids = [json.loads(l)['id'] for l in open('properties.jsonl')]
claims = []
for i in ids:
    t = thms.get(i, [])
    if not t: continue
    if i in PARTIAL:
        claims.append(dict(property=i, status='partial', theorems=t, note=PARTIAL[i]))
    else:
        assert not any(x.endswith('_partial') or x.endswith('_violated') for x in t), i
        claims.append(dict(property=i, status='proved', theorems=t, note=NOTES.get(i, '')))
json.dump({'claims': claims}, open('MANIFEST.json', 'w'), indent=1, ensure_ascii=False)
with open('tools/Axioms.lean.txt', 'w') as o:
    for m in mods: o.write(f'import {m}\n')
    for i in ids:
        for t in thms.get(i, []): o.write(f'#print axioms {t}\n')
print(len(claims), 'claims', sum(len(c['theorems']) for c in claims), 'theorems; missing:', [i for i in ids if i not in thms])
