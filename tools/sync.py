#!/usr/bin/env python3
"""Regenerate MANIFEST.json, lean/Verif.lean and lean/Verif/Audit.lean.

The claims are in tools/claims.json: {"C01": {"status": ..., "theorems": [...], "note": ...}, ...}.
Checks that every theorem named exists in a file under lean/Verif/Props and that the property ids match
properties.jsonl.
"""
import json, os, re, sys
root = os.path.dirname(os.path.dirname(os.path.abspath(__file__)))
lean = os.path.join(root, 'lean')
ids = [json.loads(l)['id'] for l in open(os.path.join(root, 'properties.jsonl'))]
claims = json.load(open(os.path.join(root, 'tools', 'claims.json')))
mods = []
thms = {}
for d, _, fs in sorted(os.walk(os.path.join(lean, 'Verif'))):
    for f in sorted(fs):
        if not f.endswith('.lean'):
            continue
        path = os.path.join(d, f)
        mod = os.path.relpath(path, lean)[:-5].replace('/', '.')
        if mod != 'Verif.Audit':
            mods.append(mod)
        if '/Props' in d:
            for m in re.finditer(r'^theorem\s+(\S+)', open(path).read(), re.M):
                thms['Verif.Props.' + m.group(1)] = mod
bad = False
for c, v in claims.items():
    if c not in ids:
        print('unknown id', c); bad = True
    for t in v['theorems']:
        if t not in thms:
            print('missing theorem', c, t); bad = True
        if v['status'] == 'proved' and t.endswith('_partial') :
            print('partial theorem in proved claim', c, t)
for c in ids:
    if c not in claims:
        print('no claim for', c)
named = {t for v in claims.values() for t in v['theorems']}
for t in thms:
    if t not in named and not t.split('.')[-1].startswith('aux_'):
        print('theorem not claimed:', t)
out = {'claims': [dict(property=c, **claims[c]) for c in ids if c in claims]}
json.dump(out, open(os.path.join(root, 'MANIFEST.json'), 'w'), indent=1, ensure_ascii=False)
mods.append('Verif.Audit')
open(os.path.join(lean, 'Verif.lean'), 'w').write(''.join(f'import {m}\n' for m in mods))
pm = sorted({m for t, m in thms.items()})
with open(os.path.join(lean, 'Verif', 'Audit.lean'), 'w') as fh:
    for m in pm:
        fh.write(f'import {m}\n')
    fh.write('/-! Axioms of every property theorem (generated by tools/sync.py). -/\n')
    for t in sorted(thms):
        fh.write(f'#print axioms {t}\n')
sys.exit(bad)
