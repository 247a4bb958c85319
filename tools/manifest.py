#!/usr/bin/env python3
"""Regenerates MANIFEST.json, lean/Verif.lean and lean/Verif/Axioms.lean from the sources.

Theorem names C<nn>_* in lean/Verif/Props are collected per property; status and note
come from tools/status.json."""
import json, os, re, glob
root = os.path.dirname(os.path.dirname(os.path.abspath(__file__)))
lean = os.path.join(root, 'lean')
status = json.load(open(os.path.join(root, 'tools', 'status.json')))
thms = {}
for f in sorted(glob.glob(lean + '/Verif/Props/*.lean')):
    for m in re.finditer(r'^theorem (C\d\d_\w+)', open(f).read(), re.M):
        thms.setdefault(m.group(1)[:3], []).append(m.group(1))
props = [json.loads(l) for l in open(root + '/properties.jsonl')]
claims = []
for p in props:
    i = p['id']
    st = status.get(i)
    if st is None and i not in thms:
        continue
    st = st or {"status": "proved", "note": ""}
    claims.append({"property": i, "status": st["status"],
                   "theorems": ["Verif." + t for t in thms.get(i, [])], "note": st["note"]})
json.dump({"claims": claims}, open(root + '/MANIFEST.json', 'w'), indent=1, ensure_ascii=False)
open(root + '/MANIFEST.json', 'a').write('\n')
mods = []
for d, _, fs in os.walk(lean + '/Verif'):
    for f in fs:
        if f.endswith('.lean'):
            mods.append(os.path.relpath(os.path.join(d, f), lean)[:-5].replace('/', '.'))
mods = sorted(set(mods) | {'Verif.Axioms'})
open(lean + '/Verif.lean', 'w').write(''.join('import %s\n' % m for m in mods))
pm = [m for m in mods if m.startswith('Verif.Props.')]
with open(lean + '/Verif/Axioms.lean', 'w') as o:
    o.write('/- Prints the axioms of every property theorem (generated by tools/manifest.py). -/\n')
    o.write(''.join('import %s\n' % m for m in pm) + '\n')
    for i in sorted(thms):
        for t in thms[i]:
            o.write('#print axioms Verif.%s\n' % t)
print({p['id']: (status.get(p['id']) or {}).get('status', 'proved' if p['id'] in thms else '-') for p in props})
