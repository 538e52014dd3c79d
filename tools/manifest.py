#!/usr/bin/env python3
"""Writes MANIFEST.json and lean/Verif/Axioms.lean.

Every theorem of lean/Verif/Props/*.lean named cNN_... is a claim for property CNN. A property is
"partial" iff it is listed in PARTIAL below. NOTES adds remarks.
"""
import glob, json, os, re

root = os.path.dirname(os.path.dirname(os.path.abspath(__file__)))
props = [json.loads(l) for l in open(os.path.join(root, 'properties.jsonl'))]
found = {}
mods = []
for f in sorted(glob.glob(os.path.join(root, 'lean/Verif/Props/**/*.lean'), recursive=True)):
    mods.append('Verif.' + os.path.relpath(f, os.path.join(root, 'lean/Verif'))[:-5].replace('/', '.'))
    stack = []
    for line in open(f):
        m = re.match(r'namespace (\S+)', line)
        if m:
            stack.append(m.group(1))
        elif re.match(r'end (\S+)', line) and stack and line.split()[1] == stack[-1]:
            stack.pop()
        m = re.match(r'theorem (c(\d\d+)_\w+)', line)
        if m:
            found.setdefault('C' + m.group(2), []).append('.'.join(stack + [m.group(1)]))

NOTES = json.load(open(os.path.join(root, 'tools/notes.json')))
claims = []
for p in props:
    i = p['id']
    if i in found:
        n = NOTES.get(i, {})
        claims.append({'property': i, 'status': n.get('status', 'proved'), 'theorems': found[i],
                       'note': n.get('note', p['title'])})
unknown = set(found) - {p['id'] for p in props}
assert not unknown, unknown
json.dump({'claims': claims}, open(os.path.join(root, 'MANIFEST.json'), 'w'), indent=1, ensure_ascii=False)
open(os.path.join(root, 'MANIFEST.json'), 'a').write('\n')

with open(os.path.join(root, 'lean/Verif/Axioms.lean'), 'w') as o:
    for m in mods:
        o.write(f'import {m}\n')
    o.write('''
/-! Generated by tools/manifest.py: prints the axioms of every property theorem. -/

''')
    for c in claims:
        o.write(f'-- {c["property"]}\n')
        for t in c['theorems']:
            o.write(f'#print axioms {t}\n')
missing = [p['id'] for p in props if p['id'] not in found]
print(len(claims), 'claims,', sum(len(c['theorems']) for c in claims), 'theorems; no theorem yet:', missing)
