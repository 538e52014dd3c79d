#!/usr/bin/env python3
"""Writes section 9 of DESIGN.md from MANIFEST.json and the axioms printed by `lake build` (lean/Verif/Axioms.lean)."""
import json, os, re, subprocess
root = os.path.dirname(os.path.dirname(os.path.abspath(__file__)))
out = subprocess.run(['lake', 'build'], cwd=root + '/lean', capture_output=True, text=True).stdout
ax = {}
for n, a in re.findall(r"'(\S+)' depends on axioms: \[([^\]]*)\]", out): ax[n] = a.split(', ')
for n in re.findall(r"'(\S+)' does not depend on any axioms", out): ax[n] = []
short = {'propext': 'p', 'Quot.sound': 'q', 'Classical.choice': 'c'}
claims = json.load(open(root + '/MANIFEST.json'))['claims']
titles = {x['id']: x['title'] for x in map(json.loads, open(root + '/properties.jsonl'))}
s = open(root + '/DESIGN.md').read().split('## 9. ')[0].rstrip() + '\n\n## 9. Theorems and their axioms\n\n'
s += 'Generated by `tools/design.py`. Axioms: p = `propext`, q = `Quot.sound`, c = `Classical.choice`. Names without prefix are in namespace `M3`.\n\n'
s += '| property | status | theorems (axioms) |\n|---|---|---|\n'
for c in claims:
    ts = []
    for t in c['theorems']:
        assert t in ax and set(ax[t]) <= set(short), (t, ax.get(t))
        ts.append('`' + t.removeprefix('M3.') + '` (' + (''.join(sorted(short[a] for a in ax[t])) or 'none') + ')')
    s += f"| {c['property']} {titles[c['property']]} | {c['status']} | {', '.join(ts)} |\n"
open(root + '/DESIGN.md', 'w').write(s)
print(len(claims), 'rows')
