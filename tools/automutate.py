#!/usr/bin/env python3
"""Writes seeded/mutants_auto.json (seed 1) or mutants_autoSEED.json: small edits of the model chosen at random (fixed seed): a number changed by one, a comparison
reversed, a constructor or a field replaced by a neighbour, a line of a `do` block left out.

usage: automutate.py COUNT [SEED]"""
import json, os, random, re, sys, glob
HERE = os.path.dirname(os.path.dirname(os.path.abspath(__file__)))
ROOT = HERE + '/lean/Verif/'
SWAPS = [('.active', '.inactive'), ('.inactive', '.down'), ('.down', '.active'), ('.client', '.server'), ('.server', '.client'), ('true', 'false'),
  ('false', 'true'), (' && ', ' || '), (' < ', ' ≤ '), (' ≤ ', ' < '), (' = ', ' ≠ '), (' ≠ ', ' = '), (' + ', ' - '), (' - ', ' + '),
  ('.nwApr', '.rtCtx'), ('networkAppearance', 'routingContext'), ('routingContext', 'networkAppearance'), ('infoString', 'correlationID'), ('.tag', '.length'),
  ('aspUp', 'aspDown'), ('aspActive', 'aspInactive'), ('.stream', '.ppid'), ('.take ', '.drop '), ('.drop ', '.take ')]
GROUP = {'Model/Pc.lean': 'pc', 'Model/Logger.lean': 'logger', 'Model/Names.lean': 'names', 'Model/Constants.lean': 'names', 'Model/Config.lean': 'config'}

def candidates():
    for f in sorted(glob.glob(ROOT + 'Model/**/*.lean', recursive=True)):
        rel = f[len(ROOT):]
        if rel.endswith(('Link.lean', 'Pair.lean', 'Prog.lean')): continue
        group = GROUP.get(rel, 'conn' if '/Conn/' in rel else 'codec')
        src = open(f).read()
        # blank comments, keeping offsets
        code = re.sub(r'/-.*?-/|--[^\n]*', lambda m: re.sub(r'[^\n]', ' ', m.group()), src, flags=re.S)
        name = '?'
        off = 0
        for line in code.splitlines(keepends=True):
            m = re.match(r'\s*(?:@\[[^\]]*\]\s*)?(?:private |noncomputable )*(def|inductive|structure|theorem|instance|abbrev|namespace|open|import|set_option|end|deriving|variable)\b\s*(\S*)', line)
            if m: name = m.group(2) if m.group(1) in ('def', 'inductive', 'abbrev') else name; kind = m.group(1)
            if m and kind in ('theorem', 'instance', 'structure'): name = None
            if name and not (m and kind not in ('def', 'abbrev')):
                at = line.find(':=') + 2 if m and ':=' in line else (len(line) if m else 0)
                body = line[at:]
                for n in re.finditer(r'(?<![\w.₀-₉])(0x[0-9a-f]+|\d+)(?![\w.])', body):
                    v = int(n.group(), 0)
                    yield rel, group, name, off + at + n.start(), n.group(), str(v + 1), 'number'
                for a, b in SWAPS:
                    for n in re.finditer(re.escape(a) + (r'(?!\w)' if a[-1].isalpha() else ''), body):
                        if a in (' = ',) and 'if' not in body and 'decide' not in body: continue
                        yield rel, group, name, off + at + n.start(), a, b, 'swap'
                if re.match(r'\s+(?:c\.|←|\S+ ).*', line) and re.search(r'\bdo\b', code[max(0, off - 400):off]) and not re.search(r'←|:=|=>|\||\bif\b|else|match|let|pure|return|fun|def|setParams|writeOnly|writePDToStream|newMulti', line) and line.strip():
                    yield rel, group, name, off, line.rstrip('\n'), re.match(r'\s*', line).group() + 'pure ()', 'delete'
            off += len(line)

if __name__ == '__main__':
    n, seed = int(sys.argv[1]), int(sys.argv[2]) if len(sys.argv) > 2 else 1
    by = {}
    for c in candidates(): by.setdefault(c[0], []).append(c)
    rnd = random.Random(seed)
    files = sorted(by)
    print({f: len(by[f]) for f in files})
    out, seen, old_ids = [], set(), set()
    for g in glob.glob(HERE + '/seeded/mutants_auto*.json'):
        if not g.endswith(f'auto{seed}.json'): old_ids |= {(m['file'], m['old'], m['new'], m.get('nth')) for m in json.load(open(g))}
    # files in proportion to the square root of the number of candidates
    w = [len(by[f]) ** 0.5 for f in files]
    while len(out) < n:
        f = rnd.choices(files, w)[0]
        rel, group, name, pos, old, new, kind = rnd.choice(by[f])
        if (rel, pos, new) in seen: continue
        seen.add((rel, pos, new))
        src = open(ROOT + rel).read()
        ls, le = src.rfind('\n', 0, pos) + 1, src.find('\n', pos)
        line = src[ls:le]
        nl = line[:pos - ls] + new + line[pos - ls + len(old):]
        m = {'id': f'A{seed}{len(out):03d}', 'group': group, 'file': rel, 'old': line, 'new': nl, 'claim': f'{kind} {old.strip()} -> {new.strip()}', 'def': name}
        k = src[:ls].count(line)
        if src.count(line) > 1: m['nth'] = k
        if seed == 1 or (rel, line, nl, m.get('nth')) not in old_ids: out.append(m)
    json.dump(out, open(HERE + f'/seeded/mutants_auto{seed if seed > 1 else ""}.json', 'w'), indent=1, ensure_ascii=False)
