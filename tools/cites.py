#!/usr/bin/env python3
"""Checks the citations in the model: every `file.go:a-b` exists, and where a comment names a function (`(*T).F` or `F`) right before its
citation, the cited lines contain the beginning and the end of that function's definition or lie inside it."""
import re, glob, os, sys
REPO = sys.argv[1] if len(sys.argv) > 1 else '/repo'
HERE = os.path.dirname(os.path.dirname(os.path.abspath(__file__)))
go = {}
for f in glob.glob(REPO + '/**/*.go', recursive=True):
    if not f.endswith('_test.go'): go[os.path.relpath(f, REPO)] = open(f).read().split('\n')
def files(n): return [f for f in go if f == n or f.endswith('/' + n)]
def funcs(f):
    out = {}
    ls = go[f]
    for i, l in enumerate(ls, 1):
        m = re.match(r'func (?:\((\w+ )?\*?(\w+)\) )?(\w+)\(', l)
        if m:
            j = i
            while ls[j - 1] != '}' and not (j == i and l.rstrip().endswith('}')): j += 1
            out[(m.group(2), m.group(3))] = (i, j)
    return out
F = {f: funcs(f) for f in go}
n = bad = 0
for p in sorted(glob.glob(HERE + '/lean/Verif/Model/**/*.lean', recursive=True)):
    s = open(p).read()
    for m in re.finditer(r'`([\w/]+\.go):([\d, -]+)`', s):
        n += 1
        fs = files(m.group(1))
        line = s.count('\n', 0, m.start()) + 1
        where = f'{os.path.relpath(p, HERE)}:{line}'
        if not fs: print(where, 'no file', m.group(0)); bad += 1; continue
        rs = [tuple(map(int, x.split('-'))) if '-' in x else (int(x), int(x)) for x in re.split(r',\s*', m.group(2).strip())]
        for a, b in rs:
            if not any(1 <= a <= b <= len(go[f]) for f in fs): print(where, 'no such lines', m.group(0)); bad += 1
        pre = re.search(r'`(?:\(\*?(\w+)\)\.)?(\w+)`,?\s*$', s[max(0, m.start() - 120):m.start()])
        if pre:
            t, fn = pre.groups()
            for f in fs:
                c = [v for k, v in F[f].items() if k[1] == fn and (t is None or k[0] == t)]
                if c and not any(lo <= a and b <= hi + 1 or a == lo and b >= hi for lo, hi in c for a, b in rs):
                    print(where, 'function', pre.group(0).strip(), 'is at', c, 'cited', m.group(0)); bad += 1
                if not c and t: print(where, 'no function', pre.group(0).strip(), 'in', f); bad += 1
print(n, 'citations,', bad, 'wrong')

# The deprecated functions, which are not modelled, do nothing but log and call the function that replaces them.
EXP = {'Serialize': 'MarshalBinary', 'SerializeTo': 'MarshalTo', 'DecodeFromBytes': 'UnmarshalBinary', 'Len': 'MarshalLen'}
n = bad = 0
for f in go:
    for m in re.finditer(r'// DEPRECATED[^\n]*\nfunc (?:\((\w+) \*?(\w+)\) )?(\w+)\(([^)]*)\)[^\n]*\{\n(.*?)\n\}', '\n'.join(go[f]), re.S):
        n += 1
        recv, t, name, args, body = m.groups()
        a = ', '.join(x.split()[0] for x in args.split(',') if x.strip())
        want = f'return {recv}.{EXP.get(name)}({a})' if t else f'return {name.replace("Decode", "Parse").replace("Serialize", "Marshal")}({a})'
        if [l.strip() for l in body.split('\n') if 'log.Println' not in l] != [want]: print(f, name, body); bad += 1
print(n, 'deprecated functions,', bad, 'not mere calls of their replacement')
