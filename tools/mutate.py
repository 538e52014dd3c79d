#!/usr/bin/env python3
"""Mutation test of the theorems. For every mutant of seeded/mutants_*.json edits the model in a scratch copy
(default /root/mut/lean), builds the property modules there and appends one line to seeded/LOG.jsonl.
A cNN theorem counts as failed if it, or something its proof uses, does not compile any more. The dependencies are in
/root/mut/deps.txt (one line per theorem, `name : constants`), written by a Lean script from the unchanged library.

usage: mutate.py mutants_x.json [id ...]"""
import json, os, re, subprocess, sys, glob
HERE = os.path.dirname(os.path.dirname(os.path.abspath(__file__)))
SCRATCH = os.environ.get('SCRATCH', '/root/mut/lean')
DEPS = os.environ.get('DEPS', '/root/mut/deps.txt')
GROUPS = {
  'codec': ['Verif.Props.Params', 'Verif.Props.ParamKinds', 'Verif.Props.ParamValues', 'Verif.Props.Messages', 'Verif.Props.MessageLayout', 'Verif.Props.Config', 'Verif.Props.Buffers', 'Verif.Props.Names', 'Verif.Props.Reencode'],
  'strings': ['Verif.Props.Strings'], 'memory': ['Verif.Props.Memory', 'Verif.Props.Append'], 'group': ['Verif.Props.Conn.Group'],
  'late': ['Verif.Props.Conn.' + x for x in ('Work', 'Halt', 'Remains', 'Race', 'Group', 'Session', 'Outcome')],
  'time': ['Verif.Props.Conn.Timed', 'Verif.Props.Conn.Prompt'], 'errors': ['Verif.Props.Refused', 'Verif.Props.Conn.ErrorValues', 'Verif.Props.Conn.Errors'],
  'duo': ['Verif.Props.Conn.' + x for x in ('Duo', 'Pulse', 'Race', 'Replies')],
  'script': ['Verif.Props.Conn.Transcript', 'Verif.Props.Conn.Retired'],
  'ended': ['Verif.Props.Conn.Ended', 'Verif.Props.Conn.Realized'],
  'beatdata': ['Verif.Props.Conn.BeatData', 'Verif.Props.Conn.Examples'], 'onebyone': ['Verif.Props.Conn.OneByOne'], 'lengths': ['Verif.Props.Conn.Lengths'], 'deadline': ['Verif.Props.Conn.Deadline'], 'backlog': ['Verif.Props.Conn.Backlog'], 'early': ['Verif.Props.Conn.Early'], 'truncated': ['Verif.Props.Truncated', 'Verif.Props.Conn.Cut'],
  'loop': ['Verif.Props.Conn.AcceptLoop'], 'final': ['Verif.Props.Conn.Final'], 'examples': ['Verif.Props.Examples', 'Verif.Props.Conn.Examples', 'Verif.Props.Conn.Room'], 'readmit': ['Verif.Props.Conn.Readmit'], 'lockout': ['Verif.Props.Conn.Lockout'], 'mirror': ['Verif.Props.Conn.Mirror'], 'denial': ['Verif.Props.Conn.Denial'], 'gateway': ['Verif.Props.Conn.Gateway'], 'nil': ['Verif.Props.Nil'], 'heldpayload': ['Verif.Props.HeldPayload'], 'sharing': ['Verif.Props.Sharing'], 'setup': ['Verif.Props.Conn.Setup'], 'held': ['Verif.Props.Held'],
  'names': ['Verif.Props.Names'],
  'config': ['Verif.Props.Config'],
  'pc': ['Verif.Props.Pc'], 'logger': ['Verif.Props.Logger'],
  'conn': ['Verif.Props.Conn.' + os.path.basename(f)[:-5] for f in sorted(glob.glob(HERE + '/lean/Verif/Props/Conn/*.lean'))],
}
deps = {}
for l in open(DEPS):
    n, cs = l.strip().split(' : ')
    deps[n] = set(cs.split())

def decl_at(path, line):
    """Name of the declaration containing a line, `example` if it is an example."""
    name = None
    for k, s in enumerate(open(path), 1):
        if k > line: break
        m = re.match(r'\s*(?:@\[[^\]]*\]\s*)?(?:private |protected |noncomputable |@\[.*\] )*(theorem|lemma|def|instance|abbrev|example|inductive|structure|macro)\b\s*([^\s:({\[]*)', s)
        if m: name = 'example' if m.group(1) == 'example' else m.group(2) or \
            ('inst' + ''.join(re.findall(r'instance\s*:\s*(.*?)\s+where', s)).replace(' ', '') if m.group(1) == 'instance' else s.strip())
    return name

def run(m):
    p = f"{SCRATCH}/Verif/{m['file']}"
    src = open(f"{HERE}/lean/Verif/{m['file']}").read()
    if src.count(m['old']) < 1: return print('NOT FOUND', m['id'])
    if src.count(m['old']) > 1 and 'nth' not in m: return print('AMBIGUOUS', m['id'], src.count(m['old']))
    if 'nth' in m:
        parts = src.split(m['old']); k = m['nth']
        new = m['old'].join(parts[:k+1]) + m['new'] + m['old'].join(parts[k+1:])
    else: new = src.replace(m['old'], m['new'])
    open(p, 'w').write(new)
    try:
        r = subprocess.run(['lake', 'build'] + GROUPS[m['group']], cwd=SCRATCH, capture_output=True, text=True)
        out = r.stdout + r.stderr
    finally:
        open(p, 'w').write(src)
    errs = sorted(set((a, int(b)) for a, b in re.findall(r'error: (Verif/\S+\.lean):(\d+):', out)))
    model = [e for e in errs if e[0] == f"Verif/{m['file']}"]
    direct = sorted(set((f[6:-5], decl_at(f"{SCRATCH}/{f}", l)) for f, l in errs), key=str)
    names = [d for _, d in direct if d and d != 'example']
    failed = sorted(n.split('.')[-1] for n, cs in deps.items()
      if any(c == x or c.endswith('.' + x) for c in cs for x in names))
    rec = {'id': m['id'], 'definition': m['def'], 'file': m['file'], 'edit': f"{m['old'].strip()}  ->  {m['new'].strip()}", 'breaks': m['claim'],
      'killed': r.returncode != 0, 'failed_directly': [f'{f}: {d}' for f, d in direct], 'theorems_failed': failed, 'tightened': m.get('tightened', [])}
    if model: return print(m['id'], 'the edited definition does not compile', flush=True)
    open(HERE + '/seeded/LOG.jsonl', 'a').write(json.dumps(rec, ensure_ascii=False) + '\n')
    exp = [c for c in re.findall(r'C\d\d+', m['claim'])]
    hit = [c for c in exp if any(t.startswith(c.lower() + '_') for t in failed)]
    print(m['id'], 'KILLED' if rec['killed'] else 'SURVIVED', '' if not model else 'MODEL!', 'expected', exp, 'hit', hit, 'direct', [d for _, d in direct][:6], flush=True)

ms = json.load(open(HERE + '/seeded/' + sys.argv[1]))
for m in ms:
    if len(sys.argv) > 2 and m['id'] not in sys.argv[2:]: continue
    run(m)
