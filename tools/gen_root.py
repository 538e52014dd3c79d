#!/usr/bin/env python3
"""Writes lean/Verif.lean: one import per module under lean/Verif."""
import glob, os
root = os.path.join(os.path.dirname(os.path.dirname(os.path.abspath(__file__))), 'lean')
mods = sorted(os.path.relpath(f, root)[:-5].replace('/', '.') for f in glob.glob(root + '/Verif/**/*.lean', recursive=True))
open(root + '/Verif.lean', 'w').write(''.join(f'import {m}\n' for m in mods))
