#!/usr/bin/env python3
"""Lists the functions of /repo and the model files that cite them (section 8 of DESIGN.md), and the axioms of every theorem
in MANIFEST.json (section 6).  Usage: coverage.py [--axioms FILE] where FILE is the output of `#print axioms` for all of them."""
import re, glob, os, json, sys
root = os.path.dirname(os.path.dirname(os.path.abspath(__file__)))
model = {os.path.basename(f)[:-5]: open(f).read() for f in sorted(glob.glob(root + '/lean/Verif/Model/*.lean')) + [root + '/lean/Verif/Base.lean']}
def cfuncs(path):
    src = open(path, errors='replace').read()
    src2 = re.sub(r'/\*.*?\*/', lambda m: re.sub(r'[^\n]', ' ', m.group()), src, flags=re.S)
    out = []
    for m in re.finditer(r'^(?:[A-Za-z_][\w \t\*]*\n)?(?:[A-Za-z_][\w \t\*]*[ \t\*])?(\w+)\(([^;{}]*)\)\s*\n?\{', src2, re.M):
        n = m.group(1)
        if n in ('if', 'for', 'while', 'switch', 'main') and n != 'main': continue
        out.append((n, src2.count('\n', 0, m.start(1)) + 1))
    return out
rows = []
for path in sorted(glob.glob('/repo/mbus/*.c')):
    base = os.path.basename(path)
    for n, line in cfuncs(path):
        where = [k for k, t in model.items() if re.search(r'\b' + n + r'\b', t)]
        rows.append((base, n, line, where))
if len(sys.argv) > 1 and sys.argv[1] == '--list':
    for r in rows: print(r[0], r[2], r[1], ' '.join(r[3]) or '-----')
