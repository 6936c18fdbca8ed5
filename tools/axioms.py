#!/usr/bin/env python3
"""Regenerates section 6 of DESIGN.md (axioms of every theorem in MANIFEST.json) with `#print axioms`. Run after `lake build`."""
import json, os, re, subprocess, tempfile, collections
root = os.path.dirname(os.path.dirname(os.path.abspath(__file__)))
thms = [t for c in json.load(open(os.path.join(root, 'MANIFEST.json')))['claims'] for t in c['theorems']]
with tempfile.NamedTemporaryFile('w', suffix='.lean', delete=False) as f:
    f.write('import Verif\n' + ''.join(f'#print axioms {t}\n' for t in thms))
out = subprocess.run(['lake', 'env', 'lean', f.name], cwd=os.path.join(root, 'lean'), capture_output=True, text=True).stdout
os.unlink(f.name)
groups = collections.defaultdict(list)
for m in re.finditer(r"'([\w.]+)' (does not depend on any axioms|depends on axioms: \[([^\]]*)\])", out):
    groups[', '.join(sorted(x.strip() for x in (m.group(3) or '').split(',') if x.strip()))].append(m.group(1).replace('Mbus.', ''))
assert sum(map(len, groups.values())) == len(thms), 'some theorem has no axiom report'
assert all(set(k.split(', ')) <= {'', 'propext', 'Quot.sound', 'Classical.choice'} for k in groups), groups.keys()
sec = ['## 6. Axioms', '', f'`#print axioms` for the {len(thms)} theorems of MANIFEST.json (written by `tools/axioms.py`).', '']
for k in sorted(groups, key=lambda k: (len(k), k)):
    sec += [f'* {k or "no axiom"} ({len(groups[k])}): ' + ', '.join(groups[k]) + '.']
sec += ['']
p = os.path.join(root, 'DESIGN.md')
s = open(p).read()
new = '\n'.join(sec) + '\n'
if '## 6. Axioms' in s:
    s = re.sub(r'## 6\. Axioms\n.*?(?=\n## 7|\Z)', lambda m: new.rstrip('\n') + '\n', s, flags=re.S)
else:
    s = s.rstrip('\n') + '\n\n' + new
open(p, 'w').write(s)
print({k: len(v) for k, v in groups.items()})
