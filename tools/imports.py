#!/usr/bin/env python3
"""Regenerate lean/Verif.lean from the module files."""
import os
root='/verif/lean/Verif'
mods=[]
for d,_,fs in os.walk(root):
    for f in fs:
        if f.endswith('.lean'):
            mods.append('Verif.'+os.path.relpath(os.path.join(d,f),root)[:-5].replace('/','.'))
order=['Verif.Base','Verif.Model','Verif.Spec','Verif.Lemmas','Verif.Props']
def key(m):
    for i,o in enumerate(order):
        if m.startswith(o): return (i,m)
    return (9,m)
open('/verif/lean/Verif.lean','w').write(''.join('import %s\n'%m for m in sorted(mods,key=key)))
