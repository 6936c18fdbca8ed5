#!/usr/bin/env python3
"""Transcribes vif_table and fixed_table of /repo/mbus/mbus-protocol-aux.c into lean/Verif/Model/VifTable.lean."""
import re, sys
from fractions import Fraction
src = open('/repo/mbus/mbus-protocol-aux.c', encoding='utf-8').read().split('\n')
def rows(lo, hi):
    out = []
    text = '\n'.join(src[lo-1:hi])
    text = re.sub(r'/\*.*?\*/', '', text, flags=re.S)
    for m in re.finditer(r'\{\s*(0x[0-9A-Fa-f]+)\s*,\s*([0-9.eE+-]+)\s*,\s*"([^"]*)"\s*,\s*"([^"]*)"\s*\}', text):
        out.append((int(m[1],16), m[2], m[3], m[4]))
    n = len(re.findall(r'\{\s*0x', text))
    assert n == len(out), (n, len(out))
    assert out[-1][0] == 0xFFFF
    return out[:-1]
def ratlit(s):
    m = re.fullmatch(r'([0-9.]+)(?:[eE]([+-]?\d+))?', s)
    f = Fraction(m[1]) * Fraction(10) ** int(m[2] or 0)
    if f.denominator == 1: return str(f.numerator)
    return f'{f.numerator}/{f.denominator}'
v = rows(42, 669); f = rows(672, 748)
names = {}
def nm(s):
    if s not in names:
        slug = 's_' + re.sub(r'[^A-Za-z0-9]+', '_', s.replace('°','deg')).strip('_')
        while slug in names.values(): slug += 'x'
        names[s] = slug
    return names[s]
def table(r):
    return ',\n'.join('  ⟨0x%02X, %s, %s, %s⟩' % (a, ratlit(b), nm(c), nm(d)) for a,b,c,d in r)
tv = [v[i:i+64] for i in range(0, len(v), 64)]
chunks = ['def vifTable%d : List VifRow := [\n%s]\n' % (i, table(c)) for i, c in enumerate(tv)]
ft = table(f)
o = ['import Verif.Model.CStr',
'/-',
'The normalisation tables of mbus/mbus-protocol-aux.c:35-748, transcribed by tools/gen_tables.py (one row per C row, in',
'the order of the C array; the terminating row 0xFFFF is represented by the end of the list).  Simplification: the',
'`double` column is the exact rational of the decimal literal.',
'-/','namespace Mbus','namespace VifTable','']
for s, n in names.items():
    o.append('def %s : List Byte := cs! "%s"' % (n, s))
o += ['', 'end VifTable', 'open VifTable', '',
'/-- mbus-protocol-aux.c:35-40 `mbus_variable_vif` -/',
'structure VifRow where', '  vif : Nat', '  exponent : Rat', '  unit : List Byte', '  quantity : List Byte', '  deriving DecidableEq', '']
for i, c in enumerate(chunks):
    o.append('/-- mbus-protocol-aux.c:42-669 `vif_table`, rows %d-%d -/' % (64*i, min(64*i+63, len(v)-1)))
    o.append(c)
o.append('/-- mbus-protocol-aux.c:42-669 `vif_table` -/')
o.append('def vifTable : List VifRow := ' + ' ++ '.join('vifTable%d' % i for i in range(len(tv))) + '\n')
o.append('/-- mbus-protocol-aux.c:672-748 `fixed_table` -/')
o.append('def fixedTable : List VifRow := [\n%s]\n' % ft)
o.append('end Mbus')
open('/verif/lean/Verif/Model/VifTable.lean', 'w', encoding='utf-8').write('\n'.join(o) + '\n')
print(len(v), len(f), len(names))
