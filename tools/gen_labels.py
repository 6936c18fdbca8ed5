#!/usr/bin/env python3
"""Transcribes the constant-label switches of /repo/mbus/mbus-protocol.c into lean/Verif/Model/Labels.lean."""
import re
src = open('/repo/mbus/mbus-protocol.c', encoding='utf-8').read().split('\n')
hdr = open('/repo/mbus/mbus-protocol.h', encoding='utf-8').read()
defs = {m[1]: int(m[2], 16) for m in re.finditer(r'#define\s+(MBUS_\w+)\s+(0x[0-9A-Fa-f]+)', hdr)}
def val(s):
    s = s.strip()
    return defs[s] if s in defs else int(s, 16)
def switch(lo, hi, call):
    """(cases, default text) of a switch whose arms are one call with a constant label"""
    out, pend, dflt = [], [], None
    for line in src[lo-1:hi]:
        m = re.search(r'\bcase\s+([^:]+):', line)
        if m: pend.append(val(m[1]))
        if re.search(r'\bdefault\s*:', line): pend.append('default')
        m = re.search(call + r'\("?.*?"([^"]*)"(.*)\)\s*;', line) or re.search(call + r'\(.*?"([^"]*)"(.*)\)\s*;', line)
        if m:
            assert pend, line
            for p in pend:
                if p == 'default': dflt = m[1]
                else: out.append((p, m[1]))
            pend = []
    assert not pend
    return out, dflt
def tbl(name, doc, cases):
    rows = ',\n'.join('  (0x%02X, cs! "%s")' % c for c in cases)
    return '/-- %s -/\ndef %s : List (Nat × List Byte) := [\n%s]\n' % (doc, name, rows)
sn = r'snprintf'
o = ['import Verif.Model.CStr', '/-',
'Constant labels of mbus/mbus-protocol.c, transcribed by tools/gen_labels.py: one row (case value, label) per `case`, in',
'the order of the C switch.', '-/', 'namespace Mbus', '']
for name, lo, hi, doc in [
  ('fixedMediumCases', 1404, 1459, 'mbus-protocol.c:1406-1455 cases of `mbus_data_fixed_medium`'),
  ('fixedUnitCases', 1514, 1713, 'mbus-protocol.c:1514-1710 cases of `mbus_data_fixed_unit`'),
  ('mediumCases', 1786, 1968, 'mbus-protocol.c:1786-1964 cases of `mbus_data_variable_medium_lookup`'),
  ('errorCases', 2420, 2466, 'mbus-protocol.c:2420-2462 cases of `mbus_data_error_lookup`')]:
    c, d = switch(lo, hi, sn)
    o.append(tbl(name, doc, c))
    print(name, len(c), d)
o.append('end Mbus')
open('/verif/lean/Verif/Model/Labels.lean', 'w', encoding='utf-8').write('\n'.join(o) + '\n')

# ---- mbus_data_product_name -------------------------------------------------------------------------------------------
out = []; cur = None
for l in src[925:1362]:
    m = re.findall(r'mbus_manufacturer_id\("(\w+)"\)', l)
    if m: cur = (m, []); out.append(cur); sel = None; med = None; pend = []; continue
    m = re.search(r'header->medium == (MBUS_\w+)\)', l)
    if m: med = defs[m[1]]; continue
    m = re.search(r'switch \(header->(\S+)\)', l)
    if m: sel = m[1]; continue
    m = re.search(r'case (0x..):', l)
    if m: pend.append((int(m[1], 16),) * 2); continue
    m = re.search(r'if \(header->version >= (0x..)\)', l)
    if m: pend = [(int(m[1], 16), 255)]; sel = 'version'; continue
    if re.match(r'\s*else\s*$', l): pend = [(0, 255)]; sel = 'version'; continue
    m = re.search(r'strcpy\(buff, ?"([^"]*)"\)', l)
    if m:
        assert pend
        for p in pend: cur[1].append((sel, med, p, m[1]))
        pend = []; continue
    m = re.search(r'header->medium == (0x..)\) \? "([^"]*)" : "([^"]*)"', l)
    if m:
        for p in pend:
            cur[1].append((sel, int(m[1], 16), p, m[2])); cur[1].append((sel, None, p, m[3]))
        pend = []; continue
    assert 'strcpy' not in l
def rule(r):
    sel, med, (lo, hi), t = r
    return '    ⟨%s, %s, 0x%02X, 0x%02X, cs! "%s"⟩' % ('true' if sel == 'id_bcd[3]' else 'false', 'none' if med is None else 'some %d' % med, lo, hi, t)
P = ['import Verif.Model.CStr', '/-',
'The rules of `mbus_data_product_name` (mbus-protocol.c:916-1366), transcribed by tools/gen_labels.py.  One entry per',
'`if/else if` branch on the manufacturer; inside it one rule per `case` (or per comparison `version >= n`), in the order',
'of the C code; the first rule that applies gives the label.', '-/', 'namespace Mbus', '',
'/-- One `strcpy` of mbus-protocol.c:916-1366: guarded by `lo ≤ key ≤ hi` where the key is `id_bcd[3]` or `version`, and by',
'the medium if one is given. -/',
'structure ProdRule where', '  onId3 : Bool', '  medium : Option Nat', '  lo : Nat', '  hi : Nat', '  label : List Byte', '']
parts = []
for ms, rs in out:
    nme = 'prod' + ms[0]
    P.append('/-- branch %s -/' % ' / '.join(ms))
    P.append('def %s : List (List Byte) × List ProdRule :=\n  ([%s], [\n%s])\n' % (nme, ', '.join('cs! "%s"' % m for m in ms), ',\n'.join(map(rule, rs))))
    parts.append(nme)
P.append('/-- mbus-protocol.c:930-1360: all branches in order -/')
P.append('def productRules : List (List (List Byte) × List ProdRule) := [\n  ' + ', '.join(parts) + ']\n')
P.append('end Mbus')
open('/verif/lean/Verif/Model/Products.lean', 'w', encoding='utf-8').write('\n'.join(P) + '\n')
print(len(out), sum(len(r) for _, r in out))
