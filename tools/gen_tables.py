#!/usr/bin/env python3
"""Reads the text of fixed_map_formula.py (it does not import or run it) and writes lean/Verif/Model/FormulaTables.lean."""
import re, os
src = open('/repo/contracts/formula/fixed_map_formula.py').read().split('\n')
def body(name):
    i = next(k for k, l in enumerate(src) if l.strip().startswith('def %s(' % name))
    j = next((k for k in range(i + 1, len(src)) if src[k].startswith('    def ')), len(src))
    return i + 1, j, src[i:j]
out = []
w = out.append
w('''/-!
Constant tables of `contracts/formula/fixed_map_formula.py`, copied mechanically from the text of that file by
`tools/gen_tables.py`. Hexadecimal literals are kept as they are in the source.
-/
namespace Verif.Formula
''')
consts = {}
for k, l in enumerate(src, 1):
    m = re.match(r'    _(ONE|MAX_WEIGHT|FIXED_1|FIXED_2|MAX_NUM|LN2_NUMERATOR|LN2_DENOMINATOR|OPT_LOG_MAX_VAL|OPT_EXP_MAX_VAL) = (\S+)$', l)
    if m:
        w('/-- `_%s`, fixed_map_formula.py:%d -/\ndef %s : Int := %s\n' % (m[1], k, m[1], m[2]))
    m = re.match(r'    _(MIN_PRECISION|MAX_PRECISION) = (\d+)$', l)
    if m:
        w('/-- `_%s`, fixed_map_formula.py:%d -/\ndef %s : Nat := %s\n' % (m[1], k, m[1], m[2]))
tab = []
for k, l in enumerate(src, 1):
    m = re.match(r'    _max_exp_array\[(\d+)\] = (\S+)$', l)
    if m: tab.append((int(m[1]), m[2], k))
assert [t[0] for t in tab] == list(range(32, 128))
w('/-- `_max_exp_array[32..127]` (entries 0..31 are `None`), fixed_map_formula.py:%d-%d -/' % (tab[0][2], tab[-1][2]))
w('def maxExpTable : List Int := [')
w(',\n'.join('  ' + t[1] for t in tab) + ']\n')
# general exp coefficients
a, b, t = body('_general_exp')
cs = [re.match(r'\s+res \+= xi \* (\S+)$', l)[1] for l in t if re.match(r'\s+res \+= xi \* ', l)]
assert len(cs) == 32
w('/-- Coefficients `33!/k!`, k = 2..33, of `_general_exp`, fixed_map_formula.py:%d-%d, in source order -/' % (a + 15, a + 109))
w('def generalExpCoeffs : List Int := [')
w(',\n'.join('  ' + c for c in cs) + ']\n')
d = next(re.search(r'res // (0x[0-9a-f]+)', l)[1] for l in t if 'return res //' in l)
w('/-- The divisor `33!` of `_general_exp`, fixed_map_formula.py:508 -/\ndef generalExpDen : Int := %s\n' % d)
# optimal log
a, b, t = body('_optimal_log')
hi = []
for i, l in enumerate(t):
    m = re.match(r'\s+if x >= (\S+):', l)
    if m:
        r = re.match(r'\s+res \+= (\S+)$', t[i + 1])[1]
        e = re.match(r'\s+x = x \* self._FIXED_1 // (\S+)$', t[i + 2])[1]
        assert e == m[1]
        hi.append((m[1], r))
assert len(hi) == 8
w('/-- `(threshold = divisor, summand)` of the eight range reductions of `_optimal_log`, fixed_map_formula.py:526-557 -/')
w('def optLogHi : List (Int × Int) := [')
w(',\n'.join('  (%s, %s)' % h for h in hi) + ']\n')
lo = [re.match(r'\s+res \+= z \* \((\S+) - y\) // (\S+)$', l).groups() for l in t if re.match(r'\s+res \+= z \* \(', l)]
assert len(lo) == 8
w('/-- `(num, den)` of the eight series terms `z * (num - y) // den` of `_optimal_log`, fixed_map_formula.py:561-583 -/')
w('def optLogLo : List (Int × Int) := [')
w(',\n'.join('  (%s, %s)' % h for h in lo) + ']\n')
# optimal exp
a, b, t = body('_optimal_exp')
cs = [re.match(r'\s+res \+= z \* (\S+)$', l)[1] for l in t if re.match(r'\s+res \+= z \* ', l)]
assert len(cs) == 19
w('/-- Coefficients `20!/k!`, k = 2..20, of `_optimal_exp`, fixed_map_formula.py:605-661 -/')
w('def optExpCoeffs : List Int := [')
w(',\n'.join('  ' + c for c in cs) + ']\n')
d = next(re.search(r'res = res // (0x[0-9a-f]+) \+ y', l)[1] for l in t if re.search(r'res = res // ', l))
w('/-- The divisor `20!` of `_optimal_exp`, fixed_map_formula.py:663 -/\ndef optExpDen : Int := %s\n' % d)
m = next(re.search(r'z = y = x % (0x[0-9a-f]+)', l)[1] for l in t if 'z = y = x %' in l)
w('/-- The modulus of `_optimal_exp`, fixed_map_formula.py:604 -/\ndef optExpMod : Int := %s\n' % m)
hi = []
for i, l in enumerate(t):
    m = re.match(r'\s+if \(x & (\S+)\) != 0:', l)
    if m:
        n, dd = re.match(r'\s+res = res \* (\S+) // (\S+)$', t[i + 1]).groups()
        hi.append((m[1], n, dd))
assert len(hi) == 7
for h in hi:
    v = int(h[0], 16); assert v & (v - 1) == 0
w('/-- `(bit, num, den)` of the seven factors of `_optimal_exp`, fixed_map_formula.py:665-685 -/')
w('def optExpHi : List (Int × Int × Int) := [')
w(',\n'.join('  (%s, %s, %s)' % h for h in hi) + ']\n')
w('end Verif.Formula')
p = os.path.join(os.path.dirname(os.path.abspath(__file__)), '../lean/Verif/Model/FormulaTables.lean')
open(p, 'w').write('\n'.join(out) + '\n')
