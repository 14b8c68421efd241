#!/usr/bin/env python3
"""Writes lean/Verif/Proofs/Source/Find.lean: the results of all look-ups (methods, constants, names) in the source text, each checked by the kernel."""
import re
T = open('/verif/lean/Verif/Model/Source/Text.lean').read()
C = open('/verif/lean/Verif/Model/Source/../ClassTable.lean').read()
MRO = {
 "Converter": ["Converter", "ABCConverter", "FlexibleTokenController", "TokenHolder", "Managed", "Owned", "IconScoreBase", "ABCTokenHolder", "ABCOwned", "ABC", "object"],
 "FlexibleToken": ["FlexibleToken", "IRCToken", "TokenHolder", "Owned", "IconScoreBase", "ABCFlexibleToken", "ABCIRCToken", "ABCTokenHolder", "ABCOwned", "ABC", "object"],
 "IcxToken": ["IcxToken", "IRCToken", "TokenHolder", "Owned", "IconScoreBase", "ABCIcxToken", "ABCIRCToken", "ABCTokenHolder", "ABCOwned", "ABC", "object"],
 "Network": ["Network", "TokenHolder", "Owned", "IconScoreBase", "ABCTokenHolder", "ABCOwned", "ABC", "object"],
 "ScoreRegistry": ["ScoreRegistry", "Owned", "IconScoreBase", "ABCOwned", "ABCScoreRegistry", "ABC", "object"],
 "IRCToken": ["IRCToken", "IconScoreBase", "ABCIRCToken", "ABC", "object"],
 "FixedMapFormula": ["FixedMapFormula"], "TokenHolder": ["TokenHolder", "Owned", "IconScoreBase", "ABCTokenHolder", "ABCOwned", "ABC", "object"],
 "Owned": ["Owned", "IconScoreBase", "ABCOwned", "ABC", "object"],
 "FlexibleTokenController": ["FlexibleTokenController", "TokenHolder", "Owned", "IconScoreBase", "ABCTokenHolder", "ABCOwned", "ABC", "object"],
}
meths = {}
for c, body in re.findall(r'^def m(\w+) : List \(String × Def\) := \[(.*?)\]\n', T, re.S | re.M):
    meths[c] = re.findall(r'\("(\w+)", ', body)
o = '''import Verif.Model.Source.Sem
import Verif.Proofs.Source.Attr
/-!
Generated by tools/gen_find.py: the results of all look-ups in the source text, each checked by the kernel.
-/
set_option autoImplicit false
namespace Verif.Src

'''
for c in MRO:
    o += '@[py] theorem mro_%s : mroOf "%s" = [%s] := by krefl\n' % (c, c, ', '.join('"%s"' % x for x in MRO[c]))
o += '\n'
def mkfind(c, m):
    for d in MRO[c]:
        if m in meths.get(d, []): return d
full = ["Converter", "FlexibleToken", "IcxToken", "Network", "ScoreRegistry", "IRCToken", "FixedMapFormula"]
for c in full:
    for m in sorted({m for d in MRO[c] for m in meths.get(d, [])}):
        d = mkfind(c, m)
        o += '@[py] theorem find_%s_%s : find "%s" "%s" = some ("%s", t%s_%s) := by rw [find, mro_%s]; krefl\n' % (c, m, c, m, d, d, m, c)
for c in ["TokenHolder", "Owned", "FlexibleTokenController"]:
    d = mkfind(c, 'on_install')
    for m in ('on_install', 'on_update'):
        o += '@[py] theorem find_%s_%s : find "%s" "%s" = some ("%s", t%s_%s) := by rw [find, mro_%s]; krefl\n' % (c, m, c, m, d, d, m, c)
o += '\n@[py] theorem next_withdrawTokens : findNext "Converter" "Converter" "withdrawTokens" = some ("TokenHolder", tTokenHolder_withdrawTokens) := by\n  rw [findNext, mro_Converter]; krefl\n\n'
for f in re.search(r'def functions.*?\]', T, re.S).group(0).split('\n')[1:]:
    n = re.search(r'"(\w+)"', f).group(1)
    o += '@[py] theorem fn_%s : function "%s" = some f_%s := by krefl\n' % (n, n, n)
for n in ['len', 'range', 'enumerate', 'dict', 'json_loads', 'json_dumps', 'str', 'isinstance', 'ProxyScore', 'revert']:
    o += '@[py] theorem fn_%s : function "%s" = none := by krefl\n' % (n, n)
o += '\n'
S = open('/verif/lean/Verif/Model/Source/Sem.lean').read()
for blk, nm in (('fields', 'fields'), ('cfields', 'cfields')):
    b = re.search(r'^def %s .*?\]\n\n' % blk, S, re.S | re.M).group(0)
    for a, f in re.findall(r'\("(\w+)", (\.\w+)\)', b):
        o += '@[py] theorem %s_%s : %s.lookup "%s" = some %s := by krefl\n' % (nm, a, nm, a, f)
o += '\n'
cs = []
b = re.search(r'^def constants .*?\n\n', T, re.S | re.M).group(0)
for c, l in re.findall(r'\("(\w+)", \[(.*?)\]\)[,\]]\n?', b):
    for x, e in re.findall(r'\("(\w+)", (\.\w+ .*?)\)(?:, \(|$)', l + ''):
        cs.append((c, x, e))
full2 = full + ['ABCScoreRegistry']
allx = sorted({x for _, x, _ in cs} | {'SCORE_REGISTRY', 'NETWORK'})
vals = {}
for c, l in re.findall(r'^  \("(\w+)", \[(.*)\]\)', b, re.M):
    for x, e in re.findall(r'\("(\w+)", (\.(?:num|str) [^()]*?)\)', l): vals[(c, x)] = e.replace('.num', '.int')
def cst(c, x, v):
    global o
    o += '@[py] theorem const_%s_%s : const "%s" "%s" = some (%s) := by rw [const, mro_%s]; krefl\n@[py] theorem nofield_%s_%s : fields.lookup "%s" = none := by krefl\n' % (c, x, c, x, v, c, c, x, x)
MRO['ABCScoreRegistry'] = []
o += '@[py] theorem const_reg1 : const "ABCScoreRegistry" "SCORE_REGISTRY" = some (.str "ScoreRegistry") := by krefl\n'
o += '@[py] theorem const_reg2 : const "ABCScoreRegistry" "NETWORK" = some (.str "Network") := by krefl\n'
cst('ScoreRegistry', 'SCORE_REGISTRY', '.str "ScoreRegistry"')
cst('ScoreRegistry', 'SCORE_KEYS', '.list [.str "ScoreRegistry", .str "Network"]')
for (c, x), v in vals.items():
    if c in ('Converter', 'Network', 'FixedMapFormula', 'FlexibleToken'): cst(c, x, v)
o += '@[py] theorem nofield_getManager : fields.lookup "getManager" = none := by krefl\n@[py] theorem const_getManager : const "Converter" "getManager" = none := by rw [const, mro_Converter]; krefl\n\n'
G = [('Converter', 'FlexibleToken', '.iclass "ABCFlexibleToken"'), ('Converter', 'ScoreRegistry', '.iclass "ABCScoreRegistry"'),
     ('Converter', 'IRCToken', '.iclass "ABCIRCToken"'), ('Converter', 'TRANSFER_DATA', '.bytes .conversionResult'), ('Converter', 'TAG', '.str "Converter"'),
     ('FlexibleTokenController', 'FlexibleToken', '.iclass "ABCFlexibleToken"'), ('IRCToken', 'TAG', '.str "IRCToken"'),
     ('Network', 'IRCToken', '.iclass "ABCIRCToken"'), ('Network', 'IcxToken', '.iclass "ABCIcxToken"'),
     ('Network', 'FlexibleToken', '.iclass "ABCFlexibleToken"'), ('Network', 'Converter', '.iclass "ABCConverter"'),
     ('IRCToken', 'TokenFallbackInterface', '.cls "TokenFallbackInterface"'), ('IRCToken', 'Logger', '.cls "Logger"'), ('IRCToken', 'IconScoreBase', '.cls "IconScoreBase"'),
     ('TokenHolder', 'Owned', '.cls "Owned"'), ('TokenHolder', 'ABCIRCToken', '.cls "ABCIRCToken"'), ('FlexibleTokenController', 'TokenHolder', '.cls "TokenHolder"'),
     ('FlexibleToken', 'IRCToken', '.cls "IRCToken"'), ('FlexibleToken', 'TokenHolder', '.cls "TokenHolder"'), ('IcxToken', 'IRCToken', '.cls "IRCToken"'),
     ('IcxToken', 'TokenHolder', '.cls "TokenHolder"'), ('ScoreRegistry', 'Owned', '.cls "Owned"'), ('Converter', 'FlexibleTokenController', '.cls "FlexibleTokenController"'),
     ('Converter', 'formula', '.obj "FixedMapFormula"'), ('Converter', 'Address', '.cls "Address"'), ('Network', 'Address', '.cls "Address"'), ('Network', 'int', '.cls "int"'), ('Network', 'TokenHolder', '.cls "TokenHolder"'),
     ('Owned', 'IconScoreBase', '.cls "IconScoreBase"')]
for h in ['', 'Owned', 'Managed', 'ScoreRegistry', 'Network']: G.append((h, 'ZERO_SCORE_ADDRESS', '.addr ZERO'))
for h, x, v in G:
    o += '@[py] theorem glob_%s_%s : glob "%s" "%s" = some (%s) := by krefl\n' % (h, x, h, x, v)
o += '\n'
I = [('ABCIRCToken', m) for m in ('transfer', 'balanceOf')] + [('ABCFlexibleToken', m) for m in
     ('getOwner', 'transferOwnerShip', 'acceptOwnerShip', 'disableTransfer', 'withdrawTokens', 'totalSupply', 'issue', 'destroy')] + \
    [('ABCScoreRegistry', 'getAddress'), ('ABCConverter', 'getReturn'), ('ABCIcxToken', 'withdrawTo'), ('TokenFallbackInterface', 'tokenFallback')]
for c, m in I:
    o += '@[py] theorem iface_%s_%s : ifaceHas "%s" "%s" = true := by krefl\n' % (c, m, c, m)
o += '\n'
for d, b in re.findall(r'^def (\w+) : Def where\n(.*?)\n\n', T + '\n\n', re.S | re.M):
    o += '@[py] theorem event_%s : %s.event = %s := by decide\n' % (d, d, 'true' if 'event := true' in b else 'false')
o += '\nend Verif.Src\n'
M = open('/verif/lean/Verif/Model/Source/Machine.lean').read()
names = re.findall(r'=> some \("(\w+)", \[', M)
n = '''import Verif.Proofs.Source.Find
/-!
Generated by tools/gen_find.py: the methods of the interface a class does not have, and the declarations of those it has.
-/
set_option autoImplicit false
namespace Verif.Src

'''
for c in full[:6]:
    for m in names:
        if not mkfind(c, m): n += '@[py] theorem none_%s_%s : find "%s" "%s" = none := by rw [find, mro_%s]; krefl\n' % (c, m, c, m, c)
for d, b in re.findall(r'^def (t\w+) : Def where\n(.*?)\n\n', T + '\n\n', re.S | re.M):
    if d.split('_')[-1] in names:
        n += '@[py] theorem ext_%s : %s.ext = %s := rfl\n' % (d, d, 'true' if 'ext := true' in b else 'false')
        n += '@[py] theorem pay_%s : %s.payable = %s := rfl\n' % (d, d, 'true' if 'payable := true' in b else 'false')
        n += '@[py] theorem ans_%s : %s.answers = %s := rfl\n' % (d, d, re.search(r'answers := (".*?")', b).group(1))
n += '\nend Verif.Src\n'
open('/verif/lean/Verif/Proofs/Source/FindNone.lean', 'w').write(n)
open('/verif/lean/Verif/Proofs/Source/Find.lean', 'w').write(o)
