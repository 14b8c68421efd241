#!/usr/bin/env python3
"""Writes lean/Verif/Model/Source/Text.lean: the syntax trees of the functions and methods of /repo/contracts, read off the text with
Python's ast. Purely syntactic: docstrings and annotations of parameters are dropped, nothing else (every form without a counterpart is refused)."""
import ast
R = '/repo/contracts/'
FILES = ['utility/utils.py', 'utility/owned.py', 'utility/managed.py', 'utility/token_holder.py', 'utility/flexible_token_controller.py',
         'irc_token/irc_token.py', 'flexible_token/flexible_token.py', 'icx_token/icx_token.py', 'score_registry/score_registry.py',
         'interfaces/abc_score_registry.py', 'converter/converter.py', 'network/network.py', 'formula/fixed_map_formula.py']
def q(s): return '"' + s.replace('\\', '\\\\').replace('"', '\\"').replace('\n', '\\n').replace('\x03', '\\x03') + '"'
OPS = {ast.Add: 'add', ast.Sub: 'sub', ast.Mult: 'mul', ast.FloorDiv: 'fdiv', ast.Mod: 'mod', ast.Pow: 'pow', ast.LShift: 'shl', ast.RShift: 'shr',
       ast.BitAnd: 'band', ast.BitOr: 'bor'}
CMPS = {ast.Eq: 'eq', ast.NotEq: 'ne', ast.Lt: 'lt', ast.LtE: 'le', ast.Gt: 'gt', ast.GtE: 'ge', ast.Is: 'is', ast.IsNot: 'isNot', ast.In: 'in_', ast.NotIn: 'notIn'}
class Refused(Exception): pass
def args(l): return '⟪' + ', '.join(E(a) for a in l) + '⟫'
def cargs(e): return args(list(e.args) + [k.value for k in e.keywords])
def P(s): return s if s[0] in '⟪' or ' ' not in s else '(' + s + ')'
def E(e):
    t = type(e)
    if t is ast.Constant:
        v = e.value
        if v is None: return '.none'
        if isinstance(v, bool): return '.bool %s' % str(v).lower()
        if isinstance(v, int): return '.num %s' % (hex(v) if v > 1000000 else v)
        if isinstance(v, str): return '.str %s' % q(v)
        if isinstance(v, bytes): return '.bytes %s' % q(v.decode('latin1'))
    if t is ast.JoinedStr: return '.fstr'
    if t is ast.Name: return '.name %s' % q(e.id)
    if t is ast.Attribute: return '.attr %s %s' % (P(E(e.value)), q(e.attr))
    if t is ast.BinOp: return '.op .%s %s %s' % (OPS[type(e.op)], P(E(e.left)), P(E(e.right)))
    if t is ast.UnaryOp and isinstance(e.op, ast.Not): return '.not_ %s' % P(E(e.operand))
    if t is ast.UnaryOp and isinstance(e.op, ast.USub) and isinstance(e.operand, ast.Constant): return '.num (-%d)' % e.operand.value
    if t is ast.BoolOp:
        k = 'and_' if isinstance(e.op, ast.And) else 'or_'
        r = E(e.values[-1])
        for v in reversed(e.values[:-1]): r = '.%s %s %s' % (k, P(E(v)), P(r))
        return r
    if t is ast.Compare:
        if len(e.ops) == 1: return '.cmp .%s %s %s' % (CMPS[type(e.ops[0])], P(E(e.left)), P(E(e.comparators[0])))
        if len(e.ops) == 2: return '.chain %s .%s %s .%s %s' % (P(E(e.left)), CMPS[type(e.ops[0])], P(E(e.comparators[0])), CMPS[type(e.ops[1])], P(E(e.comparators[1])))
    if t is ast.IfExp: return '.cond %s %s %s' % (P(E(e.test)), P(E(e.body)), P(E(e.orelse)))
    if t is ast.Subscript: return '.index %s %s' % (P(E(e.value)), P(E(e.slice)))
    if t is ast.Tuple: return '.tuple %s' % args(e.elts)
    if t is ast.List: return '.list %s' % args(e.elts)
    if t is ast.Dict: return '.dict %s' % args([x for kv in zip(e.keys, e.values) for x in kv])
    if t is ast.Call:
        f = e.func
        if isinstance(f, ast.Name) and f.id == 'map' and isinstance(e.args[0], ast.Lambda):
            return '.map_ %s %s %s' % (q(e.args[0].args.args[0].arg), P(E(e.args[0].body)), P(E(e.args[1])))
        if isinstance(f, ast.Name): return '.fn %s %s' % (q(f.id), cargs(e))
        if isinstance(f, ast.Attribute):
            if isinstance(f.value, ast.Call) and isinstance(f.value.func, ast.Name) and f.value.func.id == 'super':
                return '.sup %s %s' % (q(f.attr), cargs(e))
            return '.meth %s %s %s' % (P(E(f.value)), q(f.attr), cargs(e))
    if t in (ast.ListComp, ast.SetComp) and len(e.generators) == 1:
        g = e.generators[0]
        xs = [g.target.id] if isinstance(g.target, ast.Name) else [x.id for x in g.target.elts]
        assert len(g.ifs) <= 1
        c = P(E(g.ifs[0])) if g.ifs else '(.bool true)'
        return '.comp %s %s [%s] %s %s' % ('true' if t is ast.SetComp else 'false', P(E(e.elt)), ', '.join(map(q, xs)), P(E(g.iter)), c)
    raise Refused(ast.dump(e)[:200])
def S(s, ind):
    t = type(s)
    if t is ast.Expr: return '.expr %s' % P(E(s.value))
    if t is ast.Pass: return '.pass'
    if t is ast.Return: return '.ret %s' % P(E(s.value) if s.value else '.none')
    if t is ast.Assign:
        if len(s.targets) == 1: return '.assign %s %s' % (P(E(s.targets[0])), P(E(s.value)))
        if len(s.targets) == 2: return '.assign2 %s %s %s' % (P(E(s.targets[0])), P(E(s.targets[1])), P(E(s.value)))
    if t is ast.AugAssign: return '.aug %s .%s %s' % (P(E(s.target)), OPS[type(s.op)], P(E(s.value)))
    if t is ast.Delete and len(s.targets) == 1: return '.del %s' % P(E(s.targets[0]))
    if t is ast.If: return '.ite %s\n%s%s\n%s%s' % (P(E(s.test)), ind, B(s.body, ind), ind, B(s.orelse, ind))
    if t is ast.For and not s.orelse: return '.for_ %s %s\n%s%s' % (q(s.target.id), P(E(s.iter)), ind, B(s.body, ind))
    if t is ast.While and not s.orelse: return '.while_ %s\n%s%s' % (P(E(s.test)), ind, B(s.body, ind))
    if t is ast.Try and not s.orelse and not s.finalbody:
        h = B(s.handlers[-1].body, ind)
        for x in reversed(s.handlers[:-1]): h = '(.alt %s %s)' % (B(x.body, ind), h)
        return '.try_ %s\n%s%s' % (B(s.body, ind), ind, h)
    raise Refused(ast.dump(s)[:200])
def B(l, ind):
    l = [s for s in l if not (isinstance(s, ast.Expr) and isinstance(s.value, ast.Constant) and isinstance(s.value.value, str))]
    if not l: return '.pass'
    return '(' + (' ;;\n' + ind).join(S(s, ind + '  ') for s in l) + ')'
def D(m, rel, name):
    decos = [ast.unparse(d) for d in m.decorator_list]
    a = m.args.args
    if name[0] and 'staticmethod' not in decos: a = a[1:]
    df = [None] * (len(a) - len(m.args.defaults)) + list(m.args.defaults)
    ps = ', '.join('(%s, %s)' % (q(x.arg), 'none' if d is None else 'some %s' % P(E(d))) for x, d in zip(a, df))
    fl = ''
    if any(d.startswith('external') for d in decos): fl += '\n  ext := true'
    if 'payable' in decos: fl += '\n  payable := true'
    if any(d.startswith('eventlog') for d in decos): fl += '\n  event := true'
    r = ast.unparse(m.returns) if m.returns else ''
    return '/-- `%s`, contracts/%s:%d-%d. -/\ndef %s : Def where\n  params := [%s]\n  answers := %s%s\n  body := %s\n' % (
        m.name, rel, m.lineno, m.end_lineno, ident(*name), ps, q(r), fl, B(m.body, '    '))
def ident(c, m): return ('t' + c + '_' if c else 'f_') + m
defs, table, consts, globs, arr = [], [], [], [], []
SKIP = {'__init__', '__getitem__', '__setitem__'}
inits = []
for rel in FILES:
    tree = ast.parse(open(R + rel).read())
    g = []
    for n in tree.body:
        if isinstance(n, ast.FunctionDef):
            defs.append(D(n, rel, ('', n.name))); table.append(('', n.name))
        if isinstance(n, ast.Assign): g.append((n.targets[0].id, E(n.value)))
        if isinstance(n, ast.ClassDef):
            for m in n.body:
                if isinstance(m, ast.FunctionDef) and m.name in ('__init__', '__getitem__') and not rel.startswith('interfaces') and n.name != 'FixedMapFormula':
                    inits.append((n.name, m.name)); defs.append(D(m, rel, (n.name, m.name)))
            if n.name in ('Connector', 'ConnectorDict', 'TokenFallbackInterface'): continue
            cs = []
            for m in n.body:
                if isinstance(m, ast.FunctionDef) and m.name not in SKIP:
                    if rel.startswith('interfaces'): continue
                    defs.append(D(m, rel, (n.name, m.name))); table.append((n.name, m.name))
                if isinstance(m, ast.Assign):
                    t = m.targets[0]
                    if isinstance(t, ast.Name) and t.id != '_max_exp_array': cs.append((t.id, E(m.value)))
                    elif isinstance(t, ast.Subscript): arr.append((t.slice.value, m.value.value))
            consts.append((n.name, cs)); globs.append((n.name, g))
assert [i for i, _ in arr] == list(range(32, 128))
o = '''import Verif.Model.Source.Lang
/-!
Generated by tools/gen_source.py from the text of /repo/contracts: the syntax trees of all functions and methods of the contracts and of
the formula.
-/
set_option autoImplicit false
namespace Verif.Src

'''
o += '\n'.join(defs)
o += '\n/-- The functions of contracts/utility/utils.py. -/\ndef functions : List (String × Def) := [\n' + ',\n'.join('  (%s, %s)' % (q(m), ident(c, m)) for c, m in table if not c) + ']\n'
cl = [c for c, _ in consts]
for c in cl:
    o += '\n/-- The methods in the text of class `%s`. -/\ndef m%s : List (String × Def) := [%s]\n' % (c, c, ', '.join('\n  (%s, %s)' % (q(m), ident(x, m)) for x, m in table if x == c))
o += '\n/-- The methods in the text of each class. -/\ndef methods : List (String × List (String × Def)) := [\n' + ',\n'.join('  (%s, m%s)' % (q(c), c) for c in cl) + ']\n'
o += '\n/-- The constants in the text of each class. -/\ndef constants : List (String × List (String × Expr)) := [\n' + ',\n'.join('  (%s, [%s])' % (q(c), ', '.join('(%s, %s)' % (q(x), e) for x, e in cs)) for c, cs in consts) + ']\n'
o += '\n/-- The constants of the file each class is in. -/\ndef globals : List (String × List (String × Expr)) := [\n' + ',\n'.join('  (%s, [%s])' % (q(c), ', '.join('(%s, %s)' % (q(x), e) for x, e in cs)) for c, cs in globs) + ']\n'
o += '\n/-- The `__init__` in the text of each class. -/\ndef inits : List (String × Def) := [\n' + ',\n'.join('  (%s, %s)' % (q(c), ident(c, m)) for c, m in inits if m == '__init__') + ']\n'
o += '\n/-- `_max_exp_array[32]` to `_max_exp_array[127]`, contracts/formula/fixed_map_formula.py:80-175. -/\ndef maxExpArray : List Int := [\n' + ',\n'.join('  ' + hex(v) for _, v in arr) + ']\n'
o += '\nend Verif.Src\n'
open('/verif/lean/Verif/Model/Source/Text.lean', 'w').write(o)
print(len(defs), 'definitions')
