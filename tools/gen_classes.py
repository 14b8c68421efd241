#!/usr/bin/env python3
"""Writes lean/Verif/Model/ClassTable.lean: the classes of /repo/contracts (without formula and tests), read off the text with Python's ast."""
import ast, glob, os
out = []
q = lambda s: '"%s"' % s
def lst(l): return '[' + ', '.join(l) + ']'
for f in sorted(glob.glob('/repo/contracts/**/*.py', recursive=True)):
    if '/tests/' in f or '/formula/' in f: continue
    text = open(f).read()
    tree = ast.parse(text)
    names = {n.name for n in tree.body if isinstance(n, ast.ClassDef)}
    for n in tree.body:
        if isinstance(n, ast.ImportFrom):
            names |= {a.name for a in n.names}
    # interfaces made by ProxyScore(...) or create_interface_score(_, Name) in this file
    uses = []
    for n in ast.walk(tree):
        if isinstance(n, ast.Call) and isinstance(n.func, ast.Name) and n.func.id == 'ProxyScore':
            uses.append(n.args[0].id)
    for c in tree.body:
        if not isinstance(c, ast.ClassDef): continue
        if c.name in ('ProxyScore', 'Storage'): continue
        ms = []
        for m in c.body:
            if not isinstance(m, ast.FunctionDef): continue
            decos = [ast.unparse(d) for d in m.decorator_list]
            fl = []
            if 'external' in decos or 'external(readonly=True)' in decos: fl.append('ext := true')
            if 'external(readonly=True)' in decos: fl.append('readonly := true')
            if 'payable' in decos: fl.append('payable := true')
            if 'abstractmethod' in decos: fl.append('abstract := true')
            if 'interface' in decos: fl.append('interface := true')
            if any(d.startswith('eventlog') for d in decos): fl.append('event := true')
            args = m.args.args if 'staticmethod' in decos else m.args.args[1:]
            params = lst('(%s, %s)' % (q(a.arg), q(ast.unparse(a.annotation) if a.annotation else '')) for a in args)
            ups = []
            for n in ast.walk(m):
                if isinstance(n, ast.Call) and isinstance(n.func, ast.Attribute):
                    v = n.func.value
                    if isinstance(v, ast.Call) and isinstance(v.func, ast.Name) and v.func.id == 'super':
                        ups.append('.next %s' % q(n.func.attr))
                    elif isinstance(v, ast.Name) and v.id in names and n.args and isinstance(n.args[0], ast.Name) and n.args[0].id == 'self':
                        ups.append('.of %s %s' % (q(v.id), q(n.func.attr)))
            if ups: fl.append('up := ' + lst(ups))
            ms.append('    { name := %s, params := %s%s }' % (q(m.name), params, ''.join(', ' + x for x in fl)))
        bases = [ast.unparse(b) for b in c.bases] or ['object']
        rel = f[len('/repo/'):]
        u = sorted(set(uses))
        if any(isinstance(x, ast.Name) and x.id == 'TokenFallbackInterface' for x in ast.walk(c)): u.append('TokenFallbackInterface')
        out.append((c.name, '/-- `%s`, %s:%d-%d. -/\ndef %s : Class := {\n  name := %s\n  bases := %s\n  uses := %s\n  methods := [\n%s] }\n' % (
            c.name, rel, c.lineno, c.end_lineno, 'c' + c.name, q(c.name), lst(map(q, bases)), lst(map(q, u)), ',\n'.join(ms))))
head = '''import Verif.Model.Classes
/-!
Generated by tools/gen_classes.py from the text of /repo/contracts: every class but those of the formula, `Storage` and `ProxyScore`.
-/
namespace Verif.Py

'''
os.makedirs('/verif/lean/Verif/Model', exist_ok=True)
open('/verif/lean/Verif/Model/ClassTable.lean', 'w').write(head + '\n'.join(o[1] for o in out) +
    '\n/-- All of them, after the platform\'s. -/\ndef table : List Class := platform ++\n  [' + ', '.join('c' + o[0] for o in out) + ']\n\nend Verif.Py\n')
