#!/usr/bin/env python3
"""Reads /repo/src/unyts/dictionaries.py and database.py as text (ast), without running them, and prints the Lean data
of Model/Shipped.lean: the raw dictionary, the prefixes and the explicit conversions."""
import ast, sys, fractions
R = '/repo/src/unyts/'
def ev(n, env):
    """a small evaluator for the literal expressions of _load_dictionary"""
    if isinstance(n, ast.Constant): return n.value
    if isinstance(n, ast.Tuple): return tuple(ev(x, env) for x in n.elts)
    if isinstance(n, ast.List): return [ev(x, env) for x in n.elts]
    if isinstance(n, ast.Dict): return {ev(k, env): ev(v, env) for k, v in zip(n.keys, n.values)}
    if isinstance(n, ast.Name): return env[n.id]
    if isinstance(n, ast.Subscript): return ev(n.value, env)[ev(n.slice, env)]
    if isinstance(n, ast.BinOp) and isinstance(n.op, ast.Add): return ev(n.left, env) + ev(n.right, env)
    if isinstance(n, ast.Call):
        if isinstance(n.func, ast.Name) and n.func.id == 'tuple':
            return tuple(ev(n.args[0], env)) if n.args else ()
        if isinstance(n.func, ast.Name) and n.func.id == 'len': return len(ev(n.args[0], env))
        if isinstance(n.func, ast.Attribute) and n.func.attr == 'keys': return list(ev(n.func.value, env))
    if isinstance(n, ast.Compare) and isinstance(n.ops[0], ast.Gt): return ev(n.left, env) > ev(n.comparators[0], env)
    if isinstance(n, ast.GeneratorExp):
        out = []
        def go(gs, env):
            if not gs: out.append(ev(n.elt, env)); return
            g = gs[0]
            for x in ev(g.iter, env):
                e = dict(env); e[g.target.id] = x
                if all(ev(c, e) for c in g.ifs): go(gs[1:], e)
        go(n.generators, env)
        return tuple(out)
    raise NotImplementedError(ast.dump(n))
def raw_dict():
    t = ast.parse(open(R + 'dictionaries.py').read())
    f = next(x for x in t.body if isinstance(x, ast.FunctionDef) and x.name == '_load_dictionary')
    d = {}
    for s in f.body:
        if isinstance(s, ast.Assign) and isinstance(s.targets[0], ast.Subscript) \
                and getattr(s.targets[0].value, 'id', '') == 'dictionary':
            d[ev(s.targets[0].slice, {})] = ev(s.value, {'dictionary': d})
    return d
def num(txt): return fractions.Fraction(txt.replace('E', 'e').replace('_', ''))
class Expr:
    """Python arithmetic of one variable as a tree; numbers are exact"""
    def __init__(self, src): self.src = src
    def go(self, n, var, consts):
        if isinstance(n, ast.Constant): return ('lit', num(ast.get_source_segment(self.src, n)))
        if isinstance(n, ast.Name):
            if n.id == var: return ('x',)
            return ('lit', consts[n.id])
        if isinstance(n, ast.Call) and isinstance(n.func, ast.Attribute) and n.func.attr == 'get_fvf': return ('fvf',)
        if isinstance(n, ast.BinOp):
            a, b = self.go(n.left, var, consts), self.go(n.right, var, consts)
            op = {ast.Add: 'add', ast.Sub: 'sub', ast.Mult: 'mul', ast.Div: 'div', ast.Pow: 'pow'}[type(n.op)]
            if op == 'pow':
                assert a[0] == 'lit' and b[0] == 'lit' and b[1].denominator == 1
                return ('pow', a[1], int(b[1]))
            return (op, a, b)
        raise NotImplementedError(ast.dump(n))
def consts():
    src = open(R + 'dictionaries.py').read(); t = ast.parse(src); c = {}
    for s in t.body:
        if isinstance(s, ast.Assign) and isinstance(s.targets[0], ast.Name) and isinstance(s.value, ast.Constant) \
                and isinstance(s.value.value, (int, float)):
            c[s.targets[0].id] = num(ast.get_source_segment(src, s.value))
    return c
def prefixes(name):
    """SI, DATA, OGF: prefix -> list of trees or None"""
    src = open(R + 'dictionaries.py').read(); t = ast.parse(src); E = Expr(src)
    v = next(s.value for s in t.body if isinstance(s, ast.Assign) and getattr(s.targets[0], 'id', '') == name)
    out = []
    def lam(n):
        if isinstance(n, ast.Constant): return None
        return E.go(n.body, n.args.args[0].arg, {})
    for k, x in zip(v.keys, v.values):
        if isinstance(x, ast.BinOp): l = [lam(x.left.elts[0])] * x.right.value
        else: l = [lam(y) for y in x.elts]
        out.append((k.value, l))
    return out
def orders(name):
    t = ast.parse(open(R + 'dictionaries.py').read())
    v = next(s.value for s in t.body if isinstance(s, ast.Assign) and getattr(s.targets[0], 'id', '') == name)
    return [[y.value for y in x.elts] if isinstance(x, ast.Tuple) else [] for x in v.elts]
def explicit():
    src = open(R + 'database.py').read(); t = ast.parse(src); E = Expr(src); c = consts()
    f = next(x for x in t.body if isinstance(x, ast.FunctionDef) and x.name == '_load_network')
    out = []
    for s in f.body:
        if isinstance(s, ast.Expr) and isinstance(s.value, ast.Call) and getattr(s.value.func, 'attr', '') == 'add_edge':
            a, b, l = s.value.args[0].args
            assert not s.value.args[0].keywords
            out.append((a.args[0].value, b.args[0].value, E.go(l.body, l.args.args[0].arg, c), s.lineno))
    return out
# ---- Lean
def ls(s): return 's!!"' + s.replace('\\', '\\\\').replace('"', '\\"') + '"'
def lq(q): return str(q.numerator) if q.denominator == 1 else f'({q.numerator} / {q.denominator})'
def le(e):
    if e[0] == 'x': return '.x'
    if e[0] == 'fvf': return '.fvf'
    if e[0] == 'lit': return f'(.lit {lq(e[1])})'
    if e[0] == 'pow': return f'(.lit {lq(e[1] ** e[2])})'
    return f'(.{e[0]} {le(e[1])} {le(e[2])})'
def wrap(items, ind, width=116):
    lines, cur = [], ''
    for i, x in enumerate(items):
        x = x + (', ' if i < len(items) - 1 else '')
        if len(ind + cur + x) > width and cur: lines.append(ind + cur.rstrip()); cur = ''
        cur += x
    if cur: lines.append(ind + cur.rstrip())
    return '\n'.join(lines)
HEAD = '''import Verif.Model.Loader

/-
The data that ships with the library, transcribed by `tools/shipped.py` from the text of
`/repo/src/unyts/dictionaries.py` (raw dictionary and prefixes) and `/repo/src/unyts/database.py:358-556` (conversions
written one by one). Floating point constants are the decimal numbers they spell.
-/
namespace Unyts
'''
TAIL = '''/-- the prefixes that ship with the library -/
def shippedPrefixes : Prefixes := ⟨prefixSI, orderSI, prefixDATA, orderDATA, prefixOGF, orderOGF⟩

/-- `_load_network()` on the shipped data (database.py:90-606) -/
def loadShipped : Res (Net × RawDict) := loadNetwork shippedPrefixes explicitConversions rawDictionary

end Unyts'''
def main():
    d = raw_dict()
    print(HEAD)
    o = []
    for i, (k, v) in enumerate(d.items()):
        if isinstance(v, dict):
            rows = [f'({ls(u)}, [{", ".join(ls(x) for x in ss)}])' for u, ss in v.items()]
            body = '.table [\n' + wrap(rows, '    ') + ']' if rows else '.table []'
        else:
            body = '.names [\n' + wrap([ls(x) for x in v], '    ') + ']' if v else '.names []'
        o.append(f'  ({ls(k)}, {body})')
    print('/-- the dictionary `_load_dictionary` returns (dictionaries.py:86-518) -/\ndef rawDictionary : RawDict := [')
    print(',\n'.join(o) + ']\n')
    n = 0
    for name in ('SI', 'DATA', 'OGF'):
        rows = []
        for p, l in prefixes(name):
            rows.append(f'({ls(p)}, [{", ".join("none" if x is None else "some " + le(x) for x in l)}])')
        print(f'/-- `{name}` (dictionaries.py) -/\ndef prefix{name} : List (Str × List (Option CExp)) := [\n' + ',\n'.join('  ' + r for r in rows) + ']\n')
    for name in ('SI_order', 'DATA_order', 'OGF_order'):
        print(f'/-- `{name}` (dictionaries.py) -/\ndef order{name[:-6]} : List (List Str) := [\n' + ',\n'.join('  [' + ', '.join(ls(x) for x in l) + ']' for l in orders(name)) + ']\n')
    print('/-- the conversions written one by one (database.py:358-556) -/\ndef explicitConversions : List (Str × Str × CExp) := [')
    print(',\n'.join(f'  ({ls(a)}, {ls(b)}, {le(e)})' for a, b, e, _ in explicit()) + ']\n')
    print(TAIL)
if __name__ == '__main__': main()
