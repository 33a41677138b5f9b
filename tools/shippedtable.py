#!/usr/bin/env python3
"""Prints Lemmas/ShippedTable.lean: how the numbers of every shipped unit read on a common scale, as a search tree.
The proofs check this table with the kernel; nothing about it is trusted."""
import sys; sys.path.insert(0, '/verif/tools')
from simload import *
FAULTS = [('psi gauge', 'psi'), ('bar gauge', 'bar'), ('bar gauge', 'psi gauge'), ('gillUK', 'fluid ounce UK'),
          ('standard cubic meter', 'standard barrel'), ('standard barrel', 'standard cubic foot')]
FAULTS += [(b, a) for a, b in FAULTS]
def affv(e, f):
    try:
        m0, m1, m2 = (val(e, Fr(i), f) for i in range(3))
        if m2 - m1 != m1 - m0 or m1 == m0: return None
        return (m1 - m0, m0)
    except ZeroDivisionError: return None
def readings():
    """BFS from one name of each component; a reading is (s, o, e, api)"""
    adj = defaultdict(list); names = []
    for (a, b), (e, k) in final.items():
        for n in (a, b):
            if n not in adj: names.append(n)
            adj[n]
        if (a, b) not in FAULTS: adj[a].append((b, e)); adj[b].append((a, ('inv', e)))
    R = {}
    API = {'API'}
    while True:   # the other names of API
        more = {b for a in API for b, e in adj[a] if (e[1] if e[0] == 'inv' else e) == ID} - API
        if not more: break
        API |= more
    for n in names:
        if n in R or n in API: continue
        R[n] = (Fr(1), Fr(0), 0, False); st = [n]
        while st:
            a = st.pop(0); s, o, x, _ = R[a]
            for b, e in adj[a]:
                if b in R or b in API: continue
                inv = e[0] == 'inv'; c = e[1] if inv else e
                f1, f2 = affv(c, Fr(1)), affv(c, Fr(2))
                if f1 is None: continue
                m, k = f1; ratio = f2[0] / f1[0]; ex = {Fr(1): 0, Fr(2): 1, Fr(1, 2): -1}[ratio]
                if inv:   # y = m phi^ex b + k ; reading b = s phi^x (m b + k) + o
                    R[b] = (s * m, s * k + o, x + ex, False)
                else:     # b = m a + k ; a = (b - k)/m
                    R[b] = (s / m, o - s * k / m, x - ex, False)
                st.append(b)
    g = R['g/cc']; 
    for n in API: R[n] = (g[0], g[1], 0, True)
    return names, R
def code(s):
    n = 1
    for c in s: n = n * 2097152 + ord(c)
    return n
MERGED = {'Weight': 'Volume', 'Capacitance': 'Temperature', 'Permeability': 'Area', 'PressureGradient': 'Density',
          'Force': 'Mass', 'Impedance': 'Resistance', 'dataBIT': 'dataBYTE', 'Percentage': 'Dimensionless'}
def labels():
    """the quantity of every name: a number per kind of units, the same for kinds that share names or conversions"""
    L = {}; bases = list(dict.fromkeys(k.split('_')[0] for k in d))
    for k, v in d.items():
        b = k.split('_')[0]
        q = bases.index(MERGED.get(b, b))
        for x in kind_decls(k, v):
            for n in x[:2]: assert L.setdefault(n, q) == q, (n, k)
        ent = list(v.items()) if isinstance(v, dict) else [(u, ()) for u in v]
        for u, ss in ent:
            for n in (u,) + tuple(ss): assert L.setdefault(n, q) == q, (n, k)
    return bases, L
if __name__ == '__main__':
    names, R = readings()
    bases, L = labels()
    for n in L:
        if n not in R: names.append(n); R[n] = (Fr(1), Fr(0), 0, False)
    for n in names:
        assert n in R, n
    items = sorted((code(n), R[n], L[n]) for n in names)
    print('import Verif.Lemmas.Affine\n\n/- Written by tools/shippedtable.py: checked, not trusted. -/\nnamespace Unyts\n')
    print('/-- A search tree from the codes of the names to their readings and quantities. -/')
    print('inductive Table where\n  | leaf\n  | node (l : Table) (k : Nat) (sn sd : Nat) (on : Int) (od : Nat) (e : Int) (api : Bool) (q : Nat) (r : Table)\n')
    lv = []
    def tree(lo, hi, depth):
        if lo >= hi: return '.leaf'
        mid = (lo + hi) // 2; k, (s, o, e, api), q = items[mid]
        l, r = tree(lo, mid, depth + 1), tree(mid + 1, hi, depth + 1)
        t = f'.node {l if l == ".leaf" else l} {k} {s.numerator} {s.denominator} ({o.numerator}) {o.denominator} ({e}) {str(api).lower()} {q} {r}'
        if hi - lo > 20:
            n = f'table{len(lv)}'; lv.append((n, t)); return n
        return f'({t})'
    root = tree(0, len(items), 0)
    for n, t in lv: print(f'def {n} : Table := {t}')
    print('\n/-- the numbers of the quantities -/\ndef kindLabels : List (Str × Nat) := [' + ', '.join(f's!!"{b}", {bases.index(MERGED.get(b, b))}'.join('()') for b in bases) + ']')
    print(f'\n/-- the readings of the {len(items)} names of the shipped data -/\ndef shippedTable : Table := {root}\n\nend Unyts')
