#!/usr/bin/env python3
"""Writes Lemmas/NearTable.lean: the neighbours of the names in Spec/Compounds.lean and of their parts, and the roads between
those names. The proofs check these tables with the kernel; nothing about them is trusted."""
import re, sys; sys.path.insert(0, '/verif/tools')
from shippedtable import *
from collections import defaultdict, deque
def code(s):
    n = 1
    for c in s: n = n * 2097152 + ord(c)
    return n
text = open('/verif/lean/Verif/Spec/Compounds.lean', encoding='utf8').read()
LISTS = [re.findall(r's!!"([^"]*)"', l) for l in re.split(r'\n   -- ', text)[1:]]
nb = defaultdict(list); out = defaultdict(set)
for a, b in final:
    out[a].add(b)
    for x, y in ((a, b), (b, a)):
        if x != y and y not in nb[x]: nb[x].append(y)
def split(u):
    s = u.split('/')
    if len(s) != 2: s = u.split('*')
    return s if len(s) == 2 else None
keys = []
def key(u):
    if u not in keys: keys.append(u)
    for v in split(u) or []: key(v)
for l in LISTS:
    for u in l: key(u)
two = {a: [b for b in nb[a] if b in out[a] and a in out[b]] for a in list(nb)}
roads = defaultdict(list)
for l in LISTS:
    for a in l:
        D = {a: None}; q = deque([a])
        while q:
            x = q.popleft()
            for y in two.get(x, []):
                if y not in D: D[y] = x; q.append(y)
        for b in l:
            x = b
            while D.get(x) is not None:
                y = D[x]
                if y not in roads[x]: roads[x].append(y)
                if x not in roads[y]: roads[y].append(x)
                x = y
def q(s): return 's!!"%s"' % s
def tree(items):
    if not items: return '.leaf'
    m = len(items) // 2
    k, v = items[m]
    return '(.node %s %d [%s] %s)' % (tree(items[:m]), code(k), ', '.join(q(x) for x in v), tree(items[m + 1:]))
if __name__ == '__main__':
    print('import Verif.Lemmas.ShippedLabel\n\n/- Written by tools/neartable.py: checked, not trusted. -/\nnamespace Unyts\n')
    print('''/-- a search tree from codes of names to lists of names -/
inductive Near
  | leaf
  | node (l : Near) (k : Nat) (ns : List Str) (r : Near)
''')
    ks = sorted(keys, key=code)
    print('/-- the names a name is declared to convert to or from -/\ndef nearTree : Near :=\n  ' + tree([(k, nb[k] if k in nb else []) for k in ks]) + '\n')
    rs = sorted(roads, key=code)
    print('/-- some of the declared conversions, both ways -/\ndef roadTree : Near :=\n  ' + tree([(k, roads[k]) for k in rs]) + '\n')
    print('/-- the same, one way each -/\ndef roadList : List (Str × Str) :=\n  [' + ', '.join('(%s, %s)' % (q(a), q(b)) for a in rs for b in roads[a] if code(a) < code(b)) + ']\n')
    print('end Unyts')
