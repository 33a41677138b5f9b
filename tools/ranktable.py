#!/usr/bin/env python3
"""Prints Lemmas/ShippedRanks.lean: the island of every shipped unit and its distance from the hub of the island, as a
search tree. The proofs check this table with the kernel; nothing about it is trusted."""
import sys; sys.path.insert(0, '/verif/tools')
from shippedtable import *
from collections import deque
HUBS = ['hour', 'Fahrenheit', 'm3', 'stm³', 'reservoir cubic centimeter', 'cubic rod', 'oil gallon', 'USounce', 'UKounce',
  'g-mol', 'yard', 'square meter', 'Pa', 'lb/ft3', 'psi/m', 'kg/m3', 'bar/ft', 'kJ/rem3', 'kJ/sm3', 'kJ/m3', 'lb/yd3',
  'kilogram force', 'Newton', '1/psi', '1/bar', 'stbd', 'scf/day', 'sm3/day', 'bbld', 'm3/day', 'kilometer per hour', 'byte',
  'cP', 'Poise', 'kilowatt hour', 'Watt', 'Volt', 'Ampere', 'Ohm', '℧', 'Coulomb', 'H', 'Hertz', 'RPM', 'stb/day/psi',
  'sm3/day/bar', 'sm3/day/kPa', 'm/s2', 'ft/s2', 'fraction', 'date', 'sec/d', 's*s']
def ranks():
    bases, L = labels()
    und = defaultdict(set)
    for a, b in final: und[a].add(b); und[b].add(a)
    R = {}
    for i, h in enumerate(HUBS):
        assert h in L and h not in R, h
        R[h] = (i, 0); q = deque([h])
        while q:
            a = q.popleft()
            for b in und[a]:
                if b not in R: R[b] = (i, R[a][1] + 1); q.append(b)
    for n in L: assert n in R, n
    return R
if __name__ == '__main__':
    items = sorted((code(n), i, r) for n, (i, r) in ranks().items())
    print('import Verif.Lemmas.ShippedKinds\n\n/- Written by tools/ranktable.py: checked, not trusted. -/\nnamespace Unyts\n')
    print('/-- A search tree from the codes of the names to their positions, islands and distances from the hub. -/')
    print('inductive Ranks where\n  | leaf\n  | node (l : Ranks) (k : Nat) (j i d : Nat) (r : Ranks)\n')
    lv = []
    def tree(lo, hi):
        if lo >= hi: return '.leaf'
        mid = (lo + hi) // 2; k, i, d = items[mid]
        t = f'.node {tree(lo, mid)} {k} {mid} {i} {d} {tree(mid + 1, hi)}'
        if hi - lo > 20:
            n = f'ranks{len(lv)}'; lv.append((n, t)); return n
        return f'({t})'
    root = tree(0, len(items))
    for n, t in lv: print(f'def {n} : Ranks := {t}')
    print(f'\n/-- the ranks of the {len(items)} names of the shipped data -/\ndef shippedRanks : Ranks := {root}\n\nend Unyts')
