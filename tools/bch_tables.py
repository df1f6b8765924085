#!/usr/bin/env python3
"""Writes lean/Verif/Lemmas/BechTable.lean and CashTable.lean: the registers reached from each of the 31 symbols after 1, 2, ... steps of the
checksum register, and bit sets of their remainders. The tables are data; what they are is proved in Lemmas/Bch.lean."""
import os
OUT = os.path.join(os.path.dirname(os.path.abspath(__file__)), '..', 'lean', 'Verif', 'Lemmas')

def rows_of(w, gens, n):
    top = w - 5
    def A(c):
        r = (c & ((1 << top) - 1)) << 5
        for i, g in enumerate(gens):
            if c >> top >> i & 1: r ^= g
        return r
    out, cur = [], list(range(1, 32))
    for _ in range(n):
        cur = [A(x) for x in cur]
        out.append(cur)
    return out

def emit(name, rows, ms):
    T = [0] + [x >> 5 for r in rows for x in r]
    with open(f'{OUT}/{name}.lean', 'w') as o:
        o.write('/-! Written by tools/bch_tables.py. -/\n\n')
        o.write(f'namespace Verif.{name}\n\n')
        for i, r in enumerate(rows):
            o.write(f'def row{i} : List Nat := [{", ".join(map(str, r))}]\n')
        o.write('\n/-- Row `b`: the registers `b + 1` steps after each of the symbols 1 to 31. -/\n')
        o.write('def rows : List (List Nat) := [\n  ' + ',\n  '.join(', '.join(f'row{i}' for i in range(k, min(k + 12, len(rows)))) for k in range(0, len(rows), 12)) + ']\n\n')
        for j, m in enumerate(ms):
            b = 0
            for x in T: b |= 1 << (x % m)
            o.write(f'def set{j} : Nat := {hex(b)}\n\n')
        o.write('/-- The remainders, by these numbers, of 0 and of the registers without their low symbol. -/\n')
        o.write('def sets : List (Nat × Nat) := [' + ', '.join(f'({m}, set{j})' for j, m in enumerate(ms)) + ']\n\n')
        o.write(f'end Verif.{name}\n')

MS = [65521, 65519, 65497, 65479, 65449, 65447]
emit('BechTable', rows_of(30, [0x3b6a57b2, 0x26508e6d, 0x1ea119fa, 0x3d4233dd, 0x2a1462b3], 87), MS[:5])
emit('CashTable', rows_of(40, [0x98f2bc8e61, 0x79b76d99e2, 0xf33e5fb3c4, 0xae2eabe2a8, 0x1e4f43e470], 127), MS)
