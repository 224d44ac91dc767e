#!/usr/bin/env python3
"""Generates lean/Verif/BinsupData.lean from /repo/data/binsup_mat."""
import os

D = '/repo/data/binsup_mat/'
FILES = [('n16_t5', 7, 1), ('n128_t31', 7, 2), ('n256_t43', 11, 6), ('n256_t53', 7, 8), ('n256_t65', 7, 6),
         ('n256_t89', 7, 2), ('n512_t131', 7, 11)]
CONWAY = {7: 0b10000011, 11: 0b100000000101}
CODE = {7: 0o211, 11: 0o4005}


def load(f):
    return [[int(x) for x in l.split(' ')] for l in open(D + f + '.txt').read().split('\n')[:-1]]


def mul(a, b, w):
    r = 0
    while b:
        if b & 1:
            r ^= a
        a <<= 1
        if a >> w & 1:
            a ^= CODE[w]
        b >>= 1
    return r


def cert(w):
    """powers of a root of the Conway polynomial in the field of the code"""
    for beta in range(2, 1 << w):
        acc, p = 0, 1
        pw = []
        for i in range(w + 1):
            if CONWAY[w] >> i & 1:
                acc ^= p
            pw.append(p)
            p = mul(p, beta, w)
        if acc == 0:
            return pw[:w]


def phi(pw, v):
    r = 0
    for i, p in enumerate(pw):
        if v >> i & 1:
            r ^= p
    return r


out = ['''/-!
# The matrices of `data/binsup_mat`

Generated by `tools/gen_binsup.py` from the files in `/repo/data/binsup_mat`.  A number stands for one line of a file: bit
`j` is entry `j` of the line.  The lines are grouped by 16 (the length of the inner code used by
`scripts/gen_binary_supmat.py`).
-/

namespace Verif

/-- Contents of a file of `data/binsup_mat`: number of entries per line and lines, 16 in each group. -/
structure BinFile where
  k : Nat
  blocks : List (List Nat)

/-- The lines. -/
def BinFile.lines (f : BinFile) : List Nat := f.blocks.flatten

/-- The entries. -/
def BinFile.bits (f : BinFile) : List (List Bool) := f.lines.map fun v => (List.range f.k).map fun j => v.testBit j

namespace Binsup
''']
for f, w, kr in FILES:
    m = load(f)
    k = len(m[0])
    assert k == w * kr
    nums = [sum(x << j for j, x in enumerate(l)) for l in m]
    out.append(f'/-- `data/binsup_mat/{f}.txt`. -/\ndef {f} : BinFile where\n  k := {k}\n  blocks := [')
    bl = []
    for b in range(0, len(nums), 16):
        s = [hex(x) for x in nums[b:b + 16]]
        lines = []
        cur = '    ['
        for i, x in enumerate(s):
            piece = x + (', ' if i < 15 else ']')
            if len(cur) + len(piece) > 116:
                lines.append(cur.rstrip())
                cur = '     '
            cur += piece
        lines.append(cur)
        bl.append('\n'.join(lines))
    out.append(',\n'.join(bl) + ']\n')
out.append('end Binsup\n\nend Verif\n')
open('/verif/lean/Verif/BinsupData.lean', 'w').write('\n'.join(out))

# certificates
for w, f in ((7, 'n16_t5'), (11, 'n256_t43')):
    m = load(f)
    kr = len(m[0]) // w
    inner = [sum(m[r][kr * j] << r for r in range(16)) for j in range(w)]
    pw = cert(w)
    B = [pw[w - 1 - j] for j in range(w)]
    A = [phi(pw, b + 1) for b in range(32)]
    # E(x^l): write x^l in the basis B
    E = []
    for l in range(w):
        for v in range(1 << w):
            r = 0
            for j in range(w):
                if v >> j & 1:
                    r ^= B[j]
            if r == 1 << l:
                e = 0
                for j in range(w):
                    if v >> j & 1:
                        e ^= inner[j]
                E.append(e)
                break
    print(w, 'A', A, 'B', B, 'E', [hex(e) for e in E])
