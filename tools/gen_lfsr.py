#!/usr/bin/env python3
"""Generate lean/Verif/Proof/LfsrTab.lean: certificates about the shift register of LowMCMethod_text.cpp."""
import os
taps = [0, 13, 23, 38, 51, 62]
N = 2 ** 80 - 1
f = (1 << 80) | sum(1 << t for t in taps)

def T(x):
    b = 0
    for t in taps:
        b ^= x >> t
    return (x >> 1) ^ ((b & 1) << 79)

def pol(r, v):
    acc = 0
    while r:
        if r & 1:
            acc ^= v
        r >>= 1
        v = T(v)
    return acc

def mul(a, b):
    r = 0
    while b:
        if b & 1:
            r ^= a
        b >>= 1
        a <<= 1
        if a >> 80 & 1:
            a ^= f
    return r

def pw(a, n):
    r = 1
    while n:
        if n & 1:
            r = mul(r, a)
        a = mul(a, a)
        n >>= 1
    return r

e = 1 << 79
# the polynomials s_k with s_k(T) e = 2^k
rows = []
v = e
for j in range(80):
    rows.append((v, 1 << j))
    v = T(v)
basis = []
for k in range(80):
    piv = next(i for i, (a, _) in enumerate(rows) if a >> k & 1)
    p = rows.pop(piv)
    rows = [(a ^ p[0], b ^ p[1]) if a >> k & 1 else (a, b) for a, b in rows]
    basis = [(a ^ p[0], b ^ p[1]) if a >> k & 1 else (a, b) for a, b in basis]
    basis.append(p)
for k, (a, b) in enumerate(basis):
    assert a == 1 << k and pol(b, e) == a
chain = [pw(2, 1 << k) for k in range(81)]
assert chain[80] == 2
primes = [3, 5, 11, 17, 31, 41, 257, 61681, 4278255361]
cof = []
for p in primes:
    g = pw(2, N // p) ^ 1
    h = pw(g, N - 1)
    assert mul(g, h) == 1
    cof.append((N // p, h))

def tab(name, doc, l):
    return f'\n/-- {doc} -/\ndef {name} : List Nat := [\n' + ',\n'.join('  0x%x' % x for x in l) + ']\n'

o = '''/-!
# Certificates about the shift register of `LowMCMethod_text.cpp`

Generated by `tools/gen_lfsr.py`; checked in `Proof/Lfsr.lean`.
-/
namespace WB.lowmc
''' + tab('basisTab', 'Bits of polynomials: the `k`-th takes `2 ^ 79` to `2 ^ k`.', [b for _, b in basis]) \
    + tab('chainTab', 'Bits of the polynomials `x ^ (2 ^ k)` modulo the one of the register, `k ≤ 80`.', chain) \
    + '''
/-- For every prime factor `p` of `2 ^ 80 - 1` the number `(2 ^ 80 - 1) / p` and an inverse of
`x ^ ((2 ^ 80 - 1) / p) + 1`. -/
def cofTab : List (Nat × Nat) := [
''' + ',\n'.join('  (%d, 0x%x)' % x for x in cof) + ']\n\nend WB.lowmc\n'
open(os.path.join(os.path.dirname(os.path.abspath(__file__)), '../lean/Verif/Proof/LfsrTab.lean'), 'w').write(o)
