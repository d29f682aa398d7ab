"""Shared pieces for the generators of the property files (lean/Verif/Prop)."""
import os
D = os.path.join(os.path.dirname(os.path.abspath(__file__)), '..', 'lean', 'Verif', 'Prop')
W = {4: 8, 8: 8, 16: 16, 32: 32, 64: 64}
L = {128: 2, 256: 4}
ALL = [4, 8, 16, 32, 64, 128, 256]


def write(name, imports, doc, body):
    s = ''.join(f'import {i}\n' for i in imports)
    s += f'\n/-!\n{doc.strip()}\n-/\nnamespace WB\nopen Matrix\n\n' + body.strip() + '\n\nend WB\n'
    with open(os.path.join(D, name + '.lean'), 'w') as f:
        f.write(s)


# ---- independent reference implementation used for the concrete examples ----
def mul_vec(n, A, x):
    """A: list of n ints (row i, most significant bit = column 0)"""
    y = 0
    for i in range(n):
        y = (y << 1) | (bin(A[i] & x).count('1') & 1)
    return y


def transpose(n, A):
    return [sum(((A[n - 1 - k if False else i] >> (n - 1 - j)) & 1) << (n - 1 - i) for i in range(n)) for j in range(n)]


def mul_mat(n, A, B):
    T = transpose(n, B)
    return [sum((bin(A[i] & T[j]).count('1') & 1) << (n - 1 - j) for j in range(n)) for i in range(n)]


def exA(n):
    """unit upper triangular matrix with ones on two diagonals plus a lower entry"""
    A = [(1 << (n - 1 - i)) | ((1 << (n - 2 - i)) if i + 1 < n else 0) for i in range(n)]
    return A


def exB(n):
    """a non-symmetric matrix"""
    return [((0x9e3779b97f4a7c15f39cc0605cedc8341082276bf3a27251f86c6a11d0c18e95 >> (3 * i % 97)) ^ (i * i + 1)) & ((1 << n) - 1) for i in range(n)]


def exX(n):
    return 0xb5c3a17d9e2f60481357fdb9eca86420a5a55a5a0ff0f00f123456789abcdef1 & ((1 << n) - 1)


def lit(n, v):
    """Lean literal of an n-bit row/vector"""
    if n in W:
        return hex(v)
    l = L[n]
    return '#v[' + ', '.join(hex((v >> (64 * (l - 1 - q))) & ((1 << 64) - 1)) for q in range(l)) + ']'


def litM(n, A):
    return '#v[' + ', '.join(lit(n, a) for a in A) + ']'
