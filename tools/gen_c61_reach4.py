"""Writes Verif/Proof/Reach4Tab.lean: for every value of the four rows of a 4x4 matrix a seed from
which randM4 draws it.  The seeds are found here by running the generator of
/repo/src/WBMatrix/random.c:6-25 on 0, 1, 2, ...; nothing depends on how they were found, the table
is checked in the kernel."""
import os
P = 4294967291
M = 0xffffffff

def qpr(x):
    if x >= P:
        return x
    r = x * x % P
    return r if x <= P // 2 else P - r

def rows(s):
    i = qpr((qpr(s) + 0x682f0161) & M)
    o = qpr((qpr((s + 1) & M) + 0x46790905) & M)
    k = 0
    for j in range(4):
        k = k * 16 + (qpr(((qpr((i + j) & M) + o) & M) ^ 0x5bf03635) & 15)
    return k

first = {}
s = 0
while len(first) < 65536:
    first.setdefault(rows(s), s)
    s += 1
assert max(first.values()) < 1 << 20

out = '''import Verif.Proof.Reach4

/-!
# A seed for every 4x4 matrix

Generated by `tools/gen_c61_reach4.py`.  Line `h` holds 256 seeds of 20 bits; the matrix drawn from
the seed number `l` (from the right) has the rows whose 16 bits are `256 * h + l`.
-/
namespace WB

set_option maxRecDepth 100000

'''
lines = []
for h in range(256):
    v = 0
    for l in range(255, -1, -1):
        v = v << 20 | first[256 * h + l]
    lines.append('  0x%x' % v)
for k in range(8):
    out += f'def seedTab{k} : List Nat := [\n' + ',\n'.join(lines[32 * k:32 * k + 32]) + ']\n\n'
for k in range(8):
    out += f'theorem seedTab{k}_check : checkTab {8192 * k} seedTab{k} = true := by decide +kernel\n\n'
out += 'end WB\n'
open(os.path.join(os.path.dirname(os.path.abspath(__file__)), '../lean/Verif/Proof/Reach4Tab.lean'), 'w').write(out)
