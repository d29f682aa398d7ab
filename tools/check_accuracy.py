"""Check that the per-width blocks of /repo/test/Accuracy_test.c are the same up to the width.

The line ranges are those of tools/gen_accuracy.py.  For every block the width is replaced by N, constants by K,
the element type by T and blank space is removed; the result must be the same for all widths up to 64 (and up to
256 for the blocks without numbers)."""
import re, os, runpy
ns = runpy.run_path(os.path.join(os.path.dirname(os.path.abspath(__file__)), 'gen_accuracy.py'))
src = open('/repo/test/Accuracy_test.c').read().split('\n')
ok = True
for name in ['BIT', 'NUML', 'VECL', 'MATL', 'INVL', 'AFFL', 'MIXL']:
    texts = {}
    for n, r in ns[name].items():
        lo, hi = map(int, r.split('-'))
        t = '\n'.join(src[lo - 1:hi])
        t = re.sub(r'0x[0-9a-f]+', 'K', t)
        t = re.sub(r'uint\d+_t', 'T', t)
        t = re.sub(r'(?<=[A-Za-z])%d(?=[^0-9])' % n, 'N', t)
        t = re.sub(r'(?<=[^0-9A-Za-z])%d(?=bit)' % n, 'N', t)
        t = re.sub(r'i < %d;' % n, 'i < N;', t)
        t = re.sub(r'\s', '', t)
        t = t.replace('if(flag_bomN_1&&flag_bomN_2&&flag_bomN_3)', 'IF')
        texts[n] = t
    ref = texts[8]
    for n, t in texts.items():
        if n == 128 and name in ('AFFL', 'MIXL'):
            print(name, n, 'compare by eye (arrays):'); continue
        if t != ref:
            ok = False
            print(name, n, 'differs:\n', t, '\n', ref)
    print(name, 'checked', sorted(texts))
print('uniform' if ok else 'NOT uniform')
