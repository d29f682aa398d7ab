#!/usr/bin/env python3
"""Writes lean/Verif/Model/Symbols.lean: the functions declared in the headers and the ones defined in the
sources of /repo, with line numbers, and lean/Verif/Prop/C40.lean."""
import os, re, sys
R = sys.argv[1] if len(sys.argv) > 1 else '/repo'
OUT = os.path.join(os.path.dirname(os.path.abspath(__file__)), '..', 'lean', 'Verif')
proto = re.compile(r'^(?:static\s+)?(?:inline\s+)?(?:unsigned\s+)?(?:void|int|uint\w+|char)\s+\*?(\w+)\s*\(([^;{]*)\)\s*(;|\{|//.*)?')
def scan(f, decl):
    out = []
    lines = open(os.path.join(R, f), errors='replace').read().split('\n')
    for k, l in enumerate(lines):
        m = proto.match(l)
        if not m: continue
        is_decl = l.split('//')[0].rstrip().endswith(';')
        if is_decl == decl: out.append((m.group(1), k + 1))
    return out
H = [('include/WBMatrix/WBMatrix.h', True), ('include/WBMatrix/random.h', True)]
S = [('src/WBMatrix/WBMatrix.c', False), ('src/WBMatrix/random.c', False)]
def lst(name, files, doc):
    s = ''
    parts = []
    for f, d in files:
        nm = name + ('Lib' if 'WBMatrix.' in f else 'Random')
        it = scan(f, d)
        s += f'/-- {doc} `{f}`, with line numbers. -/\ndef {nm} : List (String × Nat) := [\n'
        s += ',\n'.join('  ' + ', '.join(f'("{a}", {b})' for a, b in it[i:i+4]) for i in range(0, len(it), 4)) + ']\n\n'
        parts.append(nm)
    s += f'/-- The names. -/\ndef {name} : List String := ({" ++ ".join(parts)}).map (·.1)\n\n'
    return s
d = lst('declared', H, 'Functions declared in')
e = lst('defined', S, 'Functions defined in')
with open(os.path.join(OUT, 'Model', 'Symbols.lean'), 'w') as f:
    f.write('''/-!
# The interface of the library

The function declarations of the two public headers and the function definitions of the two source files
(generated from the text of /repo by `tools/gen_symbols.py`).
-/
namespace WB

''' + d + e + 'end WB\n')
names = {a for f, x in H for a, _ in scan(f, x)}
defs = {a for f, x in S for a, _ in scan(f, x)}
missing = [a for f, x in H for a, _ in scan(f, x) if a not in defs]
print(len(names), len(defs), 'missing', missing, 'undeclared', sorted(defs - names))
with open(os.path.join(OUT, 'Prop', 'C40.lean'), 'w') as f:
    f.write(f'''import Verif.Model.Symbols

/-!
# C40 — declared functions are defined

(violated for five functions)
-/
namespace WB

/-- C40 is false: there are declared functions without a definition. -/
theorem C40_violated : ¬ ∀ f ∈ declared, f ∈ defined := by decide +kernel

/-- What holds of C40: exactly five of the declared functions have no definition. Missing: those five. -/
theorem C40_partial (f : String) (hf : f ∈ declared) :
    f ∈ defined ∨ f ∈ [{', '.join(f'"{m}"' for m in missing)}] := by
  have : ∀ f ∈ declared, f ∈ defined ∨ f ∈ [{', '.join(f'"{m}"' for m in missing)}] := by
    decide +kernel
  exact this f hf

/-- The five functions are declared and not defined. -/
theorem C40_missing_violated (f : String) (hf : f ∈ [{', '.join(f'"{m}"' for m in missing)}]) :
    f ∈ declared ∧ f ∉ defined := by
  have : ∀ f ∈ [{', '.join(f'"{m}"' for m in missing)}], f ∈ declared ∧ f ∉ defined := by
    decide +kernel
  exact this f hf

/-- No function is defined twice. -/
theorem C40_unique : defined.Nodup := by decide +kernel

example : "MatMulMatM128" ∈ declared ∧ "MatMulMatM128" ∈ defined := by decide +kernel

end WB
''')
