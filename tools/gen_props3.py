#!/usr/bin/env python3
"""Writes the property files C09..C11."""
from propslib import *
EX = 'Verif.Prop.Examples'
b = 'set_option maxRecDepth 20000\n'
c = 'set_option maxRecDepth 20000\n'
d = 'set_option maxRecDepth 20000\n'
for n in ALL:
    hi = ' ∧ ∀ r : Fin 4, B[r] >>> 4 = A[r] >>> 4' if n == 4 else ''
    hit = '; for the bits outside the matrix (high nibbles) nothing changes either' if n == 4 else ''
    small = n <= 64
    l = L.get(n, 1)
    b += f'''
/-- C09: `readbitM{n}` returns bit (i,j). -/
theorem C09_readbitM{n} (A : M{n}) (i j : Fin {n}) :
    readbitM{n} A (i.val : Int) (j.val : Int) = .ok (if mat{n} A i j = 1 then 1 else 0) := by
  unfold readbitM{n}
'''
    def branches(f, lem):
        s = ''
        if l == 2:
            return f'''  split
  · {f(0, lem)}
  · {f(1, lem)}
'''
        return f'''  split
  · {f(0, lem)}
  · split
    · {f(1, lem)}
    · split
      · {f(2, lem)}
      · {f(3, lem)}
'''
    if small:
        b += f'''  exact readS idOK{n} A i j
'''
    else:
        b += branches(lambda k, _: f'exact readW (by norm_num) idOK64 A i j {k} _ (by omega) (by omega) (by omega)', 0)
    b += f'''
/-- C09: `flipbitM{n}` inverts bit (i,j) and leaves every other bit alone{hit}. -/
theorem C09_flipbitM{n} (A : M{n}) (i j : Fin {n}) :
    ∃ B, flipbitM{n} A (i.val : Int) (j.val : Int) = .ok B ∧
      (∀ r c, mat{n} B r c = if r = i ∧ c = j then mat{n} A r c + 1 else mat{n} A r c){hi} := by
  unfold flipbitM{n}
'''
    if small:
        b += f'''  refine ⟨_, flipS_eq idOK{n} A i j, fun r c => flipS_mat (by norm_num) A i j r c{', ?_' if n == 4 else ''}⟩
'''
        if n == 4:
            b += '''  intro r
  simp only [Fin.getElem_fin, Vector.getElem_set]
  split
  · rename_i h
    simp only [← h]
    apply BitVec.eq_of_getLsbD_eq
    intro k hk
    simp only [BitVec.getLsbD_ushiftRight, BitVec.getLsbD_xor, BitVec.getLsbD_twoPow]
    rw [show decide (4 - 1 - j.val = 4 + k) = false from decide_eq_false (by omega)]
    simp
  · rfl
'''
    else:
        b += branches(lambda k, _: f'exact flipW_eq (by norm_num) idOK64 A i j {k} _ (by omega) (by omega) (by omega)', 0)
    b += f'''
/-- C09: `setbitM{n}` makes bit (i,j) equal to `bit` and leaves every other bit alone{hit}. -/
theorem C09_setbitM{n} (A : M{n}) (i j : Fin {n}) (bit : Int) (hb : bit = 0 ∨ bit = 1) :
    ∃ B, setbitM{n} A (i.val : Int) (j.val : Int) bit = .ok B ∧
      (∀ r c, mat{n} B r c = if r = i ∧ c = j then (bit : ZMod 2) else mat{n} A r c){hi} := by
  unfold setbitM{n}
  obtain ⟨B, hB, hm{', hh' if n == 4 else ''}⟩ := C09_flipbitM{n} A i j
  rw [C09_readbitM{n}, C_pure_bind, hB]
  have z : ∀ a : ZMod 2, a = 0 ∨ a = 1 := by decide
  obtain h | h := z (mat{n} A i j)
  · rw [if_neg (show ¬ mat{n} A i j = 1 by rw [h]; decide)]
    obtain rfl | rfl := hb
    · refine ⟨A, rfl, fun r c => ?_{', fun _ => rfl' if n == 4 else ''}⟩
      split
      · rename_i e; rw [e.1, e.2, h]; rfl
      · rfl
    · refine ⟨B, rfl, fun r c => ?_{', hh' if n == 4 else ''}⟩
      rw [hm]
      split
      · rename_i e; rw [e.1, e.2, h]; decide
      · rfl
  · rw [if_pos h]
    obtain rfl | rfl := hb
    · refine ⟨B, rfl, fun r c => ?_{', hh' if n == 4 else ''}⟩
      rw [hm]
      split
      · rename_i e; rw [e.1, e.2, h]; decide
      · rfl
    · refine ⟨A, rfl, fun r c => ?_{', fun _ => rfl' if n == 4 else ''}⟩
      split
      · rename_i e; rw [e.1, e.2, h]; rfl
      · rfl
'''
    i, j = n // 2 + 1, n - 2
    def bit(A, i, j): return (A[i] >> (n - 1 - j)) & 1
    B = exB(n)
    F = list(B); F[i] ^= 1 << (n - 1 - j)
    b += f'''
example : readbitM{n} exB{n} {i} {j} = .ok {bit(B, i, j)} ∧ readbitM{n} exB{n} {i} {j-1} = .ok {bit(B, i, j-1)} := by decide +kernel
'''
    if n <= 64:
        b += f'''example : flipbitM{n} exB{n} {i} {j} = .ok (exB{n}.set {i} {lit(n, F[i])}) := by decide +kernel
example : setbitM{n} exB{n} {i} {j} {1 - bit(B, i, j)} = .ok (exB{n}.set {i} {lit(n, F[i])}) ∧
    setbitM{n} exB{n} {i} {j} {bit(B, i, j)} = .ok exB{n} := by decide +kernel
'''
    else:
        b += f'''example : ∃ C, setbitM{n} exB{n} (({i} : Fin {n}).val : Int) (({j} : Fin {n}).val : Int) {1 - bit(B, i, j)} = .ok C ∧
    ∀ r c, mat{n} C r c = if r = {i} ∧ c = {j} then (({1 - bit(B, i, j)} : Int) : ZMod 2) else mat{n} exB{n} r c :=
  C09_setbitM{n} exB{n} {i} {j} {1 - bit(B, i, j)} ({'Or.inr rfl' if bit(B, i, j) == 0 else 'Or.inl rfl'})
'''
    # C10
    def br(kind):
        fn = {'read': 'readbit', 'flip': 'flipbit'}[kind]
        s = f'unfold {fn}M{n}\n'
        if small:
            return s + '    exact accS_oob A i j (by omega) _\n'
        e = lambda k: f'exact accW_oob A i _ {k} (by omega) (by omega) _'
        if l == 2:
            return s + f'''    split
    · {e(0)}
    · {e(1)}
'''
        return s + f'''    split
    · {e(0)}
    · split
      · {e(1)}
      · split
        · {e(2)}
        · {e(3)}
'''
    c += f'''
/-- C10: an index outside `0..{n-1}` makes `readbitM{n}`, `flipbitM{n}` and `setbitM{n}` access memory outside
an array. -/
theorem C10_bitM{n} (A : M{n}) (i j : Int) (h : ¬ (0 ≤ i ∧ i < {n} ∧ 0 ≤ j ∧ j < {n})) :
    readbitM{n} A i j = .error .oob ∧ flipbitM{n} A i j = .error .oob ∧
      ∀ bit, setbitM{n} A i j bit = .error .oob := by
  have h1 : readbitM{n} A i j = .error .oob := by
    {br('read')}  have h2 : flipbitM{n} A i j = .error .oob := by
    {br('flip')}  refine ⟨h1, h2, fun bit => ?_⟩
  unfold setbitM{n}
  rw [h1]; rfl

example : readbitM{n} exB{n} (-1) 0 = .error .oob ∧ readbitM{n} exB{n} 0 {n} = .error .oob ∧
    readbitM{n} exB{n} {n} 1 = .error .oob ∧ flipbitM{n} exB{n} 3 (-{n}) = .error .oob := by decide +kernel
'''
    d += f'''
/-- C11: with any `bit` other than 0 and 1 `setbitM{n}` inverts bit (i,j) and leaves every other bit alone. -/
theorem C11_setbitM{n} (A : M{n}) (i j : Fin {n}) (bit : Int) (hb : bit ≠ 0 ∧ bit ≠ 1) :
    ∃ B, setbitM{n} A (i.val : Int) (j.val : Int) bit = .ok B ∧
      (∀ r c, mat{n} B r c = if r = i ∧ c = j then mat{n} A r c + 1 else mat{n} A r c){hi} := by
  unfold setbitM{n}
  obtain ⟨B, hB, hm⟩ := C09_flipbitM{n} A i j
  refine ⟨B, ?_, hm⟩
  rw [C09_readbitM{n}, C_pure_bind, hB, if_neg]
  simp only [beq_iff_eq]
  split
  · exact fun h => hb.2 h.symm
  · exact fun h => hb.1 h.symm
'''
    if n <= 64:
        d += f'''
example : setbitM{n} exB{n} {i} {j} 2 = .ok (exB{n}.set {i} {lit(n, F[i])}) ∧
    setbitM{n} exB{n} {i} {j} (-1) = .ok (exB{n}.set {i} {lit(n, F[i])}) := by decide +kernel
'''
    else:
        d += f'''
example : ∃ B, setbitM{n} exB{n} (({i} : Fin {n}).val : Int) (({j} : Fin {n}).val : Int) 2 = .ok B ∧
    mat{n} B {i} {j} = mat{n} exB{n} {i} {j} + 1 := by
  obtain ⟨B, h, hm⟩ := C11_setbitM{n} exB{n} {i} {j} 2 (by decide)
  exact ⟨B, h, by rw [hm, if_pos ⟨rfl, rfl⟩]⟩
'''
write('C09', ['Verif.Proof.Bits', EX], '# C09 — bit access laws', b)
write('C10', ['Verif.Proof.Bits', EX], '# C10 — bit access needs in-range indices', c)
write('C11', ['Verif.Prop.C09', EX], '# C11 — setbit with a value other than 0 and 1', d)
