#!/usr/bin/env python3
"""Writes lean/Verif/Prop/C42.lean."""
import os
out = ['''import Verif.Proof.RelAll
import Verif.Proof.ElimAll
import Verif.Prop.C15
import Verif.Prop.C29Seed

/-!
# C42 — genMatpair hands out the matrix it drew (written by tools/gen_props10.py)
-/
namespace WB
open Matrix

set_option maxRecDepth 20000
''']
for n in (4, 8, 16, 32, 64, 128, 256):
    big = n >= 64
    rel = 'randM%d_rel %s_ X' % (n, 'rfl ' if big else '')
    e = 'env ' if big else ''
    pat = 'hAB, -, -, -, w1' if n == 4 else 'hAB, -, w1'
    out.append(f'''
/-- C42: let `T` be the matrix that `randM{n}` draws from the seed value `genMatpairM{n}` uses (counter plus
one, second clock reading).  If `T` is invertible then `genMatpairM{n}` returns exactly `T` and its inverse,
and leaves the generator where `randM{n}` leaves it. If `T` is singular something else is returned. -/
theorem C42_genMatpairM{n} (env : Env) (A0 B0 X : M{n}) (w v : World)
    (h : v.randseed ^^^ v.clock v.now = (w.randseed + 1#32) ^^^ w.clock (w.now + 1)) :
    ∃ A B w' T v', genMatpairM{n} env A0 B0 w = .ok ((A, B), w') ∧ randM{n} {e}X v = .ok (T, v') ∧
      (IsUnit (mat{n} T) → A = T ∧ mat{n} T * mat{n} B = 1 ∧ mat{n} B * mat{n} T = 1 ∧
        w'.m_index = v'.m_index ∧ w'.m_intermediateOffset = v'.m_intermediateOffset) ∧
      (¬ IsUnit (mat{n} T) → A ≠ T) := by
  obtain ⟨⟨⟨A, B⟩, w'⟩, hg, {pat}, T, w2, hw1, hT, hd⟩ := genMatpairM{n}_draw env A0 B0 w
  obtain ⟨T', v1, v2, e1, e2, hv⟩ := {rel} (w := w1) (w' := v) (by
    unfold seedOf; rw [hw1.1, hw1.2.1, hw1.2.2.1]; exact h.symm)
  obtain ⟨rfl, rfl⟩ := Prod.mk.inj (Except.ok.inj (hT.symm.trans e1))
  refine ⟨A, B, w', T, v2, hg, e2, ?_, ?_⟩
  · intro hu
    obtain ⟨hA, hw'⟩ := hd ((isUnit_iff_det _).1 hu)
    have hA' : A = T := hA
    have hw2 : w' = w2 := hw'
    subst hA' hw2
    exact ⟨rfl, hAB, mat_comm hAB, hv.1, hv.2⟩
  · rintro hu rfl
    exact hu ⟨⟨_, _, hAB, mat_comm hAB⟩, rfl⟩

/-- C42: with the clock standing still, `SetRandSeed(s + 1); randM{n}(&T)` shows in advance the matrix that
`SetRandSeed(s); genMatpairM{n}(&A, &B)` hands out, whenever `T` is invertible. -/
theorem C42_SetRandSeed_genMatpairM{n} (env : Env) (A0 B0 X : M{n}) (w v : World) (s : BitVec 32)
    (h : v.clock v.now = w.clock (w.now + 1)) :
    ∃ A B w' T v', (do SetRandSeed s; genMatpairM{n} env A0 B0) w = .ok ((A, B), w') ∧
      (do SetRandSeed (s + 1#32); randM{n} {e}X) v = .ok (T, v') ∧
      (IsUnit (mat{n} T) → A = T ∧ mat{n} T * mat{n} B = 1 ∧ mat{n} B * mat{n} T = 1) := by
  rw [run_SetRandSeed, run_SetRandSeed]
  obtain ⟨A, B, w', T, v', h1, h2, h3, -⟩ := C42_genMatpairM{n} env A0 B0 X {{ w with randseed := s }}
    {{ v with randseed := s + 1#32 }} (by simp only; rw [h])
  exact ⟨A, B, w', T, v', h1, h2, fun hu => ⟨(h3 hu).1, (h3 hu).2.1, (h3 hu).2.2.1⟩⟩
''')
out.append('''
/-- A state in which the next draws of `randM4` and `randM8` are invertible … -/
def exWorld6 : World := ⟨33, 1, 2, fun _ => BitVec.ofNat 32 1700000000, 4, []⟩
/-- … and the state one seed before, in which `genMatpair` uses the same draws. -/
def exWorld7 : World := { exWorld6 with randseed := 32 }

example : exWorld6.randseed ^^^ exWorld6.clock exWorld6.now =
    (exWorld7.randseed + 1#32) ^^^ exWorld7.clock (exWorld7.now + 1) := by decide +kernel
example : (((do let T ← randM4 exB4; liftC (isinvertM4 T) : CM Int) exWorld6).toOption.map (·.1)) = some 1 := by
  decide +kernel
example : (((do let T ← randM8 exB8; liftC (isinvertM8 T) : CM Int) exWorld6).toOption.map (·.1)) = some 1 := by
  decide +kernel

end WB
''')
if __name__ == '__main__':
    d = os.path.join(os.path.dirname(os.path.abspath(__file__)), '../lean/Verif/Prop/C42.lean')
    open(d, 'w').write(''.join(out))
