#!/usr/bin/env python3
"""Generate lean/Verif/Prop/C56.lean: reverse Gaussian elimination."""
o = ['''import Verif.Proof.Methods
import Verif.Model.RGE
import Verif.Prop.C13
import Verif.Prop.C06

/-!
# C56 — the matrices made by reverse Gaussian elimination are invertible

`/repo/test/RGEMethod_test.c`.  Generated by `tools/gen_c56.py`.
-/
namespace WB
open Matrix
''']
for n in [4, 8, 16, 32, 64, 128, 256]:
    M = f'M{n}'; m = f'mat{n}'
    cl = n == 4
    clean = ' ∧ CleanM4 A' if cl else ''
    if n <= 64:
        ops = f'opsS_ok4 idM4 idOK4' if cl else f'opsS_ok idM{n} idOK{n}'
        G = 'CleanM4' if cl else 'fun _ => True'
        bit = f'(matOf {n} (bitS {n}))'
        add, swp = '(xorRow · · ·)', '(swapRow · · ·)'
        hswp = f'({ops}).swpF'
        hadd = f'({ops}).addF'
    else:
        l = n // 64
        ks = '[' + ', '.join(map(str, range(l))) + ']'
        ops = f'opsW{n}_0'
        G = 'fun _ => True'
        bit = f'(matOf {n} bitW)'
        add = f'(xorWords {ks} · · ·)'
        swp = f'swapT{l}'
        hadd = f'({ops}).addF'
        hswp = f'''(fun i j A hij => (swapT{l}_ok A i.2 j.2 (by
          intro e; exact hij (Fin.ext e))).mono fun A' h =>
          ⟨matW_swap (by norm_num) h (by intro c; have := c.2; simp; omega), fun _ => trivial⟩)'''
    tG = 'hc' if cl else 'trivial'
    idobt = '⟨A0, hA0, h1, hc⟩' if cl else '⟨A0, hA0, h1⟩'
    invobt = '⟨B, hB, hAB, hBA, -⟩' if cl else '⟨B, hB, hAB, hBA⟩'
    o.append(f'''theorem rgeInvTMat{M}_ok (Mat : {M}) (w : World) (h : w.randseed ≠ 0x7fffffff#32) :
    OkM (rge.InvTMat{M} Mat) w (fun A w' => ({m} A).det = 1{clean} ∧ Drawn w.seeded w') := by
  obtain {idobt} := C06_identity{M} Mat
  have hd : ({m} A0).det = 1 := by rw [h1, det_one]
  unfold rge.InvTMat{M}
  rw [OkM.bind_iff, OkM.liftC_iff, hA0, Ok.ok_iff, OkM.bind_iff]
  refine OkM_reseedInt h ?_
  refine (rge_loop (N := {n-1}) (by norm_num) {bit} ({G}) {add} {swp} {hadd}
    {hswp} A0 w.seeded).mono ?_
  rintro A w' ⟨hA, hG, hw⟩
  exact ⟨hA.trans hd, {'hG hc, ' if cl else ''}hw⟩

/-- C56: `InvTMat{M}` stores an invertible matrix, whatever the destination held, the seed and
the clock; `invs{M}` then stores its inverse. -/
theorem C56_InvTMat{M} (Mat B0 : {M}) (w : World) (h : w.randseed ≠ 0x7fffffff#32) :
    ∃ A B w', rge.InvTMat{M} Mat w = .ok (A, w') ∧ invs{M} A B0 = .ok B ∧
      {m} A * {m} B = 1 ∧ {m} B * {m} A = 1{clean} ∧ w'.randseed = w.randseed + 1 := by
  obtain ⟨⟨A, w'⟩, hA, hd, {'hcl, ' if cl else ''}k, rfl⟩ := rgeInvTMat{M}_ok Mat w h
  obtain {invobt} := C13_invs{M} A B0 ((isUnit_iff_det _).2 hd)
  exact ⟨A, B, _, hA, hB, hAB, hBA, {'hcl, ' if cl else ''}rfl⟩

/-- C56: with the largest `int` in `randseed` the increment overflows. -/
theorem C56_InvTMat{M}_overflow (Mat : {M}) (w : World) (h : w.randseed = 0x7fffffff#32) :
    rge.InvTMat{M} Mat w = .error .overflow := by
  obtain ⟨A0, hA0, -⟩ := C06_identity{M} Mat
  unfold rge.InvTMat{M}
  rw [hA0, CM_bind_run (liftC_run w rfl)]
  exact CM_bind_error (reseedInt_overflow w h)
''')
    run = {4: '#v[0x08, 0x0b, 0x0f, 0x0d]', 8: '#v[0x18, 0xed, 0x99, 0x24, 0xc2, 0x9e, 0x5f, 0xf3]'}.get(n)
    if run:
        o.append(f'''/-- A run. -/
example : (rge.InvTMat{M} exB{n} exWorld).map (·.1) = .ok {run} := by decide +kernel
''')
    o.append(f'''example : ∃ A w', rge.InvTMat{M} exB{n} exWorld = .ok (A, w') ∧ IsUnit ({m} A) := by
  obtain ⟨A, B, w', h, -, h1, h2, -⟩ := C56_InvTMat{M} exB{n} exB{n} exWorld (by decide)
  exact ⟨A, w', h, ⟨⟨_, _, h1, h2⟩, rfl⟩⟩
example : rge.InvTMat{M} exB{n} {{ exWorld with randseed := 0x7fffffff }} = .error .overflow :=
  C56_InvTMat{M}_overflow _ _ rfl
''')
o.append('end WB\n')
open('/verif/lean/Verif/Prop/C56.lean', 'w').write('\n'.join(o))
