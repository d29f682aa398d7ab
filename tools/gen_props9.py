#!/usr/bin/env python3
"""Writes lean/Verif/Prop/C29Seed.lean."""
import os
out = ['''import Verif.Prop.C29
import Verif.Proof.Affine

/-!
# C29, continued — affine pairs, and the same seed set twice (written by tools/gen_props9.py)
-/
namespace WB
open Matrix

theorem run_SetRandSeed {α : Type} (s : BitVec 32) (x : CM α) (w : World) :
    (do SetRandSeed s; x : CM α) w = x { w with randseed := s } := rfl

theorem seedOf_gen {w w' v v' : World} (g : GenWorld w v) (g' : GenWorld w' v')
    (h : (w.randseed + 2#32) ^^^ w.clock (w.now + 2) = (w'.randseed + 2#32) ^^^ w'.clock (w'.now + 2)) :
    seedOf v = seedOf v' := by
  unfold seedOf
  rw [g.1, g.2.1, g.2.2.1, g'.1, g'.2.1, g'.2.2.1]
  exact h
''']
for n in (4, 8, 16, 32, 64, 128, 256):
    big = n >= 64
    E = '(env env\' : Env) (he : env.endian = env\'.endian) ' if big else ''
    e, e2 = ('env ', "env' ") if big else ('', '')
    GE = E if big else "(env env' : Env) "
    ga = "env env' he " if big else "env env' "
    sub = '''
/-- C29: after `SetRandSeed` with the same value, with the same clock reading, `@F` gives the same result. -/
theorem C29_SetRandSeed_@F @E(X X' : @T) (w w' : World) (s : BitVec 32)
    (h : w.clock w.now = w'.clock w'.now) :
    ∃ r v v', (do SetRandSeed s; @F @aX) w = .ok (r, v) ∧ (do SetRandSeed s; @F @bX') w' = .ok (r, v') := by
  rw [run_SetRandSeed, run_SetRandSeed]
  obtain ⟨r, v, v', h1, h2, -⟩ := C29_@F @hX X' { w with randseed := s } { w' with randseed := s }
    (by simp only; rw [h])
  exact ⟨r, v, v', h1, h2⟩
'''
    inst = lambda F, T: (sub.replace('@F', F).replace('@T', T).replace('@E', E).replace('@a', e).replace('@b', e2)
        .replace('@h', "env env' he " if big else ''))
    out.append(inst(f'randM{n}', f'M{n}'))
    if n != 64:
        out.append(inst(f'randV{n}', f'V{n}'))
    if n != 8:
        out.append(f'''
/-- C29: after `SetRandSeed` with the same value, with the same second clock reading, `genMatpairM{n}` gives the same pair. -/
theorem C29_SetRandSeed_genMatpairM{n} {GE}(A B A' B' : M{n}) (w w' : World) (s : BitVec 32)
    (h : w.clock (w.now + 1) = w'.clock (w'.now + 1)) :
    ∃ r v v', (do SetRandSeed s; genMatpairM{n} env A B) w = .ok (r, v) ∧
      (do SetRandSeed s; genMatpairM{n} env' A' B') w' = .ok (r, v') := by
  rw [run_SetRandSeed, run_SetRandSeed]
  obtain ⟨r, v, v', h1, h2, -⟩ := C29_genMatpairM{n} {ga}A B A' B' {{ w with randseed := s }} {{ w' with randseed := s }}
    (by simp only; rw [h])
  exact ⟨r, v, v', h1, h2⟩
''')
    if n == 256:
        continue
    third = n != 64
    h2 = f'''
    (h2 : (w.randseed + 2#32) ^^^ w.clock (w.now + 2) = (w'.randseed + 2#32) ^^^ w'.clock (w'.now + 2))''' if third else ''
    if third:
        vec = f'''obtain ⟨V, u, u', q1, q2, q3⟩ := randV{n}_rel {'he ' if big else ''}f0.Vec f0'.Vec (seedOf_gen gw gw' h2)'''
    else:
        vec = f'''obtain ⟨V, u, u', q1, q2, q3⟩ := randV{n}_rel he f0.Vec f0'.Vec (w := v) (w' := v') ⟨i1, i2⟩'''
    if n == 4:
        mv = f'''obtain ⟨y, m1, hy, cy⟩ := MatMulVecM4_ok env B V g0.Vec
  obtain ⟨y', m2, hy', cy'⟩ := MatMulVecM4_ok env' B V g0'.Vec
  obtain rfl : y = y' := vec4_inj cy cy' (hy.trans hy'.symm)'''
    else:
        mv = f'''obtain ⟨y, m1, m2⟩ := ident_congr (fun _ _ => vec{n}_inj) (MatMulVecM{n}_ok env B V g0.Vec) (MatMulVecM{n}_ok env' B V g0'.Vec)'''
    what = 'of its second and of its third seeding' if third else 'of its second seeding (`randV64` does not seed)'
    out.append(f'''
/-- C29: `genaffinepairM{n}` depends only on the seed xor clock {what}. -/
theorem C29_genaffinepairM{n} {GE}(f0 g0 f0' g0' : Aff{n}) (w w' : World)
    (h1 : (w.randseed + 1#32) ^^^ w.clock (w.now + 1) = (w'.randseed + 1#32) ^^^ w'.clock (w'.now + 1)){h2} :
    ∃ r v v', genaffinepairM{n} env f0 g0 w = .ok (r, v) ∧ genaffinepairM{n} env' f0' g0' w' = .ok (r, v') ∧
      v.m_index = v'.m_index ∧ v.m_intermediateOffset = v'.m_intermediateOffset := by
  obtain ⟨⟨A, B⟩, v, v', e1, e2, i1, i2⟩ := C29_genMatpairM{n} {ga}f0.Mat g0.Mat f0'.Mat g0'.Mat w w' h1
  have gw : GenWorld w v := by
    obtain ⟨⟨p, u⟩, hp, k⟩ := genMatpairM{n}_ok env f0.Mat g0.Mat w
    rw [hp] at e1
    cases e1
    exact k.2{'.2.2' if n == 4 else ''}
  have gw' : GenWorld w' v' := by
    obtain ⟨⟨p, u⟩, hp, k⟩ := genMatpairM{n}_ok env' f0'.Mat g0'.Mat w'
    rw [hp] at e2
    cases e2
    exact k.2{'.2.2' if n == 4 else ''}
  {vec}
  {mv}
  refine ⟨(⟨A, V⟩, ⟨B, y⟩), u, u', ?_, ?_, q3.1, q3.2⟩
  · unfold genaffinepairM{n}
    rw [CM_bind_run e1]
    simp only
    rw [CM_bind_run q1, CM_bind_run (liftC_run _ m1)]
    rfl
  · unfold genaffinepairM{n}
    rw [CM_bind_run e2]
    simp only
    rw [CM_bind_run q2, CM_bind_run (liftC_run _ m2)]
    rfl

/-- C29: after `SetRandSeed` with the same value, with the same clock readings, `genaffinepairM{n}` gives the same pair. -/
theorem C29_SetRandSeed_genaffinepairM{n} {GE}(f0 g0 f0' g0' : Aff{n}) (w w' : World) (s : BitVec 32)
    (h1 : w.clock (w.now + 1) = w'.clock (w'.now + 1)){" (h2 : w.clock (w.now + 2) = w'.clock (w'.now + 2))" if third else ""} :
    ∃ r v v', (do SetRandSeed s; genaffinepairM{n} env f0 g0) w = .ok (r, v) ∧
      (do SetRandSeed s; genaffinepairM{n} env' f0' g0') w' = .ok (r, v') := by
  rw [run_SetRandSeed, run_SetRandSeed]
  obtain ⟨r, v, v', h1, h2, -⟩ := C29_genaffinepairM{n} {ga}f0 g0 f0' g0' {{ w with randseed := s }}
    {{ w' with randseed := s }} (by simp only; rw [h1]){" (by simp only; rw [h2])" if third else ""}
  exact ⟨r, v, v', h1, h2⟩
''')
out.append('''
/-- A world with another history whose clock shows the same times from its current reading on. -/
def exWorld4 : World := ⟨77, 1, 2, fun k => BitVec.ofNat 32 (1700000000 + (k - 4) / 3), 4, ['y']⟩

example : exWorld.clock exWorld.now = exWorld4.clock exWorld4.now ∧
    exWorld.clock (exWorld.now + 1) = exWorld4.clock (exWorld4.now + 1) ∧
    exWorld.clock (exWorld.now + 2) = exWorld4.clock (exWorld4.now + 2) := by decide +kernel

/-- The same with the counter of `exWorld`. -/
def exWorld5 : World := { exWorld4 with randseed := 5 }

example : (exWorld.randseed + 1#32) ^^^ exWorld.clock (exWorld.now + 1) =
      (exWorld5.randseed + 1#32) ^^^ exWorld5.clock (exWorld5.now + 1) ∧
    (exWorld.randseed + 2#32) ^^^ exWorld.clock (exWorld.now + 2) =
      (exWorld5.randseed + 2#32) ^^^ exWorld5.clock (exWorld5.now + 2) := by decide +kernel

end WB
''')
open(os.path.join(os.path.dirname(__file__), '..', 'lean/Verif/Prop/C29Seed.lean'), 'w').write(''.join(out))
