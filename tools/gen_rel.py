#!/usr/bin/env python3
"""Writes lean/Verif/Proof/RelAll.lean: the generators depend only on the seed."""
import os
out = []
D = os.path.join(os.path.dirname(__file__), '../lean/Verif/Proof/RelAll.lean')
out.append('''import Verif.Proof.Rel
import Verif.Proof.Inj

/-!
# The generators depend only on the seed (helper lemmas; written by tools/gen_rel.py)
-/
namespace WB

theorem ident_congr {α β : Type} {m : α → β} (hm : ∀ a b, m a = m b → a = b) {x y : C α} {u : β}
    (hx : Ok x (fun a => m a = u)) (hy : Ok y (fun a => m a = u)) : ∃ a, x = .ok a ∧ y = .ok a := by
  obtain ⟨a, rfl, ha⟩ := hx
  obtain ⟨b, rfl, hb⟩ := hy
  exact ⟨a, rfl, by rw [hm a b (ha.trans hb.symm)]⟩

theorem RelC.run {α β γ δ : Type} {R : γ × World → δ × World → Prop} {x : CM α} {y : CM β}
    {f : α → CM γ} {g : β → CM δ} {w w' v v' : World} {a : α} {b : β}
    (hx : x w = .ok (a, v)) (hy : y w' = .ok (b, v')) (h : RelC R (f a v) (g b v')) :
    RelC R ((x >>= f) w) ((y >>= g) w') := by
  rw [CM_bind_run hx, CM_bind_run hy]; exact h

theorem RelC.lift {α β γ δ : Type} {R : γ × World → δ × World → Prop} {x : C α} {y : C β}
    {f : α → CM γ} {g : β → CM δ} {w w' : World} {a : α} {b : β}
    (hx : x = .ok a) (hy : y = .ok b) (h : RelC R (f a w) (g b w')) :
    RelC R ((liftC x >>= f) w) ((liftC y >>= g) w') :=
  RelC.run (liftC_run _ hx) (liftC_run _ hy) h
''')
import sys
for n in [int(x) for x in os.environ.get("SIZES","4 8 16 32 64 128 256").split()]:
    l = max(1, n // 64)
    big = n >= 64
    E = 'env ' if big else ''
    E2 = "env' " if big else ''
    he = "{env env' : Env} (he : env.endian = env'.endian) " if big else ''
    hea = 'he ' if big else ''
    f = {4: '((w.seeded.draw i) &&& 0x0f).setWidth 8'}
    if n < 64:
        pf = 'rw [draw_congr hs]'
    else:
        ws = ', '.join(f'word_congr he (adv_congr hs _) {q}' for q in range(l))
        pf = f'rw [{ws}]'
    adv = n * (1 if n < 64 else 2 * l)
    out.append(f'''
theorem randM{n}_rel {he}(M M' : M{n}) {{w w' : World}}
    (h : seedOf w = seedOf w') : ∃ T v v', randM{n} {E}M w = .ok (T, v) ∧
      randM{n} {E2}M' w' = .ok (T, v') ∧ GenEq v v' := by
  have hs := seeded_congr h
  refine ⟨_, _, _, randM{n}_run {E}M w, (randM{n}_run {E2}M' w').trans
    (congrArg (fun f => Except.ok (Vector.ofFn f, _)) (funext fun i => ?_)), adv_congr hs {adv}⟩
  {pf}
''')
    if n == 64:
        out.append(f'''
theorem randV64_rel {he}(V V' : V64) {{w w' : World}}
    (h : GenEq w w') : ∃ T v v', randV64 env V w = .ok (T, v) ∧
      randV64 env' V' w' = .ok (T, v') ∧ GenEq v v' := by
  refine ⟨_, _, _, randV64_run env V w, (randV64_run env' V' w').trans ?_, adv_congr h 2⟩
  rw [word_congr he h 0]
''')
    else:
        if n < 64:
            pf = 'rw [draw_congr hs]'
        else:
            pf = 'rw [' + ', '.join(f'word_congr he hs {q}' for q in range(l)) + ']'
        out.append(f'''
theorem randV{n}_rel {he}(V V' : V{n}) {{w w' : World}}
    (h : seedOf w = seedOf w') : ∃ T v v', randV{n} {E}V w = .ok (T, v) ∧
      randV{n} {E2}V' w' = .ok (T, v') ∧ GenEq v v' := by
  have hs := seeded_congr h
  refine ⟨_, _, _, randV{n}_run {E}V w, (randV{n}_run {E2}V' w').trans ?_, adv_congr hs {1 if n<64 else 2*l}⟩
  {pf}
''')
    # pair generator
    if n <= 64:
        ident = f'''  refine RelC.lift (identityM{n}_eq A) (identityM{n}_eq A') ?_
  refine RelC.lift (identityM{n}_eq B) (identityM{n}_eq B') ?_
'''
    else:
        ident = f'''  obtain ⟨IA, hA, hA'⟩ := ident_congr (fun _ _ => mat{n}_inj) (identityM{n}_ok A) (identityM{n}_ok A')
  obtain ⟨IB, hB, hB'⟩ := ident_congr (fun _ _ => mat{n}_inj) (identityM{n}_ok B) (identityM{n}_ok B')
  refine RelC.lift hA hA' ?_
  refine RelC.lift hB hB' ?_
'''
    J = f'junkArr {max(n,8)} {n}' if n <= 64 else f'junkArr2 64 {l} {n}'
    K = ', '.join(str(k) for k in range(l))
    if n <= 64:
        ops = [f'(opsS idM{n})']
    else:
        def words(k): return '[' + ', '.join(str(x) for x in range(k, l)) + ']'
        ops = [f'opsW{n}_{k}' for k in range(l)]
    out.append(f'''
theorem genMatpairM{n}_rel {he or "(env env' : Env) "}(A B A' B' : M{n})
    {{w w' : World}} (h : seedOf w.seeded = seedOf w'.seeded) :
    RelC (fun p q => p.1 = q.1 ∧ GenEq p.2 q.2) (genMatpairM{n} env A B w)
      (genMatpairM{n} env' A' B' w') := by
  obtain ⟨T, v, v', e, e', hv⟩ := randM{n}_rel {hea}(env.{J}) (env'.{J}) h
  unfold genMatpairM{n}
  refine RelC.run (reseed_run' w) (reseed_run' w') ?_
{ident}  refine RelC.run e e' ?_
  refine RelC.lift (copyM{n}_eq T _) (copyM{n}_eq T _) ?_
''')
    s = ''
    loops = max(1, l)
    for k in range(loops):
        ng = n > 64 and k < loops - 1
        op = '(opsS idM%d)' % n if n <= 64 else f'opsL{n}_{k}'
        init = '(GR_init _ _ _ _)' if k == 0 else f'h{k-1}'
        ind = ''
        if k == 0:
            s += f'''  refine RelM.run ?_ hv
  refine RelM.bind (R := GR) (RelM.forUp {init}
    fun i _ _ s s' h => {'genStepNG_rel' if ng else 'genStep_rel'} {n} {op} i h) ?_
'''
        else:
            s += f'''  refine RelM.bind (R := GR) (RelM.forUp h{k-1}
    fun i _ _ s s' h => {'genStepNG_rel' if ng else 'genStep_rel'} {n} {op} i h) ?_
'''
        s += f"  intro s{k} s{k}' h{k}\n"
    k = loops - 1
    s += f'''  refine RelM.liftC ?_
  rw [h{k}.2.2.2.1]
  refine RelC.ite ?_ ?_
'''
    prev = f'h{k}'
    first = True
    for k2 in reversed(range(loops)):
        op = '(opsS idM%d)' % n if n <= 64 else f'opsL{n}_{k2}'
        s += f'''  {'· ' if first else '  '}refine RelC.bind (R := GR) (RelC.forDown {prev}
      fun i _ _ s s' h => genBack_rel {op} i h) ?_
    intro t{k2} t{k2}' g{k2}
'''
        prev = f'g{k2}'
        first = False
    op = '(opsS idM%d)' % n if n <= 64 else f'opsL{n}_0'
    s += f'''    refine RelC.bind (replay_rel {op} g0 _) ?_
    rintro M _ rfl
    rw [g0.2.1]
    exact RelC.refl _
  · rw [h{k}.1, h{k}.2.1]
'''
    s += '    refine RelC.bind_same fun _ => ?_\n' * loops
    s += f'''    rw [copyM{n}_eq]
    exact RelC.refl _
'''
    if n > 64:
        def W(a, b): return '[' + ', '.join(str(x) for x in range(a, b)) + ']'
        defs = ''
        for k in range(l):
            defs += f'''
abbrev opsL{n}_{k} : Ops M{n} := opsW (n := {n}) (l := {l}) idM64 {k} {64*k} {W(k,l)} {W(0,l)}
'''
        out.insert(len(out) - 1, defs)
    out[-1] += s
    # affine pair
    if n != 256:
        pass
out.append('\nend WB\n')
open(D, 'w').write(''.join(out))
