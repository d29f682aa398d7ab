#!/usr/bin/env python3
"""Writes the property files C12..C19, C23, C24 and helper file Proof/Affine.lean."""
from propslib import *
EX = 'Verif.Prop.Examples'

# ---------------------------------------------------------------- helper: affine maps
h = '''import Verif.Proof.Add
import Verif.Proof.ElimAll

/-!
# Affine functions (helper lemmas); written by `tools/gen_props2.py`
-/
namespace WB
open Matrix

theorem aff_cancel {n : Nat} {A B : Mat n} (h : B * A = 1) (x v : Fin n → ZMod 2) :
    B.mulVec (A.mulVec x + v) + B.mulVec v = x := by
  rw [mulVec_add, mulVec_mulVec, h, one_mulVec, add_assoc]
  have : B.mulVec v + B.mulVec v = 0 := by
    funext i
    have : ∀ a : ZMod 2, a + a = 0 := by decide
    exact this _
  rw [this, add_zero]

theorem aff_cancel' {n : Nat} {A B : Mat n} (h : A * B = 1) (x v : Fin n → ZMod 2) :
    A.mulVec (B.mulVec x + B.mulVec v) + v = x := by
  rw [mulVec_add, mulVec_mulVec, mulVec_mulVec, h, one_mulVec, one_mulVec, add_assoc]
  have : v + v = 0 := by
    funext i
    have : ∀ a : ZMod 2, a + a = 0 := by decide
    exact this _
  rw [this, add_zero]

theorem stV_ok (env : Env) {l : Nat} (v : Vector (BitVec 64) l) {c : Nat}
    (hc : c < l) (k : Nat) (hk : k < 2) (r : BitVec 32) :
    ∃ v', (do wr v c (← env.stSub (← rd v c) k r) : C _) = .ok v' := by
  obtain ⟨y, hy⟩ := stSub_eq env v[c] k r (by omega)
  rw [rd_ok _ _ hc, C_pure_bind, hy, C_pure_bind, wr_ok _ _ _ hc]
  exact ⟨_, rfl⟩
'''
for n in ALL:
    if n == 4:
        h += '''
theorem randV4_ok (v : V4) (w : World) :
    OkM (randV4 v) w (fun v w' => Clean4 v ∧ RandWorld w w') := by
  unfold randV4
  rw [OkM.bind_iff]
  refine OkM_reseed w _ ?_
  intro w1 h1
  rw [OkM.bind_iff]
  refine OkM_random ?_
  intro r w2 h2
  rw [OkM.pure_iff]
  exact ⟨clean4_mask r, h1.onlyIndex h2⟩
'''
    elif n <= 32:
        h += f'''
theorem randV{n}_ok (v : V{n}) (w : World) :
    OkM (randV{n} v) w (fun _ w' => RandWorld w w') := by
  unfold randV{n}
  rw [OkM.bind_iff]
  refine OkM_reseed w _ ?_
  intro w1 h1
  rw [OkM.bind_iff]
  refine OkM_random ?_
  intro r w2 h2
  rw [OkM.pure_iff]
  exact h1.onlyIndex h2
'''.replace('''  rw [OkM.bind_iff]
  refine OkM_random ?_
  intro r w2 h2
  rw [OkM.pure_iff]
  exact''', '''  refine OkM_random ?_
  intro r w2 h2
  exact''' if n == 32 else '''  rw [OkM.bind_iff]
  refine OkM_random ?_
  intro r w2 h2
  rw [OkM.pure_iff]
  exact''')
    elif n == 64:
        h += '''
theorem randV64_ok (env : Env) (v : V64) (w : World) :
    OkM (randV64 env v) w (fun _ w' => OnlyIndex w w') := by
  unfold randV64
  rw [OkM.bind_iff]
  refine OkM_random ?_
  intro r w1 h1
  obtain ⟨v1, e1⟩ := stSub_eq env v 1 r (by omega)
  rw [OkM.bind_iff, OkM.liftC_iff, e1, Ok.ok_iff, OkM.bind_iff]
  refine OkM_random ?_
  intro r2 w2 h2
  obtain ⟨v2, e2⟩ := stSub_eq env v1 0 r2 (by omega)
  rw [OkM.liftC_iff, e2, Ok.ok_iff]
  exact h1.trans h2
'''
    else:
        l = L[n]
        h += f'''
theorem randV{n}_ok (env : Env) (v0 : V{n}) (w : World) :
    OkM (randV{n} env v0) w (fun _ w' => RandWorld w w') := by
  unfold randV{n}
  rw [OkM.bind_iff]
  refine OkM_reseed w _ ?_
  intro w1 h1
'''
        k = 0
        for q in range(l):
            for c in (1, 0):
                k += 1
                last = k == 2 * l
                h += f'''  rw [OkM.bind_iff]
  refine OkM_random ?_
  intro r{k} w{k+1} h{k+1}
  obtain ⟨v{k}, e{k}⟩ := stV_ok env v{k-1} (c := {q}) (by omega) {c} (by omega) r{k}
  rw [{'' if last else 'OkM.bind_iff, '}OkM.liftC_iff, e{k}, Ok.ok_iff]
'''
        e = 'h1'
        for j in range(2, k + 2):
            e = f'({e}.onlyIndex h{j})'
        h += f'  exact {e}\n'
for n in list(W) + [128]:
    if n <= 64:
        h += f'''
theorem affineU{n}_ok (env : Env) (f : Aff{n}) (x : BitVec {W[n]}) :
    Ok (affineU{n} env f x) (fun y => vec{n} y = (mat{n} f.Mat).mulVec (vec{n} x) + vec{n} f.Vec{' ∧ (Clean4 f.Vec → Clean4 y)' if n == 4 else ''}) := by
  unfold affineU{n}
  refine Ok.bind (MatMulVecM{n}_ok env f.Mat x _) ?_
  intro y hy
  rw [Ok.pure_iff]
''' + ('''  exact ⟨by rw [← hy.1]; exact vec_add y f.Vec, clean4_xor hy.2⟩
''' if n == 4 else f'''  rw [← hy]
  exact vec_add y f.Vec
''')
    else:
        h += '''
theorem affineU128_aux (F : Vector (BitVec 64) 2 → C (Vector (BitVec 64) 2))
    (j x z v : Vector (BitVec 64) 2) :
    (do
      let mul_vec ← wr j 0 (← rd x 0)
      let mul_vec ← wr mul_vec 1 (← rd x 1)
      let ans_vec ← F mul_vec
      let ans ← wr z 0 ((← rd ans_vec 0) ^^^ (← rd v 0))
      let ans ← wr ans 1 ((← rd ans_vec 1) ^^^ (← rd v 1))
      pure ans) = F x >>= fun y => .ok #v[y[0] ^^^ v[0], y[1] ^^^ v[1]] := by
  rw [rd_ok x 0 (by omega), rd_ok x 1 (by omega), C_pure_bind, wr_ok _ _ _ (by omega), C_pure_bind,
    C_pure_bind, wr_ok _ _ _ (by omega), C_pure_bind]
  have e : (j.set 0 x[0]).set 1 x[1] = x := by
    refine Vector.ext fun k hk => ?_
    obtain rfl | rfl : k = 0 ∨ k = 1 := by omega
    all_goals simp
  rw [e]
  refine congrArg (fun k => F x >>= k) (funext fun y => ?_)
  rw [rd_ok y 0 (by omega), rd_ok y 1 (by omega), rd_ok v 0 (by omega),
    rd_ok v 1 (by omega), C_pure_bind, C_pure_bind, wr_ok _ _ _ (by omega), C_pure_bind,
    C_pure_bind, C_pure_bind, wr_ok _ _ _ (by omega)]
  refine congrArg Except.ok (Vector.ext fun k hk => ?_)
  obtain rfl | rfl : k = 0 ∨ k = 1 := by omega
  all_goals simp

theorem affineU128_eq (env : Env) (f : Aff128) (x z : Vector (BitVec 64) 2) :
    affineU128 env f x z = MatMulVecM128 env f.Mat x (env.junkArr 64 2) >>=
      fun y => .ok #v[y[0] ^^^ f.Vec[0], y[1] ^^^ f.Vec[1]] := by
  unfold affineU128
  exact affineU128_aux (fun m => MatMulVecM128 env f.Mat m (env.junkArr 64 2)) _ x z f.Vec

theorem affineU128_ok (env : Env) (f : Aff128) (x z : Vector (BitVec 64) 2) :
    Ok (affineU128 env f x z)
      (fun y => vec128 y = (mat128 f.Mat).mulVec (vec128 x) + vec128 f.Vec) := by
  rw [affineU128_eq]
  refine Ok.bind (MatMulVecM128_ok env f.Mat x _) ?_
  intro y hy
  rw [Ok.ok_iff, ← hy]
  refine vecW_add (by norm_num) ?_
  intro k hk
  obtain rfl | rfl : k = 0 ∨ k = 1 := by omega
  all_goals simp
'''
for n in list(W) + [128]:
    env = 'env ' if n >= 64 else ''
    cl = ' ∧ CleanM4 p.1.Mat ∧ CleanM4 p.2.Mat ∧ Clean4 p.1.Vec ∧ Clean4 p.2.Vec' if n == 4 else ''
    gw = '''w'.randseed = w.randseed + 2#32 ∧ w'.now = w.now + 2''' if n == 64 else '''w'.randseed = w.randseed + 3#32 ∧ w'.now = w.now + 3'''
    cp = ', hcA, hcB' if n == 4 else ''
    h += f'''
theorem genaffinepairM{n}_ok (env : Env) (f0 g0 : Aff{n}) (w : World) :
    OkM (genaffinepairM{n} env f0 g0) w (fun p w' =>
      mat{n} p.1.Mat * mat{n} p.2.Mat = 1 ∧
      vec{n} p.2.Vec = (mat{n} p.2.Mat).mulVec (vec{n} p.1.Vec){cl} ∧
      {gw} ∧ w'.clock = w.clock ∧ w'.out = w.out) := by
  unfold genaffinepairM{n}
  refine OkM.bind (genMatpairM{n}_ok env f0.Mat g0.Mat w) ?_
  rintro ⟨A, B⟩ w1 ⟨hAB{cp}, hw1⟩
  refine OkM.bind (randV{n}_ok {env}f0.Vec w1) ?_
  {'rintro v w2 ⟨hv, hw2⟩' if n == 4 else 'intro v w2 hw2'}
  rw [OkM.bind_iff, OkM.liftC_iff]
  refine (MatMulVecM{n}_ok env B v g0.Vec).mono ?_
  intro u hu
  rw [OkM.pure_iff]
''' + (f'''  obtain ⟨k, rfl⟩ := hw2
  exact ⟨hAB, hu, hw1.1, hw1.2.1, hw1.2.2.1, hw1.2.2.2⟩
''' if n == 64 else f'''  obtain ⟨a1, a2, a3, a4⟩ := hw1
  obtain ⟨b1, b2, b3, b4⟩ := hw2
  refine ⟨hAB, {'hu.1, hcA, hcB, hv, hu.2' if n == 4 else 'hu'}, ?_, by omega, b3.trans a3, b4.trans a4⟩
  rw [b1, a1, BitVec.add_assoc]; rfl
''')
    hyp = ' (hg : CleanM4 g.Mat)' if n == 4 else ''
    h += f'''
theorem affinemixM{n}_ok (env : Env) (f g m0 : Aff{n}){hyp} :
    Ok (affinemixM{n} env f g m0) (fun m => mat{n} m.Mat = mat{n} f.Mat * mat{n} g.Mat ∧
      vec{n} m.Vec = (mat{n} f.Mat).mulVec (vec{n} g.Vec) + vec{n} f.Vec{' ∧ CleanM4 m.Mat ∧ (Clean4 f.Vec → Clean4 m.Vec)' if n == 4 else ''}) := by
  unfold affinemixM{n}
  refine Ok.bind (MatMulMatM{n}_ok env f.Mat g.Mat _{' hg' if n == 4 else ''}) ?_
  intro A hA
  refine Ok.bind (MatMulVecM{n}_ok env f.Mat g.Vec _) ?_
  intro v hv
''' + ('''  rw [Ok.pure_iff]
  exact ⟨hA.1, by rw [← hv.1]; exact vec_add v f.Vec, hA.2, clean4_xor hv.2⟩
''' if n == 4 else f'''  rw [Ok.pure_iff]
  exact ⟨hA, by rw [← hv]; exact vec_add v f.Vec⟩
''' if n <= 64 else '''  rw [rd_ok v _ (by omega : 0 < 2), rd_ok _ _ (by omega : 0 < 2), rd_ok _ _ (by omega : 1 < 2)]
  simp only [C_pure_bind]
  rw [wr_ok _ _ _ (by omega), C_pure_bind, rd_ok _ _ (by omega : 1 < 2), C_pure_bind,
    wr_ok _ _ _ (by omega), C_pure_bind, Ok.pure_iff]
  refine ⟨hA, ?_⟩
  rw [← hv]
  refine vecW_add (by norm_num) ?_
  intro k hk
  obtain rfl | rfl : k = 0 ∨ k = 1 := by omega
  all_goals simp
''')
h += '\nend WB\n'
with open(os.path.join(D, '..', 'Proof', 'Affine.lean'), 'w') as f:
    f.write(h)

# ---------------------------------------------------------------- C12
b = 'set_option maxRecDepth 20000\nopen Classical in\n'
first = True
for n in ALL:
    hyp = ' (hA : CleanM4 A)' if n == 4 else ''
    b += f'''
{'' if first else 'open Classical in'}
/-- C12: `isinvertM{n}` decides invertibility over GF(2). -/
theorem C12_isinvertM{n} (A : M{n}){hyp} :
    isinvertM{n} A = .ok (if IsUnit (mat{n} A) then 1 else 0) := by
  obtain ⟨r, hr, h01, h1, h2⟩ := isinvertM{n}_ok A
  rw [hr]
  refine congrArg Except.ok ?_
  by_cases h : IsUnit (mat{n} A)
  · rw [if_pos h]; exact h2 {'hA ' if n == 4 else ''}((isUnit_iff_det _).1 h)
  · rw [if_neg h]
    exact h01.resolve_right fun e => h ((isUnit_iff_det _).2 (h1 e))
'''
    first = False
    if n <= 64:
        b += f'''
example : isinvertM{n} exA{n} = .ok 1 := by decide +kernel
example : isinvertM{n} #v[{', '.join(lit(n, v) for v in [exA(n)[0] ^ exA(n)[1]] + exA(n)[1:-1] + [exA(n)[1]])}] = .ok 0 := by decide +kernel
'''
    else:
        b += f'''
example : ∃ A, identityM{n} exB{n} = .ok A ∧ isinvertM{n} A = .ok 1 := by
  obtain ⟨A, hA, h⟩ := identityM{n}_ok exB{n}
  refine ⟨A, hA, ?_⟩
  rw [C12_isinvertM{n}, if_pos]
  rw [show mat{n} A = 1 from h]; exact isUnit_one
example : isinvertM{n} (Vector.replicate {n} (Vector.replicate {L[n]} 0)) = .ok 0 := by decide +kernel
'''
    if n == 4:
        b += '''
example : CleanM4 exA4 := exA4_clean

/-- C12: for `n = 4` the answer 1 is right for every matrix, clean or not. -/
theorem C12_isinvertM4_sound (A : M4) (h : isinvertM4 A = .ok 1) : IsUnit (mat4 A) := by
  obtain ⟨r, hr, _, h1, _⟩ := isinvertM4_ok A
  rw [hr] at h
  exact (isUnit_iff_det _).2 (h1 (Except.ok.inj h))

example : isinvertM4 exA4 = .ok 1 := by decide +kernel
'''
write('C12', ['Verif.Proof.Inj', EX], '# C12 — invertibility test', b.replace('set_option maxRecDepth 20000\nopen Classical in\n\n', 'set_option maxRecDepth 20000\n\nopen Classical in'))
# ---------------------------------------------------------------- C13 C14
b = 'set_option maxRecDepth 20000\n'
c = 'set_option maxRecDepth 20000\n'
for n in ALL:
    cl = ' ∧ CleanM4 B' if n == 4 else ''
    o = 'hc, ' if n == 4 else ''
    b += f'''
/-- C13: `invsM{n}` of an invertible matrix stores its two-sided inverse. -/
theorem C13_invsM{n} (A B0 : M{n}) (hA : IsUnit (mat{n} A)) :
    ∃ B, invsM{n} A B0 = .ok B ∧ mat{n} A * mat{n} B = 1 ∧ mat{n} B * mat{n} A = 1{cl} := by
  obtain ⟨B, hB, -, {o}h⟩ := invsM{n}_ok A B0
  have h' := h ((isUnit_iff_det _).1 hA)
  exact ⟨B, hB, mat_comm h', h'{', hc' if n == 4 else ''}⟩
'''
    if n <= 64:
        b += f'''
example : IsUnit (mat{n} exA{n}) := by
  obtain ⟨r, hr, _, h1, _⟩ := isinvertM{n}_ok exA{n}
  have : isinvertM{n} exA{n} = .ok 1 := by decide +kernel
  rw [hr] at this
  exact (isUnit_iff_det _).2 (h1 (Except.ok.inj this))
example : invsM{n} exA{n} exB{n} = .ok {litM(n, [(1 << (n - i)) - 1 for i in range(n)])} := by decide +kernel
'''
    else:
        b += f'''
example : ∃ A B w, genMatpairM{n} exEnv exB{n} exB{n} exWorld = .ok ((A, B), w) ∧ IsUnit (mat{n} A) := by
  obtain ⟨⟨⟨A, B⟩, w⟩, h, hAB, _⟩ := genMatpairM{n}_ok exEnv exB{n} exB{n} exWorld
  exact ⟨A, B, w, h, ⟨⟨_, _, hAB, mat_comm hAB⟩, rfl⟩⟩
'''
    c += f'''
/-- C14: `invsM{n}` of a singular matrix silently stores an invertible matrix that is no inverse of it,
on either side. -/
theorem C14_invsM{n}_singular (A B0 : M{n}) (hA : ¬ IsUnit (mat{n} A)) :
    ∃ B, invsM{n} A B0 = .ok B ∧ IsUnit (mat{n} B) ∧ mat{n} A * mat{n} B ≠ 1 ∧
      mat{n} B * mat{n} A ≠ 1 := by
  obtain ⟨B, hB, hd, _⟩ := invsM{n}_ok A B0
  refine ⟨B, hB, (isUnit_iff_det _).2 hd, fun h => hA ?_, fun h => hA ?_⟩
  · exact ⟨⟨_, _, h, mat_comm h⟩, rfl⟩
  · exact ⟨⟨_, _, mat_comm h, h⟩, rfl⟩

example : ∃ A : M{n}, ¬ IsUnit (mat{n} A) := by
  refine ⟨Vector.replicate {n} {'0' if n <= 64 else f'(Vector.replicate {L[n]} 0)'}, ?_⟩
  rw [show mat{n} _ = 0 from {f'mat_zero {n}' if n <= 64 else 'matW_zero (by norm_num)'}]
  exact not_isUnit_zero
'''
    if n <= 64:
        A = [exA(n)[0] ^ exA(n)[1]] + exA(n)[1:-1] + [exA(n)[1]]
        c += f'''example : isinvertM{n} {litM(n, A)} = .ok 0 ∧
    ∃ B, invsM{n} {litM(n, A)} exB{n} = .ok B ∧ isinvertM{n} B = .ok 1 := by
  refine ⟨by decide +kernel, ?_⟩
  exact ⟨((invsM{n} {litM(n, A)} exB{n}).toOption.getD exB{n}), by decide +kernel, by decide +kernel⟩
'''
write('C13', ['Verif.Proof.Inj', EX], '# C13 — matrix inverse', b)
write('C14', ['Verif.Proof.Inj', EX], '# C14 — the inverse of a singular matrix is silent', c)
# ---------------------------------------------------------------- C15 C16
b = 'set_option maxRecDepth 20000\n'
c = 'set_option maxRecDepth 20000\n'
for n in ALL:
    cl = ' ∧ CleanM4 A ∧ CleanM4 B' if n == 4 else ''
    cp = ', hcA, hcB' if n == 4 else ''
    inj = f'mat4_inj hc hcB' if n == 4 else f'mat{n}_inj'
    inj2 = f'mat4_inj hc hcA' if n == 4 else f'mat{n}_inj'
    b += f'''
/-- C15: `genMatpairM{n}` always succeeds and stores two matrices that are inverse to each other;
`isinvertM{n}` accepts both and `invsM{n}` of one is the other.  Besides advancing the generator
it increases the seed counter by two and reads the clock twice. -/
theorem C15_genMatpairM{n} (env : Env) (A0 B0 : M{n}) (w : World) :
    ∃ A B w', genMatpairM{n} env A0 B0 w = .ok ((A, B), w') ∧
      mat{n} A * mat{n} B = 1 ∧ mat{n} B * mat{n} A = 1 ∧
      isinvertM{n} A = .ok 1 ∧ isinvertM{n} B = .ok 1 ∧
      (∀ X, invsM{n} A X = .ok B) ∧ (∀ X, invsM{n} B X = .ok A){cl} ∧
      w'.randseed = w.randseed + 2#32 ∧ w'.now = w.now + 2 ∧ w'.clock = w.clock ∧ w'.out = w.out := by
  obtain ⟨⟨⟨A, B⟩, w'⟩, h, hAB{cp}, hw⟩ := genMatpairM{n}_ok env A0 B0 w
  have hBA := mat_comm hAB
  have hA : IsUnit (mat{n} A) := ⟨⟨_, _, hAB, hBA⟩, rfl⟩
  have hB : IsUnit (mat{n} B) := ⟨⟨_, _, hBA, hAB⟩, rfl⟩
  refine ⟨A, B, w', h, hAB, hBA, ?_, ?_, ?_, ?_{', hcA, hcB' if n == 4 else ''}, hw⟩
  · rw [C12_isinvertM{n}{' A hcA' if n == 4 else ''}, if_pos hA]
  · rw [C12_isinvertM{n}{' B hcB' if n == 4 else ''}, if_pos hB]
  · intro X
    obtain ⟨Y, hY, h1, h2{', hc' if n == 4 else ''}⟩ := C13_invsM{n} A X hA
    rw [hY, {inj} (mat_inv_unique h1 hAB)]
  · intro X
    obtain ⟨Y, hY, h1, h2{', hc' if n == 4 else ''}⟩ := C13_invsM{n} B X hB
    rw [hY, {inj2} (mat_inv_unique h1 hBA)]
'''
    if n <= 8:
        b += f'''
example : (genMatpairM{n} exEnv exB{n} exB{n} exWorld).toOption.isSome := by decide +kernel
'''
    c += f'''
/-- C16: `genMatpairM{n}` never has undefined behaviour: in particular no access to the trail
buffer of {n*n} entries or to any other array is out of bounds and no remainder by zero is taken. -/
theorem C16_genMatpairM{n} (env : Env) (A0 B0 : M{n}) (w : World) (e : Fault) :
    genMatpairM{n} env A0 B0 w ≠ .error e := by
  obtain ⟨p, h, _⟩ := genMatpairM{n}_ok env A0 B0 w
  rw [h]
  exact fun h => by cases h

example : ∃ p, genMatpairM{n} exEnv exB{n} exB{n} exWorld = .ok p := by
  obtain ⟨p, h, _⟩ := genMatpairM{n}_ok exEnv exB{n} exB{n} exWorld
  exact ⟨p, h⟩
'''
write('C15', ['Verif.Prop.C12', 'Verif.Prop.C13', EX], '# C15 — generated pairs are mutually inverse', b)
write('C16', ['Verif.Proof.ElimAll', EX], '# C16 — pair generation never overruns its trail buffer', c)
# ---------------------------------------------------------------- C17 C18 C19
b = 'set_option maxRecDepth 20000\n'
c = 'set_option maxRecDepth 20000\n'
d = 'set_option maxRecDepth 20000\n'
for n in list(W) + [128]:
    big = n == 128
    zz = ' z' if big else ''
    za = ' (z : Vector (BitVec 64) 2)' if big else ''
    ty = 'Vector (BitVec 64) 2' if big else f'BitVec {W[n]}'
    b += f'''
/-- C17: `affineU{n}` computes `Mat·x + Vec`.{'  `z` is the old contents of the result array; it may be the array `x` itself.' if big else ''} -/
theorem C17_affineU{n} (env : Env) (f : Aff{n}) (x : {ty}){za} :
    ∃ y, affineU{n} env f x{zz} = .ok y ∧ vec{n} y = (mat{n} f.Mat).mulVec (vec{n} x) + vec{n} f.Vec{' ∧ (Clean4 f.Vec → Clean4 y)' if n == 4 else ''} :=
  affineU{n}_ok env f x{zz}
'''
    ex = lit(n, mul_vec(n, exB(n), exX(n)) ^ (0x3b & ((1 << n) - 1)))
    b += f'''
example : affineU{n} exEnv ⟨exB{n}, {lit(n, 0x3b & ((1 << n) - 1))}⟩ exX{n}{' exX128' if big else ''} = .ok {ex} := by decide +kernel
'''
    if big:
        b += '''
/-- C17: in-place use. -/
theorem C17_affineU128_inplace (env : Env) (f : Aff128) (x : Vector (BitVec 64) 2) :
    ∃ y, affineU128 env f x x = .ok y ∧ vec128 y = (mat128 f.Mat).mulVec (vec128 x) + vec128 f.Vec :=
  affineU128_ok env f x x

example : (affineU128 exEnv ⟨exB128, exX128⟩ exX128 exX128).toOption.isSome := by decide +kernel
'''
    hyp = ' (hx : Clean4 x)' if n == 4 else ''
    z12 = (' z1', ' z2', ' z3', ' z4') if big else ('', '', '', '')
    zz4 = ' (z1 z2 z3 z4 : Vector (BitVec 64) 2)' if big else ''
    inj = 'vec4_inj (hc2 hvg) hx' if n == 4 else f'vec{n}_inj'
    injb = 'vec4_inj (hc4 hvf) hx' if n == 4 else f'vec{n}_inj'
    c += f'''
/-- C18: `genaffinepairM{n}` always succeeds and its two affine maps undo each other in both orders. -/
theorem C18_genaffinepairM{n} (env : Env) (f0 g0 : Aff{n}) (w : World) :
    ∃ f g w', genaffinepairM{n} env f0 g0 w = .ok ((f, g), w') ∧
      ∀ (x : {ty}){zz4}, {'Clean4 x → ' if n == 4 else ''}
        (∃ y, affineU{n} env f x{z12[0]} = .ok y ∧ affineU{n} env g y{z12[1]} = .ok x) ∧
        (∃ y, affineU{n} env g x{z12[2]} = .ok y ∧ affineU{n} env f y{z12[3]} = .ok x) := by
  obtain ⟨⟨⟨f, g⟩, w'⟩, h, hM, hV, {'hmf, hmg, hvf, hvg, ' if n == 4 else ''}hw⟩ := genaffinepairM{n}_ok env f0 g0 w
  refine ⟨f, g, w', h, ?_⟩
  intro x{' z1 z2 z3 z4' if big else ''}{' hx' if n == 4 else ''}
  constructor
  · obtain ⟨y, hy, e1{', hc1' if n == 4 else ''}⟩ := affineU{n}_ok env f x{z12[0]}
    obtain ⟨x', hx', e2{', hc2' if n == 4 else ''}⟩ := affineU{n}_ok env g y{z12[1]}
    have e : x' = x := {inj} (by rw [e2, e1, hV]; exact aff_cancel (mat_comm hM) _ _)
    exact ⟨y, hy, e ▸ hx'⟩
  · obtain ⟨y, hy, e1{', hc3' if n == 4 else ''}⟩ := affineU{n}_ok env g x{z12[2]}
    obtain ⟨x', hx', e2{', hc4' if n == 4 else ''}⟩ := affineU{n}_ok env f y{z12[3]}
    have e : x' = x := {injb} (by rw [e2, e1, hV]; exact aff_cancel' hM _ _)
    exact ⟨y, hy, e ▸ hx'⟩
'''
    if n <= 8:
        c += f'''
example : (genaffinepairM{n} exEnv ⟨exB{n}, 1⟩ ⟨exB{n}, 2⟩ exWorld).toOption.isSome := by decide +kernel
'''
    else:
        c += f'''
example : ∃ p, genaffinepairM{n} exEnv ⟨exB{n}, exX{n}⟩ ⟨exA{n}, exX{n}⟩ exWorld = .ok p := by
  obtain ⟨p, h, _⟩ := genaffinepairM{n}_ok exEnv ⟨exB{n}, exX{n}⟩ ⟨exA{n}, exX{n}⟩ exWorld
  exact ⟨p, h⟩
'''
    if n == 4:
        c += '''
example : Clean4 exX4 := by decide
'''
    hyp = ' (hg : CleanM4 g.Mat)' if n == 4 else ''
    d += f'''
/-- C19: `affinemixM{n} f g` is the composition `f ∘ g`. -/
theorem C19_affinemixM{n} (env : Env) (f g m0 : Aff{n}){hyp} :
    ∃ m, affinemixM{n} env f g m0 = .ok m ∧
      ∀ (x : {ty}){zz4.replace(' z4', '')}, ∃ y z, affineU{n} env g x{z12[0]} = .ok y ∧
        affineU{n} env f y{z12[1]} = .ok z ∧ affineU{n} env m x{z12[2]} = .ok z := by
'''
    if n == 4:
        d += '''  have hmix : ∃ A v, MatMulMatM4 env f.Mat g.Mat m0.Mat = .ok A ∧
      MatMulVecM4 env f.Mat g.Vec m0.Vec = .ok v ∧ affinemixM4 env f g m0 = .ok ⟨A, v ^^^ f.Vec⟩ := by
    obtain ⟨A, hA, _⟩ := MatMulMatM4_ok env f.Mat g.Mat m0.Mat hg
    obtain ⟨v, hv, _⟩ := MatMulVecM4_ok env f.Mat g.Vec m0.Vec
    refine ⟨A, v, hA, hv, ?_⟩
    unfold affinemixM4
    rw [hA, C_pure_bind, hv, C_pure_bind]; rfl
  obtain ⟨A, v, hA, hv, hm⟩ := hmix
  refine ⟨_, hm, fun x => ?_⟩
  obtain ⟨A', hA', eA, -⟩ := MatMulMatM4_ok env f.Mat g.Mat m0.Mat hg
  obtain rfl : A' = A := Except.ok.inj (hA'.symm.trans hA)
  obtain ⟨v', hv', ev, cv⟩ := MatMulVecM4_ok env f.Mat g.Vec m0.Vec
  obtain rfl : v' = v := Except.ok.inj (hv'.symm.trans hv)
  obtain ⟨y1, hy1, ey1, cy1⟩ := MatMulVecM4_ok env g.Mat x (env.junk 8 0)
  obtain ⟨z1, hz1, ez1, cz1⟩ := MatMulVecM4_ok env f.Mat (y1 ^^^ g.Vec) (env.junk 8 0)
  obtain ⟨z2, hz2, ez2, cz2⟩ := MatMulVecM4_ok env A' x (env.junk 8 0)
  refine ⟨y1 ^^^ g.Vec, z1 ^^^ f.Vec, ?_, ?_, ?_⟩
  · unfold affineU4; rw [hy1, C_pure_bind]; rfl
  · unfold affineU4; rw [hz1, C_pure_bind]; rfl
  · unfold affineU4
    rw [hz2, C_pure_bind]
    have e : z2 ^^^ v' = z1 := by
      refine vec4_inj (clean4_xor cz2 cv) cz1 ?_
      rw [show vec4 (z2 ^^^ v') = vec4 z2 + vec4 v' from vec_add z2 v', ez1, ez2, eA, ev,
        show vec4 (y1 ^^^ g.Vec) = vec4 y1 + vec4 g.Vec from vec_add y1 g.Vec, ey1, mulVec_add,
        mulVec_mulVec]
    rw [← e, BitVec.xor_assoc]; rfl

example : CleanM4 exB4 := exB4_clean
'''
    else:
        d += f'''  obtain ⟨m, hm, eM, eV⟩ := affinemixM{n}_ok env f g m0
  refine ⟨m, hm, fun x{' z1 z2 z3' if big else ''} => ?_⟩
  obtain ⟨y, hy, ey⟩ := affineU{n}_ok env g x{z12[0]}
  obtain ⟨z, hz, ez⟩ := affineU{n}_ok env f y{z12[1]}
  obtain ⟨z', hz', ez'⟩ := affineU{n}_ok env m x{z12[2]}
  have e : z' = z := vec{n}_inj (by
    rw [ez', ez, ey, eM, eV, mulVec_add, mulVec_mulVec, add_assoc])
  exact ⟨y, z, hy, hz, e ▸ hz'⟩
'''
    if n <= 32:
        M = mul_mat(n, exA(n), exB(n)); v = mul_vec(n, exA(n), exX(n)) ^ 5
        d += f'''
example : (affinemixM{n} exEnv ⟨exA{n}, 5⟩ ⟨exB{n}, exX{n}⟩ ⟨exB{n}, 1⟩).map (fun m => (m.Mat, m.Vec)) =
    .ok ({litM(n, M)}, {lit(n, v)}) := by decide +kernel
'''
    else:
        d += f'''
example : ∃ m, affinemixM{n} exEnv ⟨exA{n}, exX{n}⟩ ⟨exB{n}, exX{n}⟩ ⟨exB{n}, exX{n}⟩ = .ok m := by
  obtain ⟨m, h, _⟩ := C19_affinemixM{n} exEnv ⟨exA{n}, exX{n}⟩ ⟨exB{n}, exX{n}⟩ ⟨exB{n}, exX{n}⟩
  exact ⟨m, h⟩
'''
write('C17', ['Verif.Proof.Affine', EX], '# C17 — affine transformation', b)
write('C18', ['Verif.Proof.Affine', EX], '# C18 — affine pairs are mutually inverse', c)
write('C19', ['Verif.Proof.Affine', EX], '# C19 — affine mix is composition', d)
# ---------------------------------------------------------------- C23 C24
b = ''
c = ''
for n in ALL:
    ty = f'BitVec {W[n]}' if n <= 64 else f'Vector (BitVec 64) {L[n]}'
    wt = 'weight' if n <= 64 else 'weightV'
    v = exX(n)
    b += f'''
/-- C23: `xorU{n}` returns the parity of the number of one bits{' (of all eight bits of its argument)' if n == 4 else ''}. -/
theorem C23_xorU{n} (env : Env) (x : {ty}) : xorU{n} env x = .ok (({wt} x % 2 : Nat) : Int) :=
  xorU{n}_eq env x

example : xorU{n} exEnv {lit(n, v)} = .ok {bin(v).count('1') % 2} := by decide +kernel
example : xorU{n} exEnvBE {lit(n, v ^ 1)} = .ok {bin(v ^ 1).count('1') % 2} := by decide +kernel
'''
    if n <= 128:
        c += f'''
/-- C24: `HWU{n}` returns the number of one bits{' (of all eight bits of its argument)' if n == 4 else ''}. -/
theorem C24_HWU{n} (env : Env) (x : {ty}) : HWU{n} env x = .ok (({wt} x : Nat) : Int) :=
  HWU{n}_eq env x

example : HWU{n} exEnv {lit(n, v)} = .ok {bin(v).count('1')} := by decide +kernel
example : HWU{n} exEnvBE {lit(n, v)} = .ok {bin(v).count('1')} := by decide +kernel
'''
write('C23', ['Verif.Proof.Parity', EX], '# C23 — parity', b)
write('C24', ['Verif.Proof.Parity', EX], '# C24 — Hamming weight', c)
