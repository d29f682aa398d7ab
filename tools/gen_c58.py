#!/usr/bin/env python3
"""Generate lean/Verif/Proof/SeedWit.lean (a good and a bad seed per size) and
lean/Verif/Prop/C58.lean (rejection sampling)."""
import os, sys
sys.path.insert(0, os.path.dirname(__file__))
from seedlib import rows, inv, leftnull, sidx, soff
SIZES = [4, 8, 16, 32, 64, 128, 256]
BAD = 1
def good(n):
    s = 0
    while not inv(n, rows(n, s)): s += 1
    return s

def lst(v):
    out, line = [], '   '
    for x in v:
        t = ' 0x%x,' % x
        if len(line) + len(t) > 110:
            out.append(line); line = '   '
        line += t
    out.append(line.rstrip(','))
    return '[\n' + '\n'.join(out) + ']'

o = ['''import Verif.Proof.SeedRows

/-!
# Random matrices as functions of the seed; an invertible and a singular one for each size

Generated by `tools/gen_c58.py`.
-/
namespace WB
open Matrix

set_option maxRecDepth 100000

theorem idx_bad : (seedIdx %d#32).toNat = %d := by decide +kernel
theorem off_bad : (seedOff %d#32).toNat = %d := by decide +kernel
''' % (BAD, sidx(BAD), BAD, soff(BAD))]
for n in SIZES:
    M = f'M{n}'; g = good(n)
    e = 'env ' if n >= 64 else ''
    eb = '(env : Env) ' if n >= 64 else ''
    o.append(f'''/-! ## {n} -/

/-- The matrix that `rand{M}` stores after seeding with `s`. -/
def gen{n} {eb}(s : BitVec 32) : {M} :=''')
    if n == 4: o.append('  Vector.ofFn fun i => ((drawS s i) &&& 0x0f).setWidth 8')
    elif n <= 16: o.append(f'  Vector.ofFn fun i => (drawS s i).setWidth {n}')
    elif n == 32: o.append('  Vector.ofFn fun i => drawS s i')
    elif n == 64: o.append('  Vector.ofFn fun i => wordS env s i')
    else:
        l = n // 64
        o.append('  Vector.ofFn fun i => #v[' + ', '.join(f'wordS env s ({l} * i' + (f' + {q}' if q else '') + ')' for q in range(l)) + ']')
    draws = n if n <= 32 else n * n // 32
    o.append(f'''
theorem rand{M}_gen {eb}(M : {M}) (w : World) :
    rand{M} {e}M w = .ok (gen{n} {e}(seedOf w), w.seeded.adv {draws}) := by''')
    if n <= 32:
        o.append(f'  rw [rand{M}_run]; rfl')
    else:
        l = n // 64
        o.append(f'''  rw [rand{M}_run, gen{n}]
  refine congrArg (fun A => Except.ok (A, w.seeded.adv {draws})) (congrArg Vector.ofFn ?_)
  funext i''')
        if l == 1:
            o.append('  rw [seeded_word env w i 0, Nat.add_zero]')
        else:
            o.append(f'  rw [show {2*l} * i.val = 2 * ({l} * i.val) by ring]')
            o.append('  rw [' + ', '.join(f'seeded_word env w ({l} * i.val) {q}' for q in range(l)) + ', Nat.add_zero]')
    if n <= 32:
        bits = {4: '''  intro i t ht
  have h15 : (0x0f#32).getLsbD t = true := by
    have : t = 0 ∨ t = 1 ∨ t = 2 ∨ t = 3 := by omega
    rcases this with rfl | rfl | rfl | rfl <;> rfl
  simp only [gen4, Fin.getElem_fin, Vector.getElem_ofFn, BitVec.getLsbD_setWidth, BitVec.getLsbD_and]
  rw [← drawS_toNat hi ho]
  simp [show t < 8 by omega, h15, BitVec.testBit_toNat]'''}.get(n, f'''  intro i t ht
  simp only [gen{n}, Fin.getElem_fin, Vector.getElem_ofFn{', BitVec.getLsbD_setWidth' if n < 32 else ''}]
  rw [← drawS_toNat hi ho]
  simp [show t < {n} by omega, BitVec.testBit_toNat]''' if n < 32 else '''  intro i t ht
  simp only [gen32, Fin.getElem_fin, Vector.getElem_ofFn]
  rw [← drawS_toNat hi ho, BitVec.testBit_toNat]''')
        o.append(f'''
theorem gen{n}_rows {{s : BitVec 32}} {{i o : Nat}} (hi : (seedIdx s).toNat = i)
    (ho : (seedOff s).toNat = o) : RowsAre (mat{n} (gen{n} s)) (drawN i o) := by
  refine rowsS (by norm_num) _ _ ?_
{bits}

theorem gen{n}_good : IsUnit (mat{n} (gen{n} {g}#32)) := by
  refine isUnit_of_check (gen{n}_rows (i := {sidx(g)}) (o := {soff(g)}) (by decide +kernel)
    (by decide +kernel)) (bs := {lst(inv(n, rows(n, g))[::-1])}) rfl ?_
  decide +kernel

theorem gen{n}_bad : ¬ IsUnit (mat{n} (gen{n} {BAD}#32)) := by
  have x := {hex(leftnull(n, rows(n, BAD)))}
  refine not_isUnit_of_check (gen{n}_rows idx_bad off_bad) {hex(leftnull(n, rows(n, BAD)))} {(leftnull(n, rows(n, BAD))).bit_length()-1} (by norm_num) (by decide +kernel) ?_
  decide +kernel
'''.replace(f"  have x := {hex(leftnull(n, rows(n, BAD)))}\n", ''))
    else:
        l = n // 64
        if l == 1:
            rowdef = 'wordN be i o k'
            pf = '''  refine rowsS (by norm_num) _ _ ?_
  intro i t ht
  simp only [gen64, Fin.getElem_fin, Vector.getElem_ofFn, row64]
  rw [← h, BitVec.testBit_toNat]'''
        else:
            rowdef = '0'
            for q in range(l):
                t = f'wordN be i o ({l} * k' + (f' + {q}' if q else '') + ')'
                rowdef = t if q == 0 else f'18446744073709551616 * ({rowdef}) + {t}'
            pf = f'''  refine rowsW (by norm_num) _ _ ?_
  intro k
  unfold row{n}
  rw [{', '.join(f"← h ({l} * k.val" + (f" + {q}" if q else "") + ")" for q in range(l))}, ← catW{l}]
  simp only [gen{n}, Fin.getElem_fin, Vector.getElem_ofFn]
  rfl'''
        o.append(f'''
/-- Row `k` on natural numbers. -/
noncomputable def row{n} (be : Bool) (i o k : Nat) : Nat := {rowdef}

theorem gen{n}_rows (env : Env) {{s : BitVec 32}} {{i o : Nat}} {{be : Bool}}
    (h : ∀ k, (wordS env s k).toNat = wordN be i o k) : RowsAre (mat{n} (gen{n} env s)) (row{n} be i o) := by
{pf}

theorem gen{n}_good (env : Env) : IsUnit (mat{n} (gen{n} env {g}#32)) := by
  obtain ⟨be, h⟩ := wordS_cases env (s := {g}#32) (i := {sidx(g)}) (o := {soff(g)}) (by decide +kernel)
    (by decide +kernel)
  cases be
  · refine isUnit_of_check (gen{n}_rows env h) (bs := {lst(inv(n, rows(n, g))[::-1])}) rfl ?_
    decide +kernel
  · refine isUnit_of_check (gen{n}_rows env h) (bs := {lst(inv(n, rows(n, g, True))[::-1])}) rfl ?_
    decide +kernel

theorem gen{n}_bad (env : Env) : ¬ IsUnit (mat{n} (gen{n} env {BAD}#32)) := by
  obtain ⟨be, h⟩ := wordS_cases env idx_bad off_bad
  refine not_isUnit_of_check (gen{n}_rows env h) {hex(leftnull(n, rows(n, BAD)))}
    {(leftnull(n, rows(n, BAD))).bit_length()-1} (by norm_num) (by decide +kernel) ?_
  cases be <;> decide +kernel
''')
o.append('end WB\n')
open('/verif/lean/Verif/Proof/SeedWit.lean', 'w').write('\n'.join(o))

p = ['''import Verif.Proof.SeedWit
import Verif.Proof.Reject
import Verif.Model.WBGE
import Verif.Prop.C12
import Verif.Prop.C13

/-!
# C58 — rejection sampling

`/repo/test/WBGEMethod_test.c` draws random matrices until one is invertible.
Generated by `tools/gen_c58.py`.
-/
namespace WB
open Matrix

/-- The state of the seed counter and of the clock after `i` further seedings. -/
def later (w : World) (i : Nat) : World :=
  { w with randseed := w.randseed + BitVec.ofNat 32 i, now := w.now + i }

theorem seedOf_later (w : World) (i : Nat) : seedOf (later w i) = seedAt w i := rfl

theorem later_seeded (K : Nat) (w : World) (i : Nat) :
    (later w i).seeded.adv K = after K w (i + 1) := by
  have key : ∀ j, (after K w j).seeded = (later w j).seeded := by
    intro j
    induction j with
    | zero => simp [after, later]
    | succ j ih =>
      show ((after K w j).seeded.adv K).seeded = _
      rw [ih]
      unfold World.seeded World.adv later seedOf
      simp only [BitVec.ofNat_add, BitVec.add_assoc, Nat.add_assoc]
  show _ = (after K w i).seeded.adv K
  rw [key]

/-- A world in which every seeding uses the seed 1. -/
def exStuck : World := ⟨0, 0, 0, fun k => BitVec.ofNat 32 k ^^^ 1#32, 0, []⟩

theorem exStuck_seed (i : Nat) : seedAt exStuck i = 1#32 := by
  show (0#32 + BitVec.ofNat 32 i) ^^^ (BitVec.ofNat 32 (0 + i) ^^^ 1#32) = 1#32
  rw [Nat.zero_add, BitVec.zero_add, ← BitVec.xor_assoc, BitVec.xor_self, BitVec.zero_xor]
''']
for n in SIZES:
    M = f'M{n}'; m = f'mat{n}'; e = 'env ' if n >= 64 else ''
    g = good(n)
    draws = n if n <= 32 else n * n // 32
    w = {4: 8, 8: 8, 16: 16, 32: 32, 64: 64}.get(n)
    if n == 4:
        cond = '''    rw [C12_isinvertM4 _ (gen4_clean s)]'''
    else:
        cond = f'''    rw [C12_isinvert{M}]'''
    if n == 4:
        p.append('''theorem gen4_clean (s : BitVec 32) : CleanM4 (gen4 s) := by
  intro i
  simp only [gen4, Fin.getElem_fin, Vector.getElem_ofFn]
  unfold Clean4
  have h : ((drawS s i &&& 0x0f).setWidth 8).toNat ≤ (drawS s i &&& 0x0f#32).toNat := by
    rw [BitVec.toNat_setWidth]; exact Nat.mod_le _ _
  have h' : (drawS s i &&& 0x0f#32).toNat ≤ 15 := by
    rw [BitVec.toNat_and]; exact Nat.and_le_right
  exact lt_of_le_of_lt (h.trans h') (by norm_num)
''')
    tmp = f'(env.junkArr {w} {n})' if w else f'(env.junkArr2 64 {n//64} {n})'
    invobt = '⟨B, hB, hAB, hBA, -⟩' if n == 4 else '⟨B, hB, hAB, hBA⟩'
    p.append(f'''/-! ## {n} -/

/-- C58: `InvTMat{M}` returns the first invertible matrix among those that `rand{M}` stores in
consecutive calls; as long as there is none it goes on. -/
theorem C58_InvTMat{M} (env : Env) (fuel : Nat) (Mat : {M}) (w : World) :
    (∃ i < fuel, ∃ A w', rand{M} {e}Mat (later w i) = .ok (A, w') ∧ IsUnit ({m} A) ∧
      (∀ j < i, ∃ B w'', rand{M} {e}Mat (later w j) = .ok (B, w'') ∧ ¬ IsUnit ({m} B)) ∧
      wbge.InvTMat{M} env fuel Mat w = .ok (A, w')) ∨
    ((∀ j < fuel, ∃ B w'', rand{M} {e}Mat (later w j) = .ok (B, w'') ∧ ¬ IsUnit ({m} B)) ∧
      wbge.InvTMat{M} env fuel Mat w = .error .diverge) := by
  classical
  have hg : ∀ j, rand{M} {e}Mat (later w j) = .ok (gen{n} {e}(seedAt w j), after {draws} w (j + 1)) := by
    intro j; rw [rand{M}_gen, seedOf_later, later_seeded]
  have hc : ∀ s, (do pure ((← isinvert{M} (gen{n} {e}s)) == 0) : C Bool) =
      .ok (decide (¬ IsUnit ({m} (gen{n} {e}s)))) := by
    intro s
{cond}
    by_cases h : IsUnit ({m} (gen{n} {e}s))
    · simp only [h, if_true, not_true_eq_false, decide_false]; rfl
    · simp only [h, if_false, not_false_eq_true, decide_true]; rfl
  have key := reject_run (rand := fun temp => rand{M} {e}temp)
    (cond := fun temp => do pure ((← isinvert{M} temp) == 0)) (gen := gen{n}{' env' if n >= 64 else ''}) (K := {draws})
    (bad := fun s => decide (¬ IsUnit ({m} (gen{n} {e}s)))) (fun a w => rand{M}_gen {e}a w) hc
    TMP w fuel
  have hrun : wbge.InvTMat{M} env fuel Mat w = (do
      let t ← (do
        let t ← rand{M} {e}TMP
        whileM (fun temp => do pure ((← isinvert{M} temp) == 0)) (fun temp => rand{M} {e}temp) fuel t)
      liftC (copy{M} t Mat) : CM {M}) w := by
    unfold wbge.InvTMat{M}
    rw [bind_assoc]
  rcases key with ⟨i, hi, hb, hu, hr⟩ | ⟨hb, hr⟩
  · left
    refine ⟨i, hi, _, _, hg i, by simpa using hu, fun j hj => ⟨_, _, hg j, by simpa using hb j hj⟩, ?_⟩
    rw [hrun, CM_bind_run hr, copy{M}_eq]
    rfl
  · right
    refine ⟨fun j hj => ⟨_, _, hg j, by simpa using hb j hj⟩, ?_⟩
    rw [hrun]
    exact CM_bind_error hr

/-- C58: `Matrixpair{M}` returns what `InvTMat{M}` returns together with its inverse. -/
theorem C58_Matrixpair{M} (env : Env) (fuel : Nat) (Mat Mat_inv : {M}) (w : World) :
    (∀ A w', wbge.InvTMat{M} env fuel Mat w = .ok (A, w') →
      ∃ B, wbge.Matrixpair{M} env fuel Mat Mat_inv w = .ok ((A, B), w') ∧
        {m} A * {m} B = 1 ∧ {m} B * {m} A = 1) ∧
    (∀ f, wbge.InvTMat{M} env fuel Mat w = .error f →
      wbge.Matrixpair{M} env fuel Mat Mat_inv w = .error f) := by
  refine ⟨fun A w' h => ?_, fun f h => CM_bind_error h⟩
  have hA : IsUnit ({m} A) := by
    rcases C58_InvTMat{M} env fuel Mat w with ⟨i, -, A', w'', -, hu, -, h'⟩ | ⟨-, h'⟩
    · rw [h] at h'
      cases h'
      exact hu
    · rw [h] at h'; cases h'
  obtain {invobt} := C13_invs{M} A Mat_inv hA
  refine ⟨B, ?_, hAB, hBA⟩
  unfold wbge.Matrixpair{M}
  rw [CM_bind_run h, hB, CM_bind_run (liftC_run _ rfl)]
  rfl

/-- C58: if the clock shows the same time during `2^32` successive seedings, however many came
before, `InvTMat{M}` returns. -/
theorem C58_InvTMat{M}_terminates (env : Env) (Mat : {M}) (w : World) (N : Nat) (c : BitVec 32)
    (hc : ∀ k, N ≤ k → k < N + 2 ^ 32 → w.clock (w.now + k) = c) :
    ∃ A w', wbge.InvTMat{M} env (N + 2 ^ 32) Mat w = .ok (A, w') ∧ IsUnit ({m} A) := by
  rcases C58_InvTMat{M} env (N + 2 ^ 32) Mat w with ⟨i, -, A, w', -, hu, -, h⟩ | ⟨hb, -⟩
  · exact ⟨A, w', h, hu⟩
  · obtain ⟨i, hi, hs⟩ := seedAt_surj w N c {g}#32 hc
    obtain ⟨B, w'', h, hn⟩ := hb i hi
    rw [rand{M}_gen, seedOf_later, hs] at h
    rw [← (Prod.mk.inj (Except.ok.inj h)).1] at hn
    exact absurd (gen{n}_good{' env' if n >= 64 else ''}) hn

/-- C58: `InvTMat{M}` can run forever: if the clock moves in step with the counter every attempt
uses the same seed. -/
theorem C58_InvTMat{M}_may_diverge : ∃ w, ∀ env fuel Mat,
    wbge.InvTMat{M} env fuel Mat w = .error .diverge := by
  refine ⟨exStuck, fun env fuel Mat => ?_⟩
  rcases C58_InvTMat{M} env fuel Mat exStuck with ⟨i, -, A, w', h, hu, -, -⟩ | ⟨-, h⟩
  · rw [rand{M}_gen, seedOf_later, exStuck_seed] at h
    rw [← (Prod.mk.inj (Except.ok.inj h)).1] at hu
    exact absurd hu (gen{n}_bad{' env' if n >= 64 else ''})
  · exact h

example (env : Env) : ∃ A w', wbge.InvTMat{M} env (2 + 2 ^ 32) exB{n}
    {{ exWorld with clock := fun k => if k < 2 then 7 else 1700000000 }} = .ok (A, w') ∧ IsUnit ({m} A) :=
  C58_InvTMat{M}_terminates env exB{n} _ 2 1700000000 (fun k h _ => by
    show (if exWorld.now + k < 2 then (7 : BitVec 32) else 1700000000) = _
    rw [if_neg (by omega)])
'''.replace('TMP', tmp))
p.append('''/-- A run with two rejected attempts. -/
example : (wbge.InvTMatM4 exEnv 9 exB4 exWorld).map (·.1) = .ok #v[0x0c, 0x08, 0x03, 0x0a] ∧
    (wbge.InvTMatM4 exEnv 2 exB4 exWorld).map (·.1) = .error .diverge := by decide +kernel
''')
p.append('end WB\n')
open('/verif/lean/Verif/Prop/C58.lean', 'w').write('\n'.join(p))
