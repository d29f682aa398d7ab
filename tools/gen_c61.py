#!/usr/bin/env python3
"""Generate lean/Verif/Prop/C61.lean (which matrices can be drawn) and lean/Verif/Prop/C62.lean
(for sizes from 32 on different seed values give different matrices)."""
import os
P = os.path.join(os.path.dirname(os.path.abspath(__file__)), '../lean/Verif/Prop/')
o = ['''import Verif.Proof.Reach
import Verif.Prop.C42

/-!
# C61 — which matrices the random functions can return (written by tools/gen_c61.py)

The sets below range over all states of the random generator, all clocks, all previous contents of
the outputs and all stack garbage.
-/
namespace WB
open Matrix

set_option maxRecDepth 20000

/-- C61: for every state and clock, the matrices that `SetRandSeed(s); randM4(&T)` can produce are all
matrices of four nibbles. -/
theorem C61_randM4 (X : M4) (w : World) (T : M4) :
    (∃ s w', (do SetRandSeed s; randM4 X) w = .ok (T, w')) ↔ ∀ i (hi : i < 4), T[i].toNat < 16 := by
  constructor
  · rintro ⟨s, w', h⟩ i hi
    rw [run_SetRandSeed, randM4_gen] at h
    obtain ⟨rfl, -⟩ := Prod.mk.inj (Except.ok.inj h)
    exact gen4_low _ i hi
  · intro h
    obtain ⟨s, rfl⟩ := gen4_surj T h
    have h1 := randM4_gen X { w with randseed := s ^^^ w.clock w.now }
    rw [show seedOf { w with randseed := s ^^^ w.clock w.now } = s from
      (BitVec.xor_assoc _ _ _).trans (by rw [BitVec.xor_self, BitVec.xor_zero])] at h1
    exact ⟨s ^^^ w.clock w.now, _, (run_SetRandSeed _ _ _).trans h1⟩

/-- C61: for every state and clock, the matrices that `SetRandSeed(s); genMatpairM4(&A, &B)` can put into
`A` are all invertible matrices (of nibbles). -/
theorem C61_genMatpairM4 (env : Env) (A0 B0 : M4) (w : World) (T : M4) :
    (∃ s B w', (do SetRandSeed s; genMatpairM4 env A0 B0) w = .ok ((T, B), w')) ↔
      (∀ i (hi : i < 4), T[i].toNat < 16) ∧ IsUnit (mat4 T) := by
  constructor
  · rintro ⟨s, B, w', h⟩
    rw [run_SetRandSeed] at h
    obtain ⟨A, B', w'', h', hAB, hBA, -, -, -, -, hc, -⟩ := C15_genMatpairM4 env A0 B0 { w with randseed := s }
    rw [h] at h'
    obtain ⟨e, -⟩ := Prod.mk.inj (Except.ok.inj h')
    obtain ⟨rfl, rfl⟩ := Prod.mk.inj e
    exact ⟨fun i hi => hc ⟨i, hi⟩, ⟨⟨_, _, hAB, hBA⟩, rfl⟩⟩
  · rintro ⟨h, hu⟩
    obtain ⟨s, v, hw⟩ := (C61_randM4 T { w with now := w.now + 1 } T).2 h
    rw [run_SetRandSeed] at hw
    obtain ⟨A, B, w', T', v', h1, h2, h3, -⟩ := C42_genMatpairM4 env A0 B0 T { w with randseed := s - 1#32 }
      { { w with now := w.now + 1 } with randseed := s }
      (congrArg (· ^^^ w.clock (w.now + 1)) (BitVec.sub_add_cancel s 1#32).symm)
    obtain ⟨hT, -⟩ := Prod.mk.inj (Except.ok.inj (hw.symm.trans h2))
    rw [← hT] at h3
    rw [(h3 hu).1] at h1
    exact ⟨s - 1#32, B, w', (run_SetRandSeed _ _ _).trans h1⟩

example : ∃ s B w', (do SetRandSeed s; genMatpairM4 exEnv exB4 exB4) exWorld = .ok ((exA4, B), w') := by
  refine (C61_genMatpairM4 exEnv exB4 exB4 exWorld exA4).2 ⟨fun i hi => exA4_clean ⟨i, hi⟩, ?_⟩
  obtain ⟨r, hr, _, h1, _⟩ := isinvertM4_ok exA4
  have : isinvertM4 exA4 = .ok 1 := by decide +kernel
  rw [hr] at this
  exact (isUnit_iff_det _).2 (h1 (Except.ok.inj this))
''']
for n in (8, 16, 32, 64, 128, 256):
    big = n >= 64
    E = '(e : Endian) ' if big else ''
    ec = 'env.endian = e ∧ ' if big else ''
    envx = '∃ env X w w\', ' + ec if big else "∃ X w w', "
    ea = 'env ' if big else ''
    exact = n >= 32
    rel = '=' if exact else '≤'
    bo = ', on a machine with the byte order `e`,' if big else ''
    bo2 = ' on a machine with\nthe byte order `e`' if big else ''
    if exact:
        o.append(f'''
/-! ## {n} -/

/-- C61: the number of different matrices that `randM{n}` can return{bo} is exactly `2^32`. -/
theorem C61_randM{n} {E}:
    {{T : M{n} | {envx}randM{n} {ea}X w = .ok (T, w')}}.Finite ∧
    {{T : M{n} | {envx}randM{n} {ea}X w = .ok (T, w')}}.ncard = 2 ^ 32 := by
  refine exact_card (gen{n}{' ⟨e, fun _ _ => 0⟩' if big else ''}) (fun s t h => gen{n}_inj {'rfl ' if big else ''}h) _ ?_
  ext T
  simp only [Set.mem_setOf_eq, Set.mem_range]
  constructor
  · rintro ⟨{'env, ' if big else ''}X, w, w', {'rfl, ' if big else ''}h⟩
    rw [randM{n}_gen] at h
    obtain ⟨rfl, -⟩ := Prod.mk.inj (Except.ok.inj h)
    exact ⟨seedOf w, {f'gen{n}_congr rfl _' if big else 'rfl'}⟩
  · rintro ⟨s, rfl⟩
    have h1 := randM{n}_gen {'⟨e, fun _ _ => 0⟩ ' if big else ''}(Vector.replicate _ ({'0' if n <= 64 else 'Vector.replicate _ 0'})) ⟨s, 0, 0, fun _ => 0, 0, []⟩
    rw [show seedOf ⟨s, 0, 0, fun _ => 0, 0, []⟩ = s from BitVec.xor_zero] at h1
    exact ⟨{'⟨e, fun _ _ => 0⟩, ' if big else ''}_, _, _, {'rfl, ' if big else ''}h1⟩
''')
    else:
        o.append(f'''
/-! ## {n} -/

/-- C61: `randM{n}` can return at most `2^32` different matrices. -/
theorem C61_randM{n} :
    {{T : M{n} | ∃ X w w', randM{n} X w = .ok (T, w')}}.Finite ∧
    {{T : M{n} | ∃ X w w', randM{n} X w = .ok (T, w')}}.ncard ≤ 2 ^ 32 := by
  refine few gen{n} _ ?_
  rintro T ⟨X, w, w', h⟩
  rw [randM{n}_gen] at h
  obtain ⟨rfl, -⟩ := Prod.mk.inj (Except.ok.inj h)
  exact ⟨seedOf w, rfl⟩
''')
    setd = f"{{P : Mat {n} | ∃ env A0 B0 w A B w', {ec}genMatpairM{n} env A0 B0 w = .ok ((A, B), w') ∧ mat{n} A = P}}"
    o.append(f'''
/-- C61: `genMatpairM{n}` can return at most `2^32` different matrices{bo2}. -/
theorem C61_genMatpairM{n} {E}:
    {setd}.ncard
      ≤ 2 ^ 32 := by
  refine (few (fun s => mat{n} (pairOf{n}{' e' if big else ''} s)) _ ?_).2
  rintro _ ⟨env, A0, B0, w, A, B, w', {'rfl, ' if big else ''}h, rfl⟩
  exact ⟨_, congrArg mat{n} (pairOf{n}_eq h)⟩

/-- C61: of the at least `2^{n*(n-1)}` invertible matrices, at most `2^32` are ever returned by `genMatpairM{n}`{bo2};
no seed, clock or state of the generator leads to any of the others. -/
theorem C61_missed_M{n} {E}:
    2 ^ {n*(n-1)} ≤ {{P : Mat {n} | IsUnit P}}.ncard ∧
    2 ^ {n*(n-1)} - 2 ^ 32 ≤ {{P : Mat {n} | IsUnit P ∧ ∀ env A0 B0 w A B w', {'env.endian = e →' if big else ''}
      genMatpairM{n} env A0 B0 w = .ok ((A, B), w') → mat{n} A ≠ P}}.ncard := by
  obtain ⟨h1, h2⟩ := missed (k := {n*(n-1)}) (by norm_num) _ (C61_genMatpairM{n}{' e' if big else ''})
  refine ⟨h1, h2.trans_eq (congrArg Set.ncard ?_)⟩
  ext P
  simp only [Set.mem_diff, Set.mem_setOf_eq, not_exists, not_and, ne_eq]
''')
pre = []
for n in (8, 16, 32, 64, 128, 256):
    big = n >= 64
    z = '0' if n <= 64 else 'Vector.replicate _ 0'
    ed = '(e : Endian) ' if big else ''
    en = '⟨e, fun _ _ => 0⟩' if big else '⟨.little, fun _ _ => 0⟩'
    pre.append(f'''
/-- The first matrix of the pair that `genMatpairM{n}` stores after seeding with `s`. -/
noncomputable def pairOf{n} {ed}(s : BitVec 32) : M{n} :=
  firstOf (Vector.replicate _ ({z})) (genMatpairM{n} {en} (Vector.replicate _ ({z})) (Vector.replicate _ ({z})) ⟨s - 1#32, 0, 0, fun _ => 0, 0, []⟩)

theorem pairOf{n}_eq {{env : Env}} {{A0 B0 A B : M{n}}} {{w w' : World}}
    (h : genMatpairM{n} env A0 B0 w = .ok ((A, B), w')) :
    pairOf{n} {'env.endian ' if big else ''}((w.randseed + 1#32) ^^^ w.clock (w.now + 1)) = A := by
  obtain ⟨r, v, v', h1, h2, -⟩ := C29_genMatpairM{n} env {en.replace('⟨e,', '⟨env.endian,')} {'rfl ' if big else ''}A0 B0 (Vector.replicate _ ({z}))
    (Vector.replicate _ ({z})) w ⟨((w.randseed + 1#32) ^^^ w.clock (w.now + 1)) - 1#32, 0, 0, fun _ => 0, 0, []⟩
    (seed_undo _)
  rw [pairOf{n}]
  exact firstOf_eq (h.symm.trans h1) h2
''')
    if big:
        ws = ', '.join(f'f ({n // 64} * i{" + %d" % k if k else ""})' for k in range(n // 64))
        row = f'#v[{ws}]' if n > 64 else 'f i'
        pre.append(f'''
/-- A matrix from a stream of words. -/
def ofWords{n} (f : Nat → BitVec 64) : M{n} := Vector.ofFn fun i => {row}

theorem gen{n}_congr {{env env' : Env}} (he : env.endian = env'.endian) (s : BitVec 32) :
    gen{n} env s = gen{n} env' s :=
  congrArg ofWords{n} (funext fun k => wordS_congr he s k)
''')
open(os.path.join(P, '../Proof/ReachPair.lean'), 'w').write('''import Verif.Proof.Reach
import Verif.Prop.C29

/-!
# The result of the pair generators as a function of the seed value

Generated by `tools/gen_c61.py`.
-/
namespace WB
open Matrix

set_option maxRecDepth 20000

/-- The first matrix of a result. -/
def firstOf {α σ : Type} (d : α) (x : Except Fault ((α × α) × σ)) : α :=
  match x with
  | .ok (p, _) => p.1
  | .error _ => d

theorem firstOf_eq {α σ : Type} {d a b : α} {r : α × α} {x : Except Fault ((α × α) × σ)} {v w' v' : σ}
    (h : (Except.ok ((a, b), w') : Except Fault ((α × α) × σ)) = .ok (r, v)) (h' : x = .ok (r, v')) :
    firstOf d x = a := by
  subst h'
  cases h
  rfl

theorem seed_undo (x : BitVec 32) : x = (x - 1#32 + 1#32) ^^^ 0 := by
  rw [BitVec.sub_add_cancel]; exact BitVec.xor_zero.symm

theorem wordS_congr {env env' : Env} (he : env.endian = env'.endian) (s : BitVec 32) (k : Nat) :
    wordS env s k = wordS env' s k := pair64_congr he _ _
''' + ''.join(pre) + '\nend WB\n')
o[0] = o[0].replace('import Verif.Proof.Reach\n', 'import Verif.Proof.ReachPair\n')
o.append('''
/-- There is an invertible 8x8 matrix that `genMatpairM8` never returns. -/
example : ∃ P : Mat 8, IsUnit P ∧ ∀ env A0 B0 w A B w',
    genMatpairM8 env A0 B0 w = .ok ((A, B), w') → mat8 A ≠ P := by
  have h := C61_missed_M8.2
  by_contra hne
  have : {P : Mat 8 | IsUnit P ∧ ∀ env A0 B0 w A B w',
      genMatpairM8 env A0 B0 w = .ok ((A, B), w') → mat8 A ≠ P} = ∅ :=
    Set.eq_empty_iff_forall_notMem.2 fun P hP => hne ⟨P, hP⟩
  rw [this, Set.ncard_empty] at h
  norm_num at h

end WB
''')
open(P + 'C61.lean', 'w').write(''.join(o))

o = ['''import Verif.Proof.Reach
import Verif.Prop.C31

/-!
# C62 — from size 32 on, different seed values give different matrices (written by tools/gen_c61.py)

`w.randseed ^^^ w.clock w.now` is the value with which a call seeds the generator: the counter before
the call xor the next reading of the clock.
-/
namespace WB
open Matrix
''']
for n in (32, 64, 128, 256):
    big = n >= 64
    ea = 'env ' if big else ''
    ev = "(env env' : Env) (he : env.endian = env'.endian) " if big else ''
    ea2 = "env' " if big else ''
    o.append(f'''
/-- C62: two calls of `randM{n}`, in any two states, return the same matrix exactly if they seed the
generator with the same value. -/
theorem C62_randM{n} {ev}(X Y : M{n}) (w v : World) :
    ∃ S T w' v', randM{n} {ea}X w = .ok (S, w') ∧ randM{n} {ea2}Y v = .ok (T, v') ∧
      (S = T ↔ w.randseed ^^^ w.clock w.now = v.randseed ^^^ v.clock v.now) := by
  refine ⟨_, _, _, _, randM{n}_gen {ea}X w, randM{n}_gen {ea2}Y v, fun h => gen{n}_inj {'he ' if big else ''}h, fun h => ?_⟩
  unfold seedOf
  rw [h{f', gen{n}_congr he' if big else ''}]

/-- C62: two calls of `randM{n}` that read the same time, with any random calls but fewer than `2^32`
seedings between them, return different matrices. -/
theorem C62_randM{n}_same_second (env : Env) (X Y : M{n}) (between : List Call) (w : World)
    (hlt : 1 + seedings between < 2 ^ 32)
    (hclock : w.clock w.now = w.clock (w.now + 1 + seedings between)) :
    ∃ S w1 w2 T w3, randM{n} {ea}X w = .ok (S, w1) ∧ runCalls env between w1 = .ok ((), w2) ∧
      randM{n} {ea}Y w2 = .ok (T, w3) ∧ S ≠ T := by
  obtain ⟨w1, w2, w3, e1, e2, e3, h⟩ := C31_calls env (.randM{n} X) (.randM{n} Y) between w trivial trivial hlt hclock
  have f1 : (Call.randM{n} X).run env w = .ok ((), _) := CM_bind_run (randM{n}_gen {ea}X w)
  have f3 : (Call.randM{n} Y).run env w2 = .ok ((), _) := CM_bind_run (randM{n}_gen {ea}Y w2)
  rw [e1] at f1
  rw [e3] at f3
  obtain ⟨-, rfl⟩ := Prod.mk.inj (Except.ok.inj f1)
  obtain ⟨-, rfl⟩ := Prod.mk.inj (Except.ok.inj f3)
  refine ⟨_, _, w2, _, _, randM{n}_gen {ea}X w, e2, randM{n}_gen {ea}Y w2, fun hST => h ?_⟩
  have := gen{n}_inj {'rfl ' if big else ''}hST
  show seedOff (seedOf w) = seedOff (seedOf w2)
  rw [this]
''')
o.append('''
/-- Two states that seed alike although counter and clock differ, and two that do not. -/
example : (⟨5, 0, 0, fun _ => 8, 0, []⟩ : World).randseed ^^^ (8 : BitVec 32) = 4 ^^^ 9 ∧
    (5 : BitVec 32) ^^^ 8 ≠ 5 ^^^ 9 := by decide

example : 1 + seedings [.genMatpairM16 exA16 exB16, .randV64 7] < 2 ^ 32 ∧
    ({ exWorld with clock := fun _ => 9 } : World).clock 0 =
      ({ exWorld with clock := fun _ => 9 } : World).clock (0 + 1 + 2) := ⟨by decide, rfl⟩

end WB
''')
o[0] = o[0].replace('import Verif.Proof.Reach\n', 'import Verif.Proof.ReachPair\n')
open(P + 'C62.lean', 'w').write(''.join(o))
