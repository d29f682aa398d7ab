#!/usr/bin/env python3
"""Writes lean/Verif/Prop/C28.lean .. C30.lean (random functions)."""
from propslib import *

# ---------------------------------------------------------------- C28
b = '''
theorem word_ne (env : Env) (w : World) {a b q p : Nat} (h : a + 2 * q < b + 2 * p)
    (hd : b + 2 * p - (a + 2 * q) < 2 ^ 32) : (w.adv a).word env q ≠ (w.adv b).word env p := by
  intro e
  unfold World.word at e
  have := (pair64_inj e).1
  rw [draw_adv, draw_adv] at this
  exact draw_ne h hd this

theorem word_ne' (env : Env) (w : World) {a b q p : Nat} (h : a + 2 * q ≠ b + 2 * p)
    (ha : a + 2 * q < 2 ^ 32) (hb : b + 2 * p < 2 ^ 32) :
    (w.adv a).word env q ≠ (w.adv b).word env p := by
  rcases Nat.lt_or_gt_of_ne h with h | h
  · exact word_ne env w h (by omega)
  · exact (word_ne env w h (by omega)).symm

/-- C28: the rows of a random 32×32 matrix are pairwise different. -/
theorem C28_randM32 (M : M32) (w : World) : ∃ A w', randM32 M w = .ok (A, w') ∧
    ∀ i j (hi : i < 32) (hj : j < 32), i ≠ j → A[i] ≠ A[j] := by
  refine ⟨_, _, randM32_run M w, fun i j hi hj hij => ?_⟩
  simp only [Vector.getElem_ofFn]
  rcases Nat.lt_or_gt_of_ne hij with h | h
  · exact draw_ne h (by omega)
  · exact (draw_ne h (by omega)).symm

/-- C28: the rows of a random 64×64 matrix are pairwise different. -/
theorem C28_randM64 (env : Env) (M : M64) (w : World) : ∃ A w', randM64 env M w = .ok (A, w') ∧
    ∀ i j (hi : i < 64) (hj : j < 64), i ≠ j → A[i] ≠ A[j] := by
  refine ⟨_, _, randM64_run env M w, fun i j hi hj hij => ?_⟩
  simp only [Vector.getElem_ofFn]
  exact word_ne' env _ (by omega) (by omega) (by omega)
'''
for n in (128, 256):
    l = n // 64
    wl = ' ∨ '.join(f'q = {k}' for k in range(l))
    b += f'''
/-- C28: all {l*n} words of a random {n}×{n} matrix are pairwise different. -/
theorem C28_randM{n}_words (env : Env) (M : M{n}) (w : World) : ∃ A w', randM{n} env M w = .ok (A, w') ∧
    ∀ i j (hi : i < {n}) (hj : j < {n}) q p (hq : q < {l}) (hp : p < {l}), (i, q) ≠ (j, p) →
      A[i][q] ≠ A[j][p] := by
  refine ⟨_, _, randM{n}_run env M w, fun i j hi hj q p hq hp hne => ?_⟩
  have key : ∀ i (hi : i < {n}) q (hq : q < {l}),
      (Vector.ofFn (n := {n}) fun i => #v[{', '.join(f'(w.seeded.adv ({2*l} * i)).word env {k}' for k in range(l))}])[i][q] =
        (w.seeded.adv ({2*l} * i)).word env q := by
    intro i hi q hq
    have : {wl} := by omega
    rw [Vector.getElem_ofFn]
    rcases this with {' | '.join(['rfl']*l)} <;> rfl
  rw [key i hi q hq, key j hj p hp]
  have : i = j → q ≠ p := fun h h' => hne (by rw [h, h'])
  exact word_ne' env _ (by omega) (by omega) (by omega)

/-- C28: the rows of a random {n}×{n} matrix are pairwise different. -/
theorem C28_randM{n} (env : Env) (M : M{n}) (w : World) : ∃ A w', randM{n} env M w = .ok (A, w') ∧
    ∀ i j (hi : i < {n}) (hj : j < {n}), i ≠ j → A[i] ≠ A[j] := by
  obtain ⟨A, w', h, hA⟩ := C28_randM{n}_words env M w
  refine ⟨A, w', h, fun i j hi hj hij e => ?_⟩
  exact hA i j hi hj 0 0 (by omega) (by omega) (by simp [hij]) (by rw [e])
'''
b += '''
example : ∃ A w', randM32 exB32 exWorld = .ok (A, w') ∧ A[3] ≠ A[17] := by
  obtain ⟨A, w', h, hA⟩ := C28_randM32 exB32 exWorld
  exact ⟨A, w', h, hA 3 17 (by omega) (by omega) (by omega)⟩
-- For 8-bit rows equal rows do occur, so the property is about the generator and not a triviality.
example : ∃ A w', randM8 exB8 ⟨20, 0, 0, fun _ => 0, 0, []⟩ = .ok (A, w') ∧ ∃ i j, ∃ hi : i < 8, ∃ hj : j < 8,
    i ≠ j ∧ A[i] = A[j] := EQROWS8
'''

# independent implementation of the generator to find an example
def qpr(x):
    P = 4294967291
    if x >= P: return x
    r = x * x % P
    return r if x <= P // 2 else P - r
M32b = (1 << 32) - 1
def init(s):
    return qpr((qpr(s) + 0x682f0161) & M32b), qpr((qpr((s + 1) & M32b) + 0x46790905) & M32b)
def drw(o, i): return qpr(((qpr(i) + o) & M32b) ^ 0x5bf03635)
for sd in range(1000):
    ix, of = init(sd)
    rows = [drw(of, (ix + k) & M32b) & 255 for k in range(8)]
    pr = [(i, j) for i in range(8) for j in range(i) if rows[i] == rows[j]]
    if pr: break
b = b.replace('⟨20, 0, 0, fun _ => 0, 0, []⟩', f'⟨{sd}, 0, 0, fun _ => 0, 0, []⟩')
b = b.replace('EQROWS8', f'''by
  refine ⟨_, _, randM8_run _ _, {pr[0][0]}, {pr[0][1]}, by omega, by omega, by omega, ?_⟩
  decide +kernel''')
write('C28', ['Verif.Proof.RandRun', 'Verif.Prop.Examples'], '# C28 — random matrices have pairwise different rows', b)

# ---------------------------------------------------------------- C29
b = ''
H = '''w.randseed ^^^ w.clock w.now = w'.randseed ^^^ w'.clock w'.now'''
H2 = '''(w.randseed + 1#32) ^^^ w.clock (w.now + 1) = (w'.randseed + 1#32) ^^^ w'.clock (w'.now + 1)'''
for n in ALL:
    big = n >= 64
    E, E2 = ('env ', "env' ") if big else ('', '')
    he = "(env env' : Env) (he : env.endian = env'.endian) " if big else ''
    hg = he or "(env env' : Env) "
    hea = 'he ' if big else ''
    for f in 'MV':
        if (f, n) == ('V', 64): continue
        b += f'''
/-- C29: `rand{f}{n}` depends only on seed xor clock. -/
theorem C29_rand{f}{n} {he}(X X' : {f}{n}) (w w' : World)
    (h : {H}) :
    ∃ r v v', rand{f}{n} {E}X w = .ok (r, v) ∧ rand{f}{n} {E2}X' w' = .ok (r, v') ∧
      v.m_index = v'.m_index ∧ v.m_intermediateOffset = v'.m_intermediateOffset := by
  obtain ⟨r, v, v', h1, h2, h3⟩ := rand{f}{n}_rel {hea}X X' h
  exact ⟨r, v, v', h1, h2, h3.1, h3.2⟩
'''
    b += f'''
/-- C29: `genMatpairM{n}` depends only on the seed xor clock of its second seeding; the first one,
the old contents of the outputs{'' if big else ', the byte order'} and the stack garbage do not matter. -/
theorem C29_genMatpairM{n} {hg}(A B A' B' : M{n}) (w w' : World)
    (h : {H2}) :
    ∃ r v v', genMatpairM{n} env A B w = .ok (r, v) ∧ genMatpairM{n} env' A' B' w' = .ok (r, v') ∧
      v.m_index = v'.m_index ∧ v.m_intermediateOffset = v'.m_intermediateOffset :=
  rel_pair (genMatpairM{n}_rel {hea or "env env' "}A B A' B' h) (genMatpairM{n}_ok env A B w)
'''
b = '''
theorem rel_pair {α : Type} {x y : CM α} {w w' : World} {P : α → World → Prop}
    (h : RelC (fun p q => p.1 = q.1 ∧ GenEq p.2 q.2) (x w) (y w')) (hx : OkM x w P) :
    ∃ r v v', x w = .ok (r, v) ∧ y w' = .ok (r, v') ∧ v.m_index = v'.m_index ∧
      v.m_intermediateOffset = v'.m_intermediateOffset := by
  obtain ⟨⟨r, v⟩, hr, -⟩ := hx
  rw [hr] at h ⊢
  generalize y w' = y at h ⊢
  cases y with
  | error e => exact (RelC_ok_error h).elim
  | ok q =>
    rw [RelC_ok_iff] at h
    obtain ⟨r', v'⟩ := q
    obtain ⟨h1, h2, h3⟩ := h
    cases h1
    exact ⟨r, v, v', rfl, rfl, h2, h3⟩
''' + b + '''
/-- Corollary: `SetRandSeed` with the same value and the same clock readings give the same pair. -/
theorem C29_SetRandSeed_genMatpairM8 (env env' : Env) (A B A' B' : M8) (w w' : World) (s : BitVec 32)
    (h : w.clock (w.now + 1) = w'.clock (w'.now + 1)) :
    ∃ r v v', (do SetRandSeed s; genMatpairM8 env A B) w = .ok (r, v) ∧
      (do SetRandSeed s; genMatpairM8 env' A' B') w' = .ok (r, v') := by
  have e : ∀ w, SetRandSeed s w = .ok ((), { w with randseed := s }) := fun _ => rfl
  rw [CM_bind_run (e w), CM_bind_run (e w')]
  obtain ⟨r, v, v', h1, h2, -⟩ := C29_genMatpairM8 env env' A B A' B' { w with randseed := s }
    { w' with randseed := s } (by simp only; rw [h])
  exact ⟨r, v, v', h1, h2⟩

/-- A second world with a different history: other counter, other clock, other generator state,
some output already printed. -/
def exWorld2 : World := ⟨5 ^^^ 1700000000 ^^^ 99, 1, 2, fun k => if k = 7 then 99 else 0, 7, ['x']⟩

example : exWorld.randseed ^^^ exWorld.clock exWorld.now =
    exWorld2.randseed ^^^ exWorld2.clock exWorld2.now := by decide +kernel

def exWorld3 : World := ⟨0, 0, 0, fun k => if k = 1 then 6 ^^^ 1700000000 ^^^ 1 else 3, 0, []⟩
example : (exWorld.randseed + 1#32) ^^^ exWorld.clock (exWorld.now + 1) =
    (exWorld3.randseed + 1#32) ^^^ exWorld3.clock (exWorld3.now + 1) := by decide +kernel
'''
write('C29', ['Verif.Proof.RelAll', 'Verif.Prop.Examples'], '''
# C29 — random functions are determined by seed xor clock

`w.randseed ^^^ w.clock w.now` is the value with which the first seeding of a call seeds the
generator: the counter before the call xor the next reading of the clock. The pair generators seed
twice; the second seeding sees the counter increased by one and the following clock reading.
''', b)

# ---------------------------------------------------------------- C30
b = '''
theorem even_succ_xor (r t : BitVec 32) (hr : r.toNat % 2 = 0) (ht : t.toNat % 2 = 0) :
    (r + 1#32) ^^^ (t + 1#32) = r ^^^ t := by
  have h1 : ∀ x : BitVec 32, x.toNat % 2 = 0 → x + 1#32 = x ^^^ 1#32 := by
    intro x hx
    have h2 : x &&& 1#32 = 0#32 := by
      apply BitVec.eq_of_toNat_eq
      rw [BitVec.toNat_and]
      show x.toNat &&& 1 = 0
      rw [Nat.and_one_is_mod, hx]
    rw [BitVec.add_eq_or_of_and_eq_zero _ _ h2]
    apply BitVec.eq_of_toNat_eq
    rw [BitVec.toNat_or, BitVec.toNat_xor]
    apply Nat.eq_of_testBit_eq
    intro i
    rw [Nat.testBit_or, Nat.testBit_xor]
    have h3 : (x.toNat &&& 1).testBit i = false := by
      rw [Nat.and_one_is_mod, hx]; exact Nat.zero_testBit i
    rw [Nat.testBit_and] at h3
    show (x.toNat.testBit i || Nat.testBit 1 i) = (x.toNat.testBit i ^^ Nat.testBit 1 i)
    revert h3
    cases x.toNat.testBit i <;> cases Nat.testBit 1 i <;> simp
  rw [h1 r hr, h1 t ht, BitVec.xor_assoc, BitVec.xor_comm t, ← BitVec.xor_assoc 1#32,
    BitVec.xor_self, BitVec.zero_xor]
'''
def ADV(f, n): return (1 if n < 64 else 2 * max(1, n // 64)) * (n if f == 'M' else 1)
for n in ALL:
    big = n >= 64
    E = 'env ' if big else ''
    he = '(env : Env) ' if big else ''
    hea = '(env := env) rfl ' if big else ''
    for f in 'MV':
        if (f, n) == ('V', 64): continue
        b += f'''
/-- C30 is false for `rand{f}{n}`: two consecutive calls, the first in an even second with an even
counter and the second one second later, return the very same {'matrix' if f == 'M' else 'vector'}. -/
theorem C30_rand{f}{n}_violated {he}(X Y : {f}{n}) (w : World) (hr : w.randseed.toNat % 2 = 0)
    (ht : (w.clock w.now).toNat % 2 = 0) (hs : w.clock (w.now + 1) = w.clock w.now + 1#32) :
    ∃ r w1 w2, rand{f}{n} {E}X w = .ok (r, w1) ∧ rand{f}{n} {E}Y w1 = .ok (r, w2) := by
  have h1 := rand{f}{n}_run {E}X w
  obtain ⟨r, v, v', e1, e2, -⟩ := rand{f}{n}_rel {"(rfl : env.endian = env.endian) " if big else ""}X Y (w := w) (w' := w.seeded.adv {ADV(f,n)})
    (show w.randseed ^^^ w.clock w.now = (w.randseed + 1#32) ^^^ w.clock (w.now + 1) by
      rw [hs, even_succ_xor _ _ hr ht])
  exact ⟨r, _, v', e1.trans (by rw [(Prod.mk.inj (Except.ok.inj (h1.symm.trans e1))).2]), e2⟩
'''
        b += f'''
/-- The part of C30 that holds: two consecutive `rand{f}{n}` calls whose clock readings are equal (or,
more generally, for which counter xor clock differs) leave the generator in different states. Missing for
the full claim: it is false without the hypothesis on the clock, see `C30_rand{f}{n}_violated`. -/
theorem C30_rand{f}{n}_partial {he}(X Y : {f}{n}) (w : World)
    (ht : (w.randseed + 1#32) ^^^ w.clock (w.now + 1) ≠ w.randseed ^^^ w.clock w.now) :
    ∃ r s w1 w2, rand{f}{n} {E}X w = .ok (r, w1) ∧ rand{f}{n} {E}Y w1 = .ok (s, w2) ∧
      w1.m_intermediateOffset ≠ w2.m_intermediateOffset := by
  refine ⟨_, _, _, _, rand{f}{n}_run {E}X w, rand{f}{n}_run {E}Y _, fun h => ht ?_⟩
  have h' : seedOff (seedOf w) = seedOff (seedOf (w.seeded.adv {ADV(f,n)})) := h
  exact (seedOff_inj _ _ h').symm
'''
b += '''
/-- The exact condition for two consecutive seedings to collide, and that equal clock readings are
never such a case. -/
theorem C30_collision (r t t' : BitVec 32) :
    ((r + 1#32) ^^^ t' = r ^^^ t ↔ r ^^^ (r + 1#32) = t ^^^ t') ∧ (r + 1#32) ^^^ t ≠ r ^^^ t := by
  have key : ∀ a b c d : BitVec 32, a ^^^ b = c ^^^ d ↔ c ^^^ a = d ^^^ b := by
    intro a b c d
    constructor
    · intro h
      have e : c ^^^ a = c ^^^ (a ^^^ b) ^^^ b := by rw [← BitVec.xor_assoc, BitVec.xor_assoc, BitVec.xor_self, BitVec.xor_zero]
      rw [e, h, ← BitVec.xor_assoc, BitVec.xor_self, BitVec.zero_xor]
    · intro h
      have e : a ^^^ b = c ^^^ (c ^^^ a) ^^^ b := by rw [← BitVec.xor_assoc, BitVec.xor_self, BitVec.zero_xor]
      rw [e, h, BitVec.xor_assoc, BitVec.xor_assoc, BitVec.xor_self, BitVec.xor_zero]
  refine ⟨key _ _ _ _, fun h => ?_⟩
  rw [key, BitVec.xor_self, BitVec.xor_eq_zero_iff] at h
  have := congrArg BitVec.toNat h
  rw [BitVec.toNat_add] at this
  have := r.isLt
  simp at *

/-- Counter 0 (a fresh process), time stamp 1700000000, the clock moves by one second between the
two calls. -/
def exWorldTick : World := ⟨0, 0, 0, fun k => BitVec.ofNat 32 (1700000000 + k), 0, []⟩

example : exWorldTick.randseed.toNat % 2 = 0 ∧ (exWorldTick.clock exWorldTick.now).toNat % 2 = 0 ∧
    exWorldTick.clock (exWorldTick.now + 1) = exWorldTick.clock exWorldTick.now + 1#32 := by
  decide +kernel
example : (exWorld.randseed + 1#32) ^^^ exWorld.clock (exWorld.now + 1) ≠
    exWorld.randseed ^^^ exWorld.clock exWorld.now := by decide +kernel
'''
write('C30', ['Verif.Proof.RelAll', 'Verif.Prop.Examples'], '''
# C30 — consecutive random draws in different seconds (violated)
''', b)

# ---------------------------------------------------------------- C31
cons, run, seeds, isr, rec = [], [], [], [], []
for n in ALL:
    E = 'env ' if n >= 64 else ''
    cons.append(f'  | randM{n} (old : M{n})'); run.append(f'  | .randM{n} old => do let _ ← WB.randM{n} {E}old')
    seeds.append(f'  | .randM{n} _ => 1'); isr.append(f'  | .randM{n} _ => True')
    rec.append(f'''  | randM{n} old =>
    exact ⟨_, CM_bind_run (randM{n}_run {E}old w), rfl, rfl, rfl, fun _ => rfl⟩''')
for n in ALL:
    E = 'env ' if n >= 64 else ''
    cons.append(f'  | randV{n} (old : V{n})'); run.append(f'  | .randV{n} old => do let _ ← WB.randV{n} {E}old')
    seeds.append(f'  | .randV{n} _ => {0 if n == 64 else 1}'); isr.append(f'  | .randV{n} _ => {"False" if n == 64 else "True"}')
    if n == 64:
        rec.append(f'''  | randV64 old =>
    exact ⟨_, CM_bind_run (randV64_run env old w), by show w.randseed = w.randseed + 0#32; rw [BitVec.add_zero],
      rfl, rfl, fun h => h.elim⟩''')
    else:
        rec.append(f'''  | randV{n} old =>
    exact ⟨_, CM_bind_run (randV{n}_run {E}old w), rfl, rfl, rfl, fun _ => rfl⟩''')
for n in ALL:
    cons.append(f'  | genMatpairM{n} (old old_inv : M{n})'); run.append(f'  | .genMatpairM{n} A B => do let _ ← WB.genMatpairM{n} env A B')
    seeds.append(f'  | .genMatpairM{n} _ _ => 2'); isr.append(f'  | .genMatpairM{n} _ _ => False')
    rec.append(f'''  | genMatpairM{n} A B =>
    obtain ⟨⟨r, w'⟩, h, h'⟩ := genMatpairM{n}_ok env A B w
    have hw : GenWorld w w' := by {'exact h'+"'.2.2.2" if n == 4 else 'exact h'+"'.2"}
    exact ⟨w', CM_bind_run h, hw.1, hw.2.1, hw.2.2.1, fun h => h.elim⟩''')
for n in ALL[:-1]:
    k = 2 if n == 64 else 3
    cons.append(f'  | genaffinepairM{n} (old old_inv : Aff{n})'); run.append(f'  | .genaffinepairM{n} f g => do let _ ← WB.genaffinepairM{n} env f g')
    seeds.append(f'  | .genaffinepairM{n} _ _ => {k}'); isr.append(f'  | .genaffinepairM{n} _ _ => False')
    rec.append(f'''  | genaffinepairM{n} f g =>
    obtain ⟨⟨r, w'⟩, h, h'⟩ := genaffinepairM{n}_ok env f g w
    obtain ⟨{'-, -, -, -, -, -,' if n == 4 else '-, -,'} h1, h2, h3, -⟩ := h'
    exact ⟨w', CM_bind_run h, h1, h2, h3, fun h => h.elim⟩''')
nl = '\n'
b = f'''
/-- The calls of the library that use the random number generator. The parameters are the old contents
of the objects the call overwrites. -/
inductive Call
{nl.join(cons)}

/-- Perform a call and drop its result. -/
def Call.run (env : Env) : Call → CM Unit
{nl.join(run)}

/-- How often a call seeds the generator. -/
def Call.seedings : Call → Nat
{nl.join(seeds)}

/-- The calls C31 speaks about: `randM<n>`, and `randV<n>` for `n` other than 64. -/
def Call.isRand : Call → Prop
{nl.join(isr)}

/-- Perform a sequence of calls. -/
def runCalls (env : Env) : List Call → CM Unit
  | [] => pure ()
  | c :: cs => do
    c.run env
    runCalls env cs

/-- Total number of seedings of a sequence of calls. -/
def seedings (cs : List Call) : Nat := (cs.map Call.seedings).sum

theorem Call.run_ok (env : Env) (c : Call) (w : World) : ∃ w', c.run env w = .ok ((), w') ∧
    w'.randseed = w.randseed + BitVec.ofNat 32 c.seedings ∧ w'.now = w.now + c.seedings ∧
    w'.clock = w.clock ∧ (c.isRand → w'.m_intermediateOffset = seedOff (seedOf w)) := by
  cases c with
{nl.join(rec)}

theorem runCalls_ok (env : Env) (cs : List Call) (w : World) : ∃ w', runCalls env cs w = .ok ((), w') ∧
    w'.randseed = w.randseed + BitVec.ofNat 32 (seedings cs) ∧ w'.now = w.now + seedings cs ∧
    w'.clock = w.clock := by
  induction cs generalizing w with
  | nil => exact ⟨w, rfl, by simp [seedings], by simp [seedings], rfl⟩
  | cons c cs ih =>
    obtain ⟨w1, h1, hr, hn, hc, -⟩ := c.run_ok env w
    obtain ⟨w2, h2, hr2, hn2, hc2⟩ := ih w1
    refine ⟨w2, ?_, ?_, ?_, hc2.trans hc⟩
    · rw [runCalls, CM_bind_run h1, h2]
    · rw [hr2, hr, BitVec.add_assoc, ← BitVec.ofNat_add]; rfl
    · rw [hn2, hn, Nat.add_assoc]; rfl

/-- C31: take any two `randM`/`randV` calls in any sequence of calls, with fewer than `2^32` seedings from
the first to the second, that read the same time from the clock. They seed the generator differently: the
generator states after the two calls have different offsets. -/
theorem C31_calls (env : Env) (c1 c2 : Call) (between : List Call) (w : World)
    (h1 : c1.isRand) (h2 : c2.isRand) (hlt : 1 + seedings between < 2 ^ 32)
    (hclock : w.clock w.now = w.clock (w.now + 1 + seedings between)) :
    ∃ w1 w2 w3, c1.run env w = .ok ((), w1) ∧ runCalls env between w1 = .ok ((), w2) ∧
      c2.run env w2 = .ok ((), w3) ∧ w1.m_intermediateOffset ≠ w3.m_intermediateOffset := by
  obtain ⟨w1, e1, hr1, hn1, hc1, ho1⟩ := c1.run_ok env w
  obtain ⟨w2, e2, hr2, hn2, hc2⟩ := runCalls_ok env between w1
  obtain ⟨w3, e3, -, -, -, ho3⟩ := c2.run_ok env w2
  refine ⟨w1, w2, w3, e1, e2, e3, ?_⟩
  have hs : c1.seedings = 1 := by cases c1 <;> first | rfl | exact h1.elim
  rw [hs] at hr1 hn1
  rw [ho1 h1, ho3 h2]
  intro h
  have h := seedOff_inj _ _ h
  unfold seedOf at h
  rw [hc2, hc1, hn2, hn1, ← hclock] at h
  have h : w.randseed = w2.randseed := by
    have := congrArg (· ^^^ w.clock w.now) h
    simpa [BitVec.xor_assoc] using this
  rw [hr2, hr1, BitVec.add_assoc, ← BitVec.ofNat_add] at h
  have h0 : BitVec.ofNat 32 (1 + seedings between) = 0#32 := by
    have := BitVec.add_right_eq_self.mp h.symm
    exact this
  have := congrArg BitVec.toNat h0
  rw [BitVec.toNat_ofNat, Nat.mod_eq_of_lt hlt] at this
  simp at this

/-- C31, special case of a clock that stands still: consecutive calls differ. -/
theorem C31_consecutive (env : Env) (c1 c2 : Call) (w : World) (h1 : c1.isRand) (h2 : c2.isRand)
    (t : BitVec 32) (hclock : ∀ k, w.clock k = t) :
    ∃ w1 w3, c1.run env w = .ok ((), w1) ∧ c2.run env w1 = .ok ((), w3) ∧
      w1.m_intermediateOffset ≠ w3.m_intermediateOffset := by
  obtain ⟨w1, w2, w3, e1, e2, e3, h⟩ := C31_calls env c1 c2 [] w h1 h2 (by simp [seedings])
    (by rw [hclock, hclock])
  cases e2
  exact ⟨w1, w3, e1, e3, h⟩

/-- The sequence `randM8; genMatpairM16; randV64; randV8` within one second. -/
example : (Call.randM8 exB8).isRand ∧ (Call.randV8 3).isRand ∧
    1 + seedings [.genMatpairM16 exA16 exB16, .randV64 7] < 2 ^ 32 ∧
    ({{ exWorld with clock := fun _ => 9 }} : World).clock 0 =
      ({{ exWorld with clock := fun _ => 9 }} : World).clock (0 + 1 + 2) :=
  ⟨trivial, trivial, by decide, rfl⟩
'''
write('C31', ['Verif.Proof.RandRun', 'Verif.Proof.Affine', 'Verif.Prop.Examples'], '# C31 — draws within one second are seeded differently', b)

# ---------------------------------------------------------------- C32
def o64(): return (drw(0, 0) << 32) | drw(0, 1)
b = f'''
/-- C32 is false: whatever seed was set, whatever the clock shows, `randV64` returns the same vector; it only
depends on the state in which earlier calls left the generator. -/
theorem C32_randV64_violated (env : Env) (X Y : V64) (s t : BitVec 32) (clock clock' : Nat → BitVec 32)
    (now now' : Nat) (w : World) :
    ∃ r v v', (do SetRandSeed s; randV64 env X) {{ w with clock := clock, now := now }} = .ok (r, v) ∧
      (do SetRandSeed t; randV64 env Y) {{ w with clock := clock', now := now' }} = .ok (r, v') := by
  have e : ∀ s w, SetRandSeed s w = .ok ((), {{ w with randseed := s }}) := fun _ _ => rfl
  rw [CM_bind_run (e s _), CM_bind_run (e t _)]
  obtain ⟨r, v, v', h1, h2, -⟩ := randV64_rel (rfl : env.endian = env.endian) X Y
    (w := {{ w with clock := clock, now := now, randseed := s }})
    (w' := {{ w with clock := clock', now := now', randseed := t }}) ⟨rfl, rfl⟩
  exact ⟨r, v, v', h1, h2⟩

/-- C32 is false: in a fresh process (both words of the generator state are 0) the first `randV64` returns the
constant `{hex(o64())}` on a little-endian machine, whatever `SetRandSeed` was given. -/
theorem C32_randV64_fresh_violated (env : Env) (he : env.endian = .little) (X : V64) (s : BitVec 32) (w : World)
    (h1 : w.m_index = 0) (h2 : w.m_intermediateOffset = 0) :
    ∃ v, (do SetRandSeed s; randV64 env X) w = .ok ({hex(o64())}#64, v) := by
  have e : ∀ s w, SetRandSeed s w = .ok ((), {{ w with randseed := s }}) := fun _ _ => rfl
  rw [CM_bind_run (e s _), randV64_run]
  refine ⟨_, congrArg (fun x => Except.ok (x, _)) ?_⟩
  refine (word_congr (env' := ⟨.little, fun _ _ => 0⟩) he (w' := ⟨0, 0, 0, fun _ => 0, 0, []⟩) ⟨h1, h2⟩ 0).trans ?_
  decide +kernel

/-- The part of C32 that holds: if any other `randV`/`randM` call (here `randV8`) runs between `SetRandSeed` and
`randV64`, two different seeds (at the same time) put the generator into two different states before `randV64`
draws, and `randV64` is the function `word` of that state. Missing: without such a call the seed has no
influence, see `C32_randV64_violated`. -/
theorem C32_randV64_partial (env : Env) (X : V64) (Z : V8) (s t : BitVec 32) (hst : s ≠ t) (w : World) :
    ∃ z z' r r' v v' u u', (do SetRandSeed s; randV8 Z) w = .ok (z, v) ∧
      (do SetRandSeed t; randV8 Z) w = .ok (z', v') ∧
      randV64 env X v = .ok (r, u) ∧ randV64 env X v' = .ok (r', u') ∧
      v.m_intermediateOffset ≠ v'.m_intermediateOffset := by
  have e : ∀ s w, SetRandSeed s w = .ok ((), {{ w with randseed := s }}) := fun _ _ => rfl
  rw [CM_bind_run (e s _), CM_bind_run (e t _)]
  refine ⟨_, _, _, _, _, _, _, _, randV8_run _ _, randV8_run _ _, randV64_run _ _ _, randV64_run _ _ _, ?_⟩
  intro h
  have h : s ^^^ w.clock w.now = t ^^^ w.clock w.now := seedOff_inj _ _ h
  have := congrArg (· ^^^ w.clock w.now) h
  exact hst (by simpa [BitVec.xor_assoc] using this)

example : exEnv.endian = .little := rfl
example : (1 : BitVec 32) ≠ 2 := by decide
'''
write('C32', ['Verif.Proof.RelAll', 'Verif.Prop.Examples'], '# C32 — `randV64` and `SetRandSeed` (violated)', b)
