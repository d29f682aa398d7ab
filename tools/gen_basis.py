#!/usr/bin/env python3
"""Generate Model/Basis.lean, Proof/BasisTab.lean and Prop/C59.lean from the text of
/repo/test/BasisMatrixMethod_test.c: the basis matrix method."""
import re
SRC = '/repo/test/BasisMatrixMethod_test.c'
raw = open(SRC).read()
lines = raw.split('\n')
t = raw.replace('\\\n', '')
SIZES = [8, 16, 32, 64, 128]
N = {8: 16, 16: 64, 32: 256, 64: 1024, 128: 4096}

def tab(n, inv):
    nm = f"M{n} MatrixM{n}{'_inv' if inv else ''}[16]="
    i = t.index(nm); j = t.index('};', i)
    body = t[i + len(nm):j].strip()[1:]
    r = []
    for m in re.finditer(r'\[(\d+)\]\.M=\{(.*?)\}(?=,?\s*(\[\d+\]\.M|$))', body, re.S):
        ws = [int(x, 16) for x in re.findall(r'0x[0-9a-fA-F]+', m.group(2))]
        assert int(m.group(1)) == len(r) and len(ws) == n * max(1, n // 64)
        r.append(ws)
    assert len(r) == 16
    return r

def span(pat):
    a = next(i for i, l in enumerate(lines) if pat in l)
    b = a
    while lines[b].rstrip() not in ('}', '};'): b += 1
    return f'{a+1}-{b+1}'

def rows(n, ws):
    return ws if n <= 64 else [ws[2*i] << 64 | ws[2*i+1] for i in range(n)]

def inverse(n, A):
    A = list(A); B = [1 << (n-1-i) for i in range(n)]
    for c in range(n):
        b = 1 << (n-1-c)
        p = next((r for r in range(c, n) if A[r] & b), None)
        if p is None: return None
        A[c], A[p] = A[p], A[c]; B[c], B[p] = B[p], B[c]
        for r in range(n):
            if r != c and A[r] & b: A[r] ^= A[c]; B[r] ^= B[c]
    return B

def leftnull(n, A):
    """set of rows (as a list of indices) whose sum vanishes"""
    piv = {}
    for i, a in enumerate(A):
        tr = 1 << i
        while a:
            h = a.bit_length()
            if h not in piv: piv[h] = (a, tr); break
            a ^= piv[h][0]; tr ^= piv[h][1]
        if a == 0: return [k for k in range(n) if tr >> k & 1]
    return None

def lit(xs, per=8):
    s = ['0x%x' % x for x in xs]
    return '[' + ',\n  '.join(', '.join(s[i:i+per]) for i in range(0, len(s), per)) + ']'

def lit2(ws, per=4):
    s = ['(0x%x, 0x%x)' % (ws[2*i], ws[2*i+1]) for i in range(len(ws)//2)]
    return '[' + ',\n  '.join(', '.join(s[i:i+per]) for i in range(0, len(s), per)) + ']'

# ---------------------------------------------------------------- model
o = ['''import Verif.Model.Seed

/-!
# The basis matrix method — `/repo/test/BasisMatrixMethod_test.c`

Generated by `tools/gen_basis.py`.

The program draws with `srand` and `rand` of the C library.  Nothing is assumed about them: `lc s k` is the
value of the `k`-th call of `rand` after `srand(s)`, an arbitrary function (`rand` returns no negative
numbers).  `seed` and `cnt` of `LW` are the state of that generator.
-/
namespace WB.basis

/-- The global variables and the state of the C library's generator. -/
structure LW where
  w : World
  seed : BitVec 32
  cnt : Nat

abbrev BM := StateT LW (Except Fault)

def liftB {α : Type} (x : C α) : BM α := fun s =>
  match x with
  | .ok a => .ok (a, s)
  | .error e => .error e

def ofCM {α : Type} (x : CM α) : BM α := fun s =>
  match x s.w with
  | .ok (a, w) => .ok (a, { s with w := w })
  | .error e => .error e

/-- `srand(v)` -/
def srand (v : BitVec 32) : BM Unit := fun s => .ok ((), { s with seed := v, cnt := 0 })

/-- `rand()` -/
def rand (lc : BitVec 32 → Nat → Nat) : BM Nat := fun s => .ok (lc s.seed s.cnt, { s with cnt := s.cnt + 1 })

/-- The statement `srand((randseed++) ^ time(NULL));` (e.g. line 584); `randseed` is an `int` (line 39). -/
def srandReseed : BM Unit := do
  srand ((← ofCM randseedPostIncInt) ^^^ (← ofCM timeNow))

/-- An initialiser `{r0, r1, ...}` of a matrix with rows of one word. -/
def rowsM {w n : Nat} (L : List Nat) : Vector (BitVec w) n :=
  Vector.ofFn fun i => BitVec.ofNat w (L.getD i.val 0)

/-- An initialiser `{{a0, b0}, {a1, b1}, ...}` of a matrix with rows of two words. -/
def rowsM2 {n : Nat} (L : List (Nat × Nat)) : Vector (Vector (BitVec 64) 2) n :=
  Vector.ofFn fun i => #v[BitVec.ofNat 64 (L.getD i.val (0, 0)).1, BitVec.ofNat 64 (L.getD i.val (0, 0)).2]

/-- Rows of `TM8` to `TM128` (line 11). -/
abbrev TEST : Nat := 100
''']
for n in SIZES:
    for inv in (0, 1):
        nm = f"MatrixM{n}{'_inv' if inv else ''}"
        T = tab(n, inv)
        for k in range(16):
            o.append(f'''/-- `{nm}[{k}]` -/
def L{nm}_{k} : List {'Nat' if n <= 64 else '(Nat × Nat)'} := {lit(T[k]) if n <= 64 else lit2(T[k])}
''')
        f = 'rowsM' if n <= 64 else 'rowsM2'
        o.append(f'''/-- `{nm}` — `{SRC}:{span(f'M{n} {nm}[16]')}`. -/
def {nm} : Vector M{n} 16 := #v[''' + ',\n  '.join(', '.join(f'{f} L{nm}_{k}' for k in range(a, a+4)) for a in range(0, 16, 4)) + ''']
''')
for n in SIZES:
    M = f'M{n}'; c = N[n]
    junk = f'(env.junkArr {n} {n})' if n <= 64 else '(env.junkArr2 64 2 128)'
    o.append(f'''/-- `InvTMat{M}` — `{SRC}:{span(f'void InvTMat{M}(')}`. -/
def InvTMat{M} (env : Env) (lc : BitVec 32 → Nat → Nat) (Mat : {M}) : BM {M} := do
  let Temp ← liftB (identity{M} {junk})
  srandReseed
  let Temp ← forUp 0 {c} Temp fun _ Temp => do
    let randnum := (← rand lc) % 16
    liftB do MatMulMat{M} env Temp (← rd Matrix{M} randnum) Temp
  liftB (copy{M} Temp Mat)

/-- `Trail{M}` — `{SRC}:{span(f'void Trail{M}(')}`; `TM` is the array `T{M}`. -/
def Trail{M} (lc : BitVec 32 → Nat → Nat) (TM : Vector (Vector (BitVec 8) {c}) TEST) (k : Nat) :
    BM (Vector (Vector (BitVec 8) {c}) TEST) :=
  forUp 0 {c} TM fun i TM => do
    let randnum := (← rand lc) % 16
    liftB (wr2 TM k i (BitVec.ofNat 8 randnum))

/-- `InvSMat{M}` — `{SRC}:{span(f'void InvSMat{M}(')}`; `TM` is the array `T{M}`. -/
def InvSMat{M} (env : Env) (TM : Vector (Vector (BitVec 8) {c}) TEST) (Mat_inv : {M}) (k : Nat) : C {M} := do
  let Temp_inv ← identity{M} {junk}
  let Temp_inv ← forDown {c} 0 Temp_inv fun i Temp_inv => do
    MatMulMat{M} env Temp_inv (← rd Matrix{M}_inv (← rd2 TM k i).toNat) Temp_inv
  copy{M} Temp_inv Mat_inv

/-- `Matrixpair{M}` — `{SRC}:{span(f'void Matrixpair{M}(')}`. -/
def Matrixpair{M} (env : Env) (lc : BitVec 32 → Nat → Nat) (Mat Mat_inv : {M}) : BM ({M} × {M}) := do
  let Temp ← liftB (identity{M} {junk})
  let Temp_inv ← liftB (identity{M} {junk})
  srandReseed
  let (Temp, flag) ← forUp 0 {c} (Temp, Vector.replicate {c} 0) fun i (Temp, flag) => do
    let randnum := (← rand lc) % 16
    let Temp ← liftB do MatMulMat{M} env Temp (← rd Matrix{M} randnum) Temp
    let flag ← liftB (wr flag i randnum)
    pure (Temp, flag)
  let Temp_inv ← liftB do forDown {c} 0 Temp_inv fun i Temp_inv => do
    MatMulMat{M} env Temp_inv (← rd Matrix{M}_inv (← rd flag i)) Temp_inv
  let Mat ← liftB (copy{M} Temp Mat)
  let Mat_inv ← liftB (copy{M} Temp_inv Mat_inv)
  pure (Mat, Mat_inv)
''')
o.append('end WB.basis\n')
open('/verif/lean/Verif/Model/Basis.lean', 'w').write('\n'.join(o))

# ---------------------------------------------------------------- tables
o = ['''import Verif.Model.Basis
import Verif.Proof.SeedRows

/-!
# The tables of the basis matrix method

Generated by `tools/gen_basis.py`.
-/
namespace WB.basis
open Matrix

set_option maxRecDepth 100000

theorem rowsM_rows {n w : Nat} (hn : n ≤ w) (L : List Nat) :
    RowsAre (matOf n (bitS n) (rowsM L : Vector (BitVec w) n)) (fun i => L.getD i 0) := by
  refine rowsS hn _ _ ?_
  intro i t ht
  simp only [rowsM, Fin.getElem_fin, Vector.getElem_ofFn, BitVec.getLsbD_ofNat, show t < w by omega,
    decide_true, Bool.true_and]

/-- The two words of a row as one number. -/
noncomputable def cat (p : Nat × Nat) : Nat := Nat.add (Nat.mul 18446744073709551616 p.1) p.2

/-- All words are less than `2^64`. -/
noncomputable def small (L : List (Nat × Nat)) : Bool :=
  @List.rec (Nat × Nat) (fun _ => Bool) true
    (fun p _ ih => Bool.and (Bool.and (Nat.blt p.1 18446744073709551616) (Nat.blt p.2 18446744073709551616)) ih) L

theorem small_get {L : List (Nat × Nat)} (h : small L = true) (i : Nat) :
    (L.getD i (0, 0)).1 < 18446744073709551616 ∧ (L.getD i (0, 0)).2 < 18446744073709551616 := by
  induction L generalizing i with
  | nil => simp
  | cons p L ih =>
    have h' := Bool.and_eq_true_iff.1 h
    cases i with
    | zero =>
      have := Bool.and_eq_true_iff.1 h'.1
      exact ⟨Nat.le_of_ble_eq_true this.1, Nat.le_of_ble_eq_true this.2⟩
    | succ i =>
      simp only [List.getD_cons_succ]
      exact ih h'.2 i

theorem rowsM2_rows {L : List (Nat × Nat)} (h : small L = true) :
    RowsAre (mat128 (rowsM2 L)) (fun i => cat (L.getD i (0, 0))) := by
  refine rowsW (by norm_num) _ _ ?_
  intro i
  obtain ⟨h1, h2⟩ := small_get h i.val
  have e : ((rowsM2 L : M128)[i]).toList = [BitVec.ofNat 64 (L.getD i.val (0, 0)).1,
      BitVec.ofNat 64 (L.getD i.val (0, 0)).2] := by
    simp [rowsM2]
  rw [e, catW2, BitVec.toNat_ofNat, BitVec.toNat_ofNat]
  generalize hK : 18446744073709551616 = K at h1 h2 ⊢
  rw [show 2 ^ 64 = K by rw [← hK]; rfl, Nat.mod_eq_of_lt h1, Nat.mod_eq_of_lt h2]
  unfold cat
  rw [hK]
  rfl

/-- Tables of inverse matrices. -/
theorem rowsM_inv {n w : Nat} (hn : n ≤ w) (L L' : List Nat) (hl : L'.length = n)
    (h : checkInv n (fun i => L.getD i 0) L'.reverse = true) :
    matOf n (bitS n) (rowsM L : Vector (BitVec w) n) * matOf n (bitS n) (rowsM L' : Vector (BitVec w) n) = 1 := by
  refine checkInv_ok (rowsM_rows hn L) (rowsM_rows hn L') ?_ h
  have := rows_of_list L'.reverse (by rw [List.length_reverse, hl])
  rw [List.reverse_reverse] at this
  exact this

theorem rowsM2_singular {L : List (Nat × Nat)} (h : small L = true) (x k : Nat) (hk : k < 128)
    (hx : x.testBit k = true) (hc : comb ((List.range 128).map fun i => cat (L.getD i (0, 0))).reverse x % 2 ^ 128 = 0) :
    ¬ IsUnit (mat128 (rowsM2 L)) :=
  not_isUnit_of_check (rowsM2_rows h) x k hk hx hc

theorem rowsM2_unit {L : List (Nat × Nat)} (h : small L = true) {bs : List Nat} (hl : bs.length = 128)
    (hc : checkInv 128 (fun i => cat (L.getD i (0, 0))) bs = true) : IsUnit (mat128 (rowsM2 L)) :=
  isUnit_of_check (rowsM2_rows h) hl hc
''']
for n in SIZES[:4]:
    for k in range(16):
        o.append(f'''theorem inv{n}_{k} : mat{n} (rowsM LMatrixM{n}_{k}) * mat{n} (rowsM LMatrixM{n}_inv_{k}) = 1 :=
  rowsM_inv (by norm_num) _ _ rfl (by decide +kernel)''')
    o.append(f'''
/-- The matrices of the two tables are inverse to each other. -/
theorem inv{n} (k : Nat) (hk : k < 16) : mat{n} MatrixM{n}[k] * mat{n} MatrixM{n}_inv[k] = 1 := by
  unfold MatrixM{n} MatrixM{n}_inv
  have : k = ''' + ' ∨ k = '.join(map(str, range(16))) + ''' := by omega
  rcases this with ''' + ' | '.join(['rfl'] * 16) + '\n' + '\n'.join(f'  · exact inv{n}_{k}' for k in range(16)) + '\n')
def bits(n, idx):
    x = 0
    for i in idx: x |= 1 << (n - 1 - i)
    return x
for inv in (0, 1):
    nm = f"MatrixM128{'_inv' if inv else ''}"
    T = tab(128, inv)
    units = []
    for k in range(16):
        R = rows(128, T[k])
        o.append(f'theorem small_{nm}_{k} : small L{nm}_{k} = true := by decide +kernel')
        B = inverse(128, R)
        if B is None:
            x = bits(128, leftnull(128, R))
            b = x.bit_length() - 1
            o.append(f'''theorem sing_{nm}_{k} : ¬ IsUnit (mat128 (rowsM2 L{nm}_{k})) :=
  rowsM2_singular small_{nm}_{k} 0x{x:x} {b} (by norm_num) (by decide +kernel) (by decide +kernel)''')
        else:
            units.append(k)
            o.append(f'''theorem unit_{nm}_{k} : IsUnit (mat128 (rowsM2 L{nm}_{k})) := by
  refine rowsM2_unit small_{nm}_{k} (bs := {lit(list(reversed(B)), 4)}) rfl ?_
  decide +kernel''')
    if inv == 0:
        assert units == [14]
        o.append(f'''
theorem unit_{nm} (k : Nat) (hk : k < 16) : IsUnit (mat128 {nm}[k]) ↔ k = 14 := by
  unfold {nm}
  have : k = ''' + ' ∨ k = '.join(map(str, range(16))) + ''' := by omega
  rcases this with ''' + ' | '.join(['rfl'] * 16) + '\n' + '\n'.join(f'  · exact iff_of_false sing_{nm}_{k} (by norm_num)' if k != 14 else f'  · exact iff_of_true unit_{nm}_14 rfl' for k in range(16)) + '\n')
    else:
        assert units == []
        o.append(f'''
theorem sing_{nm} (k : Nat) (hk : k < 16) : ¬ IsUnit (mat128 {nm}[k]) := by
  unfold {nm}
  have : k = ''' + ' ∨ k = '.join(map(str, range(16))) + ''' := by omega
  rcases this with ''' + ' | '.join(['rfl'] * 16) + '\n' + '\n'.join(f'  · exact sing_{nm}_{k}' for k in range(16)) + '\n')
o.append('end WB.basis\n')
open('/verif/lean/Verif/Proof/BasisTab.lean', 'w').write('\n'.join(o))

# ---------------------------------------------------------------- properties
o = ['''import Verif.Proof.BasisLoop
import Verif.Proof.MulAll
import Verif.Prop.C06
import Verif.Prop.Examples

/-!
# C59 — the basis matrix method

`/repo/test/BasisMatrixMethod_test.c`.  Generated by `tools/gen_basis.py`.  `sel T r` is `T[r % 16]`; the C
library's generator `lc` is arbitrary.
-/
namespace WB
open Matrix basis

/-- Some `rand()`. -/
def exRand : BitVec 32 → Nat → Nat := fun s k => s.toNat + 7 * k * k + k / 3

def exLW : LW := ⟨exWorld, 1, 0⟩
''']
for n in SIZES:
    M = f'M{n}'; m = f'mat{n}'; c = N[n]
    seed = '(s.w.randseed ^^^ s.w.clock s.w.now)'
    prod = f'((List.range {c}).map fun i => {m} (sel Matrix{M} (lc {seed} i))).prod'
    prodr = f'((List.range {c}).reverse.map fun i => {m} (sel Matrix{M}_inv (lc {seed} i))).prod'
    junk = f'(env.junkArr {n} {n})' if n <= 64 else '(env.junkArr2 64 2 128)'
    hm = f'(m := {m}) (mul := fun A B => MatMulMat{M} env A B A) (fun A B => MatMulMat{M}_ok env A B A)'
    o.append(f'''theorem basisInvTMat{M} (env : Env) (lc : BitVec 32 → Nat → Nat) (Mat : {M}) (s : LW)
    (h : s.w.randseed ≠ 0x7fffffff#32) : OkB (basis.InvTMat{M} env lc Mat) s (fun A _ => {m} A = {prod}) := by
  obtain ⟨I, hI, h1⟩ := C06_identity{M} {junk}
  unfold basis.InvTMat{M}
  rw [OkB.bind_iff, OkB.lift_iff, hI, Ok.ok_iff, OkB.bind_iff]
  refine OkB.reseed h ?_
  refine OkB.bind (prod_loop {hm} Matrix{M} lc I s.seeded) ?_
  rintro A s' ⟨hA, rfl⟩
  rw [OkB.lift_iff, copy{M}_eq, Ok.ok_iff, hA, h1, one_mul]
  simp [LW.seeded]

theorem basisMatrixpair{M} (env : Env) (lc : BitVec 32 → Nat → Nat) (Mat Mat_inv : {M}) (s : LW)
    (h : s.w.randseed ≠ 0x7fffffff#32) : OkB (basis.Matrixpair{M} env lc Mat Mat_inv) s (fun p _ =>
      {m} p.1 = {prod} ∧
      {m} p.2 = {prodr}) := by
  obtain ⟨I, hI, h1⟩ := C06_identity{M} {junk}
  unfold basis.Matrixpair{M}
  rw [OkB.bind_iff, OkB.lift_iff, hI, Ok.ok_iff, OkB.bind_iff, OkB.lift_iff, Ok.ok_iff, OkB.bind_iff]
  refine OkB.reseed h ?_
  refine OkB.bind (pair_loop {hm} Matrix{M} lc I _ s.seeded) ?_
  rintro ⟨A, fl⟩ s' ⟨hA, hf, rfl⟩
  simp only at hA hf ⊢
  rw [OkB.bind_iff, OkB.lift_iff]
  refine (down_loop {hm} _ (fun i => sel Matrix{M}_inv (lc {seed} i)) ?_ I).mono ?_
  · intro i hi B
    rw [rd_ok _ _ hi, C_pure_bind, hf i hi, rd_sel, C_pure_bind]
    simp only [LW.seeded, Nat.zero_add]
  · intro B hB
    rw [OkB.bind_iff, OkB.lift_iff, copy{M}_eq, Ok.ok_iff, OkB.bind_iff, OkB.lift_iff, copy{M}_eq, Ok.ok_iff,
      OkB.pure_iff]
    refine ⟨?_, ?_⟩
    · rw [hA, h1, one_mul]
      simp [LW.seeded]
    · rw [hB, h1, one_mul]

/-- C59: `Trail{M}` stores {c} indices less than 16 in row `k` and leaves the other rows alone. -/
theorem C59_Trail{M} (lc : BitVec 32 → Nat → Nat) (TM : Vector (Vector (BitVec 8) {c}) 100) (k : Nat)
    (hk : k < 100) (s : LW) : ∃ TM' s', basis.Trail{M} lc TM k s = .ok (TM', s') ∧
      (∀ j (hj : j < 100), j ≠ k → TM'[j] = TM[j]) ∧
      (∀ i (hi : i < {c}), (TM'[k][i]).toNat = lc s.seed (s.cnt + i) % 16) ∧
      s' = {{ s with cnt := s.cnt + {c} }} := by
  obtain ⟨⟨TM', s'⟩, h1, h2⟩ := trail_loop lc TM k hk s
  exact ⟨TM', s', h1, h2⟩

theorem basisInvSMat{M} (env : Env) (TM : Vector (Vector (BitVec 8) {c}) 100) (Mat_inv : {M}) (k : Nat)
    (hk : k < 100) (ht : ∀ i (hi : i < {c}), (TM[k][i]).toNat < 16) :
    Ok (basis.InvSMat{M} env TM Mat_inv k) (fun B =>
      {m} B = ((List.range {c}).reverse.map fun i => {m} (sel Matrix{M}_inv (TM[k].toList.getD i 0).toNat)).prod) := by
  obtain ⟨I, hI, h1⟩ := C06_identity{M} {junk}
  unfold basis.InvSMat{M}
  rw [hI, C_pure_bind]
  refine Ok.bind (down_loop {hm} _
    (fun i => sel Matrix{M}_inv (TM[k].toList.getD i 0).toNat) ?_ I) ?_
  · intro i hi B
    have e : TM[k].toList.getD i 0 = TM[k][i] := by
      rw [List.getD_eq_getElem?_getD, List.getElem?_eq_getElem (by simpa using hi)]
      simp
    rw [rd2_ok _ _ _ hk hi, C_pure_bind, e, ← Nat.mod_eq_of_lt (ht i hi), rd_sel, C_pure_bind,
      Nat.mod_eq_of_lt (ht i hi)]
  · intro B hB
    rw [copy{M}_eq, Ok.ok_iff, hB, h1, one_mul]
''')
    if n <= 64:
        o.append(f'''/-- C59: the matrix stored by `InvTMat{M}` is invertible, whatever `rand()` does; it is the product of the
basis matrices drawn. -/
theorem C59_InvTMat{M} (env : Env) (lc : BitVec 32 → Nat → Nat) (Mat : {M}) (s : LW)
    (h : s.w.randseed ≠ 0x7fffffff#32) :
    ∃ A s', basis.InvTMat{M} env lc Mat s = .ok (A, s') ∧ IsUnit ({m} A) ∧
      {m} A = {prod} := by
  obtain ⟨⟨A, s'⟩, h1, h2⟩ := basisInvTMat{M} env lc Mat s h
  refine ⟨A, s', h1, ?_, h2⟩
  simp only at h2
  rw [h2, isUnit_prod]
  intro X hX
  obtain ⟨i, -, rfl⟩ := List.mem_map.1 hX
  exact ⟨⟨_, _, inv{n} _ _, mat_comm (inv{n} _ (Nat.mod_lt _ (by norm_num)))⟩, rfl⟩

/-- C59: `Matrixpair{M}` stores a matrix and its inverse, whatever `rand()` does. -/
theorem C59_Matrixpair{M} (env : Env) (lc : BitVec 32 → Nat → Nat) (Mat Mat_inv : {M}) (s : LW)
    (h : s.w.randseed ≠ 0x7fffffff#32) :
    ∃ A B s', basis.Matrixpair{M} env lc Mat Mat_inv s = .ok ((A, B), s') ∧
      {m} A * {m} B = 1 ∧ {m} B * {m} A = 1 ∧
      {m} A = {prod} := by
  obtain ⟨⟨⟨A, B⟩, s'⟩, h1, h2, h3⟩ := basisMatrixpair{M} env lc Mat Mat_inv s h
  simp only at h2 h3
  have hAB : {m} A * {m} B = 1 := by
    rw [h2, h3]
    exact prod_inv _ _ _ (fun i _ => inv{n} _ _)
  exact ⟨A, B, s', h1, hAB, mat_comm hAB, h2⟩

/-- C59: `InvSMat{M}` stores the inverse of the product of the basis matrices on the trail. -/
theorem C59_InvSMat{M} (env : Env) (TM : Vector (Vector (BitVec 8) {c}) 100) (Mat_inv : {M}) (k : Nat)
    (hk : k < 100) (ht : ∀ i (hi : i < {c}), (TM[k][i]).toNat < 16) :
    ∃ B, basis.InvSMat{M} env TM Mat_inv k = .ok B ∧
      ((List.range {c}).map fun i => {m} (sel Matrix{M} (TM[k].toList.getD i 0).toNat)).prod * {m} B = 1 ∧
      {m} B * ((List.range {c}).map fun i => {m} (sel Matrix{M} (TM[k].toList.getD i 0).toNat)).prod = 1 := by
  obtain ⟨B, h1, h2⟩ := basisInvSMat{M} env TM Mat_inv k hk ht
  have hAB : ((List.range {c}).map fun i => {m} (sel Matrix{M} (TM[k].toList.getD i 0).toNat)).prod * {m} B = 1 := by
    rw [h2]
    exact prod_inv _ _ _ (fun i _ => inv{n} _ _)
  exact ⟨B, h1, hAB, mat_comm hAB⟩

example : ∃ A s', basis.InvTMat{M} exEnv exRand exB{n} exLW = .ok (A, s') ∧ IsUnit ({m} A) := by
  obtain ⟨A, s', h, h1, -⟩ := C59_InvTMat{M} exEnv exRand exB{n} exLW (by decide)
  exact ⟨A, s', h, h1⟩
example : ∃ A B s', basis.Matrixpair{M} exEnv exRand exB{n} exB{n} exLW = .ok ((A, B), s') ∧
    {m} A * {m} B = 1 := by
  obtain ⟨A, B, s', h, h1, -⟩ := C59_Matrixpair{M} exEnv exRand exB{n} exB{n} exLW (by decide)
  exact ⟨A, B, s', h, h1⟩
example : ∃ B, basis.InvSMat{M} exEnv (Vector.replicate 100 (Vector.replicate {c} 7)) exB{n} 99 = .ok B := by
  obtain ⟨B, h, -⟩ := C59_InvSMat{M} exEnv (Vector.replicate 100 (Vector.replicate {c} 7)) exB{n} 99
    (by norm_num) (fun i hi => by rw [Vector.getElem_replicate, Vector.getElem_replicate]; decide)
  exact ⟨B, h⟩
''')
    else:
        o.append(f'''/-- C59: `InvTMatM128` stores the product of the matrices drawn, which is invertible exactly if all 4096
draws select matrix 14. -/
theorem C59_InvTMatM128_partial (env : Env) (lc : BitVec 32 → Nat → Nat) (Mat : M128) (s : LW)
    (h : s.w.randseed ≠ 0x7fffffff#32) :
    ∃ A s', basis.InvTMatM128 env lc Mat s = .ok (A, s') ∧
      (IsUnit (mat128 A) ↔ ∀ i < 4096, lc {seed} i % 16 = 14) ∧
      mat128 A = {prod} := by
  obtain ⟨⟨A, s'⟩, h1, h2⟩ := basisInvTMatM128 env lc Mat s h
  refine ⟨A, s', h1, ?_, h2⟩
  simp only at h2
  rw [h2, isUnit_prod]
  constructor
  · intro hu i hi
    exact (unit_MatrixM128 _ (Nat.mod_lt _ (by norm_num))).1
      (hu _ (List.mem_map.2 ⟨i, List.mem_range.2 hi, rfl⟩))
  · intro ha X hX
    obtain ⟨i, hi, rfl⟩ := List.mem_map.1 hX
    exact (unit_MatrixM128 _ (Nat.mod_lt _ (by norm_num))).2 (ha i (List.mem_range.1 hi))

/-- C59: `InvTMatM128` stores a singular matrix as soon as one draw does not select matrix 14. -/
theorem C59_InvTMatM128_violated (env : Env) (lc : BitVec 32 → Nat → Nat) (Mat : M128) (s : LW)
    (h : s.w.randseed ≠ 0x7fffffff#32) (i : Nat) (hi : i < 4096) (hl : lc {seed} i % 16 ≠ 14) :
    ∃ A s', basis.InvTMatM128 env lc Mat s = .ok (A, s') ∧ ¬ IsUnit (mat128 A) := by
  obtain ⟨A, s', h1, h2, -⟩ := C59_InvTMatM128_partial env lc Mat s h
  exact ⟨A, s', h1, fun hu => hl (h2.1 hu i hi)⟩

/-- C59: `MatrixpairM128` never stores a matrix and its inverse: the second matrix is always singular. -/
theorem C59_MatrixpairM128_violated (env : Env) (lc : BitVec 32 → Nat → Nat) (Mat Mat_inv : M128) (s : LW)
    (h : s.w.randseed ≠ 0x7fffffff#32) :
    ∃ A B s', basis.MatrixpairM128 env lc Mat Mat_inv s = .ok ((A, B), s') ∧
      ¬ IsUnit (mat128 B) ∧ mat128 A * mat128 B ≠ 1 ∧ mat128 B * mat128 A ≠ 1 := by
  obtain ⟨⟨⟨A, B⟩, s'⟩, h1, -, h3⟩ := basisMatrixpairM128 env lc Mat Mat_inv s h
  simp only at h3
  have hB : ¬ IsUnit (mat128 B) := by
    rw [h3, isUnit_prod]
    intro hu
    exact sing_MatrixM128_inv _ (Nat.mod_lt _ (by norm_num))
      (hu _ (List.mem_map.2 ⟨0, List.mem_reverse.2 (List.mem_range.2 (by norm_num)), rfl⟩))
  exact ⟨A, B, s', h1, hB, fun e => hB ⟨⟨_, _, mat_comm e, e⟩, rfl⟩, fun e => hB ⟨⟨_, _, e, mat_comm e⟩, rfl⟩⟩

/-- C59: `InvSMatM128` stores a singular matrix, whatever the trail. -/
theorem C59_InvSMatM128_violated (env : Env) (TM : Vector (Vector (BitVec 8) 4096) 100) (Mat_inv : M128) (k : Nat)
    (hk : k < 100) (ht : ∀ i (hi : i < 4096), (TM[k][i]).toNat < 16) :
    ∃ B, basis.InvSMatM128 env TM Mat_inv k = .ok B ∧ ¬ IsUnit (mat128 B) := by
  obtain ⟨B, h1, h2⟩ := basisInvSMatM128 env TM Mat_inv k hk ht
  refine ⟨B, h1, ?_⟩
  rw [h2, isUnit_prod]
  intro hu
  exact sing_MatrixM128_inv _ (Nat.mod_lt _ (by norm_num))
    (hu _ (List.mem_map.2 ⟨0, List.mem_reverse.2 (List.mem_range.2 (by norm_num)), rfl⟩))

/-- A `rand()` with which the result is invertible, and one with which it is not. -/
example : ∃ A s', basis.InvTMatM128 exEnv (fun _ _ => 30) exB128 exLW = .ok (A, s') ∧ IsUnit (mat128 A) := by
  obtain ⟨A, s', h, h1, -⟩ := C59_InvTMatM128_partial exEnv (fun _ _ => 30) exB128 exLW (by decide)
  exact ⟨A, s', h, h1.2 (fun _ _ => rfl)⟩
example : ∃ A s', basis.InvTMatM128 exEnv exRand exB128 exLW = .ok (A, s') ∧ ¬ IsUnit (mat128 A) :=
  C59_InvTMatM128_violated exEnv exRand exB128 exLW (by decide) 0 (by norm_num) (by decide)
example : ∃ A B s', basis.MatrixpairM128 exEnv exRand exB128 exB128 exLW = .ok ((A, B), s') ∧
    mat128 A * mat128 B ≠ 1 := by
  obtain ⟨A, B, s', h, -, h1, -⟩ := C59_MatrixpairM128_violated exEnv exRand exB128 exB128 exLW (by decide)
  exact ⟨A, B, s', h, h1⟩
example : ∃ B, basis.InvSMatM128 exEnv (Vector.replicate 100 (Vector.replicate 4096 7)) exB128 99 = .ok B ∧
    ¬ IsUnit (mat128 B) :=
  C59_InvSMatM128_violated exEnv (Vector.replicate 100 (Vector.replicate 4096 7)) exB128 99
    (by norm_num) (fun i hi => by rw [Vector.getElem_replicate, Vector.getElem_replicate]; decide)
''')
    o.append(f'''/-- C59: with the largest `int` in `randseed` the increment overflows. -/
theorem C59_{M}_overflow (env : Env) (lc : BitVec 32 → Nat → Nat) (Mat Mat_inv : {M}) (s : LW)
    (h : s.w.randseed = 0x7fffffff#32) : basis.InvTMat{M} env lc Mat s = .error .overflow ∧
      basis.Matrixpair{M} env lc Mat Mat_inv s = .error .overflow := by
  obtain ⟨I, hI, -⟩ := C06_identity{M} {junk}
  have hl : liftB (identity{M} {junk}) s = .ok (I, s) := by rw [hI]; rfl
  constructor
  · unfold basis.InvTMat{M}
    rw [BM_bind_run hl]
    exact BM_bind_error (srandReseed_overflow s h)
  · unfold basis.Matrixpair{M}
    rw [BM_bind_run hl, BM_bind_run hl]
    exact BM_bind_error (srandReseed_overflow s h)

example : basis.InvTMat{M} exEnv exRand exB{n} {{ exLW with w := {{ exWorld with randseed := 0x7fffffff }} }} =
    .error .overflow := (C59_{M}_overflow _ _ _ exB{n} _ rfl).1
''')
o.append('''/-- A run. -/
example : (basis.InvTMatM8 exEnv exRand exB8 exLW).map (·.1) = .ok RUN8 := by decide +kernel
example : (basis.MatrixpairM8 exEnv exRand exB8 exB8 exLW).map (·.1) = .ok (RUN8, INV8) := by decide +kernel

end WB
''')
s = '\n'.join(o).replace('RUN8', '#v[0xce, 0xcd, 0xb8, 0x23, 0x06, 0x7a, 0xcc, 0xa9]').replace(
    'INV8', '#v[0xbd, 0x1b, 0xd0, 0x63, 0x2e, 0x8a, 0x82, 0x42]')
open('/verif/lean/Verif/Prop/C59.lean', 'w').write(s)
