#!/usr/bin/env python3
"""Writes the property files C01..C08 and the shared concrete examples."""
from propslib import *

# ---------------------------------------------------------------- examples
b = '''/-- A little-endian machine with non-zero stack garbage. -/
def exEnv : Env := ⟨.little, fun w k => BitVec.ofNat w (k * 37 + 11)⟩

/-- A big-endian machine with non-zero stack garbage. -/
def exEnvBE : Env := ⟨.big, fun w k => BitVec.ofNat w (k * 37 + 11)⟩

/-- Some state of the globals: the clock ticks once every three readings. -/
def exWorld : World := ⟨5, 17, 23, fun k => BitVec.ofNat 32 (1700000000 + k / 3), 0, []⟩

set_option maxRecDepth 20000
'''
for n in ALL:
    b += f'''
/-- A concrete invertible, non-symmetric `{n}×{n}` matrix (ones on the diagonal and just right of it). -/
def exA{n} : M{n} := {litM(n, exA(n))}
/-- A concrete `{n}×{n}` matrix. -/
def exB{n} : M{n} := {litM(n, exB(n))}
/-- A concrete vector of length {n}. -/
def exX{n} : V{n} := {lit(n, exX(n))}
'''
b += '''
theorem exA4_clean : CleanM4 exA4 := by decide +kernel
theorem exB4_clean : CleanM4 exB4 := by decide +kernel
'''
write('Examples', ['Verif.Spec'], '# Concrete objects used by the examples that accompany the property theorems', b)

EX = 'Verif.Prop.Examples'
# ---------------------------------------------------------------- C01
b = 'set_option maxRecDepth 20000\n'
for n in ALL:
    cl = ' ∧ Clean4 y' if n == 4 else ''
    doc = f'`MatMulVecM{n}` stores the product of the matrix and the vector.'
    if n == 4:
        doc += '  Rows and vector may have\ndirty high nibbles; the result never has.'
    b += f'''
/-- C01: {doc} -/
theorem C01_MatMulVecM{n} (env : Env) (A : M{n}) (x ans : V{n}) :
    ∃ y, MatMulVecM{n} env A x ans = .ok y ∧ vec{n} y = (mat{n} A).mulVec (vec{n} x){cl} :=
  MatMulVecM{n}_ok env A x ans
'''
    if n <= 128:
        b += f'''
example : MatMulVecM{n} exEnv exB{n} exX{n} exX{n} = .ok {lit(n, mul_vec(n, exB(n), exX(n)))} := by decide +kernel
'''
    else:
        b += f'''
example : ∃ y, MatMulVecM{n} exEnvBE exB{n} exX{n} exX{n} = .ok y ∧ vec{n} y = (mat{n} exB{n}).mulVec (vec{n} exX{n}) :=
  C01_MatMulVecM{n} exEnvBE exB{n} exX{n} exX{n}
'''
    if n <= 64:
        b += f'''example : MatMulVecM{n} exEnvBE exB{n} exX{n} exX{n} = .ok {lit(n, mul_vec(n, exB(n), exX(n)))} := by decide +kernel
'''
write('C01', ['Verif.Proof.MulAll', EX], '''# C01 — matrix-vector product

`MatMulVecM<n>(Mat, Vec, &ans)` terminates without undefined behaviour and leaves the GF(2)
product in `ans`, for every old content of `ans`, on both byte orders.''', b)
# ---------------------------------------------------------------- C02
b = 'set_option maxRecDepth 20000\n'
for n in W:
    cl = ' ∧ Clean4 y' if n == 4 else ''
    b += f'''
/-- C02: `MatMulNumM{n}` returns the product, and it is exactly what `MatMulVecM{n}` stores. -/
theorem C02_MatMulNumM{n} (env : Env) (A : M{n}) (x : BitVec {W[n]}) (ans : V{n}) :
    ∃ y, MatMulNumM{n} env A x = .ok y ∧ MatMulVecM{n} env A x ans = .ok y ∧
      vec{n} y = (mat{n} A).mulVec (vec{n} x){cl} := by
  obtain ⟨y, hy, h⟩ := MatMulNumM{n}_ok env A x
  obtain ⟨z, hz, h'⟩ := MatMulVecM{n}_ok env A x ans
  have e : y = z := {'vec4_inj h.2 h' + "'.2 (h.1.trans h'.1.symm)" if n == 4 else "vecS_inj (h.trans h'.symm)"}
  subst e
  exact ⟨y, hy, hz, h⟩

example : MatMulNumM{n} exEnv exB{n} exX{n} = .ok {lit(n, mul_vec(n, exB(n), exX(n)))} := by decide +kernel
'''
write('C02', ['Verif.Proof.Inj', EX], '''# C02 — matrix-number product agrees with matrix-vector product''', b)
# ---------------------------------------------------------------- C03
b = 'set_option maxRecDepth 20000\n'
for n in ALL:
    hyp = ' (hB : CleanM4 B)' if n == 4 else ''
    cl = ' ∧ CleanM4 C' if n == 4 else ''
    b += f'''
/-- C03: `MatMulMatM{n}` stores the matrix product.{'  The rows of the right factor must have zero high nibbles; those of the left factor need not.' if n == 4 else ''} -/
theorem C03_MatMulMatM{n} (env : Env) (A B C0 : M{n}){hyp} :
    ∃ C, MatMulMatM{n} env A B C0 = .ok C ∧ mat{n} C = mat{n} A * mat{n} B{cl} :=
  MatMulMatM{n}_ok env A B C0{' hB' if n == 4 else ''}
'''
    if n <= 32:
        b += f'''
example : MatMulMatM{n} exEnv exA{n} exB{n} exB{n} = .ok {litM(n, mul_mat(n, exA(n), exB(n)))} := by decide +kernel
'''
    else:
        b += f'''
example : ∃ C, MatMulMatM{n} exEnvBE exA{n} exB{n} exB{n} = .ok C ∧ mat{n} C = mat{n} exA{n} * mat{n} exB{n} :=
  C03_MatMulMatM{n} exEnvBE exA{n} exB{n} exB{n}
'''
    if n == 4:
        b += '''
example : CleanM4 exB4 := exB4_clean
'''
write('C03', ['Verif.Proof.MulAll', EX], '''# C03 — matrix-matrix product''', b)
# ---------------------------------------------------------------- C04
b = 'set_option maxRecDepth 20000\n'
for n in ALL:
    hyp = ' (hA : CleanM4 A)' if n == 4 else ''
    ha = ' hA' if n == 4 else ''
    cl = ' ∧ CleanM4 T' if n == 4 else ''
    if n == 4:
        inj = '''  obtain ⟨T, hT, h, hc⟩ := MattransM4_ok env A T0 hA
  obtain ⟨S, hS, h', hc'⟩ := MattransM4_ok env T T1 hc
  have e : S = A := mat4_inj hc' hA (by rw [h', h, transpose_transpose])'''
    else:
        f = f'mat{n}_inj'
        inj = f'''  obtain ⟨T, hT, h⟩ := MattransM{n}_ok env A T0
  obtain ⟨S, hS, h'⟩ := MattransM{n}_ok env T T1
  have e : S = A := {f} (by rw [h', h, transpose_transpose])'''
    b += f'''
/-- C04: `MattransM{n}` stores the transpose. -/
theorem C04_MattransM{n} (env : Env) (A T0 : M{n}){hyp} :
    ∃ T, MattransM{n} env A T0 = .ok T ∧ mat{n} T = (mat{n} A)ᵀ{cl} :=
  MattransM{n}_ok env A T0{ha}

/-- C04: transposing twice gives back the very same matrix object. -/
theorem C04_MattransM{n}_twice (env : Env) (A T0 T1 : M{n}){hyp} :
    ∃ T, MattransM{n} env A T0 = .ok T ∧ MattransM{n} env T T1 = .ok A := by
{inj}
  exact ⟨T, hT, e ▸ hS⟩
'''
    if n <= 64:
        b += f'''
example : MattransM{n} exEnv exB{n} exA{n} = .ok {litM(n, transpose(n, exB(n)))} := by decide +kernel
'''
    else:
        b += f'''
example : ∃ T, MattransM{n} exEnv exB{n} exA{n} = .ok T ∧ mat{n} T = (mat{n} exB{n})ᵀ :=
  C04_MattransM{n} exEnv exB{n} exA{n}
'''
    if n == 4:
        b += '''
example : CleanM4 exB4 := exB4_clean
'''
write('C04', ['Verif.Proof.Inj', EX], '''# C04 — transposition''', b)
# ---------------------------------------------------------------- C05
b = '''set_option maxRecDepth 20000
'''
for n in ALL:
    if n <= 64:
        add = f'''  ⟨_, MatAddMatM{n}_eq A B C0, mat_add A B'''
        addv = f'''  ⟨_, rfl, vec_add x y'''
        if n == 4:
            add = f'''  ⟨_, MatAddMatM4_eq A B C0, mat_add A B, fun hA hB i => by
    have := clean4_xor (hA i) (hB i)
    simpa using this'''
            addv += ', clean4_xor'
        add += '⟩'
        addv += '⟩'
    else:
        l = L[n]
        add = f'''by
  obtain ⟨C, hC, h⟩ := MatAddMatM{n}_ok A B C0
  exact ⟨C, hC, matW_addmat (by norm_num) h⟩'''
        addv = f'''by
  obtain ⟨z, hz, h⟩ := VecAddVecV{n}_ok x y z0
  exact ⟨z, hz, vecW_add (by norm_num) h⟩'''
    cl = ' ∧ (CleanM4 A → CleanM4 B → CleanM4 C)' if n == 4 else ''
    clv = ' ∧ (Clean4 x → Clean4 y → Clean4 z)' if n == 4 else ''
    ext = {True: ''}
    if n == 4:
        # all eight bits are added, so the laws hold on the objects themselves
        inj = None
    b += f'''
/-- C05: `MatAddMatM{n}` stores the entrywise sum. -/
theorem C05_MatAddMatM{n} (A B C0 : M{n}) :
    ∃ C, MatAddMatM{n} A B C0 = .ok C ∧ mat{n} C = mat{n} A + mat{n} B{cl} :={' ' if add.startswith('by') else chr(10)}{add}

/-- C05: `VecAddVecV{n}` stores the entrywise sum. -/
theorem C05_VecAddVecV{n} (x y z0 : V{n}) :
    ∃ z, VecAddVecV{n} x y z0 = .ok z ∧ vec{n} z = vec{n} x + vec{n} y{clv} :={' ' if addv.startswith('by') else chr(10)}{addv}

/-- C05: addition of matrices is commutative, associative and self-inverse, as observed through the API
(equality of the stored objects, whatever the destinations held). -/
theorem C05_MatAddMatM{n}_laws (A B D X0 X1 X2 X3 X4 X5 : M{n}) :
    (∃ S, MatAddMatM{n} A B X0 = .ok S ∧ MatAddMatM{n} B A X1 = .ok S) ∧
    (∃ S T U, MatAddMatM{n} A B X0 = .ok S ∧ MatAddMatM{n} S D X2 = .ok U ∧
      MatAddMatM{n} B D X3 = .ok T ∧ MatAddMatM{n} A T X4 = .ok U) ∧
    (∃ Z, MatAddMatM{n} A A X5 = .ok Z ∧ initM{n} X0 = .ok Z) := by
'''
    if n <= 64:
        b += f'''  refine ⟨⟨_, MatAddMatM{n}_eq _ _ _, ?_⟩, ⟨_, _, _, MatAddMatM{n}_eq _ _ _, MatAddMatM{n}_eq _ _ _,
    MatAddMatM{n}_eq _ _ _, ?_⟩, ⟨_, MatAddMatM{n}_eq _ _ _, ?_⟩⟩
  · rw [MatAddMatM{n}_eq]
    exact congrArg Except.ok (Vector.ext fun i hi => by simp [BitVec.xor_comm])
  · rw [MatAddMatM{n}_eq]
    exact congrArg Except.ok (Vector.ext fun i hi => by simp [BitVec.xor_assoc])
  · rw [initM{n}_eq]
    exact congrArg Except.ok (Vector.ext fun i hi => by simp)
'''
    else:
        b += f'''  obtain ⟨S, hS, s⟩ := C05_MatAddMatM{n} A B X0
  obtain ⟨S', hS', s'⟩ := C05_MatAddMatM{n} B A X1
  obtain ⟨U, hU, u⟩ := C05_MatAddMatM{n} S D X2
  obtain ⟨T, hT, t⟩ := C05_MatAddMatM{n} B D X3
  obtain ⟨U', hU', u'⟩ := C05_MatAddMatM{n} A T X4
  obtain ⟨Z, hZ, z⟩ := C05_MatAddMatM{n} A A X5
  have e1 : S' = S := mat{n}_inj (by rw [s, s', add_comm])
  have e2 : U' = U := mat{n}_inj (by rw [u, u', s, t, add_assoc])
  have e3 : Vector.replicate {n} (Vector.replicate {L[n]} 0) = Z := mat{n}_inj (by
    rw [z, z2mat_add_self]; exact matW_zero (by norm_num))
  exact ⟨⟨S, hS, e1 ▸ hS'⟩, ⟨S, T, U, hS, hU, hT, e2 ▸ hU'⟩, ⟨Z, hZ, e3 ▸ initM{n}_eq X0⟩⟩
'''
    M = [a ^ c for a, c in zip(exA(n), exB(n))]
    if n <= 64:
        b += f'''
example : MatAddMatM{n} exA{n} exB{n} exB{n} = .ok {litM(n, M)} := by decide +kernel
'''
    b += f'''example : VecAddVecV{n} exX{n} {lit(n, 0x3a)} exX{n} = .ok {lit(n, exX(n) ^ 0x3a)} := by decide +kernel
'''
pre = '''
theorem clean4_xor {x y : BitVec 8} (hx : Clean4 x) (hy : Clean4 y) : Clean4 (x ^^^ y) :=
  clean4_of_bits fun p hp => by
    rw [BitVec.getLsbD_xor, hx.bits4 p hp, hy.bits4 p hp]; rfl

theorem z2mat_add_self {n : Nat} (M : Mat n) : M + M = 0 := by
  ext i j
  have : ∀ a : ZMod 2, a + a = 0 := by decide
  exact this _

theorem VecAddVecV128_ok (x y z0 : V128) : Ok (VecAddVecV128 x y z0) (fun z =>
    ∀ k (hk : k < 2), z[k] = x[k] ^^^ y[k]) := by
  unfold VecAddVecV128
  rw [rd_ok _ _ (by omega : 0 < 2), rd_ok _ _ (by omega : 0 < 2), rd_ok _ _ (by omega : 1 < 2),
    rd_ok _ _ (by omega : 1 < 2)]
  simp only [C_pure_bind]
  rw [wr_ok _ _ _ (by omega), C_pure_bind, wr_ok _ _ _ (by omega), Ok.ok_iff]
  intro k hk
  obtain rfl | rfl : k = 0 ∨ k = 1 := by omega
  all_goals simp

theorem VecAddVecV256_ok (x y z0 : V256) : Ok (VecAddVecV256 x y z0) (fun z =>
    ∀ k (hk : k < 4), z[k] = x[k] ^^^ y[k]) := by
  unfold VecAddVecV256
  rw [rd_ok _ _ (by omega : 0 < 4), rd_ok _ _ (by omega : 0 < 4), rd_ok _ _ (by omega : 1 < 4),
    rd_ok _ _ (by omega : 1 < 4), rd_ok _ _ (by omega : 2 < 4), rd_ok _ _ (by omega : 2 < 4),
    rd_ok _ _ (by omega : 3 < 4), rd_ok _ _ (by omega : 3 < 4)]
  simp only [C_pure_bind]
  rw [wr_ok _ _ _ (by omega), C_pure_bind, wr_ok _ _ _ (by omega), C_pure_bind,
    wr_ok _ _ _ (by omega), C_pure_bind, wr_ok _ _ _ (by omega), Ok.ok_iff]
  intro k hk
  obtain rfl | rfl | rfl | rfl : k = 0 ∨ k = 1 ∨ k = 2 ∨ k = 3 := by omega
  all_goals simp
'''
with open(os.path.join(D, '..', 'Proof', 'Add.lean'), 'w') as f:
    f.write('import Verif.Proof.Inj\n\n/-!\n# Addition (helper lemmas); written by `tools/gen_props1.py`\n-/\nnamespace WB\nopen Matrix\n' + pre + '\nend WB\n')
write('C05', ['Verif.Proof.Add', EX], '''# C05 — addition''', b)
# ---------------------------------------------------------------- C06
b = 'set_option maxRecDepth 20000\n'
for n in ALL:
    if n <= 64:
        z = f'''  ⟨_, initM{n}_eq M0, mat_zero {n}{', fun i => by simp [Clean4]' if n == 4 else ''}⟩'''
        zv = f'''  ⟨0, rfl, by funext c; simp [vecOf, bitS]{', by simp [Clean4]' if n == 4 else ''}⟩'''
        idd = f'''  ⟨_, identityM{n}_eq M0, mat_id idOK{n}{', cleanM4_id' if n == 4 else ''}⟩'''
    else:
        z = f'''  ⟨_, initM{n}_eq M0, matW_zero (by norm_num)⟩'''
        zv = f'''  ⟨_, initV{n}_eq v0, by
    funext c
    have := c.2
    have h : c.val / 64 < {L[n]} := by omega
    simp [vecOf, bitW, h]⟩'''
        idd = f'''  identityM{n}_ok M0'''
    cl = ' ∧ CleanM4 M' if n == 4 else ''
    clv = ' ∧ Clean4 v' if n == 4 else ''
    b += f'''
/-- C06: `initM{n}` stores the zero matrix. -/
theorem C06_initM{n} (M0 : M{n}) : ∃ M, initM{n} M0 = .ok M ∧ mat{n} M = 0{cl} :=
{z}

/-- C06: `initV{n}` stores the zero vector. -/
theorem C06_initV{n} (v0 : V{n}) : ∃ v, initV{n} v0 = .ok v ∧ vec{n} v = 0{clv} :=
{zv}

/-- C06: `identityM{n}` stores the identity matrix. -/
theorem C06_identityM{n} (M0 : M{n}) : ∃ M, identityM{n} M0 = .ok M ∧ mat{n} M = 1{cl} :=
{idd}

/-- C06: `copyM{n}` makes the destination equal to the source. -/
theorem C06_copyM{n} (A B : M{n}) : copyM{n} A B = .ok A := copyM{n}_eq A B

'''
    if n <= 64:
        b += f'''example : copyM{n} exA{n} exB{n} = .ok exA{n} := by decide +kernel
example : identityM{n} exB{n} = .ok {litM(n, [1 << (n - 1 - i) for i in range(n)])} := by decide +kernel
example : initM{n} exB{n} = .ok {litM(n, [0] * n)} := by decide +kernel
'''
    else:
        b += f'''example : copyM{n} exA{n} exB{n} = .ok exA{n} := C06_copyM{n} exA{n} exB{n}
'''
write('C06', ['Verif.Proof.Inj', EX], '''# C06 — constructors: zero, identity, copy''', b)
# ---------------------------------------------------------------- C07
b = 'set_option maxRecDepth 20000\n'
for n in ALL:
    b += f'''
/-- C07: `isequalM{n}` decides equality of matrix objects. -/
theorem C07_isequalM{n} (A B : M{n}) : isequalM{n} A B = .ok (if A = B then 1 else 0) :=
  isequalM{n}_eq A B
'''
    if n != 4:
        f = f'mat{n}_inj'
        b += f'''
/-- C07: in terms of the denoted GF(2) matrices. -/
theorem C07_isequalM{n}_mat (A B : M{n}) :
    isequalM{n} A B = .ok (if mat{n} A = mat{n} B then 1 else 0) := by
  rw [isequalM{n}_eq]
  exact congrArg Except.ok (if_congr ⟨fun h => by rw [h], {f}⟩ rfl rfl)
'''
    else:
        b += f'''
/-- C07: in terms of the denoted GF(2) matrices, for clean 4-bit matrices. -/
theorem C07_isequalM4_mat (A B : M4) (hA : CleanM4 A) (hB : CleanM4 B) :
    isequalM4 A B = .ok (if mat4 A = mat4 B then 1 else 0) := by
  rw [isequalM4_eq]
  exact congrArg Except.ok (if_congr ⟨fun h => by rw [h], mat4_inj hA hB⟩ rfl rfl)

example : CleanM4 exA4 ∧ CleanM4 exB4 := ⟨exA4_clean, exB4_clean⟩
'''
    b += f'''
example : isequalM{n} exA{n} exB{n} = .ok 0 := by decide +kernel
example : isequalM{n} exB{n} exB{n} = .ok 1 := by decide +kernel
'''
write('C07', ['Verif.Proof.Inj', EX], '''# C07 — matrix equality test''', b)
# ---------------------------------------------------------------- C08
b = 'set_option maxRecDepth 20000\n'
for n in list(W) + [128]:
    if n <= 64:
        pf = f'''by
  unfold isequalV{n}
  by_cases h : u = v
  · subst h; simp; rfl
  · simp [h]; rfl'''
    else:
        pf = f'''by
  unfold isequalV128
  rw [rd_ok _ _ (by omega : 0 < 2), rd_ok _ _ (by omega : 0 < 2), rd_ok _ _ (by omega : 1 < 2),
    rd_ok _ _ (by omega : 1 < 2)]
  simp only [C_pure_bind]
  rw [if_congr (vecEq2 u v) rfl rfl]
  by_cases h0 : u[0] = v[0] <;> by_cases h1 : u[1] = v[1] <;> simp [h0, h1] <;> rfl'''
    b += f'''
/-- C08: `isequalV{n}` decides equality of vector objects. -/
theorem C08_isequalV{n} (u v : V{n}) : isequalV{n} u v = .ok (if u = v then 1 else 0) := {pf}

example : isequalV{n} exX{n} {lit(n, 3)} = .ok 0 := by decide +kernel
example : isequalV{n} exX{n} exX{n} = .ok 1 := by decide +kernel
'''
b += '''
/-- C08 fails for `isequalV256`: it compares only the first two of the four words, so it
reports different vectors as equal.  (The full statement would be
`∀ u v, isequalV256 u v = .ok (if u = v then 1 else 0)`.) -/
theorem C08_isequalV256_violated :
    ¬ ∀ u v : V256, isequalV256 u v = .ok (if u = v then 1 else 0) := by
  intro h
  have := h #v[0, 0, 0, 0] #v[0, 0, 0, 1]
  revert this
  decide +kernel

/-- C08, what `isequalV256` does compute: equality of the first 128 bits.  Missing: words 2
and 3 are never looked at. -/
theorem C08_isequalV256_partial (u v : V256) :
    isequalV256 u v = .ok (if u[0] = v[0] ∧ u[1] = v[1] then 1 else 0) := by
  unfold isequalV256
  rw [rd_ok _ _ (by omega : 0 < 4), rd_ok _ _ (by omega : 0 < 4), rd_ok _ _ (by omega : 1 < 4),
    rd_ok _ _ (by omega : 1 < 4)]
  simp only [C_pure_bind]
  by_cases h0 : u[0] = v[0] <;> by_cases h1 : u[1] = v[1] <;> simp [h0, h1] <;> rfl

/-- C08: the answer 0 of `isequalV256` can be trusted. -/
theorem C08_isequalV256_zero (u v : V256) (h : isequalV256 u v = .ok 0) : u ≠ v := by
  rintro rfl
  rw [C08_isequalV256_partial] at h
  simp at h

/-- C08: for every vector there are `2^128 - 1` other vectors that `isequalV256` takes for equal:
any change of words 2 and 3 goes unnoticed. -/
theorem C08_isequalV256_blind (u : V256) (a b : BitVec 64) :
    isequalV256 u #v[u[0], u[1], a, b] = .ok 1 := by
  rw [C08_isequalV256_partial]; simp

example : isequalV256 exX256 #v[1, 2, 3, 4] = .ok 0 := by decide +kernel
'''
write('C08', ['Verif.Proof.Inj', EX], '''# C08 — vector equality test''', b)
