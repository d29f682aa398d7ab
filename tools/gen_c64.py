#!/usr/bin/env python3
"""Generate lean/Verif/Proof/LowMCGen.lean and lean/Verif/Prop/C64.lean."""
import os
HERE = os.path.dirname(os.path.abspath(__file__))
SIZES = (4, 8, 16, 32, 64, 128, 256)

def W(n): return max(n, 8)
def L(n): return n // 64
def bit(n): return f'(bitS {n})' if n <= 64 else 'bitW'
def pos(n):
    return f'{n} * i + j' if n <= 64 else f'{n} * i + ({L(n)} * (j % 64) + j / 64)'
def junk(n): return f'(env.junkArr {W(n)} {n})' if n <= 64 else f'(env.junkArr2 64 {L(n)} {n})'

o = ['''import Verif.Proof.LowMCMat
import Verif.Prop.C34

/-!
# The random matrices of `LowMCMethod_text.cpp`, size by size

Generated by `tools/gen_c64.py`.
-/
namespace WB

/-- `J` plus `q` blocks of `n * n` bits of the sequence `b`, starting at the bit number `k`; `pos i j` is
the number within the block of the bit added to the entry in row `i` and column `j`. -/
def drawnSum (n : Nat) (pos : Nat → Nat → Nat) (b : Nat → Bool) (J : Matrix (Fin n) (Fin n) (ZMod 2))
    (k q : Nat) : Matrix (Fin n) (Fin n) (ZMod 2) :=
  fun i j => J i j + ∑ r ∈ Finset.range q, bitF (b (k + n * n * r + pos i j))

theorem drawnSum_succ (n : Nat) (pos : Nat → Nat → Nat) (b : Nat → Bool) (J : Matrix (Fin n) (Fin n) (ZMod 2))
    (k q : Nat) : drawnSum n pos b J k (q + 1) =
      fun i j => drawnSum n pos b J k q i j + bitF (b (k + n * n * q + pos i j)) := by
  funext i j
  unfold drawnSum
  rw [Finset.sum_range_succ, ← add_assoc (J i j)]

theorem drawnSum_zero (n : Nat) (pos : Nat → Nat → Nat) (b : Nat → Bool) (J : Matrix (Fin n) (Fin n) (ZMod 2))
    (k : Nat) : drawnSum n pos b J k 0 = J := by
  funext i j
  unfold drawnSum
  rw [Finset.range_zero, Finset.sum_empty, add_zero]

theorem bitF_xor' (a b : Bool) : bitF (a ^^ b) = bitF a + bitF b := by
  cases a <;> cases b <;> rfl

namespace lowmc

/-- The matrix object after a call of `RandbitMat` (rows of one word). -/
def addS {w n : Nat} (I : Vector (BitVec w) n) (b : Nat → Bool) (k : Nat) (A : Vector (BitVec w) n) :
    Vector (BitVec w) n := Vector.ofFn fun i => A[i] ^^^ rowAcc I b (k + n * i) n

/-- The matrix object after a call of `RandbitMat` (rows of several words). -/
def addW {l n : Nat} (b : Nat → Bool) (k : Nat) (A : Vector (Vector (BitVec 64) l) n) :
    Vector (Vector (BitVec 64) l) n :=
  Vector.ofFn fun i => Vector.ofFn fun j => A[i][j] ^^^ limbAcc b l (k + n * i) j.val 64

theorem addS_mat {w n : Nat} (I : Vector (BitVec w) n) (hw : n ≤ w)
    (hI : ∀ j (h : j < n), ∀ t < w, I[j].getLsbD t = decide (t = n - 1 - j)) (b : Nat → Bool) (k : Nat)
    (A : Vector (BitVec w) n) (i j : Fin n) :
    matOf n (bitS n) (addS I b k A) i j = matOf n (bitS n) A i j + bitF (b (k + (n * i + j))) := by
  show bitF (bitS n (addS I b k A)[i.val] j) = bitF (bitS n A[i.val] j) + _
  unfold addS bitS
  rw [Vector.getElem_ofFn, BitVec.getLsbD_xor, rowAcc_bit I hw hI _ _ _ _ j.2 le_rfl, bitF_xor',
    decide_eq_true j.2, Bool.true_and, Nat.add_assoc]
  rfl

theorem ident64_bits : ∀ j (h : j < 64), ∀ t < 64, identM64[j].getLsbD t = decide (t = 64 - 1 - j) := by
  decide +kernel

theorem addW_mat {l n : Nat} (hn : n = 64 * l) (b : Nat → Bool) (k : Nat)
    (A : Vector (Vector (BitVec 64) l) n) (i j : Fin n) :
    matOf n bitW (addW b k A) i j =
      matOf n bitW A i j + bitF (b (k + (n * i + (l * (j.val % 64) + j.val / 64)))) := by
  have hj : j.val / 64 < l := by have := j.2; omega
  show bitF (bitW (addW b k A)[i.val] j) = bitF (bitW A[i.val] j) + _
  unfold addW bitW
  rw [Vector.getElem_ofFn, Vector.getElem?_eq_getElem hj, Vector.getElem?_eq_getElem hj]
  show bitF (BitVec.getLsbD (Vector.ofFn fun j : Fin l => A[i.val][j] ^^^ limbAcc b l (k + n * i) j.val 64)[j.val / 64]
    (63 - j.val % 64)) = bitF (BitVec.getLsbD A[i.val][j.val / 64] (63 - j.val % 64)) + _
  rw [Vector.getElem_ofFn, BitVec.getLsbD_xor, limbAcc_row,
    rowAcc_bit identM64 le_rfl ident64_bits _ _ _ (j.val % 64) (Nat.mod_lt _ (by norm_num)) le_rfl, bitF_xor',
    decide_eq_true (Nat.mod_lt _ (by norm_num)), Bool.true_and, Nat.zero_add]
  congr 2
  congr 1
  show k + n * i.val + l * (j.val % 64) + j.val / 64 = _
  omega

theorem addS_cancel {w n : Nat} (I : Vector (BitVec w) n) (b : Nat → Bool) (k : Nat) (A : Vector (BitVec w) n) :
    addS I b k (addS I b k A) = A := by
  apply Vector.ext
  intro i hi
  unfold addS
  rw [Vector.getElem_ofFn]
  show (Vector.ofFn fun i : Fin n => A[i] ^^^ rowAcc I b (k + n * i) n)[i] ^^^ _ = _
  rw [Vector.getElem_ofFn, BitVec.xor_assoc, BitVec.xor_self, BitVec.xor_zero]
  rfl

theorem addW_cancel {l n : Nat} (b : Nat → Bool) (k : Nat) (A : Vector (Vector (BitVec 64) l) n) :
    addW b k (addW b k A) = A := by
  apply Vector.ext
  intro i hi
  apply Vector.ext
  intro j hj
  unfold addW
  rw [Vector.getElem_ofFn, Vector.getElem_ofFn]
  show (Vector.ofFn fun i : Fin n => Vector.ofFn fun j : Fin l =>
    A[i][j] ^^^ limbAcc b l (k + n * i) j.val 64)[i][j] ^^^ _ = _
  rw [Vector.getElem_ofFn, Vector.getElem_ofFn, BitVec.xor_assoc, BitVec.xor_self, BitVec.xor_zero]
  rfl

/-- Stack contents for arrays of words. -/
def envS {w n : Nat} (A : Vector (BitVec w) n) : Env :=
  ⟨.little, fun w' i => if h : i < n then A[i].setWidth w' else 0⟩

theorem envS_junk {w n : Nat} (A : Vector (BitVec w) n) : (envS A).junkArr w n = A := by
  apply Vector.ext
  intro i hi
  unfold Env.junkArr envS
  rw [Vector.getElem_ofFn]
  show (if h : i < n then A[i].setWidth w else 0) = _
  rw [dif_pos hi, BitVec.setWidth_eq]

/-- Stack contents for two-dimensional arrays. -/
def envW {l n : Nat} (A : Vector (Vector (BitVec 64) l) n) : Env :=
  ⟨.little, fun w' i => if h : i / l < n ∧ i % l < l then (A[i / l]'h.1)[i % l].setWidth w' else 0⟩

theorem envW_junk {l n : Nat} (A : Vector (Vector (BitVec 64) l) n) : (envW A).junkArr2 64 l n = A := by
  apply Vector.ext
  intro i hi
  apply Vector.ext
  intro j hj
  unfold Env.junkArr2 envW
  rw [Vector.getElem_ofFn, Vector.getElem_ofFn]
  show (if h : (i * l + j) / l < n ∧ (i * l + j) % l < l then
    (A[(i * l + j) / l]'h.1)[(i * l + j) % l].setWidth 64 else 0) = _
  have e1 : (i * l + j) / l = i := by
    rw [Nat.add_comm, Nat.add_mul_div_right _ _ (by omega), Nat.div_eq_of_lt hj, Nat.zero_add]
  have e2 : (i * l + j) % l = j := by
    rw [Nat.add_comm, Nat.add_mul_mod_self_right, Nat.mod_eq_of_lt hj]
  have hc : (i * l + j) / l < n ∧ (i * l + j) % l < l := by rw [e1, e2]; exact ⟨hi, hj⟩
  rw [dif_pos hc, BitVec.setWidth_eq]
  simp only [e1, e2]

section
variable {fuel : Nat} {b : Nat → Bool} {s : Nat → BitVec 80}
  (hb : ∀ i, getrandbit fuel (s i) = .ok (b i, s (i + 1)))
include hb
''']
for n in SIZES:
    if n <= 64:
        o.append(f'''
omit hb in
theorem ident{n}_hI : ∀ j (h : j < {n}), ∀ t < {W(n)}, identM{n}[j].getLsbD t = decide (t = {n} - 1 - j) := by
  decide +kernel

theorem randbit{n}_run (A : M{n}) (k : Nat) :
    RandbitMatM{n} fuel A (s k) = .ok (addS identM{n} b k A, s (k + {n} * {n})) :=
  outer_loop hb _ (fun i x => x ^^^ rowAcc identM{n} b (k + {n} * i) {n}) {n} k
    (fun i hi A => (row_loop hb identM{n} A i (k + {n} * i) hi).trans (by rw [Nat.mul_succ, Nat.add_assoc])) A
''')
    else:
        o.append(f'''
theorem randbit{n}_run (A : M{n}) (k : Nat) :
    RandbitMatM{n} fuel A (s k) = .ok (addW b k A, s (k + {n} * {n})) :=
  outer_loop hb _ (fun i x => Vector.ofFn fun j => x[j] ^^^ limbAcc b {L(n)} (k + {n} * i) j.val 64) {n} k
    (fun i hi A => (limb_loop hb _ i (k + {n} * i) hi
      (fun j hj A => {'two' if n == 128 else 'four'}_run hb i hi (k + {n} * i) j hj A) A).trans
        (by rw [show k + {n} * i + {L(n)} * 64 = k + {n} * (i + 1) by omega])) A
''')
o.append('''
end

end lowmc

end WB
''')
open(os.path.join(HERE, '../lean/Verif/Proof/LowMCGen.lean'), 'w').write(''.join(o))

P = ['''import Verif.Proof.LowMCGen
import Verif.Prop.C12
import Verif.Prop.C13
import Verif.Prop.C63

/-!
# C64 — the matrices of the LowMC method

`/repo/test/LowMCMethod_text.cpp`.  Generated by `tools/gen_c64.py`.

In the statements `b` and `s` are the bits returned by successive calls of `getrandbit` and the states of
its register (`C63_calls` says that they exist for every initial state).  The matrix `drawnSum n pos b J k q`
has the entries `J i j` plus the bits number `k + pos i j`, `k + n * n + pos i j`, … (`q` bits).
-/
namespace WB
open Matrix
open lowmc (getrandbit)

/-- The bits and states exist for every content of the register, in particular for the initial one. -/
example (st : BitVec 80) : ∃ (b : Nat → Bool) (s : Nat → BitVec 80), s 0 = st ∧
    ∀ i, getrandbit 80 (s i) = .ok (b i, s (i + 1)) := by
  obtain ⟨b, s, h0, h, _⟩ := C63_calls st
  exact ⟨b, s, h0, fun i => h i 80 le_rfl⟩

/-- The bits 4 to 7 of the rows of an `M4` object. -/
def highM4 (A : M4) : Matrix (Fin 4) (Fin 4) (ZMod 2) := fun i j => bitF (A[i].getLsbD (7 - j))

/-- What `isinvertM4` accepts, dirty rows included: the low halves form an invertible matrix, and the
combination of rows that gives the last unit vector gives zero in the high halves. -/
theorem isinvertM4_high (A : M4) : isinvertM4 A = .ok 1 ↔
    IsUnit (mat4 A) ∧ ∀ j, ((mat4 A)⁻¹ * highM4 A) 3 j = 0 := by
  rw [C34_isinvertM4_exact]
  refine and_congr_right fun hu => ?_
  have hdet := (Matrix.isUnit_iff_isUnit_det _).1 hu
  have key : ∀ c : Fin 4 → Bool,
      (((if c 0 then A[0] else 0) ^^^ (if c 1 then A[1] else 0)) ^^^
        ((if c 2 then A[2] else 0) ^^^ (if c 3 then A[3] else 0)) = 0x01#8 ↔
      (fun i => bitF (c i)) ᵥ* mat4 A = Pi.single 3 1 ∧ (fun i => bitF (c i)) ᵥ* highM4 A = 0) := by
    intro c
    have eb : ∀ t, bitF ((((if c 0 then A[0] else 0) ^^^ (if c 1 then A[1] else 0)) ^^^
        ((if c 2 then A[2] else 0) ^^^ (if c 3 then A[3] else 0))).getLsbD t) =
        bitF (c 0) * bitF (A[0].getLsbD t) + bitF (c 1) * bitF (A[1].getLsbD t) +
        bitF (c 2) * bitF (A[2].getLsbD t) + bitF (c 3) * bitF (A[3].getLsbD t) := by
      intro t
      rw [BitVec.getLsbD_xor, BitVec.getLsbD_xor, BitVec.getLsbD_xor, bitF_xor', bitF_xor', bitF_xor', ← add_assoc]
      congr 1
      · congr 1
        · congr 1
          · cases c 0 <;> simp [bitF]
          · cases c 1 <;> simp [bitF]
        · cases c 2 <;> simp [bitF]
      · cases c 3 <;> simp [bitF]
    have el : ∀ j, ((fun i => bitF (c i)) ᵥ* mat4 A) j = bitF ((((if c 0 then A[0] else 0) ^^^
        (if c 1 then A[1] else 0)) ^^^ ((if c 2 then A[2] else 0) ^^^ (if c 3 then A[3] else 0))).getLsbD (3 - j)) := by
      intro j
      rw [eb]
      simp only [Matrix.vecMul, dotProduct, Fin.sum_univ_four]
      rfl
    have eh : ∀ j, ((fun i => bitF (c i)) ᵥ* highM4 A) j = bitF ((((if c 0 then A[0] else 0) ^^^
        (if c 1 then A[1] else 0)) ^^^ ((if c 2 then A[2] else 0) ^^^ (if c 3 then A[3] else 0))).getLsbD (7 - j)) := by
      intro j
      rw [eb]
      simp only [Matrix.vecMul, dotProduct, Fin.sum_univ_four]
      rfl
    generalize hx : (((if c 0 then A[0] else 0) ^^^ (if c 1 then A[1] else 0)) ^^^
        ((if c 2 then A[2] else 0) ^^^ (if c 3 then A[3] else 0))) = x at el eh
    constructor
    · rintro rfl
      constructor
      · funext j
        rw [el]
        revert j
        decide
      · funext j
        rw [eh]
        revert j
        decide
    · rintro ⟨h1, h2⟩
      have a : ∀ j : Fin 4, bitF (x.getLsbD (3 - j)) = (Pi.single 3 1 : Fin 4 → ZMod 2) j := fun j => by
        rw [← el, h1]
      have b : ∀ j : Fin 4, bitF (x.getLsbD (7 - j)) = 0 := fun j => by rw [← eh, h2]; rfl
      clear hx el eh
      revert x
      decide +kernel
  constructor
  · rintro ⟨c, hc⟩
    obtain ⟨h1, h2⟩ := (key c).1 hc
    intro j
    have hv : (fun i => bitF (c i)) = (mat4 A)⁻¹ 3 := by
      have := congrArg (· ᵥ* (mat4 A)⁻¹) h1
      simp only [Matrix.vecMul_vecMul, Matrix.mul_nonsing_inv _ hdet, Matrix.vecMul_one] at this
      rw [this, Matrix.single_one_vecMul]
      rfl
    have := congrFun h2 j
    rw [hv] at this
    exact this
  · intro h
    have h1 : (mat4 A)⁻¹ 3 ᵥ* mat4 A = Pi.single 3 1 := by
      have : (mat4 A)⁻¹ 3 ᵥ* mat4 A = ((mat4 A)⁻¹ * mat4 A) 3 := rfl
      rw [this, Matrix.nonsing_inv_mul _ hdet]
      funext j
      revert j
      decide
    have h2 : (mat4 A)⁻¹ 3 ᵥ* highM4 A = 0 := funext h
    generalize (mat4 A)⁻¹ 3 = y at h1 h2
    have hc : (fun i => bitF (decide (y i = 1))) = y := by
      funext i
      generalize y i = z
      revert z
      decide
    refine ⟨fun i => decide (y i = 1), (key fun i => decide (y i = 1)).2 ?_⟩
    rw [hc]
    exact ⟨h1, h2⟩
''']
for n in SIZES:
    c = n * n
    m = f'mat{n}'
    add = f'lowmc.addS lowmc.identM{n}' if n <= 64 else 'lowmc.addW'
    hmat = (f'lowmc.addS_mat lowmc.identM{n} (by norm_num) lowmc.ident{n}_hI b' if n <= 64 else
            'lowmc.addW_mat (by norm_num) b')
    ps = f'(fun i j => {pos(n)})'
    extra = ' ∧\n      highM4 R = highM4 A' if n == 4 else ''
    P.append(f'''
/-- C64: `RandbitMatM{n}` adds the next {c} random bits to what the matrix held{' (low halves of the rows)' if n == 4 else ''}. -/
theorem C64_RandbitMatM{n} (fuel : Nat) (b : Nat → Bool) (s : Nat → BitVec 80)
    (hb : ∀ i, getrandbit fuel (s i) = .ok (b i, s (i + 1))) (A : M{n}) (k : Nat) :
    ∃ R, lowmc.RandbitMatM{n} fuel A (s k) = .ok (R, s (k + {n} * {n})) ∧
      (∀ i j, {m} R i j = {m} A i j + bitF (b (k + ({pos(n) if n <= 64 else pos(n).replace("(j % 64)", "(j.val % 64)").replace("j / 64", "j.val / 64")})))){extra} :=
  ⟨_, lowmc.randbit{n}_run hb A k, {hmat} k A{', lowmc.addS_high b k A' if n == 4 else ''}⟩

theorem lowmc.seq{n}_mat (b : Nat → Bool) (k : Nat) (T : Nat → M{n})
    (hT : ∀ q, T (q + 1) = {add} b (k + {n} * {n} * q) (T q)) (q : Nat) :
    {m} (T q) = drawnSum {n} {ps} b ({m} (T 0)) k q := by
  induction q with
  | zero => rw [drawnSum_zero]
  | succ q ih =>
    rw [drawnSum_succ, ← ih, hT q]
    funext i j
    show _ = _ + bitF (b (k + {n} * {n} * q + ({pos(n).replace('i', 'i.val').replace('j', 'j.val')})))
    exact {hmat} (k + {n} * {n} * q) (T q) i j
''')
    if n == 4:
        # high part lemma has to come before its use
        P.insert(len(P) - 1, '''
theorem lowmc.addS_high (b : Nat → Bool) (k : Nat) (A : M4) :
    highM4 (lowmc.addS lowmc.identM4 b k A) = highM4 A := by
  funext i j
  have hi := i.2
  show bitF ((lowmc.addS lowmc.identM4 b k A)[i.val].getLsbD (7 - j)) = bitF (A[i.val].getLsbD (7 - j))
  unfold lowmc.addS
  rw [Vector.getElem_ofFn, BitVec.getLsbD_xor, lowmc.rowAcc_high _ lowmc.ident4_hI _ _ _ _ (by omega), Bool.xor_false]
  rfl
''')
        P.append(f'''
theorem lowmc.seq4_high (b : Nat → Bool) (k : Nat) (T : Nat → M4)
    (hT : ∀ q, T (q + 1) = lowmc.addS lowmc.identM4 b (k + 4 * 4 * q) (T q)) (q : Nat) :
    highM4 (T q) = highM4 (T 0) := by
  induction q with
  | zero => rfl
  | succ q ih => rw [hT, lowmc.addS_high, ih]

open Classical in
theorem isinvertM4_dec (A : M4) : (do pure ((← isinvertM4 A) == 0) : C Bool) =
    .ok (decide ¬ (IsUnit (mat4 A) ∧ ∀ j, ((mat4 A)⁻¹ * highM4 A) 3 j = 0)) := by
  obtain ⟨r, hr, h01, _⟩ := isinvertM4_any A
  have hx := isinvertM4_high A
  rw [hr]
  rcases h01 with rfl | rfl
  · have : ¬ (IsUnit (mat4 A) ∧ ∀ j, ((mat4 A)⁻¹ * highM4 A) 3 j = 0) := fun h => by
      have := hx.2 h
      rw [hr] at this
      exact absurd (Except.ok.inj this) (by decide)
    rw [decide_eq_true this]
    rfl
  · rw [decide_eq_false (not_not_intro (hx.1 hr))]
    rfl

/-- C64: `InvTMatM4` goes through the sums of its stack contents with the blocks of 16 random bits and stores
the first that is accepted; it goes on for ever when there is none.  A sum is accepted if it is
invertible and the row combination giving the last unit vector gives zero in the high halves of the
stack contents.  `invsM4` then stores the inverse. -/
theorem C64_InvTMatM4 (env : Env) (fuel tries : Nat) (b : Nat → Bool) (s : Nat → BitVec 80)
    (hb : ∀ i, getrandbit fuel (s i) = .ok (b i, s (i + 1))) (Mat B0 : M4) (k : Nat)
    (P : Nat → Matrix (Fin 4) (Fin 4) (ZMod 2))
    (hP : P = drawnSum 4 (fun i j => 4 * i + j) b (mat4 (env.junkArr 8 4)) k)
    (Good : Nat → Prop)
    (hG : ∀ q, Good q ↔ IsUnit (P q) ∧ ∀ j, ((P q)⁻¹ * highM4 (env.junkArr 8 4)) 3 j = 0) :
    (∃ m A B, 1 ≤ m ∧ m ≤ tries ∧ (∀ q, 1 ≤ q → q < m → ¬ Good q) ∧ Good m ∧
      lowmc.InvTMatM4 env fuel tries Mat (s k) = .ok (A, s (k + 16 * m)) ∧ mat4 A = P m ∧
      invsM4 A B0 = .ok B ∧ mat4 A * mat4 B = 1 ∧ mat4 B * mat4 A = 1) ∨
    ((∀ q, 1 ≤ q → q ≤ tries → ¬ Good q) ∧
      lowmc.InvTMatM4 env fuel tries Mat (s k) = .error .diverge) := by
  classical
  let T : Nat → M4 := fun q => Nat.rec (env.junkArr 8 4) (fun q A => lowmc.addS lowmc.identM4 b (k + 4 * 4 * q) A) q
  have hT : ∀ q, T (q + 1) = lowmc.addS lowmc.identM4 b (k + 4 * 4 * q) (T q) := fun q => rfl
  have hm : ∀ q, mat4 (T q) = P q := fun q => by rw [hP]; exact lowmc.seq4_mat b k T hT q
  have hh : ∀ q, highM4 (T q) = highM4 (env.junkArr 8 4) := fun q => lowmc.seq4_high b k T hT q
  have hg : ∀ q, (IsUnit (mat4 (T q)) ∧ ∀ j, ((mat4 (T q))⁻¹ * highM4 (T q)) 3 j = 0) ↔ Good q := fun q => by
    rw [hG, hm, hh]
  rcases lowmc.draw_run (rand := lowmc.RandbitMatM4 fuel) (c := 4 * 4) (k := k) (T := T) (s := s)
    (fun q => by rw [lowmc.randbit4_run hb, Nat.add_assoc, ← Nat.mul_succ]) isinvertM4_dec copyM4
    copyM4_eq Mat tries with ⟨m, h1, h2, h3, h4, h5⟩ | ⟨h1, h2⟩
  · left
    have g : Good m := by
      rw [← hg]
      by_contra hcon
      rw [decide_eq_true hcon] at h4
      exact absurd h4 (by simp)
    have hu : IsUnit (mat4 (T m)) := by rw [hm]; exact ((hG m).1 g).1
    obtain ⟨B, hB, -, -, hi⟩ := invsM4_ok (T m) B0
    have h' := hi ((isUnit_iff_det _).1 hu)
    refine ⟨m, T m, B, h1, h2, fun q hq hqm => ?_, g, h5, hm m, hB, mat_comm h', h'⟩
    have := of_decide_eq_true (h3 q hq hqm)
    rwa [hg] at this
  · right
    refine ⟨fun q hq hqt => ?_, h2⟩
    have := of_decide_eq_true (h1 q hq hqt)
    rwa [hg] at this

/-- C64: when the high halves of the stack contents form an invertible matrix, `InvTMatM4` never
returns, whatever the state of the random bits: no number of attempts is enough. -/
theorem C64_InvTMatM4_never (env : Env) (h : IsUnit (highM4 (env.junkArr 8 4))) (fuel tries : Nat)
    (hf : 80 ≤ fuel) (Mat : M4) (st : BitVec 80) :
    lowmc.InvTMatM4 env fuel tries Mat st = .error .diverge := by
  obtain ⟨b, s, h0, hb, _⟩ := C63_calls st
  rcases C64_InvTMatM4 env fuel tries b s (fun i => hb i fuel hf) Mat Mat 0 _ rfl _ (fun q => Iff.rfl) with
    ⟨m, A, B, _, _, _, ⟨hu, hz⟩, _⟩ | ⟨_, h2⟩
  · exfalso
    have hu2 : IsUnit ((drawnSum 4 (fun i j => 4 * i + j) b (mat4 (env.junkArr 8 4)) 0 m)⁻¹ *
        highM4 (env.junkArr 8 4)) := by
      apply IsUnit.mul _ h
      rw [Matrix.isUnit_nonsing_inv_iff]
      exact hu
    have hd := (Matrix.isUnit_iff_isUnit_det _).1 hu2
    rw [Matrix.det_eq_zero_of_row_eq_zero 3 hz] at hd
    exact absurd hd (by simp)
  · rw [h0] at h2
    exact h2

/-- Stack contents with which `InvTMatM4` never returns exist. -/
example : IsUnit (highM4 ((lowmc.envS (#v[0x80, 0x40, 0x20, 0x10] : M4)).junkArr 8 4)) := by
  rw [lowmc.envS_junk]
  have : highM4 #v[0x80, 0x40, 0x20, 0x10] = 1 := by decide
  rw [this]
  exact isUnit_one

/-- C64: with clean stack contents (high halves zero) the accepted sums are the invertible ones. -/
theorem C64_InvTMatM4_clean (env : Env) (h : CleanM4 (env.junkArr 8 4))
    (P : Matrix (Fin 4) (Fin 4) (ZMod 2)) :
    (IsUnit P ∧ ∀ j, (P⁻¹ * highM4 (env.junkArr 8 4)) 3 j = 0) ↔ IsUnit P := by
  have hz : highM4 (env.junkArr 8 4) = 0 := by
    funext i j
    have hi : (env.junkArr 8 4)[i].toNat < 16 := h i
    show bitF ((env.junkArr 8 4)[i].getLsbD (7 - j)) = 0
    have : (env.junkArr 8 4)[i].getLsbD (7 - j) = false := by
      refine Nat.testBit_lt_two_pow (lt_of_lt_of_le hi ?_)
      rw [show 16 = 2 ^ 4 by norm_num]
      exact Nat.pow_le_pow_right (by norm_num) (by have := j.2; omega)
    rw [this]
    rfl
  rw [hz, Matrix.mul_zero]
  simp
''')
    else:
        P.append(f'''
/-- C64: `InvTMatM{n}` goes through the sums of its stack contents with the blocks of {c} random bits and
stores the first that is invertible; it goes on for ever when there is none.  `invsM{n}` then stores
the inverse. -/
theorem C64_InvTMatM{n} (env : Env) (fuel tries : Nat) (b : Nat → Bool) (s : Nat → BitVec 80)
    (hb : ∀ i, getrandbit fuel (s i) = .ok (b i, s (i + 1))) (Mat B0 : M{n}) (k : Nat)
    (P : Nat → Matrix (Fin {n}) (Fin {n}) (ZMod 2))
    (hP : P = drawnSum {n} {ps} b ({m} {junk(n)}) k) :
    (∃ m A B, 1 ≤ m ∧ m ≤ tries ∧ (∀ q, 1 ≤ q → q < m → ¬ IsUnit (P q)) ∧
      lowmc.InvTMatM{n} env fuel tries Mat (s k) = .ok (A, s (k + {c} * m)) ∧ {m} A = P m ∧
      invsM{n} A B0 = .ok B ∧ {m} A * {m} B = 1 ∧ {m} B * {m} A = 1) ∨
    ((∀ q, 1 ≤ q → q ≤ tries → ¬ IsUnit (P q)) ∧
      lowmc.InvTMatM{n} env fuel tries Mat (s k) = .error .diverge) := by
  classical
  let T : Nat → M{n} := fun q => Nat.rec {junk(n)} (fun q A => {add} b (k + {n} * {n} * q) A) q
  have hT : ∀ q, T (q + 1) = {add} b (k + {n} * {n} * q) (T q) := fun q => rfl
  have hm : ∀ q, {m} (T q) = P q := fun q => by rw [hP]; exact lowmc.seq{n}_mat b k T hT q
  rcases lowmc.draw_run (rand := lowmc.RandbitMatM{n} fuel) (c := {n} * {n}) (k := k) (T := T) (s := s)
    (cond := fun A => do pure ((← isinvertM{n} A) == 0)) (bad := fun A => decide ¬ IsUnit ({m} A))
    (fun q => by rw [lowmc.randbit{n}_run hb, Nat.add_assoc, ← Nat.mul_succ])
    (fun A => by
      rw [C12_isinvertM{n}]
      by_cases hu : IsUnit ({m} A)
      · rw [if_pos hu, decide_eq_false (not_not_intro hu)]; rfl
      · rw [if_neg hu, decide_eq_true hu]; rfl) copyM{n}
    copyM{n}_eq Mat tries with ⟨m, h1, h2, h3, h4, h5⟩ | ⟨h1, h2⟩
  · left
    have hu : IsUnit ({m} (T m)) := by
      by_contra hcon
      rw [decide_eq_true hcon] at h4
      exact absurd h4 (by simp)
    obtain ⟨B, hB, g1, g2⟩ := C13_invsM{n} (T m) B0 hu
    refine ⟨m, T m, B, h1, h2, fun q hq hqm => ?_, h5, hm m, hB, g1, g2⟩
    have := of_decide_eq_true (h3 q hq hqm)
    rwa [hm] at this
  · right
    refine ⟨fun q hq hqt => ?_, h2⟩
    have := of_decide_eq_true (h1 q hq hqt)
    rwa [hm] at this
''')
    env = 'envS' if n <= 64 else 'envW'
    mm = f'M{n}'
    hyp = '(hT : CleanM4 T) ' if n == 4 else ''
    acc = f'(hu : IsUnit ({m} T))'
    if n == 4:
        inv = '(C12_isinvertM4 T hT)'
        body = '''  have hiv : isinvertM4 T = .ok 1 := by rw [C12_isinvertM4 T hT, if_pos hu]'''
    else:
        body = f'''  have hiv : isinvertM{n} T = .ok 1 := by rw [C12_isinvertM{n}, if_pos hu]'''
    P.append(f'''
/-- C64: the result depends on what happens to be on the stack: every invertible matrix is returned at
the first attempt for some stack contents, whatever the state of the random bits. -/
theorem C64_stack_M{n} (T : M{n}) {hyp}{acc} (st : BitVec 80) : ∃ env : Env, ∀ fuel tries Mat,
    80 ≤ fuel → 1 ≤ tries → ∃ st', lowmc.InvTMatM{n} env fuel tries Mat st = .ok (T, st') := by
  obtain ⟨b, s, h0, hb, _⟩ := C63_calls st
  refine ⟨lowmc.{env} ({add} b 0 T), fun fuel tries Mat hf ht => ⟨s (0 + {n} * {n}), ?_⟩⟩
  obtain ⟨t, rfl⟩ : ∃ t, tries = t + 1 := ⟨tries - 1, by omega⟩
{body}
  have h1 := lowmc.randbit{n}_run (fun i => hb i fuel hf) ({add} b 0 T) 0
  rw [lowmc.{'addS' if n <= 64 else 'addW'}_cancel, h0] at h1
  unfold lowmc.InvTMatM{n}
  rw [lowmc.{env}_junk, lowmc.LM_bind h1]
  unfold lowmc.whileL
  have h2 : (do pure ((← isinvertM{n} T) == 0) : C Bool) = .ok false := by rw [hiv]; rfl
  refine (lowmc.LM_bind (a := T) (st' := s (0 + {n} * {n})) ?_).trans ?_
  · rw [lowmc.LM_lift h2]
    rfl
  · rw [copyM{n}_eq]
    rfl
''')
P.append('''
/-- With zeros on the stack the program's first 4x4 matrix is found at the second attempt. -/
example : (lowmc.InvTMatM4 ⟨.little, fun _ _ => 0⟩ 80 2 #v[0, 0, 0, 0] 0).map (·.1) = .ok #v[2, 3, 15, 7] := by
  decide +kernel

example : (lowmc.InvTMatM4 ⟨.little, fun _ _ => 0⟩ 80 1 #v[0, 0, 0, 0] 0).map (·.1) = .error .diverge := by
  decide +kernel

end WB
''')
open(os.path.join(HERE, '../lean/Verif/Prop/C64.lean'), 'w').write(''.join(P))
