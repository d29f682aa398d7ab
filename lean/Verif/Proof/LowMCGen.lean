import Verif.Proof.LowMCMat
import Verif.Prop.C34

/-!
# The random matrices of `LowMCMethod_text.cpp`, size by size

Generated by `tools/gen_c64.py`.
-/
namespace WB

/-- `J` plus `q` blocks of `n * n` bits of the sequence `b`, starting at the bit number `k`; `pos i j` is
the number within the block of the bit added to the entry in row `i` and column `j`. -/
def drawnSum (n : Nat) (pos : Nat → Nat → Nat) (b : Nat → Bool) (J : Matrix (Fin n) (Fin n) (ZMod 2))
    (k q : Nat) : Matrix (Fin n) (Fin n) (ZMod 2) :=
  fun i j => J i j + ∑ r ∈ Finset.range q, bitF (b (k + n * n * r + pos i j))

theorem drawnSum_succ (n : Nat) (pos : Nat → Nat → Nat) (b : Nat → Bool) (J : Matrix (Fin n) (Fin n) (ZMod 2))
    (k q : Nat) : drawnSum n pos b J k (q + 1) =
      fun i j => drawnSum n pos b J k q i j + bitF (b (k + n * n * q + pos i j)) := by
  funext i j
  unfold drawnSum
  rw [Finset.sum_range_succ, ← add_assoc (J i j)]

theorem drawnSum_zero (n : Nat) (pos : Nat → Nat → Nat) (b : Nat → Bool) (J : Matrix (Fin n) (Fin n) (ZMod 2))
    (k : Nat) : drawnSum n pos b J k 0 = J := by
  funext i j
  unfold drawnSum
  rw [Finset.range_zero, Finset.sum_empty, add_zero]

theorem bitF_xor' (a b : Bool) : bitF (a ^^ b) = bitF a + bitF b := by
  cases a <;> cases b <;> rfl

namespace lowmc

/-- The matrix object after a call of `RandbitMat` (rows of one word). -/
def addS {w n : Nat} (I : Vector (BitVec w) n) (b : Nat → Bool) (k : Nat) (A : Vector (BitVec w) n) :
    Vector (BitVec w) n := Vector.ofFn fun i => A[i] ^^^ rowAcc I b (k + n * i) n

/-- The matrix object after a call of `RandbitMat` (rows of several words). -/
def addW {l n : Nat} (b : Nat → Bool) (k : Nat) (A : Vector (Vector (BitVec 64) l) n) :
    Vector (Vector (BitVec 64) l) n :=
  Vector.ofFn fun i => Vector.ofFn fun j => A[i][j] ^^^ limbAcc b l (k + n * i) j.val 64

theorem addS_mat {w n : Nat} (I : Vector (BitVec w) n) (hw : n ≤ w)
    (hI : ∀ j (h : j < n), ∀ t < w, I[j].getLsbD t = decide (t = n - 1 - j)) (b : Nat → Bool) (k : Nat)
    (A : Vector (BitVec w) n) (i j : Fin n) :
    matOf n (bitS n) (addS I b k A) i j = matOf n (bitS n) A i j + bitF (b (k + (n * i + j))) := by
  show bitF (bitS n (addS I b k A)[i.val] j) = bitF (bitS n A[i.val] j) + _
  unfold addS bitS
  rw [Vector.getElem_ofFn, BitVec.getLsbD_xor, rowAcc_bit I hw hI _ _ _ _ j.2 le_rfl, bitF_xor',
    decide_eq_true j.2, Bool.true_and, Nat.add_assoc]
  rfl

theorem ident64_bits : ∀ j (h : j < 64), ∀ t < 64, identM64[j].getLsbD t = decide (t = 64 - 1 - j) := by
  decide +kernel

theorem addW_mat {l n : Nat} (hn : n = 64 * l) (b : Nat → Bool) (k : Nat)
    (A : Vector (Vector (BitVec 64) l) n) (i j : Fin n) :
    matOf n bitW (addW b k A) i j =
      matOf n bitW A i j + bitF (b (k + (n * i + (l * (j.val % 64) + j.val / 64)))) := by
  have hj : j.val / 64 < l := by have := j.2; omega
  show bitF (bitW (addW b k A)[i.val] j) = bitF (bitW A[i.val] j) + _
  unfold addW bitW
  rw [Vector.getElem_ofFn, Vector.getElem?_eq_getElem hj, Vector.getElem?_eq_getElem hj]
  show bitF (BitVec.getLsbD (Vector.ofFn fun j : Fin l => A[i.val][j] ^^^ limbAcc b l (k + n * i) j.val 64)[j.val / 64]
    (63 - j.val % 64)) = bitF (BitVec.getLsbD A[i.val][j.val / 64] (63 - j.val % 64)) + _
  rw [Vector.getElem_ofFn, BitVec.getLsbD_xor, limbAcc_row,
    rowAcc_bit identM64 le_rfl ident64_bits _ _ _ (j.val % 64) (Nat.mod_lt _ (by norm_num)) le_rfl, bitF_xor',
    decide_eq_true (Nat.mod_lt _ (by norm_num)), Bool.true_and, Nat.zero_add]
  congr 2
  congr 1
  show k + n * i.val + l * (j.val % 64) + j.val / 64 = _
  omega

theorem addS_cancel {w n : Nat} (I : Vector (BitVec w) n) (b : Nat → Bool) (k : Nat) (A : Vector (BitVec w) n) :
    addS I b k (addS I b k A) = A := by
  apply Vector.ext
  intro i hi
  unfold addS
  rw [Vector.getElem_ofFn]
  show (Vector.ofFn fun i : Fin n => A[i] ^^^ rowAcc I b (k + n * i) n)[i] ^^^ _ = _
  rw [Vector.getElem_ofFn, BitVec.xor_assoc, BitVec.xor_self, BitVec.xor_zero]
  rfl

theorem addW_cancel {l n : Nat} (b : Nat → Bool) (k : Nat) (A : Vector (Vector (BitVec 64) l) n) :
    addW b k (addW b k A) = A := by
  apply Vector.ext
  intro i hi
  apply Vector.ext
  intro j hj
  unfold addW
  rw [Vector.getElem_ofFn, Vector.getElem_ofFn]
  show (Vector.ofFn fun i : Fin n => Vector.ofFn fun j : Fin l =>
    A[i][j] ^^^ limbAcc b l (k + n * i) j.val 64)[i][j] ^^^ _ = _
  rw [Vector.getElem_ofFn, Vector.getElem_ofFn, BitVec.xor_assoc, BitVec.xor_self, BitVec.xor_zero]
  rfl

/-- Stack contents for arrays of words. -/
def envS {w n : Nat} (A : Vector (BitVec w) n) : Env :=
  ⟨.little, fun w' i => if h : i < n then A[i].setWidth w' else 0⟩

theorem envS_junk {w n : Nat} (A : Vector (BitVec w) n) : (envS A).junkArr w n = A := by
  apply Vector.ext
  intro i hi
  unfold Env.junkArr envS
  rw [Vector.getElem_ofFn]
  show (if h : i < n then A[i].setWidth w else 0) = _
  rw [dif_pos hi, BitVec.setWidth_eq]

/-- Stack contents for two-dimensional arrays. -/
def envW {l n : Nat} (A : Vector (Vector (BitVec 64) l) n) : Env :=
  ⟨.little, fun w' i => if h : i / l < n ∧ i % l < l then (A[i / l]'h.1)[i % l].setWidth w' else 0⟩

theorem envW_junk {l n : Nat} (A : Vector (Vector (BitVec 64) l) n) : (envW A).junkArr2 64 l n = A := by
  apply Vector.ext
  intro i hi
  apply Vector.ext
  intro j hj
  unfold Env.junkArr2 envW
  rw [Vector.getElem_ofFn, Vector.getElem_ofFn]
  show (if h : (i * l + j) / l < n ∧ (i * l + j) % l < l then
    (A[(i * l + j) / l]'h.1)[(i * l + j) % l].setWidth 64 else 0) = _
  have e1 : (i * l + j) / l = i := by
    rw [Nat.add_comm, Nat.add_mul_div_right _ _ (by omega), Nat.div_eq_of_lt hj, Nat.zero_add]
  have e2 : (i * l + j) % l = j := by
    rw [Nat.add_comm, Nat.add_mul_mod_self_right, Nat.mod_eq_of_lt hj]
  have hc : (i * l + j) / l < n ∧ (i * l + j) % l < l := by rw [e1, e2]; exact ⟨hi, hj⟩
  rw [dif_pos hc, BitVec.setWidth_eq]
  simp only [e1, e2]

section
variable {fuel : Nat} {b : Nat → Bool} {s : Nat → BitVec 80}
  (hb : ∀ i, getrandbit fuel (s i) = .ok (b i, s (i + 1)))
include hb

omit hb in
theorem ident4_hI : ∀ j (h : j < 4), ∀ t < 8, identM4[j].getLsbD t = decide (t = 4 - 1 - j) := by
  decide +kernel

theorem randbit4_run (A : M4) (k : Nat) :
    RandbitMatM4 fuel A (s k) = .ok (addS identM4 b k A, s (k + 4 * 4)) :=
  outer_loop hb _ (fun i x => x ^^^ rowAcc identM4 b (k + 4 * i) 4) 4 k
    (fun i hi A => (row_loop hb identM4 A i (k + 4 * i) hi).trans (by rw [Nat.mul_succ, Nat.add_assoc])) A

omit hb in
theorem ident8_hI : ∀ j (h : j < 8), ∀ t < 8, identM8[j].getLsbD t = decide (t = 8 - 1 - j) := by
  decide +kernel

theorem randbit8_run (A : M8) (k : Nat) :
    RandbitMatM8 fuel A (s k) = .ok (addS identM8 b k A, s (k + 8 * 8)) :=
  outer_loop hb _ (fun i x => x ^^^ rowAcc identM8 b (k + 8 * i) 8) 8 k
    (fun i hi A => (row_loop hb identM8 A i (k + 8 * i) hi).trans (by rw [Nat.mul_succ, Nat.add_assoc])) A

omit hb in
theorem ident16_hI : ∀ j (h : j < 16), ∀ t < 16, identM16[j].getLsbD t = decide (t = 16 - 1 - j) := by
  decide +kernel

theorem randbit16_run (A : M16) (k : Nat) :
    RandbitMatM16 fuel A (s k) = .ok (addS identM16 b k A, s (k + 16 * 16)) :=
  outer_loop hb _ (fun i x => x ^^^ rowAcc identM16 b (k + 16 * i) 16) 16 k
    (fun i hi A => (row_loop hb identM16 A i (k + 16 * i) hi).trans (by rw [Nat.mul_succ, Nat.add_assoc])) A

omit hb in
theorem ident32_hI : ∀ j (h : j < 32), ∀ t < 32, identM32[j].getLsbD t = decide (t = 32 - 1 - j) := by
  decide +kernel

theorem randbit32_run (A : M32) (k : Nat) :
    RandbitMatM32 fuel A (s k) = .ok (addS identM32 b k A, s (k + 32 * 32)) :=
  outer_loop hb _ (fun i x => x ^^^ rowAcc identM32 b (k + 32 * i) 32) 32 k
    (fun i hi A => (row_loop hb identM32 A i (k + 32 * i) hi).trans (by rw [Nat.mul_succ, Nat.add_assoc])) A

omit hb in
theorem ident64_hI : ∀ j (h : j < 64), ∀ t < 64, identM64[j].getLsbD t = decide (t = 64 - 1 - j) := by
  decide +kernel

theorem randbit64_run (A : M64) (k : Nat) :
    RandbitMatM64 fuel A (s k) = .ok (addS identM64 b k A, s (k + 64 * 64)) :=
  outer_loop hb _ (fun i x => x ^^^ rowAcc identM64 b (k + 64 * i) 64) 64 k
    (fun i hi A => (row_loop hb identM64 A i (k + 64 * i) hi).trans (by rw [Nat.mul_succ, Nat.add_assoc])) A

theorem randbit128_run (A : M128) (k : Nat) :
    RandbitMatM128 fuel A (s k) = .ok (addW b k A, s (k + 128 * 128)) :=
  outer_loop hb _ (fun i x => Vector.ofFn fun j => x[j] ^^^ limbAcc b 2 (k + 128 * i) j.val 64) 128 k
    (fun i hi A => (limb_loop hb _ i (k + 128 * i) hi
      (fun j hj A => two_run hb i hi (k + 128 * i) j hj A) A).trans
        (by rw [show k + 128 * i + 2 * 64 = k + 128 * (i + 1) by omega])) A

theorem randbit256_run (A : M256) (k : Nat) :
    RandbitMatM256 fuel A (s k) = .ok (addW b k A, s (k + 256 * 256)) :=
  outer_loop hb _ (fun i x => Vector.ofFn fun j => x[j] ^^^ limbAcc b 4 (k + 256 * i) j.val 64) 256 k
    (fun i hi A => (limb_loop hb _ i (k + 256 * i) hi
      (fun j hj A => four_run hb i hi (k + 256 * i) j hj A) A).trans
        (by rw [show k + 256 * i + 4 * 64 = k + 256 * (i + 1) by omega])) A

end

end lowmc

end WB
