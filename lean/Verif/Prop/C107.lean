import Verif.Prop.C105
import Verif.Proof.M4riRandom

/-!
# C107 — random matrices in M4RI (`/repo/test/github1_M4RI/src/m4ri/misc.c`, `/repo/test/github1_M4RI/src/m4ri/mzd.c`)

The claims count results of `random`, which are 31-bit numbers: if all sequences of results are equally likely, then so are the words and the matrices.
-/
namespace WB.m4w

/-- The random words for results of `random`, three for each word. -/
def randomWords {k : Nat} (d : Fin k → BitVec 31 × BitVec 31 × BitVec 31) (n : Nat) : Word :=
  if h : n < k then m4ri_random_word (d ⟨n, h⟩).1 (d ⟨n, h⟩).2.1 (d ⟨n, h⟩).2.2 else 0

/-- C107: every word is the result of `m4ri_random_word` for the same number of results of `random`, namely 2^29 of the 2^93. -/
theorem C107_word (w : Word) : Nat.card {d : BitVec 31 × BitVec 31 × BitVec 31 // m4ri_random_word d.1 d.2.1 d.2.2 = w} = 2 ^ 29 := by
  have h := word_fibre w
  have h' : Nat.card {d : Draw // drawWord d = w} * 2 ^ 64 = 2 ^ 29 * 2 ^ 64 := h.trans (by norm_num)
  exact Nat.eq_of_mul_eq_mul_right (by decide) h'

theorem run_mat {M : Mzd} {r c : Nat} (hc : 0 < c) (hM : M.Wf) (h1 : M.nrows = r) (h2 : M.ncols = c) (d : Fin (r * ((c + 63) / 64)) → BitVec 31 × BitVec 31 × BitVec 31) :
    ∃ N, mzd_randomize (randomWords d) M = .ok N ∧ Rep N (drawMat r c d) := by
  obtain ⟨N, e, hN, _⟩ := C105_randomize (r := r) (c := c) (M := M) (A := fun i j => bitF (M.bit i j)) hc ⟨hM, h1, h2, fun _ _ => rfl⟩ (randomWords d)
  refine ⟨N, e, ?_⟩
  convert hN using 1
  ext i j
  show bitF _ = bitF ((randomWords d (i * ((c + 63) / 64) + j / 64)).getLsbD (j % 64))
  unfold randomWords
  rw [dif_pos]
  rfl

theorem rep_unique {N : Mzd} {r c : Nat} {A B : Matrix (Fin r) (Fin c) (ZMod 2)} (hA : Rep N A) (hB : Rep N B) : A = B := by
  ext i j
  rw [← hA.bit, ← hB.bit]

/-- The sequences of results of `random` for which `mzd_randomize(M)` returns and `M` then denotes a matrix with the property `p`. -/
def Randomized (M : Mzd) (r c : Nat) (p : Matrix (Fin r) (Fin c) (ZMod 2) → Prop) : Type :=
  {d : Fin (r * ((c + 63) / 64)) → BitVec 31 × BitVec 31 × BitVec 31 // ∃ N A, mzd_randomize (randomWords d) M = .ok N ∧ Rep N A ∧ p A}

theorem randomized_card {M : Mzd} {r c : Nat} (hc : 0 < c) (hM : M.Wf) (h1 : M.nrows = r) (h2 : M.ncols = c) (p : Matrix (Fin r) (Fin c) (ZMod 2) → Prop) :
    Nat.card (Randomized M r c p) = Nat.card {d // p (drawMat r c d)} := by
  refine Nat.card_congr (Equiv.subtypeEquivRight fun d => ?_)
  obtain ⟨N, e, hN⟩ := run_mat hc hM h1 h2 d
  constructor
  · rintro ⟨N', A, e', hA, hp⟩
    rw [e] at e'
    cases e'
    rw [rep_unique hN hA]
    exact hp
  · exact fun hp => ⟨N, _, e, hN, hp⟩

/-- C107: `mzd_randomize` reaches every matrix of the given size, and each for the same number of results of `random`: this number, times the number `2^(rc)` of matrices, is the
number of all sequences of results (`93` bits for each word of the matrix). -/
theorem C107_matrix {M : Mzd} {r c : Nat} (hc : 0 < c) (hM : M.Wf) (h1 : M.nrows = r) (h2 : M.ncols = c) (A : Matrix (Fin r) (Fin c) (ZMod 2)) :
    Nat.card (Randomized M r c (· = A)) * 2 ^ (r * c) = 2 ^ (93 * (r * ((c + 63) / 64))) := by
  rw [randomized_card hc hM h1 h2]
  exact drawMat_fibre A

/-- C107: the exact probability that a random square matrix is invertible, as a number of sequences of results of `random`. -/
theorem C107_invertible {M : Mzd} {n : Nat} (hn : 0 < n) (hM : M.Wf) (h1 : M.nrows = n) (h2 : M.ncols = n) :
    Nat.card (Randomized M n n IsUnit) * 2 ^ (n * n) = (∏ i : Fin n, (2 ^ n - 2 ^ (i : Nat))) * 2 ^ (93 * (n * ((n + 63) / 64))) := by
  rw [randomized_card hn hM h1 h2, drawMat_count, ← sp.card_rank_full, Nat.card_congr (Equiv.subtypeEquivRight fun A => ?_)]
  constructor
  · intro h; rw [Matrix.rank_of_isUnit _ h, Fintype.card_fin]
  · intro h
    apply (Matrix.linearIndependent_rows_iff_isUnit).1
    rw [linearIndependent_iff_card_eq_finrank_span, Fintype.card_fin, Set.finrank, ← Matrix.rank_eq_finrank_span_row, h]

/-- C107: for every size more than a quarter of the sequences of results give an invertible matrix, so programs that draw until the matrix is invertible need fewer than four draws on average. -/
theorem C107_quarter {M : Mzd} {n : Nat} (hn : 0 < n) (hM : M.Wf) (h1 : M.nrows = n) (h2 : M.ncols = n) :
    2 ^ (93 * (n * ((n + 63) / 64))) < 4 * Nat.card (Randomized M n n IsUnit) := by
  have h := C107_invertible hn hM h1 h2
  have hq := quarter n
  generalize (∏ i : Fin n, (2 ^ n - 2 ^ (i : Nat))) = G at *
  have hT : 0 < 2 ^ (93 * (n * ((n + 63) / 64))) := Nat.pow_pos (by decide)
  generalize 2 ^ (93 * (n * ((n + 63) / 64))) = T at *
  have hY : 0 < 2 ^ (n * n) := Nat.pow_pos (by decide)
  generalize 2 ^ (n * n) = Y at *
  generalize Nat.card (Randomized M n n IsUnit) = K at *
  by_contra hc
  have h3 : 4 * K * Y ≤ T * Y := Nat.mul_le_mul_right _ (by omega)
  have h4 : Y * T < 4 * G * T := Nat.mul_lt_mul_of_pos_right hq hT
  nlinarith

/-! ## Examples -/

example : Nat.card {d : BitVec 31 × BitVec 31 × BitVec 31 // m4ri_random_word d.1 d.2.1 d.2.2 = 0x0123456789abcdef#64} = 2 ^ 29 := C107_word _
example : Nat.card (Randomized (mzd_init 3 70) 3 70 (· = exT)) * 2 ^ 210 = 2 ^ 558 := C107_matrix (by decide) (init_wf _ _) rfl rfl exT
example : Nat.card (Randomized (mzd_init 2 2) 2 2 IsUnit) * 2 ^ 4 = 6 * 2 ^ 186 := by
  have := C107_invertible (M := mzd_init 2 2) (n := 2) (by decide) (init_wf _ _) rfl rfl
  rw [show (∏ i : Fin 2, (2 ^ 2 - 2 ^ (i : Nat))) = 6 by decide] at this
  exact this
example : 2 ^ (93 * (128 * 2)) < 4 * Nat.card (Randomized (mzd_init 128 128) 128 128 IsUnit) := C107_quarter (by decide) (init_wf _ _) rfl rfl

end WB.m4w
