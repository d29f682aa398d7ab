import Verif.Proof.SpCount
import Verif.Proof.SpRank

/-!
# C92 — ranks over GF(2) and the matrix rank test (`/repo/test/randomness`)
-/
namespace WB.sp

/-- C92, full statement: for every matrix of bits with `Q` rows and `M` columns, `gf2matrix.rank` returns its rank. -/
def C92_statement : Prop := ∀ (Q M : Nat) (m : List (List Nat)), Rows Q M m → rank Q m = .ok (mat Q M m).rank

variable {Q M : Nat} {m : List (List Nat)}

/-- C92, what holds: the rank of every square matrix. -/
theorem C92_square_partial {n : Nat} (h : Rows n n m) : rank n m = .ok (mat n n m).rank := by
  rw [rank_run h, finrank_rowsp]

/-- C92: with more rows than columns it always ends with an `IndexError`. -/
theorem C92_tall_violated (h : Rows Q M m) (hQ : M < Q) : rank Q m = .error .oob := rank_tall h hQ

/-- C92: with more columns than rows it always returns a number that is not below the rank, … -/
theorem C92_wide (h : Rows Q M m) (hQ : Q ≤ M) : ∃ r, rank Q m = .ok r ∧ (mat Q M m).rank ≤ r ∧ r ≤ Q := rank_wide_run h hQ

/-- C92: … but possibly above it. -/
theorem C92_wide_violated : rank 2 [[0, 0, 1], [0, 0, 1]] = .ok 2 ∧ (mat 2 3 [[0, 0, 1], [0, 0, 1]]).rank = 1 := by
  refine ⟨by decide +kernel, ?_⟩
  rw [← finrank_rowsp]
  have : rowsp 2 3 [[0, 0, 1], [0, 0, 1]] = Submodule.span (ZMod 2) {fun c : Fin 3 => if c = 2 then (1 : ZMod 2) else 0} := by
    unfold rowsp
    congr 1
    ext x
    constructor
    · rintro ⟨k, rfl⟩
      revert k
      decide
    · rintro rfl
      exact ⟨0, by decide⟩
  rw [this, finrank_span_singleton]
  intro h
  exact absurd (congrFun h 2) (by decide)

theorem C92_violated : ¬ C92_statement := fun h => by
  have := h 2 3 [[0, 0, 1], [0, 0, 1]] (by unfold Rows Bits; decide)
  rw [C92_wide_violated.1, C92_wide_violated.2] at this
  exact absurd this (by simp)

/-- C92: the function `computeRank`, which no test uses, is wrong for square matrices, too. -/
theorem C92_computeRank_violated :
    computeRank 3 3 [[0, 0, 0], [1, 0, 0], [1, 0, 0]] = .ok 2 ∧ (mat 3 3 [[0, 0, 0], [1, 0, 0], [1, 0, 0]]).rank = 1 := by
  refine ⟨by decide +kernel, ?_⟩
  have h := C92_square_partial (n := 3) (m := [[0, 0, 0], [1, 0, 0], [1, 0, 0]]) (by unfold Rows Bits; decide)
  have h' : rank 3 [[0, 0, 0], [1, 0, 0], [1, 0, 0]] = .ok 1 := by decide +kernel
  rw [h'] at h
  exact ((Except.ok.injEq _ _).mp h).symm

/-- C92: the reference probabilities of the test are exactly the probabilities that a random matrix has full rank, … -/
theorem C92_prob_full (n : Nat) :
    rankProb n n n = (Nat.card {A : Matrix (Fin n) (Fin n) (ZMod 2) // A.rank = n} : ℚ) / 2 ^ (n * n) := rankProb_full n

/-- C92: … and that its rank is smaller by one. -/
theorem C92_prob_pred (n : Nat) :
    rankProb (n + 1) (n + 1) n =
      (Nat.card {A : Matrix (Fin (n + 1)) (Fin (n + 1)) (ZMod 2) // A.rank = n} : ℚ) / 2 ^ ((n + 1) * (n + 1)) := rankProb_pred n

/-- The matrix made of 1024 bits from position `1024 * i` on, row by row. -/
def block (bits : List Nat) (i : Nat) : Matrix (Fin 32) (Fin 32) (ZMod 2) := fun r c => bit bits (i * 1024 + (r * 32 + c))

/-- C92: for at least 38 * 1024 bits, the test counts how many of the matrices made of 1024 consecutive bits have rank 32, 31 and
less, and its P value is the exponential of minus half the chi-square statistic for the probabilities of these ranks. -/
theorem C92_test {bits : List Nat} (hb : Bits bits) (hn : 38 * 1024 ≤ bits.length) :
    let N := bits.length / 1024
    let v : Nat → ℚ := fun k => ((Finset.range N).filter fun i => min 2 (32 - (block bits i).rank) = k).card
    let π : Nat → ℚ := fun k => if k = 0 then rankProb 32 32 32 else if k = 1 then rankProb 32 32 31
      else 1 - (rankProb 32 32 32 + rankProb 32 32 31)
    binary_matrix_rank_test bits = .ok (result (Real.exp (-(chiSquare 3 N v π : ℝ) / 2))) := by
  intro N v π
  have hN : ¬ N < 38 := by omega
  have hrank : ∀ i, i < N → rank 32 (matrix_from_bits 32 32 (slice bits (i * (32 * 32)) ((i + 1) * (32 * 32)))) =
      .ok (block bits i).rank := fun i hi => by
    have h := rank_block hb (n := 32) (i := i) (N := N) hi (Nat.div_mul_le_self bits.length 1024)
    rwa [finrank_rowsp, mat_from_bits (by rw [Nat.succ_mul])] at h
  have hcount : ∀ (q : Nat → Prop) [DecidablePred q] (k : Nat), (∀ i, q i ↔ min 2 (32 - (block bits i).rank) = k) →
      (((List.range N).countP (fun i => q i) : Nat) : ℚ) = v k := fun q _ k h => by
    simp only [v]
    rw [List.countP_eq_length_filter, ← List.toFinset_card_of_nodup (List.nodup_range.filter _)]
    congr 2
    ext i
    simp [h]
  have hle : ∀ i, (block bits i).rank ≤ 32 := fun i => (Matrix.rank_le_card_width _).trans (by simp)
  have e0 := hcount (fun i => (block bits i).rank = 32) 0 fun i => by have := hle i; omega
  have e1 := hcount (fun i => (block bits i).rank + 1 = 32) 1 fun i => by have := hle i; omega
  have e2 := hcount (fun i => (block bits i).rank ≠ 32 ∧ (block bits i).rank + 1 ≠ 32) 2 fun i => by have := hle i; omega
  have hN0 : (N : ℚ) ≠ 0 := by
    have : N ≠ 0 := by omega
    exact_mod_cast this
  have p0 : rankProb 32 32 32 ≠ 0 := by decide +kernel
  have p1 : rankProb 32 32 31 ≠ 0 := by decide +kernel
  have p2 : 1 - (rankProb 32 32 32 + rankProb 32 32 31) ≠ 0 := by decide +kernel
  unfold binary_matrix_rank_test
  rw [if_neg (show ¬ bits.length / (32 * 32) < 38 from hN)]
  change (rankCounts 32 32 N bits >>= _) = _
  rw [rankCounts_run 32 N (fun i => (block bits i).rank) hrank, C_pure_bind]
  simp only
  rw [e0, e1, e2, qdiv, if_neg (mul_ne_zero p0 hN0), qdiv, if_neg (mul_ne_zero p1 hN0), qdiv, if_neg (mul_ne_zero p2 hN0)]
  simp only [C_pure_bind]
  rw [C_pure_eq]
  congr 6
  simp only [chiSquare, Finset.sum_range_succ, Finset.sum_range_zero, π, zero_add]
  norm_num [mul_comm]
  rfl

/-- C92: fewer bits fail the test with P value 0, without being looked at. -/
theorem C92_short (bits : List Nat) (hn : bits.length < 38 * 1024) : binary_matrix_rank_test bits = .ok ⟨False, 0⟩ := by
  unfold binary_matrix_rank_test
  rw [if_pos (by omega)]
  rfl

/-- The hypotheses of the theorems above can be met. -/
example : Rows 3 3 [[0, 1, 0], [1, 0, 0], [1, 1, 0]] := by unfold Rows Bits; decide
example : Rows 3 2 [[0, 1], [1, 0], [1, 1]] := by unfold Rows Bits; decide
example : Rows 2 3 [[0, 1, 1], [1, 0, 1]] := by unfold Rows Bits; decide
example : rank 3 [[0, 1, 0], [1, 0, 0], [1, 1, 0]] = .ok 2 := by decide +kernel
example : Bits (List.replicate 38912 1) ∧ 38 * 1024 ≤ (List.replicate 38912 1).length :=
  ⟨fun x hx => by rw [List.eq_of_mem_replicate hx]; decide, by rw [List.length_replicate]⟩

end WB.sp
