import Verif.Proof.M4riPle
import Verif.Proof.M4riPleRank
import Verif.Prop.C109

/-!
# C118 — the naive PLUQ factorisation of M4RI (`/repo/test/github1_M4RI/src/m4ri/ple.c`)

`PMat P.cell m m` is the matrix by which `mzd_apply_p_left` multiplies with the permutation `P` of length `m` (C109).
-/
namespace WB.m4w

open WB.cmp (Mem)

variable {m n : Nat} {M : Mzd} {P Q : Mem Nat} {A : Matrix (Fin m) (Fin n) (ZMod 2)}

/-- C118: `_mzd_pluq_naive` returns the rank `k` of `A`, permutations `P` and `Q` and, in the place of `A`, a lower triangular matrix `L` with `k` columns and an upper triangular matrix `U` with
`k` rows, both with ones on the diagonal, such that `A = Pᵀ * L * U * Q`.  `L` is what is below the diagonal in the first `k` columns, `U` what is on and above it in the first `k` rows; the other
entries are zero.  What `P` and `Q` held before does not matter; bits outside of the matrix stay as they are. -/
theorem C118_pluq (hM : Rep M A) (hP : P.size = m) (hQ : Q.size = n) :
    ∃ N P' Q' k, _mzd_pluq_naive M P Q = .ok (⟨N, P', Q'⟩, k) ∧ k = A.rank ∧
      (P'.size = m ∧ ∀ i < m, i ≤ P'.cell i ∧ P'.cell i < m) ∧ (Q'.size = n ∧ ∀ i < n, i ≤ Q'.cell i ∧ Q'.cell i < n) ∧
      (∃ X : Matrix (Fin m) (Fin n) (ZMod 2), Rep N X ∧ ∃ (L : Matrix (Fin m) (Fin k) (ZMod 2)) (U : Matrix (Fin k) (Fin n) (ZMod 2)),
        A = (PMat P'.cell m m).transpose * (L * U) * PMat Q'.cell n n ∧
        (∀ a j, L a j = if (j : Nat) < a then bitF (N.bit a j) else if (j : Nat) = a then 1 else 0) ∧
        (∀ i b, U i b = if (i : Nat) < b then bitF (N.bit i b) else if (i : Nat) = b then 1 else 0) ∧
        (∀ i < k, N.bit i i = true) ∧ ∀ (a : Fin m) (b : Fin n), k ≤ a → k ≤ b → X a b = 0) ∧
      ∀ a b, n ≤ b → N.bit a b = M.bit a b := by
  obtain ⟨⟨⟨N, P', Q'⟩, k⟩, e, o⟩ := pluq_naive_ok (P := P) (Q := Q) hM.wf (hP.trans hM.nrows.symm) (hQ.trans hM.ncols.symm)
  obtain ⟨⟨sh, pS, qS, sm, sn, hp, hq, piv, split, out⟩, rest, pf, qf⟩ := o
  simp only [hM.nrows, hM.ncols] at sh pS qS sm sn hp hq piv split out rest pf qf
  have hp' : ∀ i < m, i ≤ P'.cell i ∧ P'.cell i < m := fun i hi => by
    by_cases h : i < k
    · exact hp i h
    · rw [pf i (by omega) hi]; exact ⟨le_refl _, hi⟩
  have hq' : ∀ i < n, i ≤ Q'.cell i ∧ Q'.cell i < n := fun i hi => by
    by_cases h : i < k
    · exact hq i h
    · rw [qf i (by omega) hi]; exact ⟨le_refl _, hi⟩
  let X : Matrix (Fin m) (Fin n) (ZMod 2) := fun a b => bitF (N.bit a b)
  have hX : Rep N X := ⟨sh.wf hM.wf, sh.nrows.trans hM.nrows, sh.ncols.trans hM.ncols, fun _ _ => rfl⟩
  let L : Matrix (Fin m) (Fin k) (ZMod 2) := fun a j => if (j : Nat) < a then bitF (N.bit a j) else if (j : Nat) = a then 1 else 0
  let U : Matrix (Fin k) (Fin n) (ZMod 2) := fun i b => if (i : Nat) < b then bitF (N.bit i b) else if (i : Nat) = b then 1 else 0
  have key : PMat P'.cell m m * A * (PMat Q'.cell n n).transpose = L * U := by
    ext a b
    have e1 := split a a.2 b b.2
    unfold splitAt at e1
    rw [mul_pmat_trans (fun i hi => ⟨hi, (hq' i hi).2⟩), pmat_mul (fun i hi => ⟨hi, (hp' i hi).2⟩), ← hM.bit, Matrix.mul_apply]
    simp only []
    rw [walk_long m sm pf, walk_long n sn qf, e1]
    have e2 : (if k ≤ (a : Nat) ∧ k ≤ (b : Nat) then bitF (N.bit a b) else 0) = 0 := by
      by_cases h : k ≤ (a : Nat) ∧ k ≤ (b : Nat)
      · rw [if_pos h, rest a b h.1 a.2 h.2 b.2]; rfl
      · rw [if_neg h]
    rw [e2, add_zero, Finset.sum_range fun i => (if i ≤ (a : Nat) then bitF (N.bit a i) else 0) * (if i ≤ (b : Nat) then bitF (N.bit i b) else 0)]
    refine Finset.sum_congr rfl fun j _ => ?_
    congr 1
    · show _ = if (j : Nat) < a then bitF (N.bit a j) else if (j : Nat) = a then 1 else 0
      rcases Nat.lt_trichotomy j a with h | h | h
      · rw [if_pos h.le, if_pos h]
      · rw [if_pos h.le, if_neg (by omega), if_pos h, ← h, piv j j.2]; rfl
      · rw [if_neg (by omega), if_neg (by omega), if_neg (by omega)]
    · show _ = if (j : Nat) < b then bitF (N.bit j b) else if (j : Nat) = b then 1 else 0
      rcases Nat.lt_trichotomy j b with h | h | h
      · rw [if_pos h.le, if_pos h]
      · rw [if_pos h.le, if_neg (by omega), if_pos h, ← h, piv j j.2]; rfl
      · rw [if_neg (by omega), if_neg (by omega), if_neg (by omega)]
  have iP := C109_matrix_inverse (n := m) (v := P'.cell) (len := m) fun i hi => ⟨hi, (hp' i hi).2⟩
  have iQ := C109_matrix_inverse (n := n) (v := Q'.cell) (len := n) fun i hi => ⟨hi, (hq' i hi).2⟩
  refine ⟨N, P', Q', k, e, ?_, ⟨pS, hp'⟩, ⟨qS, hq'⟩, ⟨X, hX, L, U, ?_, fun _ _ => rfl, fun _ _ => rfl, piv, fun a b h1 h2 => ?_⟩, out⟩
  · rw [rank_of_permuted iP.1 iQ.1 key, rank_of_factors (fun i => ⟨i, by omega⟩) (fun i => ⟨i, by omega⟩)]
    · intro i
      show (if (i : Nat) < i then _ else if (i : Nat) = i then (1 : ZMod 2) else 0) = 1
      rw [if_neg (by omega), if_pos rfl]
    · intro i j h
      have h : (i : Nat) < j := h
      show (if (j : Nat) < i then _ else if (j : Nat) = i then (1 : ZMod 2) else 0) = 0
      rw [if_neg (by omega), if_neg (by omega)]
    · intro i
      show (if (i : Nat) < i then _ else if (i : Nat) = i then (1 : ZMod 2) else 0) = 1
      rw [if_neg (by omega), if_pos rfl]
    · intro i j h
      have h : (j : Nat) < i := h
      show (if (i : Nat) < j then _ else if (i : Nat) = j then (1 : ZMod 2) else 0) = 0
      rw [if_neg (by omega), if_neg (by omega)]
  · rw [← key, ← Matrix.mul_assoc, ← Matrix.mul_assoc, iP.1, Matrix.one_mul, Matrix.mul_assoc, iQ.1, Matrix.mul_one]
  · show bitF (N.bit a b) = 0
    rw [rest a b h1 a.2 h2 b.2]; rfl

/-- The theorem applies to the matrix of C109 with 130 rows and columns. -/
example : ∃ N P' Q' k, _mzd_pluq_naive exPM (⟨130, fun _ => 0⟩ : Mem Nat) ⟨130, fun _ => 0⟩ = .ok (⟨N, P', Q'⟩, k) ∧ k = exPA.rank := by
  obtain ⟨N, P', Q', k, h1, h2, _⟩ := C118_pluq (P := ⟨130, fun _ => 0⟩) (Q := ⟨130, fun _ => 0⟩) exP_rep rfl rfl
  exact ⟨N, P', Q', k, h1, h2⟩

/-- Three rows and four columns; the first column is zero. -/
def exPluq : Mzd := ⟨3, 4, 0, ⟨3, 1, fun i _ => if i = 0 then 8#64 else if i = 1 then 14#64 else 6#64⟩⟩

/-- Rank 2; rows 0 and 1, columns 0 and 1, and columns 1 and 3 are exchanged. -/
example : (_mzd_pluq_naive exPluq ⟨3, fun _ => 7⟩ ⟨4, fun _ => 7⟩).map (fun s => (s.2, (List.range 3).map s.1.P.cell, (List.range 4).map s.1.Q.cell, (List.range 3).map fun i => s.1.A.word i 0)) =
    .ok (2, [1, 1, 2], [1, 3, 2, 3], [7#64, 2#64, 3#64]) := by
  with_unfolding_all rfl

end WB.m4w
