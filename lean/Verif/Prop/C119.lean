import Verif.Proof.M4riPleE
import Verif.Proof.M4riPleRank
import Verif.Prop.C109

/-!
# C119 — the naive PLE factorisation of M4RI (`/repo/test/github1_M4RI/src/m4ri/ple.c`)
-/
namespace WB.m4w

open WB.cmp (Mem)

variable {m n : Nat} {M : Mzd} {P Q : Mem Nat} {A : Matrix (Fin m) (Fin n) (ZMod 2)}

/-- C119: `_mzd_ple_naive` returns the rank `k` of `A`, permutations `P` and `Q` and, in the place of `A`, a lower triangular matrix `L` with `k` columns and ones on the diagonal and a matrix `E`
in row echelon form with `k` rows such that `A = Pᵀ * L * E`.  `Q 0 < Q 1 < … < Q (k - 1)` are the columns of the pivots.  `L` is what is below the diagonal in the first `k` columns, row `i`
of `E` is what is to the right of column `Q i`; the entries in between are zero, except for the diagonal.  `E = U * Q` for an upper triangular matrix `U` with ones on the diagonal. -/
theorem C119_ple (hM : Rep M A) (hP : P.size = m) (hQ : Q.size = n) :
    ∃ N P' Q' k, _mzd_ple_naive M P Q = .ok (⟨N, P', Q'⟩, k) ∧ k = A.rank ∧
      (P'.size = m ∧ ∀ i < m, i ≤ P'.cell i ∧ P'.cell i < m) ∧ (Q'.size = n ∧ (∀ i < n, i ≤ Q'.cell i ∧ Q'.cell i < n) ∧ ∀ i j, i < j → j < k → Q'.cell i < Q'.cell j) ∧
      (∃ X : Matrix (Fin m) (Fin n) (ZMod 2), Rep N X ∧ ∃ (L : Matrix (Fin m) (Fin k) (ZMod 2)) (E : Matrix (Fin k) (Fin n) (ZMod 2)),
        A = (PMat P'.cell m m).transpose * (L * E) ∧
        (∀ a j, L a j = if (j : Nat) < a then bitF (N.bit a j) else if (j : Nat) = a then 1 else 0) ∧
        (∀ i b, E i b = if Q'.cell i < b then bitF (N.bit i b) else if Q'.cell i = b then 1 else 0) ∧
        (∃ U : Matrix (Fin k) (Fin n) (ZMod 2), E = U * PMat Q'.cell n n ∧ ∀ (i : Fin k) (b : Fin n), (b : Nat) ≤ i → U i b = if (b : Nat) = i then 1 else 0) ∧
        (∀ i < k, N.bit i i = true) ∧ (∀ i < k, ∀ b, i < b → b ≤ Q'.cell i → N.bit i b = false) ∧ ∀ (a : Fin m) (b : Fin n), k ≤ a → k ≤ b → X a b = 0) ∧
      ∀ a b, n ≤ b → N.bit a b = M.bit a b := by
  obtain ⟨⟨⟨N, P', Q'⟩, k⟩, e, o⟩ := ple_naive_ok (P := P) (Q := Q) hM.wf (hP.trans hM.nrows.symm) (hQ.trans hM.ncols.symm)
  obtain ⟨sh, pS, qS, km, kn, hp, hq, pf, qf, inc, piv, gap, rest, split, out⟩ := o
  simp only [hM.nrows, hM.ncols] at sh pS qS km kn hp hq pf qf inc piv gap rest split out
  let X : Matrix (Fin m) (Fin n) (ZMod 2) := fun a b => bitF (N.bit a b)
  have hX : Rep N X := ⟨sh.wf hM.wf, sh.nrows.trans hM.nrows, sh.ncols.trans hM.ncols, fun _ _ => rfl⟩
  let L : Matrix (Fin m) (Fin k) (ZMod 2) := fun a j => if (j : Nat) < a then bitF (N.bit a j) else if (j : Nat) = a then 1 else 0
  let E : Matrix (Fin k) (Fin n) (ZMod 2) := fun i b => if Q'.cell i < b then bitF (N.bit i b) else if Q'.cell i = b then 1 else 0
  have key : PMat P'.cell m m * A = L * E := by
    ext a b
    rw [pmat_mul (fun i hi => ⟨hi, (hp i hi).2⟩), ← hM.bit, Matrix.mul_apply]
    simp only []
    rw [walk_long m km pf, split a a.2 b b.2,
      Finset.sum_range fun i => (if i < (a : Nat) then bitF (N.bit a i) else if i = (a : Nat) then 1 else 0) * (if Q'.cell i < (b : Nat) then bitF (N.bit i b) else if Q'.cell i = (b : Nat) then 1 else 0)]
  have hE : ∀ (i : Fin k) (b : Fin n), E i b = if Q'.cell i < b then bitF (N.bit i b) else if Q'.cell i = b then 1 else 0 := fun _ _ => rfl
  have iP := C109_matrix_inverse (n := m) (v := P'.cell) (len := m) fun i hi => ⟨hi, (hp i hi).2⟩
  have iQ := C109_matrix_inverse (n := n) (v := Q'.cell) (len := n) fun i hi => ⟨hi, (hq i hi).2⟩
  refine ⟨N, P', Q', k, e, ?_, ⟨pS, hp⟩, ⟨qS, hq, inc⟩, ⟨X, hX, L, E, ?_, fun _ _ => rfl, hE, ⟨E * (PMat Q'.cell n n).transpose, ?_, fun i b hb => ?_⟩, piv, gap, fun a b h1 h2 => ?_⟩, out⟩
  · have key' : PMat P'.cell m m * A * (1 : Matrix (Fin n) (Fin n) (ZMod 2)) = L * E := by rw [Matrix.mul_one, key]
    rw [rank_of_permuted iP.1 (Matrix.one_mul 1) key', rank_of_factors (fun i => ⟨i, by omega⟩) (fun i => ⟨Q'.cell i, (hq i (by omega)).2⟩)]
    · intro i
      show (if (i : Nat) < i then _ else if (i : Nat) = i then (1 : ZMod 2) else 0) = 1
      rw [if_neg (by omega), if_pos rfl]
    · intro i j h
      have h : (i : Nat) < j := h
      show (if (j : Nat) < i then _ else if (j : Nat) = i then (1 : ZMod 2) else 0) = 0
      rw [if_neg (by omega), if_neg (by omega)]
    · intro i
      rw [hE, if_neg (by simp), if_pos rfl]
    · intro i j h
      have := inc j i h i.2
      rw [hE, if_neg (by simp only []; omega), if_neg (by simp only []; omega)]
  · rw [← key, ← Matrix.mul_assoc, iP.1, Matrix.one_mul]
  · rw [Matrix.mul_assoc, iQ.1, Matrix.mul_one]
  · rw [mul_pmat_trans (fun i hi => ⟨hi, (hq i hi).2⟩), hE]
    have hw : Walk Q'.cell (List.range n) b = Q'.cell b := walk_pivot n b.2 (fun i hi => (hq i hi).1) fun j hj => inc j b hj (by have := i.2; omega)
    simp only [hw]
    rcases Nat.eq_or_lt_of_le hb with h | h
    · rw [h, if_neg (by omega), if_pos rfl, if_pos rfl]
    · have := inc b i h i.2
      rw [if_neg (by omega), if_neg (by omega), if_neg (by omega)]
  · show bitF (N.bit a b) = 0
    rw [rest a b h1 a.2 h2 b.2]; rfl

/-- The theorem applies to the matrix of C109 with 130 rows and columns. -/
example : ∃ N P' Q' k, _mzd_ple_naive exPM (⟨130, fun _ => 0⟩ : Mem Nat) ⟨130, fun _ => 0⟩ = .ok (⟨N, P', Q'⟩, k) ∧ k = exPA.rank := by
  obtain ⟨N, P', Q', k, h1, h2, _⟩ := C119_ple (P := ⟨130, fun _ => 0⟩) (Q := ⟨130, fun _ => 0⟩) exP_rep rfl rfl
  exact ⟨N, P', Q', k, h1, h2⟩

/-- Three rows and four columns; the first column is zero. -/
def exPle : Mzd := ⟨3, 4, 0, ⟨3, 1, fun i _ => if i = 0 then 8#64 else if i = 1 then 14#64 else 6#64⟩⟩

/-- Rank 2; rows 0 and 1 are exchanged; the pivots are in columns 1 and 3. -/
example : (_mzd_ple_naive exPle ⟨3, fun _ => 7⟩ ⟨4, fun _ => 7⟩).map (fun s => (s.2, (List.range 3).map s.1.P.cell, (List.range 4).map s.1.Q.cell, (List.range 3).map fun i => s.1.A.word i 0)) =
    .ok (2, [1, 1, 2], [1, 3, 2, 3], [13#64, 2#64, 3#64]) := by
  with_unfolding_all rfl

end WB.m4w
