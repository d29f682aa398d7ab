import Verif.Proof.Github3

/-!
# C86 — what the linear algebra program `/repo/test/github3` computes

Numbers of type `float` and `double` are exact rational numbers in the model.
-/
namespace WB.cmp.github3

/-- A square matrix with `n` rows. -/
def Sq (n : Nat) (A : Mem2 ℚ) : Prop := A.rows = n ∧ A.cols = n

/-- C86, full statement: for a square matrix with at least one row, `adjmmatrix` stores the adjugate, and `invermmatrix` computes
the inverse or prints that there is none. -/
def C86_statement : Prop :=
  ∀ (jm : JunkM) (n : Nat) (A Adj : Mem2 ℚ) (s : Heap), 1 ≤ n → Sq n A → Sq n Adj →
    (∃ r s', adjmmatrix jm A Adj n s = .ok (r, s') ∧ r.toMat n = (A.toMat n).adjugate) ∧
    ∃ o s', invermmatrix jm A s = .ok (o, s') ∧
      ((A.toMat n).det = 0 ∧ o = .noInverse ∨ ∃ V, o = .inverse V ∧ A.toMat n * V.toMat n = 1)

variable (jm : JunkM) {n : Nat} (A B : Mem2 ℚ) (s : Heap)

/-- C86: `determmatrix` returns the determinant of the upper left part of order `tam`, for every square matrix, and frees the
memory that it allocates. -/
theorem C86_determinant {tam : Nat} (h1 : 1 ≤ tam) (h2 : tam ≤ n) (hA : Sq n A) :
    ∃ s', determmatrix jm tam A s = .ok ((A.toMat tam).det, s') ∧ s'.live = s.live := by
  obtain ⟨k, rfl⟩ := Nat.exists_eq_add_of_le' h1
  obtain ⟨d, s', e, rfl, h⟩ := Res.run (det_run jm k A s (hA.1.trans hA.2.symm) (h2.trans hA.1.ge))
  exact ⟨s', e, h⟩

/-- C86: `mulmat` returns the matrix product if the sizes fit, and the null pointer otherwise. -/
theorem C86_mulmat : (A.cols ≠ B.rows → mulmat jm A B s = .ok (none, s)) ∧ (A.cols = B.rows → ∃ r s', mulmat jm A B s = .ok (some r, s') ∧
    r.rows = A.rows ∧ r.cols = B.cols ∧ ∀ i j, i < A.rows → j < B.cols → r.cell i j = ∑ k ∈ Finset.range A.cols, A.cell i k * B.cell k j) := by
  constructor
  · intro h
    rw [mulmat, if_pos h]
    rfl
  · intro h
    have : Res Never (mulmat jm A B) s fun o _ => ∃ r, o = some r ∧ r.rows = A.rows ∧ r.cols = B.cols ∧
        ∀ i j, i < A.rows → j < B.cols → r.cell i j = ∑ k ∈ Finset.range A.cols, A.cell i k * B.cell k j := by
      rw [mulmat, if_neg (fun h' => h' h)]
      refine Res.mem (Res.lift (mul_run A B _ h ⟨rfl, rfl⟩) fun C ⟨hC, hv⟩ => Res.pure ⟨C, rfl, hC.1, hC.2, hv⟩)
    obtain ⟨o, s', e, r, rfl, h⟩ := Res.run this
    exact ⟨r, s', e, h⟩

/-- C86, what holds: from order 2 on, `adjmmatrix` stores the adjugate. -/
theorem C86_adjugate_partial {Adj : Mem2 ℚ} {tam : Nat} (h1 : 2 ≤ tam) (h2 : tam ≤ n) (hA : Sq n A) (hJ : tam ≤ Adj.rows ∧ tam ≤ Adj.cols) :
    ∃ r s', adjmmatrix jm A Adj tam s = .ok (r, s') ∧ r.toMat tam = (A.toMat tam).adjugate := by
  obtain ⟨k, rfl⟩ := Nat.exists_eq_add_of_le' (show 1 ≤ tam by omega)
  obtain ⟨r, s', e, _, h, _⟩ := Res.run (adj_run jm (by omega) A Adj s (hA.1.trans hA.2.symm) (h2.trans hA.1.ge) hJ)
  exact ⟨r, s', e, h⟩

/-- C86, what holds: from order 2 on, `invermmatrix` prints that there is no inverse exactly if the determinant is zero, and
otherwise computes the inverse (on both sides). -/
theorem C86_inverse_partial (h1 : 2 ≤ n) (hA : Sq n A) : ∃ o s', invermmatrix jm A s = .ok (o, s') ∧
    (((A.toMat n).det = 0 ∧ o = .noInverse) ∨
      ((A.toMat n).det ≠ 0 ∧ ∃ V, o = .inverse V ∧ Sq n V ∧ A.toMat n * V.toMat n = 1 ∧ V.toMat n * A.toMat n = 1)) := by
  obtain ⟨k, rfl⟩ := Nat.exists_eq_add_of_le' (show 1 ≤ n by omega)
  obtain ⟨o, s', e, h⟩ := Res.run (inver_run jm (by omega) A s hA.1 hA.2)
  refine ⟨o, s', e, ?_⟩
  rcases h with ⟨h0, h, _⟩ | ⟨h0, ⟨V, h, hV, hi⟩, _⟩
  · exact .inl ⟨h0, h⟩
  · have hu : IsUnit (A.toMat (k + 1)).det := isUnit_iff_ne_zero.2 h0
    exact .inr ⟨h0, V, h, hV, by rw [hi, Matrix.mul_nonsing_inv _ hu], by rw [hi, Matrix.nonsing_inv_mul _ hu]⟩

/-- C86: a matrix that is not square is reported, and nothing else is done. -/
theorem C86_not_square (h : A.rows ≠ A.cols) : invermmatrix jm A s = .ok (.notSquare, s) := by
  rw [invermmatrix, if_neg h]
  rfl

/-- C86: for order 1 `adjmmatrix` stores 0 instead of 1: the 1 stored first is overwritten. -/
theorem C86_adjugate_one_violated {Adj : Mem2 ℚ} (h1 : 1 ≤ n) (hA : Sq n A) (hJ : 1 ≤ Adj.rows ∧ 1 ≤ Adj.cols) :
    ∃ r s', adjmmatrix jm A Adj 1 s = .ok (r, s') ∧ r.cell 0 0 = 0 ∧ r.toMat 1 ≠ (A.toMat 1).adjugate := by
  obtain ⟨r, s', e, _, h, _⟩ := Res.run (adj_one jm A Adj s (hA.1.trans hA.2.symm) (h1.trans hA.1.ge) hJ)
  refine ⟨r, s', e, h, fun h' => ?_⟩
  have := congrFun (congrFun h' 0) 0
  rw [Matrix.adjugate_subsingleton, show r.toMat 1 0 0 = r.cell 0 0 from rfl, h] at this
  exact absurd this (by simp)

/-- C86: so the inverse of every matrix of order 1 with an inverse is computed as 0. -/
theorem C86_inverse_one_violated (hA : Sq 1 A) (h0 : A.cell 0 0 ≠ 0) :
    ∃ V s', invermmatrix jm A s = .ok (.inverse V, s') ∧ V.cell 0 0 = 0 ∧ A.toMat 1 * V.toMat 1 ≠ 1 := by
  obtain ⟨o, s', e, _, h⟩ := Res.run (inver_one jm A s hA.1 hA.2)
  rcases h with h | ⟨_, V, rfl, hV⟩
  · exact absurd h.1 h0
  · refine ⟨V, s', e, hV, fun h => ?_⟩
    have := congrFun (congrFun h 0) 0
    rw [Matrix.mul_apply, Fin.sum_univ_one, show V.toMat 1 0 0 = V.cell 0 0 from rfl, hV, mul_zero] at this
    exact absurd this (by simp)

/-- C86: with `tam = 0`, `adjmmatrix` frees a pointer that has not been initialised. -/
theorem C86_adjugate_zero_violated (Adj : Mem2 ℚ) : adjmmatrix jm A Adj 0 s = .error .oob := rfl

theorem C86_violated : ¬ C86_statement := fun h => by
  obtain ⟨⟨r, s', e, h1⟩, _⟩ := h (fun _ _ _ => 0) 1 ⟨1, 1, fun _ _ => 1⟩ ⟨1, 1, fun _ _ => 1⟩ ⟨0, 0⟩ (by omega) ⟨rfl, rfl⟩ ⟨rfl, rfl⟩
  obtain ⟨r', s'', e', _, h2⟩ := C86_adjugate_one_violated (fun _ _ _ => 0) ⟨1, 1, fun _ _ => 1⟩ ⟨0, 0⟩ (Adj := ⟨1, 1, fun _ _ => 1⟩)
    (Nat.le_refl 1) ⟨rfl, rfl⟩ ⟨Nat.le_refl 1, Nat.le_refl 1⟩
  rw [e] at e'
  cases e'
  exact h2 h1

/-! ## Non-vacuity -/

/-- The matrix [[0, 1], [2, 0]]. -/
def ex : Mem2 ℚ := ⟨2, 2, fun i j => if i = 0 ∧ j = 1 then 1 else if i = 1 ∧ j = 0 then 2 else 0⟩

theorem ex_det : (ex.toMat 2).det = -2 := by
  rw [Matrix.det_fin_two]
  simp [ex, Mem2.toMat]

/-- C86_determinant -/
example : ∃ s', determmatrix jm 2 ex s = .ok (-2, s') := by
  obtain ⟨s', e, _⟩ := C86_determinant jm ex s (n := 2) (tam := 2) (by omega) (by omega) ⟨rfl, rfl⟩
  rw [ex_det] at e
  exact ⟨s', e⟩

/-- C86_inverse_partial, C86_adjugate_partial -/
example : ∃ V s', invermmatrix jm ex s = .ok (.inverse V, s') ∧ ex.toMat 2 * V.toMat 2 = 1 := by
  obtain ⟨o, s', e, h⟩ := C86_inverse_partial jm ex s (n := 2) (by omega) ⟨rfl, rfl⟩
  rcases h with h | ⟨_, V, rfl, _, h, _⟩
  · rw [ex_det] at h
    exact absurd h.1 (by norm_num)
  · exact ⟨V, s', e, h⟩

/-- C86_mulmat: the product of a 2 by 2 and a 2 by 3 matrix. -/
example : ∃ r s', mulmat jm ex ⟨2, 3, fun i j => i + j⟩ s = .ok (some r, s') ∧ r.cols = 3 := by
  obtain ⟨r, s', e, _, h, _⟩ := (C86_mulmat jm ex ⟨2, 3, fun i j => i + j⟩ s).2 rfl
  exact ⟨r, s', e, h⟩

end WB.cmp.github3
