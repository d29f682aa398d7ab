import Verif.Proof.Github2

/-!
# C85 — determinants and inverses of the adjugate program (`/repo/test/github2`)

Numbers of type `float` are exact rational numbers in the model.
-/
namespace WB.cmp.github2

/-- A `float x[100][100]` -/
def Sq (a : Mem2 ℚ) : Prop := a.rows = 100 ∧ a.cols = 100

/-- C85, full statement: if the determinant is not zero, `inverse` stores the inverse. -/
def C85_statement : Prop :=
  ∀ (junk : Junk2) (n : Nat) (a d : Mem2 ℚ), 1 ≤ n → n ≤ 100 → Sq a → Sq d → (a.toMat n).det ≠ 0 →
    ∃ r, inverse junk a d n (a.toMat n).det = .ok (r, false) ∧ a.toMat n * r.toMat n = 1

variable (junk : Junk2) {n : Nat} (a d : Mem2 ℚ)

/-- C85: `det` returns the determinant, for every order up to 100 and every matrix, whatever the local arrays contain. -/
theorem C85_det (h1 : 1 ≤ n) (h2 : n ≤ 100) (ha : Sq a) : det junk a n = .ok (a.toMat n).det := by
  obtain ⟨n, rfl⟩ := Nat.exists_eq_add_of_le' h1
  obtain ⟨x, e, rfl⟩ := det_run n junk a h2 ha
  exact e

/-- C85: for orders above 100 `det` never returns (it leaves the arrays). -/
theorem C85_det_too_large (h : 101 ≤ n) (ha : Sq a) (x : ℚ) : det junk a n ≠ .ok x := det_large junk a h ha.2 x

/-- C85, what holds: for every order from 2 to 100, `inverse` with the determinant stores the inverse (on both sides), prints
nothing, and leaves the rest of the array alone. -/
theorem C85_inverse_partial (h1 : 2 ≤ n) (h2 : n ≤ 100) (ha : Sq a) (hd : Sq d) (h0 : (a.toMat n).det ≠ 0) :
    ∃ r, inverse junk a d n (a.toMat n).det = .ok (r, false) ∧ Sq r ∧ a.toMat n * r.toMat n = 1 ∧ r.toMat n * a.toMat n = 1 ∧
      ∀ i j, (n ≤ i ∨ n ≤ j) → r.cell i j = d.cell i j := by
  obtain ⟨N, rfl⟩ := Nat.exists_eq_add_of_le' (show 1 ≤ n by omega)
  obtain ⟨r, e, hr, hv, hk⟩ := cofactor_run junk (N := N) (by omega) h2 a d _ ha hd h0
  refine ⟨r, ?_, hr, ?_, ?_, hk⟩
  · rw [inverse, if_neg h0, if_neg (by omega), e]
    rfl
  · rw [hv, Matrix.mul_smul, Matrix.mul_adjugate, smul_smul, inv_mul_cancel₀ h0, one_smul]
  · rw [hv, Matrix.smul_mul, Matrix.adjugate_mul, smul_smul, inv_mul_cancel₀ h0, one_smul]

/-- C85: for a singular matrix of any order the message is printed and nothing is stored. -/
theorem C85_singular (h0 : (a.toMat n).det = 0) : inverse junk a d n (a.toMat n).det = .ok (d, true) := if_pos h0

/-- C85: for order 1 the result is 1, whatever the matrix is; it is the inverse only of the matrix (1). -/
theorem C85_order_one_violated (hd : Sq d) (h0 : (a.toMat 1).det ≠ 0) :
    ∃ r, inverse junk a d 1 (a.toMat 1).det = .ok (r, false) ∧ r.cell 0 0 = 1 ∧ (a.toMat 1 * r.toMat 1 = 1 ↔ a.cell 0 0 = 1) := by
  refine ⟨⟨100, 100, fun i j => if i = 0 ∧ j = 0 then 1 else d.cell i j⟩, ?_, rfl, ?_⟩
  · rw [inverse, if_neg h0, if_pos rfl, Mem2.put, if_pos (by unfold Sq at hd; omega), hd.1, hd.2]
    rfl
  · rw [← Matrix.ext_iff]
    constructor
    · intro h
      have := h 0 0
      rw [Matrix.mul_apply, Fin.sum_univ_one] at this
      simpa [Mem2.toMat] using this
    · intro h i j
      obtain rfl := Subsingleton.elim i 0
      obtain rfl := Subsingleton.elim j 0
      rw [Matrix.mul_apply, Fin.sum_univ_one]
      simpa [Mem2.toMat] using h

/-- The matrix (2). -/
def two : Mem2 ℚ := ⟨100, 100, fun _ _ => 2⟩

theorem two_det : (two.toMat 1).det ≠ 0 := by
  rw [Matrix.det_fin_one]
  show (2 : ℚ) ≠ 0
  norm_num

theorem C85_violated : ¬ C85_statement := fun h => by
  obtain ⟨r, e, h1⟩ := h (fun _ _ _ => 0) 1 two two (by omega) (by omega) ⟨rfl, rfl⟩ ⟨rfl, rfl⟩ two_det
  obtain ⟨r', e', _, h2⟩ := C85_order_one_violated (fun _ _ _ => 0) two two ⟨rfl, rfl⟩ two_det
  rw [e] at e'
  cases e'
  have : (2 : ℚ) = 1 := h2.1 h1
  norm_num at this

/-- C85: the functions of the test program (orders 8, 16, 32 and 64) compute the inverse of an invertible matrix and print the
message for a singular one. -/
theorem C85_test (h1 : 2 ≤ n) (h2 : n ≤ 100) (ha : Sq a) :
    ∃ r p, invSMat junk n a = .ok (r, p) ∧ (p = true ↔ (a.toMat n).det = 0) ∧ (p = false → a.toMat n * r.toMat n = 1) := by
  unfold invSMat
  rw [C85_det _ a (by omega) h2 ha]
  by_cases h0 : (a.toMat n).det = 0
  · exact ⟨_, _, C85_singular _ a _ h0, by simp [h0], by simp⟩
  · obtain ⟨r, e, _, h3, _⟩ := C85_inverse_partial (fun p => junk (2 :: p)) a (localArray (junk [0])) h1 h2 ha ⟨rfl, rfl⟩ h0
    exact ⟨r, false, e, by simp [h0], fun _ => h3⟩

/-! ## Non-vacuity -/

/-- The matrix [[0, 1], [2, 0]]. -/
def ex : Mem2 ℚ := ⟨100, 100, fun i j => if i = 0 ∧ j = 1 then 1 else if i = 1 ∧ j = 0 then 2 else 0⟩

theorem ex_det : (ex.toMat 2).det = -2 := by
  rw [Matrix.det_fin_two]
  simp [ex, Mem2.toMat]

/-- C85_det and C85_inverse_partial, C85_test -/
example : det junk ex 2 = .ok (-2) := by rw [C85_det junk ex (by omega) (by omega) ⟨rfl, rfl⟩, ex_det]

example : ∃ r, inverse junk ex ex 2 (-2) = .ok (r, false) ∧ ex.toMat 2 * r.toMat 2 = 1 := by
  obtain ⟨r, e, _, h, _⟩ := C85_inverse_partial junk ex ex (n := 2) (by omega) (by omega) ⟨rfl, rfl⟩ ⟨rfl, rfl⟩ (by rw [ex_det]; norm_num)
  rw [ex_det] at e
  exact ⟨r, e, h⟩

/-- C85_singular: the zero matrix of order 3. -/
example : inverse junk ⟨100, 100, fun _ _ => 0⟩ ex 3 ((Mem2.toMat ⟨100, 100, fun _ _ => (0 : ℚ)⟩ 3).det) = .ok (ex, true) :=
  C85_singular junk _ ex (by rw [Matrix.det_fin_three]; simp [Mem2.toMat])

end WB.cmp.github2
