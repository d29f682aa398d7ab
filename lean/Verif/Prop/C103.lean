import Verif.Prop.C102

/-!
# C103 — the inverse in M4RI (`/repo/test/github1_M4RI/src/m4ri/brilliantrussian.c`)
-/
namespace WB.m4w

/-- C103: `mzd_inv_m4ri(NULL, A, k)` of an invertible matrix is its inverse, and its unused bits are zero. -/
theorem C103_inverse {M : Mzd} {n fuel : Nat} {A : Matrix (Fin n) (Fin n) (ZMod 2)} (hn : 0 < n) (hn' : n < 2 ^ 31) (hM : Rep M A) (hA : IsUnit A)
    (hf : 256 * ((n + 63) / 64) + 2 ≤ fuel) : ∃ N, mzd_inv_m4ri fuel M = .ok N ∧ Rep N A⁻¹ ∧ N.Clean := by
  obtain ⟨N, e, h1, P, _, h2, _, h3⟩ := inv_spec hn (by omega) hM hf
  refine ⟨N, e, ?_, h1⟩
  rw [Matrix.inv_eq_left_inv (h3 hA)]
  exact h2

/-- C103: for every square matrix, invertible or not, the result is an invertible matrix whose product with the argument is the reduced row echelon form. -/
theorem C103_square {M : Mzd} {n fuel : Nat} {A : Matrix (Fin n) (Fin n) (ZMod 2)} (hn : 0 < n) (hn' : n < 2 ^ 31) (hM : Rep M A)
    (hf : 256 * ((n + 63) / 64) + 2 ≤ fuel) : ∃ N, mzd_inv_m4ri fuel M = .ok N ∧ N.Clean ∧ ∃ P : Matrix (Fin n) (Fin n) (ZMod 2), IsUnit P ∧ Rep N P ∧ IsRref (P * A) A.rank := by
  obtain ⟨N, e, h1, P, hP, h2, ⟨k, hk⟩, _⟩ := inv_spec hn (by omega) hM hf
  have hr : A.rank = k := by rw [← hk.rank, Matrix.rank_mul_eq_right_of_isUnit_det _ _ ((Matrix.isUnit_iff_isUnit_det _).1 hP)]
  exact ⟨N, e, h1, P, hP, h2, by rw [hr]; exact hk⟩

/-- C103, full statement: a result is returned only for matrices that have an inverse. -/
def C103_statement : Prop := ∀ {M : Mzd} {n fuel : Nat} {A : Matrix (Fin n) (Fin n) (ZMod 2)}, 0 < n → n < 2 ^ 31 → Rep M A → ∀ N, mzd_inv_m4ri fuel M = .ok N → Rep N A⁻¹ ∧ IsUnit A

/-- C103, what goes wrong: a matrix without inverse is not reported.  A matrix is returned, which looks like an inverse (it is invertible), but its product
with the argument is not the identity matrix. -/
theorem C103_singular_violated {M : Mzd} {n fuel : Nat} {A : Matrix (Fin n) (Fin n) (ZMod 2)} (hn : 0 < n) (hn' : n < 2 ^ 31) (hM : Rep M A) (hA : ¬ IsUnit A)
    (hf : 256 * ((n + 63) / 64) + 2 ≤ fuel) :
    ∃ N, mzd_inv_m4ri fuel M = .ok N ∧ ∃ P : Matrix (Fin n) (Fin n) (ZMod 2), IsUnit P ∧ Rep N P ∧ P * A ≠ 1 ∧ A * P ≠ 1 := by
  obtain ⟨N, e, _, P, hP, h2, _⟩ := C103_square hn hn' hM hf
  refine ⟨N, e, P, hP, h2, fun h => hA ?_, fun h => hA ?_⟩
  · exact ⟨⟨A, P, mul_eq_one_comm.1 h, h⟩, rfl⟩
  · exact ⟨⟨A, P, h, mul_eq_one_comm.1 h⟩, rfl⟩

theorem zero_not_unit : ¬ IsUnit (0 : Matrix (Fin 1) (Fin 1) (ZMod 2)) := not_isUnit_zero

theorem C103_violated : ¬ C103_statement := by
  intro h
  have hM : Rep (pack 1 1 fun _ _ => false) (0 : Matrix (Fin 1) (Fin 1) (ZMod 2)) := pack_rep fun _ _ => rfl
  obtain ⟨N, e, _⟩ := C103_singular_violated (fuel := 258) (by decide) (by decide) hM zero_not_unit (by decide)
  exact zero_not_unit (h (by decide) (by decide) hM N e).2

/-- C103: a matrix that is not square makes the program abort. -/
theorem C103_not_square {M : Mzd} (h : M.nrows ≠ M.ncols) (fuel : Nat) : mzd_inv_m4ri fuel M = .error .abort := if_pos h

/-! ## Examples -/

/-- An invertible matrix of 100 rows. -/
def exU : Matrix (Fin 100) (Fin 100) (ZMod 2) := fun i j => bitF (decide ((i : Nat) = j ∨ (i : Nat) < j ∧ (i * j : Nat) % 3 = 1))

theorem exU_unit : IsUnit exU := by
  rw [Matrix.isUnit_iff_isUnit_det, Matrix.det_of_upperTriangular]
  · rw [Finset.prod_eq_one]
    · exact isUnit_one
    · intro i _
      unfold exU
      rw [decide_eq_true (.inl rfl)]; rfl
  · intro i j hij
    have : (j : Nat) < i := hij
    unfold exU
    rw [decide_eq_false (by omega)]; rfl

example : ∃ N, mzd_inv_m4ri 514 (pack 100 100 fun i j => decide (i = j ∨ i < j ∧ (i * j) % 3 = 1)) = .ok N ∧ Rep N exU⁻¹ ∧ N.Clean :=
  C103_inverse (by decide) (by decide) (pack_rep fun _ _ => rfl) exU_unit (by decide)

example : ∃ N, mzd_inv_m4ri 258 (pack 3 3 fun _ _ => false) = .ok N ∧ N.Clean ∧
    ∃ P : Matrix (Fin 3) (Fin 3) (ZMod 2), IsUnit P ∧ Rep N P ∧ IsRref (P * (0 : Matrix (Fin 3) (Fin 3) (ZMod 2))) (0 : Matrix (Fin 3) (Fin 3) (ZMod 2)).rank :=
  C103_square (by decide) (by decide) (pack_rep fun _ _ => rfl) (by decide)

example : mzd_inv_m4ri 258 (pack 3 4 fun _ _ => false) = .error .abort := C103_not_square (show 3 ≠ 4 by decide) _

end WB.m4w
