import Verif.Proof.M4riInv
import Verif.Proof.M4riPack

/-!
# C102 — the reduced echelon form in M4RI (`/repo/test/github1_M4RI/src/m4ri/brilliantrussian.c`)
-/
namespace WB.m4w

/-- C102: `mzd_echelonize_m4ri(A, TRUE, k)` for every matrix and every `k` from 1 to 10: the number that is returned is the rank, and the
matrix is replaced by its reduced row echelon form (`P` is the product of the row operations).  The unused bits are left as they
are.  At most `2c + 2` rounds are made. -/
theorem C102_echelonize {M : Mzd} {r c : Nat} {A : Matrix (Fin r) (Fin c) (ZMod 2)} (hM : Rep M A) {k fuel : Nat} (h1 : 1 ≤ k) (h2 : k ≤ 10) (hf : 2 * c + 2 ≤ fuel) :
    ∃ N, mzd_echelonize_m4ri fuel M k = .ok (N, A.rank) ∧ (∃ P : Matrix (Fin r) (Fin r) (ZMod 2), IsUnit P ∧ Rep N (P * A) ∧ IsRref (P * A) A.rank) ∧
      ∀ i j, c ≤ j → N.bit i j = M.bit i j := by
  obtain ⟨⟨N, n⟩, e, hx⟩ := echelonize_spec hM.wf (k := k) (fuel := fuel) (by rw [if_neg (by omega)]; exact h1) (by rw [if_neg (by omega)]; exact h2) (by rw [hM.ncols]; exact hf)
  obtain ⟨P, hP, h3, h4, h5⟩ := hx.rref hM.wf hM
  dsimp only at h3 h4 h5
  have hn : n = A.rank := by rw [← h4.rank, Matrix.rank_mul_eq_right_of_isUnit_det _ _ ((Matrix.isUnit_iff_isUnit_det _).1 hP)]
  rw [hn] at e h4
  exact ⟨N, e, ⟨P, hP, h3, h4⟩, fun i j hj => h5 i j (.inr hj)⟩

/-- C102, for the `k` that the function chooses itself (`k = 0`): the same, unless there are at most 3 rows and at least 87382 columns. -/
theorem C102_default {M : Mzd} {r c : Nat} {A : Matrix (Fin r) (Fin c) (ZMod 2)} (hM : Rep M A) {fuel : Nat} (hr : r < 2 ^ 31) (hrc : ¬ (r ≤ 3 ∧ 87382 ≤ c))
    (hf : 2 * c + 2 ≤ fuel) :
    ∃ N, mzd_echelonize_m4ri fuel M 0 = .ok (N, A.rank) ∧ (∃ P : Matrix (Fin r) (Fin r) (ZMod 2), IsUnit P ∧ Rep N (P * A) ∧ IsRref (P * A) A.rank) ∧
      ∀ i j, c ≤ j → N.bit i j = M.bit i j := by
  have hK : 1 ≤ echK r c := echK_pos (by omega) hrc
  have hK' := echK_le r c
  have e : mzd_echelonize_m4ri fuel M 0 = mzd_echelonize_m4ri fuel M (echK r c) := by
    unfold mzd_echelonize_m4ri
    rw [if_pos rfl, if_neg (by omega), hM.nrows, hM.ncols]
  rw [e]
  exact C102_echelonize hM hK (by omega) hf

/-- C102: the echelon form is determined by the matrix: two invertible `P`, `Q` for which `P * A` and `Q * A` are in reduced row echelon form give the
same matrix. -/
theorem C102_unique {r c : Nat} {A : Matrix (Fin r) (Fin c) (ZMod 2)} {P Q : Matrix (Fin r) (Fin r) (ZMod 2)} (hP : IsUnit P) (hQ : IsUnit Q) {k l : Nat}
    (h1 : IsRref (P * A) k) (h2 : IsRref (Q * A) l) : k = l ∧ P * A = Q * A := by
  obtain ⟨u, rfl⟩ := hP
  refine IsRref.unique (V := Q * ↑u⁻¹) (hQ.mul u⁻¹.isUnit) ?_ h1 h2
  rw [Matrix.mul_assoc, ← Matrix.mul_assoc _ (u : Matrix (Fin r) (Fin r) (ZMod 2)) A, u.inv_mul, Matrix.one_mul]

/-- C102: so the words of the result do not depend on `k`. -/
theorem C102_choice {M : Mzd} {r c : Nat} {A : Matrix (Fin r) (Fin c) (ZMod 2)} (hM : Rep M A) {k k' fuel fuel' : Nat} (h1 : 1 ≤ k) (h2 : k ≤ 10) (h1' : 1 ≤ k') (h2' : k' ≤ 10)
    (hf : 2 * c + 2 ≤ fuel) (hf' : 2 * c + 2 ≤ fuel') :
    ∃ N N', mzd_echelonize_m4ri fuel M k = .ok (N, A.rank) ∧ mzd_echelonize_m4ri fuel' M k' = .ok (N', A.rank) ∧ ∀ i < r, ∀ j, N.bit i j = N'.bit i j := by
  obtain ⟨N, e1, ⟨P, hP, g1, g2⟩, g3⟩ := C102_echelonize hM h1 h2 hf
  obtain ⟨N', e2, ⟨Q, hQ, q1, q2⟩, q3⟩ := C102_echelonize hM h1' h2' hf'
  refine ⟨N, N', e1, e2, fun i hi j => ?_⟩
  by_cases hj : j < c
  · refine bitF_inj.1 ((g1.bit ⟨i, hi⟩ ⟨j, hj⟩).trans ?_)
    rw [(C102_unique hP hQ g2 q2).2]
    exact (q1.bit ⟨i, hi⟩ ⟨j, hj⟩).symm
  · rw [g3 i j (by omega), q3 i j (by omega)]

/-- C102: `mzd_find_pivot(M, start_row, start_col, &r, &c)` finds the first column, from `start_col` on, in which some row from `start_row` on has a one,
and such a row; it returns 0 only if there is none. -/
theorem C102_find_pivot {M : Mzd} {r c : Nat} {A : Matrix (Fin r) (Fin c) (ZMod 2)} (hM : Rep M A) {r₀ c₀ : Nat} (hr : r₀ ≤ r) :
    (∃ (i : Fin r) (j : Fin c), mzd_find_pivot M r₀ c₀ = .ok (some (↑i, ↑j)) ∧ r₀ ≤ i ∧ c₀ ≤ j ∧ A i j = 1 ∧ ∀ i' : Fin r, r₀ ≤ i' → ∀ j' : Fin c, c₀ ≤ j' → j' < j → A i' j' = 0) ∨
    (mzd_find_pivot M r₀ c₀ = .ok none ∧ ∀ i : Fin r, r₀ ≤ i → ∀ j : Fin c, c₀ ≤ j → A i j = 0) := by
  obtain ⟨o, e, ho⟩ := find_pivot hM.wf (r := r₀) (c := c₀) (by rw [hM.nrows]; exact hr)
  cases o with
  | none =>
    refine .inr ⟨e, fun i hi j hj => ?_⟩
    rw [← hM.bit, ho i hi (by rw [hM.nrows]; exact i.2) j hj (by rw [hM.ncols]; exact j.2)]; rfl
  | some x =>
    obtain ⟨rb, cb⟩ := x
    obtain ⟨h1, h2, h3, h4, h5, h6⟩ := ho
    rw [hM.nrows] at h2 h6
    rw [hM.ncols] at h4
    refine .inl ⟨⟨rb, h2⟩, ⟨cb, h4⟩, e, h1, h3, ?_, fun i' hi j' hj hlt => ?_⟩
    · rw [← hM.bit]
      show bitF (M.bit rb cb) = 1
      rw [h5]; rfl
    · rw [← hM.bit, h6 i' hi i'.2 j' hj hlt]; rfl

/-- C102, full statement: the echelon form of every matrix is computed. -/
def C102_statement : Prop := ∀ {M : Mzd} {r c : Nat} {A : Matrix (Fin r) (Fin c) (ZMod 2)}, r < 2 ^ 31 → c < 2 ^ 31 → Rep M A →
  ∃ fuel N, mzd_echelonize_m4ri fuel M 0 = .ok (N, A.rank)

/-- C102, what goes wrong: for at most 3 rows and at least 87382 columns the function chooses tables for 0 columns and never returns. -/
theorem C102_hang_violated {M : Mzd} (hr : M.nrows ≤ 3) (hc : 87382 ≤ M.ncols) (fuel : Nat) : mzd_echelonize_m4ri fuel M 0 = .error .diverge := by
  unfold mzd_echelonize_m4ri
  rw [if_pos rfl, echK_zero hr hc]
  exact echLoop_zero fuel (show 0 < M.ncols by omega) rfl

theorem C102_violated : ¬ C102_statement := by
  intro h
  obtain ⟨fuel, N, e⟩ := h (M := pack 2 100000 fun _ _ => true) (A := fun _ _ => 1) (by decide) (by decide) (pack_rep fun _ _ => rfl)
  rw [C102_hang_violated (show 2 ≤ 3 by decide) (show 87382 ≤ 100000 by decide)] at e
  cases e

/-! ## Examples -/

/-- The matrix of the examples: 70 × 130. -/
def exE : Matrix (Fin 70) (Fin 130) (ZMod 2) := fun i j => bitF (decide (((i : Nat) * 3 + j * 5 + i * j) % 7 < 3))

/-- Its words. -/
def exEM : Mzd := pack 70 130 fun i j => decide ((i * 3 + j * 5 + i * j) % 7 < 3)

theorem exE_rep : Rep exEM exE := pack_rep fun _ _ => rfl

example : ∃ N, mzd_echelonize_m4ri 262 exEM 5 = .ok (N, exE.rank) ∧ (∃ P : Matrix (Fin 70) (Fin 70) (ZMod 2), IsUnit P ∧ Rep N (P * exE) ∧ IsRref (P * exE) exE.rank) ∧
      ∀ i j, 130 ≤ j → N.bit i j = exEM.bit i j := C102_echelonize exE_rep (by decide) (by decide) (by decide)

example : ∃ N, mzd_echelonize_m4ri 262 exEM 0 = .ok (N, exE.rank) ∧ (∃ P : Matrix (Fin 70) (Fin 70) (ZMod 2), IsUnit P ∧ Rep N (P * exE) ∧ IsRref (P * exE) exE.rank) ∧
      ∀ i j, 130 ≤ j → N.bit i j = exEM.bit i j := C102_default exE_rep (by decide) (by decide) (by decide)

example : ∃ N N', mzd_echelonize_m4ri 262 exEM 1 = .ok (N, exE.rank) ∧ mzd_echelonize_m4ri 300 exEM 8 = .ok (N', exE.rank) ∧ ∀ i < 70, ∀ j, N.bit i j = N'.bit i j :=
  C102_choice exE_rep (by decide) (by decide) (by decide) (by decide) (by decide) (by decide)

/-- The program is run. -/
example : (match mzd_echelonize_m4ri 14 (pack 4 6 fun i j => decide ((i * 3 + j * 5 + i * j) % 7 < 3)) 0 with
    | .ok x => x.2 :: (List.range 4).map fun i => (x.1.word i 0).toNat | .error _ => []) = [3, 33, 38, 40, 0] := by decide +kernel

example : mzd_find_pivot (pack 4 100 fun i j => decide (70 < i + j)) 2 3 = .ok (some (3, 68)) := by decide +kernel

example (fuel : Nat) : mzd_echelonize_m4ri fuel (pack 2 100000 fun _ _ => true) 0 = .error .diverge :=
  C102_hang_violated (show 2 ≤ 3 by decide) (show 87382 ≤ 100000 by decide) fuel

end WB.m4w
