import Verif.SpecM4riPle
import Verif.SpecM4riEch
import Verif.Proof.M4riTri
import Verif.Prop.C106
import Verif.Prop.C119

/-!
# C122 — the echelon form from a PLE factorisation of M4RI (`/repo/test/github1_M4RI/src/m4ri/echelonform.c`)
-/
namespace WB.m4w

open WB.cmp (Mem)

variable {m n : Nat} {M : Mzd} {A : Matrix (Fin m) (Fin n) (ZMod 2)}

/-- C122, full statement: `mzd_echelonize_pluq(A, 0)` returns the rank of `A` and leaves a row echelon form of `A`, whatever procedure factors the matrices. -/
def C122_statement : Prop := ∀ (ple : Mzd → Mem Nat → Mem Nat → C (Ple × Nat)), Factors ple → ∀ (junk : Nat → Nat) {m n : Nat} {M : Mzd} {A : Matrix (Fin m) (Fin n) (ZMod 2)}, Rep M A →
  ∃ N, mzd_echelonize_pluq0 ple junk M = .ok (N, A.rank) ∧ (∃ P : Matrix (Fin m) (Fin m) (ZMod 2), IsUnit P ∧ Rep N (P * A) ∧ IsRef (P * A) A.rank) ∧ ∀ a b, n ≤ b → N.bit a b = M.bit a b

/-- C122: for matrices with columns it does.  No bit behind the last column changes, so that this holds for windows as well. -/
theorem C122_echelon_partial (ple : Mzd → Mem Nat → Mem Nat → C (Ple × Nat)) (hple : Factors ple) (junk : Nat → Nat) (hn : 0 < n) (hM : Rep M A) :
    ∃ N, mzd_echelonize_pluq0 ple junk M = .ok (N, A.rank) ∧ (∃ P : Matrix (Fin m) (Fin m) (ZMod 2), IsUnit P ∧ Rep N (P * A) ∧ IsRef (P * A) A.rank) ∧
      ∀ a b, n ≤ b → N.bit a b = M.bit a b := by
  obtain ⟨P0, eP, hP0, _⟩ := C109_init junk M.nrows
  obtain ⟨Q0, eQ, hQ0, _⟩ := C109_init junk M.ncols
  obtain ⟨X, P, Q, k, e, f, out⟩ := hple hM (hP0.trans hM.nrows) (hQ0.trans hM.ncols)
  obtain ⟨V, L, E, hV, hA, hL, hE⟩ := f.factors
  have hkn : k ≤ n := by
    rcases Nat.eq_zero_or_pos k with h | h
    · omega
    · have := f.bounds (k - 1) (by omega); omega
  obtain ⟨Y, eY, shY, hY⟩ := clear_l_ok f.wf (r := k) (Q := Q) (by rw [f.nrows]; exact f.rows) (by rw [f.size]; exact hkn) (by rw [f.ncols]; exact f.bounds)
  obtain ⟨N, eN, shN, hN⟩ := zero_rest_ok (shY.wf f.wf) (k := k) (by rw [shY.ncols, f.ncols]; exact hn) (by rw [shY.nrows, f.nrows]; exact f.rows)
  rw [shY.nrows, shY.ncols, f.nrows, f.ncols] at hN
  let R : Matrix (Fin m) (Fin n) (ZMod 2) := fun a b => if h : (a : Nat) < k then E ⟨a, h⟩ b else 0
  have hR : Rep N R := by
    refine ⟨shN.wf (shY.wf f.wf), by rw [shN.nrows, shY.nrows, f.nrows], by rw [shN.ncols, shY.ncols, f.ncols], fun a b => ?_⟩
    show bitF _ = if h : (a : Nat) < k then E ⟨a, h⟩ b else 0
    rw [hN, hY]
    by_cases h : (a : Nat) < k
    · rw [dif_pos h, if_neg (by omega), hE]
      have hq := f.bounds a h
      dsimp only
      by_cases h1 : (b : Nat) = Q.cell a
      · rw [if_pos ⟨h, h1⟩, if_neg (by omega), if_pos h1.symm]; rfl
      · have h1' : ¬ Q.cell a = (b : Nat) := fun h' => h1 h'.symm
        rw [if_neg (show ¬ ((a : Nat) < k ∧ (b : Nat) = Q.cell a) from fun h' => h1 h'.2), if_neg h1']
        by_cases h2 : (b : Nat) ≤ a
        · rw [if_pos (show (a : Nat) < k ∧ (b : Nat) ≤ a from ⟨h, h2⟩), if_neg (show ¬ Q.cell a < b by omega)]; rfl
        · rw [if_neg (show ¬ ((a : Nat) < k ∧ (b : Nat) ≤ a) from fun h' => h2 h'.2)]
          by_cases h3 : Q.cell a < b
          · rw [if_pos h3]
          · rw [if_neg h3, f.gap a h b (by omega) (by omega)]; rfl
    · rw [dif_neg h, if_pos ⟨by omega, a.2, b.2⟩]; rfl
  let L' : Matrix (Fin m) (Fin m) (ZMod 2) := fun a j => if h : (j : Nat) < k then L a ⟨j, h⟩ else if a = j then 1 else 0
  have hL'd : L'.det = 1 := by
    have t : L'.IsLowerTriangular := fun i j h => by
      have h : i < j := OrderDual.toDual_lt_toDual.1 h
      show (if h : (j : Nat) < k then L i ⟨j, h⟩ else if i = j then 1 else 0) = 0
      have h' : (i : Nat) < j := h
      by_cases hj : (j : Nat) < k
      · rw [dif_pos hj, hL, if_neg (by simp only []; omega), if_neg (by simp only []; omega)]
      · rw [dif_neg hj, if_neg (ne_of_lt h)]
    rw [Matrix.det_of_isLowerTriangular _ t]
    refine Finset.prod_eq_one fun i _ => ?_
    show (if h : (i : Nat) < k then L i ⟨i, h⟩ else if i = i then 1 else 0) = 1
    by_cases hi : (i : Nat) < k
    · rw [dif_pos hi, hL, if_neg (by simp), if_pos rfl]
    · rw [dif_neg hi, if_pos rfl]
  have hmul : L' * R = L * E := by
    ext a b
    rw [Matrix.mul_apply, Matrix.mul_apply]
    have e1 : ∑ j : Fin m, L' a j * R j b = ∑ j ∈ Finset.range m, (if h : j < k then L a ⟨j, h⟩ * E ⟨j, h⟩ b else 0) := by
      rw [Finset.sum_range]
      refine Finset.sum_congr rfl fun j _ => ?_
      show (if h : (j : Nat) < k then L a ⟨j, h⟩ else if a = j then 1 else 0) * (if h : (j : Nat) < k then E ⟨j, h⟩ b else 0) = _
      by_cases hj : (j : Nat) < k
      · rw [dif_pos hj, dif_pos hj, dif_pos hj]
      · rw [dif_neg hj, dif_neg hj, dif_neg hj, mul_zero]
    have e2 : ∑ j : Fin k, L a j * E j b = ∑ j ∈ Finset.range k, (if h : j < k then L a ⟨j, h⟩ * E ⟨j, h⟩ b else 0) := by
      rw [Finset.sum_range]
      refine Finset.sum_congr rfl fun j _ => ?_
      rw [dif_pos j.2]
    rw [e1, e2]
    refine (Finset.sum_subset (Finset.range_mono f.rows) fun j _ hj => ?_).symm
    rw [Finset.mem_range] at hj
    rw [dif_neg hj]
  have hW : IsUnit (V * L') := hV.mul ((Matrix.isUnit_iff_isUnit_det _).2 (by rw [hL'd]; exact isUnit_one))
  have hWR : A = V * L' * R := by rw [Matrix.mul_assoc, hmul, hA]
  have hd := (Matrix.isUnit_iff_isUnit_det _).1 hW
  have hPA : (V * L')⁻¹ * A = R := by
    conv_lhs => rw [hWR]
    rw [← Matrix.mul_assoc, Matrix.nonsing_inv_mul _ hd, Matrix.one_mul]
  have href : IsRef R k := by
    refine ⟨f.rows, fun i => ⟨Q.cell i, (f.bounds i i.2).2⟩, fun i j h => f.increasing i j h j.2, fun i => ?_, fun i j h => ?_, fun a ha j => dif_neg (by omega)⟩
    · show (if h : (i : Nat) < k then E ⟨i, h⟩ ⟨Q.cell i, _⟩ else 0) = 1
      rw [dif_pos i.2, hE, if_neg (by simp), if_pos rfl]
    · have h : (j : Nat) < Q.cell i := h
      show (if h : (i : Nat) < k then E ⟨i, h⟩ j else 0) = 0
      rw [dif_pos i.2, hE, if_neg (by simp only []; omega), if_neg (by simp only []; omega)]
  have hrank : A.rank = k := by
    rw [hWR, Matrix.rank_mul_eq_right_of_isUnit_det _ _ hd, href.rank]
  refine ⟨N, ?_, ⟨(V * L')⁻¹, (Matrix.isUnit_nonsing_inv_iff).2 hW, by rw [hPA]; exact hR, by rw [hPA, hrank]; exact href⟩, fun a b hb => ?_⟩
  · unfold mzd_echelonize_pluq0
    rw [eP, C_ok_bind, eQ, C_ok_bind, e, C_ok_bind]
    dsimp only
    rw [eY, C_ok_bind, eN, C_ok_bind, hrank]; rfl
  · rw [hN, if_neg (by omega), hY, ← out a b hb]
    by_cases ha : a < k
    · have := f.bounds a ha
      rw [if_neg (by omega), if_neg (by omega)]
    · rw [if_neg (by omega), if_neg (by omega)]

/-- The naive PLE factorisation satisfies the hypothesis. -/
theorem C122_naive_factors : Factors _mzd_ple_naive := by
  intro m n M P Q A hM hP hQ
  obtain ⟨N, P', Q', k, e, hk, ⟨_, hp⟩, ⟨qS, hq, inc⟩, ⟨X, hX, L, E, hA, hL, hE, _, _, gap, _⟩, out⟩ := C119_ple hM hP hQ
  have hkm : k ≤ m := by rw [hk]; exact Matrix.rank_le_height A
  have hkn : k ≤ n := by rw [hk]; exact Matrix.rank_le_width A
  have iP := C109_matrix_inverse (n := m) (v := P'.cell) (len := m) fun i hi => ⟨hi, (hp i hi).2⟩
  exact ⟨N, P', Q', k, e, ⟨hX.wf, hX.nrows, hX.ncols, hkm, qS, fun i hi => hq i (by omega), inc, gap,
    ⟨(PMat P'.cell m m).transpose, L, E, IsUnit.of_mul_eq_one _ iP.1, hA, hL, hE⟩⟩, out⟩

/-- C122, with the naive factorisation: `mzd_echelonize_pluq(A, 0)` returns the same rank as `mzd_echelonize_naive(A, 0)` and leaves a row echelon form of the same matrix. -/
theorem C122_naive (junk : Nat → Nat) (hn : 0 < n) (hM : Rep M A) :
    ∃ N, mzd_echelonize_pluq0 _mzd_ple_naive junk M = .ok (N, A.rank) ∧ ∃ P : Matrix (Fin m) (Fin m) (ZMod 2), IsUnit P ∧ Rep N (P * A) ∧ IsRef (P * A) A.rank :=
  let ⟨N, h1, h2, _⟩ := C122_echelon_partial _ C122_naive_factors junk hn hM
  ⟨N, h1, h2⟩

/-- C122, what goes wrong: for a matrix with rows and without columns the word before the first one of a row is accessed.  (`keep`: the
factored matrix has no words either.) -/
theorem C122_no_columns_violated (ple : Mzd → Mem Nat → Mem Nat → C (Ple × Nat)) (hple : Factors ple) (junk : Nat → Nat) (hM : Rep M (0 : Matrix (Fin (m + 1)) (Fin 0) (ZMod 2)))
    (keep : ∀ {P Q s k}, ple M P Q = .ok (s, k) → s.A.mem.cols = 0) : mzd_echelonize_pluq0 ple junk M = .error .oob := by
  obtain ⟨P0, eP, hP0, _⟩ := C109_init junk M.nrows
  obtain ⟨Q0, eQ, hQ0, _⟩ := C109_init junk M.ncols
  obtain ⟨X, P, Q, k, e, f, out⟩ := hple hM (hP0.trans hM.nrows) (hQ0.trans hM.ncols)
  have hk : k = 0 := by
    rcases Nat.eq_zero_or_pos k with h | h
    · exact h
    · exact absurd (f.bounds 0 h).2 (by omega)
  subst hk
  have hc : X.mem.cols = 0 := keep e
  unfold mzd_echelonize_pluq0
  rw [eP, C_ok_bind, eQ, C_ok_bind, e, C_ok_bind]
  dsimp only
  have e1 : clearL 0 Q X = .ok X := rfl
  rw [e1, C_ok_bind]
  unfold zeroRest
  rw [if_pos (by rw [f.nrows]; omega), f.nrows, f.ncols]
  have e2 : mzd_set_ui (mzd_window X 0 0 (m + 1) 0) 0 = .error .oob := by
    unfold mzd_set_ui
    have hr : (mzd_window X 0 0 (m + 1) 0).nrows = m + 1 := by rw [window_nrows (by rw [f.nrows])]; rfl
    have hwd : (mzd_window X 0 0 (m + 1) 0).width = 0 := by simp [Mzd.width, mzd_window]
    have hg : (mzd_window X 0 0 (m + 1) 0).get 0 0 = .error .oob := if_neg (by
      show ¬ (_ ∧ X.off + 0 / 64 + 0 < X.mem.cols)
      omega)
    rw [hr]
    unfold forUp
    rw [Nat.sub_zero, List.range'_succ, List.foldlM_cons]
    simp only [hwd, Nat.zero_sub, Nat.sub_zero, List.range'_zero, List.foldlM_nil, pure_bind, hg]
    rfl
  unfold onWindow
  dsimp only
  rw [e2]
  rfl

theorem C122_violated : ¬ C122_statement := by
  intro h
  have hM : Rep (mzd_init 1 0) (0 : Matrix (Fin 1) (Fin 0) (ZMod 2)) := ⟨init_wf 1 0, rfl, rfl, fun _ j => j.elim0⟩
  obtain ⟨N, e, _⟩ := h _ C122_naive_factors (fun _ => 0) hM
  have : mzd_echelonize_pluq0 _mzd_ple_naive (fun _ => 0) (mzd_init 1 0) = .error .oob := by with_unfolding_all rfl
  rw [this] at e
  exact absurd e (by simp)

/-- The theorem applies to the matrix of C109 with 130 rows and columns. -/
example : ∃ N, mzd_echelonize_pluq0 _mzd_ple_naive (fun i => 7 * i) exPM = .ok (N, exPA.rank) ∧ ∃ P : Matrix (Fin 130) (Fin 130) (ZMod 2), IsUnit P ∧ Rep N (P * exPA) ∧ IsRef (P * exPA) exPA.rank :=
  C122_naive _ (by decide) exP_rep

/-- The matrix of C119: leading ones in columns 1 and 3. -/
example : (mzd_echelonize_pluq0 _mzd_ple_naive (fun _ => 7) exPle).map (fun s => (s.2, (List.range 3).map fun i => s.1.word i 0)) = .ok (2, [14#64, 8#64, 0#64]) := by
  with_unfolding_all rfl

end WB.m4w
