import Verif.Model.Basis
import Verif.Proof.SeedRows

/-!
# The tables of the basis matrix method

Generated by `tools/gen_basis.py`.
-/
namespace WB.basis
open Matrix

set_option maxRecDepth 100000

theorem rowsM_rows {n w : Nat} (hn : n ≤ w) (L : List Nat) :
    RowsAre (matOf n (bitS n) (rowsM L : Vector (BitVec w) n)) (fun i => L.getD i 0) := by
  refine rowsS hn _ _ ?_
  intro i t ht
  simp only [rowsM, Fin.getElem_fin, Vector.getElem_ofFn, BitVec.getLsbD_ofNat, show t < w by omega,
    decide_true, Bool.true_and]

/-- The two words of a row as one number. -/
noncomputable def cat (p : Nat × Nat) : Nat := Nat.add (Nat.mul 18446744073709551616 p.1) p.2

/-- All words are less than `2^64`. -/
noncomputable def small (L : List (Nat × Nat)) : Bool :=
  @List.rec (Nat × Nat) (fun _ => Bool) true
    (fun p _ ih => Bool.and (Bool.and (Nat.blt p.1 18446744073709551616) (Nat.blt p.2 18446744073709551616)) ih) L

theorem small_get {L : List (Nat × Nat)} (h : small L = true) (i : Nat) :
    (L.getD i (0, 0)).1 < 18446744073709551616 ∧ (L.getD i (0, 0)).2 < 18446744073709551616 := by
  induction L generalizing i with
  | nil => simp
  | cons p L ih =>
    have h' := Bool.and_eq_true_iff.1 h
    cases i with
    | zero =>
      have := Bool.and_eq_true_iff.1 h'.1
      exact ⟨Nat.le_of_ble_eq_true this.1, Nat.le_of_ble_eq_true this.2⟩
    | succ i =>
      simp only [List.getD_cons_succ]
      exact ih h'.2 i

theorem rowsM2_rows {L : List (Nat × Nat)} (h : small L = true) :
    RowsAre (mat128 (rowsM2 L)) (fun i => cat (L.getD i (0, 0))) := by
  refine rowsW (by norm_num) _ _ ?_
  intro i
  obtain ⟨h1, h2⟩ := small_get h i.val
  have e : ((rowsM2 L : M128)[i]).toList = [BitVec.ofNat 64 (L.getD i.val (0, 0)).1,
      BitVec.ofNat 64 (L.getD i.val (0, 0)).2] := by
    simp [rowsM2]
  rw [e, catW2, BitVec.toNat_ofNat, BitVec.toNat_ofNat]
  generalize hK : 18446744073709551616 = K at h1 h2 ⊢
  rw [show 2 ^ 64 = K by rw [← hK]; rfl, Nat.mod_eq_of_lt h1, Nat.mod_eq_of_lt h2]
  unfold cat
  rw [hK]
  rfl

/-- Tables of inverse matrices. -/
theorem rowsM_inv {n w : Nat} (hn : n ≤ w) (L L' : List Nat) (hl : L'.length = n)
    (h : checkInv n (fun i => L.getD i 0) L'.reverse = true) :
    matOf n (bitS n) (rowsM L : Vector (BitVec w) n) * matOf n (bitS n) (rowsM L' : Vector (BitVec w) n) = 1 := by
  refine checkInv_ok (rowsM_rows hn L) (rowsM_rows hn L') ?_ h
  have := rows_of_list L'.reverse (by rw [List.length_reverse, hl])
  rw [List.reverse_reverse] at this
  exact this

theorem rowsM2_singular {L : List (Nat × Nat)} (h : small L = true) (x k : Nat) (hk : k < 128)
    (hx : x.testBit k = true) (hc : comb ((List.range 128).map fun i => cat (L.getD i (0, 0))).reverse x % 2 ^ 128 = 0) :
    ¬ IsUnit (mat128 (rowsM2 L)) :=
  not_isUnit_of_check (rowsM2_rows h) x k hk hx hc

theorem rowsM2_unit {L : List (Nat × Nat)} (h : small L = true) {bs : List Nat} (hl : bs.length = 128)
    (hc : checkInv 128 (fun i => cat (L.getD i (0, 0))) bs = true) : IsUnit (mat128 (rowsM2 L)) :=
  isUnit_of_check (rowsM2_rows h) hl hc

theorem inv8_0 : mat8 (rowsM LMatrixM8_0) * mat8 (rowsM LMatrixM8_inv_0) = 1 :=
  rowsM_inv (by norm_num) _ _ rfl (by decide +kernel)
theorem inv8_1 : mat8 (rowsM LMatrixM8_1) * mat8 (rowsM LMatrixM8_inv_1) = 1 :=
  rowsM_inv (by norm_num) _ _ rfl (by decide +kernel)
theorem inv8_2 : mat8 (rowsM LMatrixM8_2) * mat8 (rowsM LMatrixM8_inv_2) = 1 :=
  rowsM_inv (by norm_num) _ _ rfl (by decide +kernel)
theorem inv8_3 : mat8 (rowsM LMatrixM8_3) * mat8 (rowsM LMatrixM8_inv_3) = 1 :=
  rowsM_inv (by norm_num) _ _ rfl (by decide +kernel)
theorem inv8_4 : mat8 (rowsM LMatrixM8_4) * mat8 (rowsM LMatrixM8_inv_4) = 1 :=
  rowsM_inv (by norm_num) _ _ rfl (by decide +kernel)
theorem inv8_5 : mat8 (rowsM LMatrixM8_5) * mat8 (rowsM LMatrixM8_inv_5) = 1 :=
  rowsM_inv (by norm_num) _ _ rfl (by decide +kernel)
theorem inv8_6 : mat8 (rowsM LMatrixM8_6) * mat8 (rowsM LMatrixM8_inv_6) = 1 :=
  rowsM_inv (by norm_num) _ _ rfl (by decide +kernel)
theorem inv8_7 : mat8 (rowsM LMatrixM8_7) * mat8 (rowsM LMatrixM8_inv_7) = 1 :=
  rowsM_inv (by norm_num) _ _ rfl (by decide +kernel)
theorem inv8_8 : mat8 (rowsM LMatrixM8_8) * mat8 (rowsM LMatrixM8_inv_8) = 1 :=
  rowsM_inv (by norm_num) _ _ rfl (by decide +kernel)
theorem inv8_9 : mat8 (rowsM LMatrixM8_9) * mat8 (rowsM LMatrixM8_inv_9) = 1 :=
  rowsM_inv (by norm_num) _ _ rfl (by decide +kernel)
theorem inv8_10 : mat8 (rowsM LMatrixM8_10) * mat8 (rowsM LMatrixM8_inv_10) = 1 :=
  rowsM_inv (by norm_num) _ _ rfl (by decide +kernel)
theorem inv8_11 : mat8 (rowsM LMatrixM8_11) * mat8 (rowsM LMatrixM8_inv_11) = 1 :=
  rowsM_inv (by norm_num) _ _ rfl (by decide +kernel)
theorem inv8_12 : mat8 (rowsM LMatrixM8_12) * mat8 (rowsM LMatrixM8_inv_12) = 1 :=
  rowsM_inv (by norm_num) _ _ rfl (by decide +kernel)
theorem inv8_13 : mat8 (rowsM LMatrixM8_13) * mat8 (rowsM LMatrixM8_inv_13) = 1 :=
  rowsM_inv (by norm_num) _ _ rfl (by decide +kernel)
theorem inv8_14 : mat8 (rowsM LMatrixM8_14) * mat8 (rowsM LMatrixM8_inv_14) = 1 :=
  rowsM_inv (by norm_num) _ _ rfl (by decide +kernel)
theorem inv8_15 : mat8 (rowsM LMatrixM8_15) * mat8 (rowsM LMatrixM8_inv_15) = 1 :=
  rowsM_inv (by norm_num) _ _ rfl (by decide +kernel)

/-- The matrices of the two tables are inverse to each other. -/
theorem inv8 (k : Nat) (hk : k < 16) : mat8 MatrixM8[k] * mat8 MatrixM8_inv[k] = 1 := by
  unfold MatrixM8 MatrixM8_inv
  have : k = 0 ∨ k = 1 ∨ k = 2 ∨ k = 3 ∨ k = 4 ∨ k = 5 ∨ k = 6 ∨ k = 7 ∨ k = 8 ∨ k = 9 ∨ k = 10 ∨ k = 11 ∨ k = 12 ∨ k = 13 ∨ k = 14 ∨ k = 15 := by omega
  rcases this with rfl | rfl | rfl | rfl | rfl | rfl | rfl | rfl | rfl | rfl | rfl | rfl | rfl | rfl | rfl | rfl
  · exact inv8_0
  · exact inv8_1
  · exact inv8_2
  · exact inv8_3
  · exact inv8_4
  · exact inv8_5
  · exact inv8_6
  · exact inv8_7
  · exact inv8_8
  · exact inv8_9
  · exact inv8_10
  · exact inv8_11
  · exact inv8_12
  · exact inv8_13
  · exact inv8_14
  · exact inv8_15

theorem inv16_0 : mat16 (rowsM LMatrixM16_0) * mat16 (rowsM LMatrixM16_inv_0) = 1 :=
  rowsM_inv (by norm_num) _ _ rfl (by decide +kernel)
theorem inv16_1 : mat16 (rowsM LMatrixM16_1) * mat16 (rowsM LMatrixM16_inv_1) = 1 :=
  rowsM_inv (by norm_num) _ _ rfl (by decide +kernel)
theorem inv16_2 : mat16 (rowsM LMatrixM16_2) * mat16 (rowsM LMatrixM16_inv_2) = 1 :=
  rowsM_inv (by norm_num) _ _ rfl (by decide +kernel)
theorem inv16_3 : mat16 (rowsM LMatrixM16_3) * mat16 (rowsM LMatrixM16_inv_3) = 1 :=
  rowsM_inv (by norm_num) _ _ rfl (by decide +kernel)
theorem inv16_4 : mat16 (rowsM LMatrixM16_4) * mat16 (rowsM LMatrixM16_inv_4) = 1 :=
  rowsM_inv (by norm_num) _ _ rfl (by decide +kernel)
theorem inv16_5 : mat16 (rowsM LMatrixM16_5) * mat16 (rowsM LMatrixM16_inv_5) = 1 :=
  rowsM_inv (by norm_num) _ _ rfl (by decide +kernel)
theorem inv16_6 : mat16 (rowsM LMatrixM16_6) * mat16 (rowsM LMatrixM16_inv_6) = 1 :=
  rowsM_inv (by norm_num) _ _ rfl (by decide +kernel)
theorem inv16_7 : mat16 (rowsM LMatrixM16_7) * mat16 (rowsM LMatrixM16_inv_7) = 1 :=
  rowsM_inv (by norm_num) _ _ rfl (by decide +kernel)
theorem inv16_8 : mat16 (rowsM LMatrixM16_8) * mat16 (rowsM LMatrixM16_inv_8) = 1 :=
  rowsM_inv (by norm_num) _ _ rfl (by decide +kernel)
theorem inv16_9 : mat16 (rowsM LMatrixM16_9) * mat16 (rowsM LMatrixM16_inv_9) = 1 :=
  rowsM_inv (by norm_num) _ _ rfl (by decide +kernel)
theorem inv16_10 : mat16 (rowsM LMatrixM16_10) * mat16 (rowsM LMatrixM16_inv_10) = 1 :=
  rowsM_inv (by norm_num) _ _ rfl (by decide +kernel)
theorem inv16_11 : mat16 (rowsM LMatrixM16_11) * mat16 (rowsM LMatrixM16_inv_11) = 1 :=
  rowsM_inv (by norm_num) _ _ rfl (by decide +kernel)
theorem inv16_12 : mat16 (rowsM LMatrixM16_12) * mat16 (rowsM LMatrixM16_inv_12) = 1 :=
  rowsM_inv (by norm_num) _ _ rfl (by decide +kernel)
theorem inv16_13 : mat16 (rowsM LMatrixM16_13) * mat16 (rowsM LMatrixM16_inv_13) = 1 :=
  rowsM_inv (by norm_num) _ _ rfl (by decide +kernel)
theorem inv16_14 : mat16 (rowsM LMatrixM16_14) * mat16 (rowsM LMatrixM16_inv_14) = 1 :=
  rowsM_inv (by norm_num) _ _ rfl (by decide +kernel)
theorem inv16_15 : mat16 (rowsM LMatrixM16_15) * mat16 (rowsM LMatrixM16_inv_15) = 1 :=
  rowsM_inv (by norm_num) _ _ rfl (by decide +kernel)

/-- The matrices of the two tables are inverse to each other. -/
theorem inv16 (k : Nat) (hk : k < 16) : mat16 MatrixM16[k] * mat16 MatrixM16_inv[k] = 1 := by
  unfold MatrixM16 MatrixM16_inv
  have : k = 0 ∨ k = 1 ∨ k = 2 ∨ k = 3 ∨ k = 4 ∨ k = 5 ∨ k = 6 ∨ k = 7 ∨ k = 8 ∨ k = 9 ∨ k = 10 ∨ k = 11 ∨ k = 12 ∨ k = 13 ∨ k = 14 ∨ k = 15 := by omega
  rcases this with rfl | rfl | rfl | rfl | rfl | rfl | rfl | rfl | rfl | rfl | rfl | rfl | rfl | rfl | rfl | rfl
  · exact inv16_0
  · exact inv16_1
  · exact inv16_2
  · exact inv16_3
  · exact inv16_4
  · exact inv16_5
  · exact inv16_6
  · exact inv16_7
  · exact inv16_8
  · exact inv16_9
  · exact inv16_10
  · exact inv16_11
  · exact inv16_12
  · exact inv16_13
  · exact inv16_14
  · exact inv16_15

theorem inv32_0 : mat32 (rowsM LMatrixM32_0) * mat32 (rowsM LMatrixM32_inv_0) = 1 :=
  rowsM_inv (by norm_num) _ _ rfl (by decide +kernel)
theorem inv32_1 : mat32 (rowsM LMatrixM32_1) * mat32 (rowsM LMatrixM32_inv_1) = 1 :=
  rowsM_inv (by norm_num) _ _ rfl (by decide +kernel)
theorem inv32_2 : mat32 (rowsM LMatrixM32_2) * mat32 (rowsM LMatrixM32_inv_2) = 1 :=
  rowsM_inv (by norm_num) _ _ rfl (by decide +kernel)
theorem inv32_3 : mat32 (rowsM LMatrixM32_3) * mat32 (rowsM LMatrixM32_inv_3) = 1 :=
  rowsM_inv (by norm_num) _ _ rfl (by decide +kernel)
theorem inv32_4 : mat32 (rowsM LMatrixM32_4) * mat32 (rowsM LMatrixM32_inv_4) = 1 :=
  rowsM_inv (by norm_num) _ _ rfl (by decide +kernel)
theorem inv32_5 : mat32 (rowsM LMatrixM32_5) * mat32 (rowsM LMatrixM32_inv_5) = 1 :=
  rowsM_inv (by norm_num) _ _ rfl (by decide +kernel)
theorem inv32_6 : mat32 (rowsM LMatrixM32_6) * mat32 (rowsM LMatrixM32_inv_6) = 1 :=
  rowsM_inv (by norm_num) _ _ rfl (by decide +kernel)
theorem inv32_7 : mat32 (rowsM LMatrixM32_7) * mat32 (rowsM LMatrixM32_inv_7) = 1 :=
  rowsM_inv (by norm_num) _ _ rfl (by decide +kernel)
theorem inv32_8 : mat32 (rowsM LMatrixM32_8) * mat32 (rowsM LMatrixM32_inv_8) = 1 :=
  rowsM_inv (by norm_num) _ _ rfl (by decide +kernel)
theorem inv32_9 : mat32 (rowsM LMatrixM32_9) * mat32 (rowsM LMatrixM32_inv_9) = 1 :=
  rowsM_inv (by norm_num) _ _ rfl (by decide +kernel)
theorem inv32_10 : mat32 (rowsM LMatrixM32_10) * mat32 (rowsM LMatrixM32_inv_10) = 1 :=
  rowsM_inv (by norm_num) _ _ rfl (by decide +kernel)
theorem inv32_11 : mat32 (rowsM LMatrixM32_11) * mat32 (rowsM LMatrixM32_inv_11) = 1 :=
  rowsM_inv (by norm_num) _ _ rfl (by decide +kernel)
theorem inv32_12 : mat32 (rowsM LMatrixM32_12) * mat32 (rowsM LMatrixM32_inv_12) = 1 :=
  rowsM_inv (by norm_num) _ _ rfl (by decide +kernel)
theorem inv32_13 : mat32 (rowsM LMatrixM32_13) * mat32 (rowsM LMatrixM32_inv_13) = 1 :=
  rowsM_inv (by norm_num) _ _ rfl (by decide +kernel)
theorem inv32_14 : mat32 (rowsM LMatrixM32_14) * mat32 (rowsM LMatrixM32_inv_14) = 1 :=
  rowsM_inv (by norm_num) _ _ rfl (by decide +kernel)
theorem inv32_15 : mat32 (rowsM LMatrixM32_15) * mat32 (rowsM LMatrixM32_inv_15) = 1 :=
  rowsM_inv (by norm_num) _ _ rfl (by decide +kernel)

/-- The matrices of the two tables are inverse to each other. -/
theorem inv32 (k : Nat) (hk : k < 16) : mat32 MatrixM32[k] * mat32 MatrixM32_inv[k] = 1 := by
  unfold MatrixM32 MatrixM32_inv
  have : k = 0 ∨ k = 1 ∨ k = 2 ∨ k = 3 ∨ k = 4 ∨ k = 5 ∨ k = 6 ∨ k = 7 ∨ k = 8 ∨ k = 9 ∨ k = 10 ∨ k = 11 ∨ k = 12 ∨ k = 13 ∨ k = 14 ∨ k = 15 := by omega
  rcases this with rfl | rfl | rfl | rfl | rfl | rfl | rfl | rfl | rfl | rfl | rfl | rfl | rfl | rfl | rfl | rfl
  · exact inv32_0
  · exact inv32_1
  · exact inv32_2
  · exact inv32_3
  · exact inv32_4
  · exact inv32_5
  · exact inv32_6
  · exact inv32_7
  · exact inv32_8
  · exact inv32_9
  · exact inv32_10
  · exact inv32_11
  · exact inv32_12
  · exact inv32_13
  · exact inv32_14
  · exact inv32_15

theorem inv64_0 : mat64 (rowsM LMatrixM64_0) * mat64 (rowsM LMatrixM64_inv_0) = 1 :=
  rowsM_inv (by norm_num) _ _ rfl (by decide +kernel)
theorem inv64_1 : mat64 (rowsM LMatrixM64_1) * mat64 (rowsM LMatrixM64_inv_1) = 1 :=
  rowsM_inv (by norm_num) _ _ rfl (by decide +kernel)
theorem inv64_2 : mat64 (rowsM LMatrixM64_2) * mat64 (rowsM LMatrixM64_inv_2) = 1 :=
  rowsM_inv (by norm_num) _ _ rfl (by decide +kernel)
theorem inv64_3 : mat64 (rowsM LMatrixM64_3) * mat64 (rowsM LMatrixM64_inv_3) = 1 :=
  rowsM_inv (by norm_num) _ _ rfl (by decide +kernel)
theorem inv64_4 : mat64 (rowsM LMatrixM64_4) * mat64 (rowsM LMatrixM64_inv_4) = 1 :=
  rowsM_inv (by norm_num) _ _ rfl (by decide +kernel)
theorem inv64_5 : mat64 (rowsM LMatrixM64_5) * mat64 (rowsM LMatrixM64_inv_5) = 1 :=
  rowsM_inv (by norm_num) _ _ rfl (by decide +kernel)
theorem inv64_6 : mat64 (rowsM LMatrixM64_6) * mat64 (rowsM LMatrixM64_inv_6) = 1 :=
  rowsM_inv (by norm_num) _ _ rfl (by decide +kernel)
theorem inv64_7 : mat64 (rowsM LMatrixM64_7) * mat64 (rowsM LMatrixM64_inv_7) = 1 :=
  rowsM_inv (by norm_num) _ _ rfl (by decide +kernel)
theorem inv64_8 : mat64 (rowsM LMatrixM64_8) * mat64 (rowsM LMatrixM64_inv_8) = 1 :=
  rowsM_inv (by norm_num) _ _ rfl (by decide +kernel)
theorem inv64_9 : mat64 (rowsM LMatrixM64_9) * mat64 (rowsM LMatrixM64_inv_9) = 1 :=
  rowsM_inv (by norm_num) _ _ rfl (by decide +kernel)
theorem inv64_10 : mat64 (rowsM LMatrixM64_10) * mat64 (rowsM LMatrixM64_inv_10) = 1 :=
  rowsM_inv (by norm_num) _ _ rfl (by decide +kernel)
theorem inv64_11 : mat64 (rowsM LMatrixM64_11) * mat64 (rowsM LMatrixM64_inv_11) = 1 :=
  rowsM_inv (by norm_num) _ _ rfl (by decide +kernel)
theorem inv64_12 : mat64 (rowsM LMatrixM64_12) * mat64 (rowsM LMatrixM64_inv_12) = 1 :=
  rowsM_inv (by norm_num) _ _ rfl (by decide +kernel)
theorem inv64_13 : mat64 (rowsM LMatrixM64_13) * mat64 (rowsM LMatrixM64_inv_13) = 1 :=
  rowsM_inv (by norm_num) _ _ rfl (by decide +kernel)
theorem inv64_14 : mat64 (rowsM LMatrixM64_14) * mat64 (rowsM LMatrixM64_inv_14) = 1 :=
  rowsM_inv (by norm_num) _ _ rfl (by decide +kernel)
theorem inv64_15 : mat64 (rowsM LMatrixM64_15) * mat64 (rowsM LMatrixM64_inv_15) = 1 :=
  rowsM_inv (by norm_num) _ _ rfl (by decide +kernel)

/-- The matrices of the two tables are inverse to each other. -/
theorem inv64 (k : Nat) (hk : k < 16) : mat64 MatrixM64[k] * mat64 MatrixM64_inv[k] = 1 := by
  unfold MatrixM64 MatrixM64_inv
  have : k = 0 ∨ k = 1 ∨ k = 2 ∨ k = 3 ∨ k = 4 ∨ k = 5 ∨ k = 6 ∨ k = 7 ∨ k = 8 ∨ k = 9 ∨ k = 10 ∨ k = 11 ∨ k = 12 ∨ k = 13 ∨ k = 14 ∨ k = 15 := by omega
  rcases this with rfl | rfl | rfl | rfl | rfl | rfl | rfl | rfl | rfl | rfl | rfl | rfl | rfl | rfl | rfl | rfl
  · exact inv64_0
  · exact inv64_1
  · exact inv64_2
  · exact inv64_3
  · exact inv64_4
  · exact inv64_5
  · exact inv64_6
  · exact inv64_7
  · exact inv64_8
  · exact inv64_9
  · exact inv64_10
  · exact inv64_11
  · exact inv64_12
  · exact inv64_13
  · exact inv64_14
  · exact inv64_15

theorem small_MatrixM128_0 : small LMatrixM128_0 = true := by decide +kernel
theorem sing_MatrixM128_0 : ¬ IsUnit (mat128 (rowsM2 LMatrixM128_0)) :=
  rowsM2_singular small_MatrixM128_0 0x80010000 31 (by norm_num) (by decide +kernel) (by decide +kernel)
theorem small_MatrixM128_1 : small LMatrixM128_1 = true := by decide +kernel
theorem sing_MatrixM128_1 : ¬ IsUnit (mat128 (rowsM2 LMatrixM128_1)) :=
  rowsM2_singular small_MatrixM128_1 0x80010000 31 (by norm_num) (by decide +kernel) (by decide +kernel)
theorem small_MatrixM128_2 : small LMatrixM128_2 = true := by decide +kernel
theorem sing_MatrixM128_2 : ¬ IsUnit (mat128 (rowsM2 LMatrixM128_2)) :=
  rowsM2_singular small_MatrixM128_2 0x80010000 31 (by norm_num) (by decide +kernel) (by decide +kernel)
theorem small_MatrixM128_3 : small LMatrixM128_3 = true := by decide +kernel
theorem sing_MatrixM128_3 : ¬ IsUnit (mat128 (rowsM2 LMatrixM128_3)) :=
  rowsM2_singular small_MatrixM128_3 0x80010000 31 (by norm_num) (by decide +kernel) (by decide +kernel)
theorem small_MatrixM128_4 : small LMatrixM128_4 = true := by decide +kernel
theorem sing_MatrixM128_4 : ¬ IsUnit (mat128 (rowsM2 LMatrixM128_4)) :=
  rowsM2_singular small_MatrixM128_4 0x80010000 31 (by norm_num) (by decide +kernel) (by decide +kernel)
theorem small_MatrixM128_5 : small LMatrixM128_5 = true := by decide +kernel
theorem sing_MatrixM128_5 : ¬ IsUnit (mat128 (rowsM2 LMatrixM128_5)) :=
  rowsM2_singular small_MatrixM128_5 0x80010000 31 (by norm_num) (by decide +kernel) (by decide +kernel)
theorem small_MatrixM128_6 : small LMatrixM128_6 = true := by decide +kernel
theorem sing_MatrixM128_6 : ¬ IsUnit (mat128 (rowsM2 LMatrixM128_6)) :=
  rowsM2_singular small_MatrixM128_6 0x80010000 31 (by norm_num) (by decide +kernel) (by decide +kernel)
theorem small_MatrixM128_7 : small LMatrixM128_7 = true := by decide +kernel
theorem sing_MatrixM128_7 : ¬ IsUnit (mat128 (rowsM2 LMatrixM128_7)) :=
  rowsM2_singular small_MatrixM128_7 0x80010000 31 (by norm_num) (by decide +kernel) (by decide +kernel)
theorem small_MatrixM128_8 : small LMatrixM128_8 = true := by decide +kernel
theorem sing_MatrixM128_8 : ¬ IsUnit (mat128 (rowsM2 LMatrixM128_8)) :=
  rowsM2_singular small_MatrixM128_8 0x80010000 31 (by norm_num) (by decide +kernel) (by decide +kernel)
theorem small_MatrixM128_9 : small LMatrixM128_9 = true := by decide +kernel
theorem sing_MatrixM128_9 : ¬ IsUnit (mat128 (rowsM2 LMatrixM128_9)) :=
  rowsM2_singular small_MatrixM128_9 0x80010000 31 (by norm_num) (by decide +kernel) (by decide +kernel)
theorem small_MatrixM128_10 : small LMatrixM128_10 = true := by decide +kernel
theorem sing_MatrixM128_10 : ¬ IsUnit (mat128 (rowsM2 LMatrixM128_10)) :=
  rowsM2_singular small_MatrixM128_10 0xb509b8ecbe6b10afb110cddcf9280cc 123 (by norm_num) (by decide +kernel) (by decide +kernel)
theorem small_MatrixM128_11 : small LMatrixM128_11 = true := by decide +kernel
theorem sing_MatrixM128_11 : ¬ IsUnit (mat128 (rowsM2 LMatrixM128_11)) :=
  rowsM2_singular small_MatrixM128_11 0xe4db2bf8498b0179aee14dca6b64821d 127 (by norm_num) (by decide +kernel) (by decide +kernel)
theorem small_MatrixM128_12 : small LMatrixM128_12 = true := by decide +kernel
theorem sing_MatrixM128_12 : ¬ IsUnit (mat128 (rowsM2 LMatrixM128_12)) :=
  rowsM2_singular small_MatrixM128_12 0x8010bb66b962e90447f765183082014c 127 (by norm_num) (by decide +kernel) (by decide +kernel)
theorem small_MatrixM128_13 : small LMatrixM128_13 = true := by decide +kernel
theorem sing_MatrixM128_13 : ¬ IsUnit (mat128 (rowsM2 LMatrixM128_13)) :=
  rowsM2_singular small_MatrixM128_13 0xe60c3b37bbfa71043d1a32952038db0a 127 (by norm_num) (by decide +kernel) (by decide +kernel)
theorem small_MatrixM128_14 : small LMatrixM128_14 = true := by decide +kernel
theorem unit_MatrixM128_14 : IsUnit (mat128 (rowsM2 LMatrixM128_14)) := by
  refine rowsM2_unit small_MatrixM128_14 (bs := [0x6c8cf6055fc67271cac878ebeba9ff20, 0x9719618a36c3799ab0311d9e1894d089, 0x5818a60b80a7660c0e845076881a75cf, 0xd1ccd60790a3364dda89b7212b68caba,
  0xc298deae76ebc5f83b149277942558b0, 0x2c133690dd55e65eb97dac4accaf2b0b, 0xfed9d85090123a9f522e11a2b147586e, 0xd31b90bb65bd39885ab68dafc8c27b91,
  0x188115364bd19deb4dd8f1cf4bfd9100, 0xca4a61f7984610c5c4395845b5c920d9, 0x3ecaa159151acd135a5e37b3b8d6e881, 0x62a53eb199b25623b573a9c15a5259b2,
  0x3f7625a540b22bc8af4e8d9719dc12d2, 0x12d92ed55f513f02ec1f9364de9d9cdf, 0x76f91049a86b2336d40acc2794befac4, 0x83f443acd30bdc802cdd4dd841bbe329,
  0x7b81345745125a28ebaef2100cf540f, 0x33444c570f6b28b39bd8f9c404b9b3b6, 0xeb7e8e0474d40cb14159e5da7c1604de, 0x74b4d08f61ecbbaef215f1b1e01776df,
  0xfaa2204a68028f0676f6e00d52af1767, 0x8b0f3f6c3bd14662b1f7c7f9115ddbc3, 0xd6442f40b344791b391da387463cda4d, 0x508cc638af0c802ff3d94cbe975351fb,
  0x45875a69f665e58362a7c40ad8e27914, 0x9649c517b604a66800048c57bfca434e, 0x5e1a84fb8e31b218204a1e8242fc19c6, 0x7a1ad4dc6ecb7e9976bc3bdb2abd5871,
  0x7415fe05a2d6d2281d0174fc79dc0c00, 0xe4f6d9c52c1d29d755bbb7edab4a8c7, 0x178c3e5ad8afe931e64ce2b9061f4ecd, 0xe17400354d37e8b8c28dc89b2b6d9f70,
  0x55a2f56836ab9dfffa9df61ccd829321, 0xcc2da435b7f730c574db4e933320b7d4, 0x55a93da772ff676d149a57c3782f5503, 0x26f28435c9ba3804ca7f4ef101521255,
  0xe02fa594173447c9805c27875c90acdc, 0x9109fe22fe1b73687307296c6c4996e2, 0x54fb72590c57c5ce44d5863001d7b9f4, 0xd8b02bebdb0a3b74aab093b9c65aee7a,
  0x6bcd1b7627a56dbd830acc6bff3fa07f, 0x9f0ae9c62663f204e1ffe6d1f7a61f5a, 0x6e0e65f7236bf12f4f9dd0652fc0d5be, 0x604546d39ec51610d41d0605ed4f8edd,
  0x3f2b9b3a8a574f71e5f5071d0ee3a096, 0x56cdcee489a458396fb30546247ff98d, 0xa14e5581534e53e6b1ed2ac4568a6897, 0x7d48b6621328c8f50dd10bca62d4d336,
  0x8a133fd1134c41a93135634ca32b54df, 0xa7a16ec06d29cac4facf005d98c2a15d, 0x804599018d1656966d4fb474ac8288bc, 0x5488c9e0ebd0a97cb2bee1f9207e4c1e,
  0x23ae105529b5db1ca23ab6a9901984c4, 0xe921027a306fec8c0e2479d97ef33047, 0xbeb9fc3deb8cac75c49b3b274a1c305e, 0x6edf57f610f53277e1c9bd98fa52d00a,
  0xf44feb7875f9a9b05c6a573db69d2297, 0xdc5648da81db46535bece9be9c268744, 0xdad133374ec02768507573e6dc75348b, 0x9f62056b90789862c2b2c5ab8861d701,
  0x911266620498dc0ca4113fb7ce2d449f, 0x87583fe99b2665aea7284dfbc92b3ee, 0xec4970383ea6a918473f761155bd931f, 0x2cce651baff2707795e79b4431bb718d,
  0x4cda18b02ce8de47807f3ef2b088e349, 0x1b15da44381eac5ecb407bc3712478ed, 0x93833fb18219a5d5f25c34cf0057bdfe, 0x786126b7094c3df36d456725ee080aab,
  0x5363c6e6e4a4b311226601d7278fea3a, 0x10ca0bf63ed174461ae8d6cf912e74a9, 0xd20b74bb824216c4b5160957a71640db, 0x21dd827ed7fb6fcd7f4ed69e6f7ebca9,
  0x37bbbb6bd9fc6e52ae6d204c0807654c, 0xf87b004cf1055d73cef81143369a273c, 0xb736d9a08445b0624c8fd37d289a50b8, 0x33a5d3b3323d6b3e072383d3c81ec6c2,
  0xa8ee8cdf7455a8fce31aac49e2ff2fc5, 0x7893e883b08f270e8258b75319e90a77, 0x1a423d96937dcfc6c00b282684c4841, 0x32d7762fb1f978c5cf9f5fe4a7784f21,
  0xc34f410a2537c26af93469b94fbb055f, 0x9847e49625ec9a13290f2cfed0d3a4c4, 0xb750bcf2c9d29865da46a28f6445eb57, 0x9a610e0a9bbb51e3029cdcc7fb399a62,
  0x8f139ea13756f6fdc7a1cc82c4c34159, 0xa0855f47c2942f2e2d0bb8e2831d25be, 0x37d98682f40e341dc8cc9712bccf44e1, 0x934cdaeece743864d8a6467f4e6c5dd8,
  0xe96c9a27d267d1c6e0bead787244fadb, 0xcc58c93530fb0cfb1fcd9f4dbb97b048, 0xd7153d9bd98d542b046583b216c13c53, 0xf7ad9bd8e9b70d4711cab80c6b40d41a,
  0x161a500781275ff2c652ed396f575bb8, 0x821b68d212f171f165fe1d015dcf7edb, 0x8f9ea8b3d5b719a40dffa88c4c428f36, 0x4ad0e11bd8406b42140114238de797f9,
  0xf21547949638fc51205e6e45437e831a, 0x9afc1f135f6ad9d8295a373fc9184ba8, 0x1127de3d260a946458dd0e0d8da097d3, 0x98c0c47c862a3bd52e7b1559bd565f63,
  0x11903f0dfaf65f80c227ece6457968d1, 0x737340f3b64d9d22c3acebc0d385f68c, 0x673aabe5ffb7d9cc413184760027a04c, 0x236dd71775a64e1e01a5ea7a1215e5dc,
  0x36ef603e089dcef2cb482ed2db29b824, 0x7c6b200b2a41a76f5fd8bfbde356f080, 0xd3e6fc6f05f5783a2a7a2f99de598ac5, 0x37e1594e36bbd8842d801ac0b9b05c2e,
  0x883fd2f70d9cf6e7d8a2eb1f115ee01c, 0xf72d325260a3a21a8617a788af2a920a, 0x612e48c5cbb0428c961fe6696c309b4a, 0x4af764edb2f0ecf7ebc46afacb6ead6,
  0x89a8ff7905a75d2ab9eef2251e2570c5, 0xe6884c05d2aa8530be42b18082dcf031, 0x81fc7d77d0f740c45948bcee7c11507e, 0x7d26e32d9121a43304fcfea1aecee7ea,
  0x1f112190f329cd1533c06e4d7561bcb1, 0xe97819ad088ccecf70a2bc83ca6c12ae, 0x27c600013be05abb3e1c8c8a90d78e63, 0xada9174e97194ae7dfb2dd4a9aa9f209,
  0x39f69e7d8f17ad4607cb5ef6e9bcfe78, 0x2fae2c93e57f94ae66236f0b85c75a39, 0x43c8ba1736ef13dc98c464956777d614, 0xd8e29453cc1be412028a9226d0fa05c3,
  0x3887408d764a3d690dbd1d9f1b17bdae, 0x857792c813b1b6aa9abf44f08036cd9a, 0x897de4728817a3807e302c8680235237, 0x9ce6b0bb251d8e10080cddbbec8a206e]) rfl ?_
  decide +kernel
theorem small_MatrixM128_15 : small LMatrixM128_15 = true := by decide +kernel
theorem sing_MatrixM128_15 : ¬ IsUnit (mat128 (rowsM2 LMatrixM128_15)) :=
  rowsM2_singular small_MatrixM128_15 0xd1865c90e97b0efe629f178e63b53c25 127 (by norm_num) (by decide +kernel) (by decide +kernel)

theorem unit_MatrixM128 (k : Nat) (hk : k < 16) : IsUnit (mat128 MatrixM128[k]) ↔ k = 14 := by
  unfold MatrixM128
  have : k = 0 ∨ k = 1 ∨ k = 2 ∨ k = 3 ∨ k = 4 ∨ k = 5 ∨ k = 6 ∨ k = 7 ∨ k = 8 ∨ k = 9 ∨ k = 10 ∨ k = 11 ∨ k = 12 ∨ k = 13 ∨ k = 14 ∨ k = 15 := by omega
  rcases this with rfl | rfl | rfl | rfl | rfl | rfl | rfl | rfl | rfl | rfl | rfl | rfl | rfl | rfl | rfl | rfl
  · exact iff_of_false sing_MatrixM128_0 (by norm_num)
  · exact iff_of_false sing_MatrixM128_1 (by norm_num)
  · exact iff_of_false sing_MatrixM128_2 (by norm_num)
  · exact iff_of_false sing_MatrixM128_3 (by norm_num)
  · exact iff_of_false sing_MatrixM128_4 (by norm_num)
  · exact iff_of_false sing_MatrixM128_5 (by norm_num)
  · exact iff_of_false sing_MatrixM128_6 (by norm_num)
  · exact iff_of_false sing_MatrixM128_7 (by norm_num)
  · exact iff_of_false sing_MatrixM128_8 (by norm_num)
  · exact iff_of_false sing_MatrixM128_9 (by norm_num)
  · exact iff_of_false sing_MatrixM128_10 (by norm_num)
  · exact iff_of_false sing_MatrixM128_11 (by norm_num)
  · exact iff_of_false sing_MatrixM128_12 (by norm_num)
  · exact iff_of_false sing_MatrixM128_13 (by norm_num)
  · exact iff_of_true unit_MatrixM128_14 rfl
  · exact iff_of_false sing_MatrixM128_15 (by norm_num)

theorem small_MatrixM128_inv_0 : small LMatrixM128_inv_0 = true := by decide +kernel
theorem sing_MatrixM128_inv_0 : ¬ IsUnit (mat128 (rowsM2 LMatrixM128_inv_0)) :=
  rowsM2_singular small_MatrixM128_inv_0 0x80010000 31 (by norm_num) (by decide +kernel) (by decide +kernel)
theorem small_MatrixM128_inv_1 : small LMatrixM128_inv_1 = true := by decide +kernel
theorem sing_MatrixM128_inv_1 : ¬ IsUnit (mat128 (rowsM2 LMatrixM128_inv_1)) :=
  rowsM2_singular small_MatrixM128_inv_1 0x80010000 31 (by norm_num) (by decide +kernel) (by decide +kernel)
theorem small_MatrixM128_inv_2 : small LMatrixM128_inv_2 = true := by decide +kernel
theorem sing_MatrixM128_inv_2 : ¬ IsUnit (mat128 (rowsM2 LMatrixM128_inv_2)) :=
  rowsM2_singular small_MatrixM128_inv_2 0x80010000 31 (by norm_num) (by decide +kernel) (by decide +kernel)
theorem small_MatrixM128_inv_3 : small LMatrixM128_inv_3 = true := by decide +kernel
theorem sing_MatrixM128_inv_3 : ¬ IsUnit (mat128 (rowsM2 LMatrixM128_inv_3)) :=
  rowsM2_singular small_MatrixM128_inv_3 0x80010000 31 (by norm_num) (by decide +kernel) (by decide +kernel)
theorem small_MatrixM128_inv_4 : small LMatrixM128_inv_4 = true := by decide +kernel
theorem sing_MatrixM128_inv_4 : ¬ IsUnit (mat128 (rowsM2 LMatrixM128_inv_4)) :=
  rowsM2_singular small_MatrixM128_inv_4 0x80010000 31 (by norm_num) (by decide +kernel) (by decide +kernel)
theorem small_MatrixM128_inv_5 : small LMatrixM128_inv_5 = true := by decide +kernel
theorem sing_MatrixM128_inv_5 : ¬ IsUnit (mat128 (rowsM2 LMatrixM128_inv_5)) :=
  rowsM2_singular small_MatrixM128_inv_5 0x80010000 31 (by norm_num) (by decide +kernel) (by decide +kernel)
theorem small_MatrixM128_inv_6 : small LMatrixM128_inv_6 = true := by decide +kernel
theorem sing_MatrixM128_inv_6 : ¬ IsUnit (mat128 (rowsM2 LMatrixM128_inv_6)) :=
  rowsM2_singular small_MatrixM128_inv_6 0x80010000 31 (by norm_num) (by decide +kernel) (by decide +kernel)
theorem small_MatrixM128_inv_7 : small LMatrixM128_inv_7 = true := by decide +kernel
theorem sing_MatrixM128_inv_7 : ¬ IsUnit (mat128 (rowsM2 LMatrixM128_inv_7)) :=
  rowsM2_singular small_MatrixM128_inv_7 0x80010000 31 (by norm_num) (by decide +kernel) (by decide +kernel)
theorem small_MatrixM128_inv_8 : small LMatrixM128_inv_8 = true := by decide +kernel
theorem sing_MatrixM128_inv_8 : ¬ IsUnit (mat128 (rowsM2 LMatrixM128_inv_8)) :=
  rowsM2_singular small_MatrixM128_inv_8 0x80010000 31 (by norm_num) (by decide +kernel) (by decide +kernel)
theorem small_MatrixM128_inv_9 : small LMatrixM128_inv_9 = true := by decide +kernel
theorem sing_MatrixM128_inv_9 : ¬ IsUnit (mat128 (rowsM2 LMatrixM128_inv_9)) :=
  rowsM2_singular small_MatrixM128_inv_9 0x80010000 31 (by norm_num) (by decide +kernel) (by decide +kernel)
theorem small_MatrixM128_inv_10 : small LMatrixM128_inv_10 = true := by decide +kernel
theorem sing_MatrixM128_inv_10 : ¬ IsUnit (mat128 (rowsM2 LMatrixM128_inv_10)) :=
  rowsM2_singular small_MatrixM128_inv_10 0x80010000 31 (by norm_num) (by decide +kernel) (by decide +kernel)
theorem small_MatrixM128_inv_11 : small LMatrixM128_inv_11 = true := by decide +kernel
theorem sing_MatrixM128_inv_11 : ¬ IsUnit (mat128 (rowsM2 LMatrixM128_inv_11)) :=
  rowsM2_singular small_MatrixM128_inv_11 0x80010000 31 (by norm_num) (by decide +kernel) (by decide +kernel)
theorem small_MatrixM128_inv_12 : small LMatrixM128_inv_12 = true := by decide +kernel
theorem sing_MatrixM128_inv_12 : ¬ IsUnit (mat128 (rowsM2 LMatrixM128_inv_12)) :=
  rowsM2_singular small_MatrixM128_inv_12 0x80010000 31 (by norm_num) (by decide +kernel) (by decide +kernel)
theorem small_MatrixM128_inv_13 : small LMatrixM128_inv_13 = true := by decide +kernel
theorem sing_MatrixM128_inv_13 : ¬ IsUnit (mat128 (rowsM2 LMatrixM128_inv_13)) :=
  rowsM2_singular small_MatrixM128_inv_13 0x80010000 31 (by norm_num) (by decide +kernel) (by decide +kernel)
theorem small_MatrixM128_inv_14 : small LMatrixM128_inv_14 = true := by decide +kernel
theorem sing_MatrixM128_inv_14 : ¬ IsUnit (mat128 (rowsM2 LMatrixM128_inv_14)) :=
  rowsM2_singular small_MatrixM128_inv_14 0x80010000 31 (by norm_num) (by decide +kernel) (by decide +kernel)
theorem small_MatrixM128_inv_15 : small LMatrixM128_inv_15 = true := by decide +kernel
theorem sing_MatrixM128_inv_15 : ¬ IsUnit (mat128 (rowsM2 LMatrixM128_inv_15)) :=
  rowsM2_singular small_MatrixM128_inv_15 0x80010000 31 (by norm_num) (by decide +kernel) (by decide +kernel)

theorem sing_MatrixM128_inv (k : Nat) (hk : k < 16) : ¬ IsUnit (mat128 MatrixM128_inv[k]) := by
  unfold MatrixM128_inv
  have : k = 0 ∨ k = 1 ∨ k = 2 ∨ k = 3 ∨ k = 4 ∨ k = 5 ∨ k = 6 ∨ k = 7 ∨ k = 8 ∨ k = 9 ∨ k = 10 ∨ k = 11 ∨ k = 12 ∨ k = 13 ∨ k = 14 ∨ k = 15 := by omega
  rcases this with rfl | rfl | rfl | rfl | rfl | rfl | rfl | rfl | rfl | rfl | rfl | rfl | rfl | rfl | rfl | rfl
  · exact sing_MatrixM128_inv_0
  · exact sing_MatrixM128_inv_1
  · exact sing_MatrixM128_inv_2
  · exact sing_MatrixM128_inv_3
  · exact sing_MatrixM128_inv_4
  · exact sing_MatrixM128_inv_5
  · exact sing_MatrixM128_inv_6
  · exact sing_MatrixM128_inv_7
  · exact sing_MatrixM128_inv_8
  · exact sing_MatrixM128_inv_9
  · exact sing_MatrixM128_inv_10
  · exact sing_MatrixM128_inv_11
  · exact sing_MatrixM128_inv_12
  · exact sing_MatrixM128_inv_13
  · exact sing_MatrixM128_inv_14
  · exact sing_MatrixM128_inv_15

end WB.basis
