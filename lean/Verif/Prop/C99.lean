import Verif.Proof.SpMaurer

/-!
# C99 — Maurer's universal test (`/repo/test/randomness`)
-/
namespace WB.sp

/-- The factor `c` of SP 800-22, 2.9.4, for `K` blocks of `L` bits. -/
noncomputable def maurerC (L K : ℝ) : ℝ := 0.7 - 0.8 / L + (4 + 32 / L) * K ^ (-3 / L) / 15

theorem maurerC_ne {L K : Nat} (hL : 1 ≤ L) (hK : 1 ≤ K) : maurerC L K ≠ 0 := by
  unfold maurerC
  have hK' : (0 : ℝ) < K := by exact_mod_cast hK
  rcases eq_or_lt_of_le hL with rfl | h2
  · -- there is no whole number with the cube 24
    intro h
    have e : (K : ℝ) ^ ((-3 : ℝ) / ((1 : Nat) : ℝ)) = ((K : ℝ) ^ 3)⁻¹ := by
      rw [show (-3 : ℝ) / ((1 : Nat) : ℝ) = -((3 : Nat) : ℝ) by norm_num, Real.rpow_neg hK'.le, Real.rpow_natCast]
    rw [e] at h
    have h3 : (K : ℝ) ^ 3 = 24 := by
      have : (K : ℝ) ^ 3 ≠ 0 := by positivity
      field_simp at h
      push_cast at h
      norm_num at h
      linarith
    have h4 : K ^ 3 = 24 := by exact_mod_cast h3
    rcases le_or_gt K 2 with h | h
    · have : K ^ 3 ≤ 2 ^ 3 := Nat.pow_le_pow_left h 3
      omega
    · have : 3 ^ 3 ≤ K ^ 3 := Nat.pow_le_pow_left h 3
      omega
  · have hL' : (2 : ℝ) ≤ L := by exact_mod_cast h2
    have h1 : (0.8 : ℝ) / L ≤ 0.4 := by
      rw [div_le_iff₀ (by linarith)]
      linarith
    have h3 : 0 ≤ (4 + 32 / (L : ℝ)) * (K : ℝ) ^ ((-3 : ℝ) / L) / 15 := by positivity
    have : 0 < (0.7 : ℝ) - 0.8 / L + (4 + 32 / (L : ℝ)) * (K : ℝ) ^ ((-3 : ℝ) / L) / 15 := by
      norm_num at h1 ⊢
      linarith
    exact this.ne'

/-- C99: for every length of blocks from 1 to 16 and every number of blocks for the start that leaves at least one block, the P value is
computed from the mean of the logarithms of the distances of equal blocks with the formula of SP 800-22; there is no exception. -/
theorem C99_maurer {bits : List Nat} (hb : Bits bits) {L Q : Nat} (h1 : 1 ≤ L) (h16 : L ≤ 16) (hQ : Q < bits.length / L) :
    let nblocks := bits.length / L
    let K := nblocks - Q
    let sigma := maurerC L K * Real.sqrt ((var_table[L]?.getD 0 : ℚ) / K)
    maurers_with L Q bits = .ok (result (erfc (|meanLog bits L Q nblocks - (ev_table[L]?.getD 0 : ℚ)| / (Real.sqrt 2 * |sigma|)))) := by
  intro nblocks K sigma
  have hK : 1 ≤ K := by omega
  have hKr : (0 : ℝ) < (K : ℝ) := by exact_mod_cast hK
  have hKe : (((nblocks : ℤ) - (Q : ℤ) : ℤ) : ℝ) = K := by
    have : (nblocks : ℤ) - (Q : ℤ) = (K : Nat) := by omega
    rw [this]
    simp
  have hKe' : (nblocks : ℝ) - Q = K := by
    rw [← hKe]
    push_cast
    rfl
  have hvar : ∀ i : Fin 17, 1 ≤ (i : Nat) → 0 < var_table[(i : Nat)]?.getD 0 := by decide +kernel
  have hv : (0 : ℝ) < (var_table[L]?.getD 0 : ℚ) := by exact_mod_cast hvar ⟨L, by omega⟩ h1
  have hr : 0 < Real.sqrt ((var_table[L]?.getD 0 : ℚ) / K) := Real.sqrt_pos.2 (by positivity)
  have hc := maurerC_ne h1 hK
  obtain ⟨T, hT, hl⟩ := maurer_table_run hb L Q
  obtain ⟨⟨T', sum⟩, hs, hsum⟩ := maurer_sum_run hb hQ.le (Nat.div_mul_le_self _ _) hl
  simp only at hsum
  subst hsum
  unfold maurers_with
  simp only
  rw [if_neg (by omega), C_pure_bind, hT, C_pure_bind, hs, C_pure_bind]
  simp only
  rw [hKe, rdiv_ok hKr.ne', C_pure_bind, ix_getD (l := ev_table) (0 : ℚ) (by exact lt_of_le_of_lt h16 (by decide)), C_pure_bind,
    ix_getD (l := var_table) (0 : ℚ) (by exact lt_of_le_of_lt h16 (by decide)), C_pure_bind, if_neg (by omega), C_pure_bind]
  have hden : (0.7 - 0.8 / (L : ℝ) + (4 + 32 / (L : ℝ)) * (K : ℝ) ^ ((-3 : ℝ) / L) / 15) * Real.sqrt ((var_table[L]?.getD 0 : ℚ) / K) * Real.sqrt 2 =
      sigma * Real.sqrt 2 := rfl
  have hs0 : sigma * Real.sqrt 2 ≠ 0 := mul_ne_zero (mul_ne_zero hc hr.ne') (Real.sqrt_pos.2 (by norm_num)).ne'
  rw [hden, rdiv_ok hs0, C_pure_bind, C_pure_eq, abs_div, abs_mul, abs_of_nonneg (Real.sqrt_nonneg 2), mul_comm |sigma|]
  unfold meanLog
  rw [hKe']

/-- C99: with default parameters, from 387840 bits on, the length of the blocks is the largest up to 16 with `1010 * 2^L` blocks in the
bits; at least `1000 * 2^L` blocks are left after the `10 * 2^L` blocks for the start. -/
theorem C99_default {bits : List Nat} (h : 387840 ≤ bits.length) : ∃ L, 6 ≤ L ∧ L ≤ 16 ∧ 1010 * 2 ^ L * L ≤ bits.length ∧
    (∀ L', 6 ≤ L' → L' ≤ 16 → 1010 * 2 ^ L' * L' ≤ bits.length → L' ≤ L) ∧ 10 * 2 ^ L + 1000 * 2 ^ L ≤ bits.length / L ∧
    maurers_universal_test bits = maurers_with L (10 * 2 ^ L) bits := by
  obtain ⟨L, hL⟩ : ∃ L, L = thresholds.foldl (fun L threshold => if bits.length ≥ threshold then L + 1 else L) 6 := ⟨_, rfl⟩
  have e : maurers_universal_test bits = maurers_with L (10 * 2 ^ L) bits := by
    unfold maurers_universal_test
    simp only
    rw [if_neg (by omega), ← hL]
  have key : 6 ≤ L ∧ L ≤ 16 ∧ 1010 * 2 ^ L * L ≤ bits.length ∧ (L < 16 → bits.length < 1010 * 2 ^ (L + 1) * (L + 1)) := by
    generalize bits.length = n at hL h
    simp only [thresholds, List.foldl_cons, List.foldl_nil, ge_iff_le] at hL
    rcases Nat.lt_or_ge n 904960 with g | g
    · rw [if_neg (by omega), if_neg (by omega), if_neg (by omega), if_neg (by omega), if_neg (by omega), if_neg (by omega),
        if_neg (by omega), if_neg (by omega), if_neg (by omega), if_neg (by omega)] at hL
      subst hL
      exact ⟨by decide, by decide, h, fun _ => g⟩
    rw [if_pos g] at hL
    rcases Nat.lt_or_ge n 2068480 with g1 | g1
    · rw [if_neg (by omega), if_neg (by omega), if_neg (by omega), if_neg (by omega), if_neg (by omega),
        if_neg (by omega), if_neg (by omega), if_neg (by omega), if_neg (by omega)] at hL
      subst hL
      exact ⟨by decide, by decide, g, fun _ => g1⟩
    rw [if_pos g1] at hL
    rcases Nat.lt_or_ge n 4654080 with g2 | g2
    · rw [if_neg (by omega), if_neg (by omega), if_neg (by omega), if_neg (by omega),
        if_neg (by omega), if_neg (by omega), if_neg (by omega), if_neg (by omega)] at hL
      subst hL
      exact ⟨by decide, by decide, g1, fun _ => g2⟩
    rw [if_pos g2] at hL
    rcases Nat.lt_or_ge n 10342400 with g3 | g3
    · rw [if_neg (by omega), if_neg (by omega), if_neg (by omega),
        if_neg (by omega), if_neg (by omega), if_neg (by omega), if_neg (by omega)] at hL
      subst hL
      exact ⟨by decide, by decide, g2, fun _ => g3⟩
    rw [if_pos g3] at hL
    rcases Nat.lt_or_ge n 22753280 with g4 | g4
    · rw [if_neg (by omega), if_neg (by omega),
        if_neg (by omega), if_neg (by omega), if_neg (by omega), if_neg (by omega)] at hL
      subst hL
      exact ⟨by decide, by decide, g3, fun _ => g4⟩
    rw [if_pos g4] at hL
    rcases Nat.lt_or_ge n 49643520 with g5 | g5
    · rw [if_neg (by omega), if_neg (by omega), if_neg (by omega), if_neg (by omega), if_neg (by omega)] at hL
      subst hL
      exact ⟨by decide, by decide, g4, fun _ => g5⟩
    rw [if_pos g5] at hL
    rcases Nat.lt_or_ge n 107560960 with g6 | g6
    · rw [if_neg (by omega), if_neg (by omega), if_neg (by omega), if_neg (by omega)] at hL
      subst hL
      exact ⟨by decide, by decide, g5, fun _ => g6⟩
    rw [if_pos g6] at hL
    rcases Nat.lt_or_ge n 231669760 with g7 | g7
    · rw [if_neg (by omega), if_neg (by omega), if_neg (by omega)] at hL
      subst hL
      exact ⟨by decide, by decide, g6, fun _ => g7⟩
    rw [if_pos g7] at hL
    rcases Nat.lt_or_ge n 496435200 with g8 | g8
    · rw [if_neg (by omega), if_neg (by omega)] at hL
      subst hL
      exact ⟨by decide, by decide, g7, fun _ => g8⟩
    rw [if_pos g8] at hL
    rcases Nat.lt_or_ge n 1059061760 with g9 | g9
    · rw [if_neg (by omega)] at hL
      subst hL
      exact ⟨by decide, by decide, g8, fun _ => g9⟩
    rw [if_pos g9] at hL
    subst hL
    exact ⟨by decide, by decide, g9, fun h => absurd h (by decide)⟩
  obtain ⟨h6, h16, h1, h2⟩ := key
  refine ⟨L, h6, h16, h1, ?_, ?_, e⟩
  · intro L' g6 g16 g1
    by_contra hlt
    have h3 := h2 (by omega)
    have h4 : 1010 * 2 ^ (L + 1) * (L + 1) ≤ 1010 * 2 ^ L' * L' :=
      Nat.mul_le_mul (Nat.mul_le_mul_left _ (Nat.pow_le_pow_right (by decide) (by omega))) (by omega)
    exact absurd (le_trans h4 g1) (not_le.2 h3)
  · rw [Nat.le_div_iff_mul_le (by omega), ← Nat.add_mul]
    exact h1

/-- C99: so the default parameters never raise an exception, and fewer bits fail the test. -/
theorem C99_total {bits : List Nat} (hb : Bits bits) : (387840 ≤ bits.length → ∃ p, maurers_universal_test bits = .ok (result p)) ∧
    (bits.length < 387840 → maurers_universal_test bits = .ok ⟨False, 0⟩) := by
  refine ⟨fun h => ?_, fun h => ?_⟩
  · obtain ⟨L, h6, h16, -, -, h1, e⟩ := C99_default h
    rw [e]
    have hp : 0 < 1000 * 2 ^ L := by positivity
    exact ⟨_, C99_maurer hb (by omega) h16 (by omega)⟩
  · unfold maurers_universal_test
    simp only
    rw [if_pos h]
    rfl

/-- C99: what is left to the caller: parameters that leave no block, and blocks of more than 16 bits, end with an exception. -/
theorem C99_bad {bits : List Nat} (hb : Bits bits) {L Q : Nat} (h1 : 1 ≤ L) :
    (Q = bits.length / L → maurers_with L Q bits = .error .divZero) ∧
    (16 < L → Q < bits.length / L → maurers_with L Q bits = .error .oob) := by
  obtain ⟨T, hT, hl⟩ := maurer_table_run hb L Q
  refine ⟨fun h => ?_, fun h16 hQ => ?_⟩
  · obtain ⟨r, hs, -⟩ := maurer_sum_run hb h.le (Nat.div_mul_le_self _ _) hl
    unfold maurers_with
    simp only
    rw [if_neg (by omega), C_pure_bind, hT, C_pure_bind, hs, C_pure_bind]
    rw [rdiv, if_pos (by rw [h]; simp)]
    rfl
  · obtain ⟨r, hs, -⟩ := maurer_sum_run hb hQ.le (Nat.div_mul_le_self _ _) hl
    unfold maurers_with
    simp only
    rw [if_neg (by omega), C_pure_bind, hT, C_pure_bind, hs, C_pure_bind]
    have hK : (((bits.length / L : Nat) : ℤ) - (Q : ℤ) : ℤ) ≠ 0 := by omega
    rw [rdiv_ok (by exact_mod_cast hK), C_pure_bind, ix_err (l := ev_table) (by exact h16)]
    rfl

/-- The hypotheses of the theorems above can be met: the example in the program (and in SP 800-22), with the distances 3, 2, 1, … for
blocks 4, 5, 6, … -/
example : Bits [0, 1, 0, 1, 1, 0, 1, 0, 0, 1, 1, 1, 0, 1, 0, 1, 0, 1, 1, 1] ∧
    4 < [0, 1, 0, 1, 1, 0, 1, 0, 0, 1, 1, 1, 0, 1, 0, 1, 0, 1, 1, 1].length / 2 ∧
    gap [0, 1, 0, 1, 1, 0, 1, 0, 0, 1, 1, 1, 0, 1, 0, 1, 0, 1, 1, 1] 2 4 = 3 ∧
    gap [0, 1, 0, 1, 1, 0, 1, 0, 0, 1, 1, 1, 0, 1, 0, 1, 0, 1, 1, 1] 2 5 = 6 ∧
    gap [0, 1, 0, 1, 1, 0, 1, 0, 0, 1, 1, 1, 0, 1, 0, 1, 0, 1, 1, 1] 2 6 = 2 := by
  have hb : Bits [0, 1, 0, 1, 1, 0, 1, 0, 0, 1, 1, 1, 0, 1, 0, 1, 0, 1, 1, 1] := by unfold Bits; decide
  refine ⟨hb, by decide, ?_, ?_, ?_⟩
  · rw [gap_eq hb (by decide)]; decide
  · rw [gap_eq hb (by decide)]; decide
  · rw [gap_eq hb (by decide)]; decide

end WB.sp
