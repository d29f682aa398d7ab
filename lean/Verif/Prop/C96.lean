import Verif.Proof.SpSerial
import Verif.Prop.C94

/-!
# C96 — the serial test and the approximate entropy test (`/repo/test/randomness`)
-/
namespace WB.sp

/-- The statistic ψ² of SP 800-22 for words of `m` bits on the circle. -/
def psi (bits : List Nat) (m : Nat) : ℚ := 2 ^ m / bits.length * (∑ w : Fin m → Fin 2, (occ bits m w : ℚ) ^ 2) - bits.length

/-- The difference of ψ² for words of `m` and `m - 1` bits. -/
def delta1 (bits : List Nat) (m : Nat) : ℚ := psi bits m - psi bits (m - 1)

/-- The second difference. -/
def delta2 (bits : List Nat) (m : Nat) : ℚ := psi bits m - 2 * psi bits (m - 1) + psi bits (m - 2)

/-- The entropy of the words of `m` bits on the circle. -/
noncomputable def entropy (bits : List Nat) (m : Nat) : ℝ :=
  ∑ w : Fin m → Fin 2, Real.negMulLog ((occ bits m w : ℝ) / bits.length)

variable {bits : List Nat}

theorem psi_eq (hb : Bits bits) (h0 : bits ≠ []) (m : Nat) : psi bits m = sqs bits m * 2 ^ m / bits.length - bits.length := by
  unfold psi sqs
  simp only [occQ_eq hb h0]
  ring

theorem length_ne (h0 : bits ≠ []) : (0 : ℚ) < bits.length := by
  have := List.length_pos_iff.2 h0
  exact_mod_cast this

theorem delta1_eq (hb : Bits bits) (h0 : bits ≠ []) (m : Nat) :
    delta1 bits (m + 1) = 2 ^ m / bits.length * ∑ u, dif bits m u ^ 2 := by
  unfold delta1
  rw [psi_eq hb h0, psi_eq hb h0, Nat.add_sub_cancel, ← sqs_succ]
  have := length_ne h0
  field_simp
  ring

theorem delta2_eq (hb : Bits bits) (h0 : bits ≠ []) (m : Nat) :
    delta2 bits (m + 2) = 2 ^ m / bits.length * ∑ v : Fin m → Fin 2, (dif bits (m + 1) (Fin.cons (α := fun _ => Fin 2) 0 v) -
      dif bits (m + 1) (Fin.cons (α := fun _ => Fin 2) 1 v)) ^ 2 := by
  unfold delta2
  rw [psi_eq hb h0, psi_eq hb h0, psi_eq hb h0, show m + 2 - 1 = m + 1 from rfl, Nat.add_sub_cancel, ← sqs_two]
  have := length_ne h0
  field_simp
  ring

/-- C96: the statistics of the serial test are never negative, for any length of words. -/
theorem C96_nonneg (hb : Bits bits) (h0 : bits ≠ []) (m : Nat) (hm : 2 ≤ m) : 0 ≤ delta1 bits m ∧ 0 ≤ delta2 bits m := by
  obtain ⟨k, rfl⟩ : ∃ k, m = k + 2 := ⟨m - 2, by omega⟩
  have := length_ne h0
  rw [delta2_eq hb h0, show k + 2 = k + 1 + 1 from rfl, delta1_eq hb h0]
  constructor
  · exact mul_nonneg (by positivity) (Finset.sum_nonneg fun _ _ => by positivity)
  · exact mul_nonneg (by positivity) (Finset.sum_nonneg fun _ _ => by positivity)

/-- C96: the first is 0 only if the second is, too. -/
theorem C96_zero (hb : Bits bits) (h0 : bits ≠ []) (m : Nat) (hm : 2 ≤ m) (h : delta1 bits m = 0) : delta2 bits m = 0 := by
  obtain ⟨k, rfl⟩ : ∃ k, m = k + 2 := ⟨m - 2, by omega⟩
  have hn := length_ne h0
  rw [show k + 2 = k + 1 + 1 from rfl, delta1_eq hb h0] at h
  have h1 := (mul_eq_zero.1 h).resolve_left (by positivity)
  rw [Finset.sum_eq_zero_iff_of_nonneg (fun _ _ => by positivity)] at h1
  have h2 : ∀ u, dif bits (k + 1) u = 0 := fun u => pow_eq_zero_iff (two_ne_zero) |>.1 (h1 u (Finset.mem_univ _))
  rw [delta2_eq hb h0]
  simp [h2]

theorem serial_run (hb : Bits bits) (k : Nat) (hk : k + 2 ≤ bits.length) :
    serial_with (k + 3) bits = (do
      let P1 ← gammaincc (2 ^ (k + 1) : Nat) ((delta1 bits (k + 3) : ℝ) / 2)
      let P2 ← gammaincc (2 ^ k : Nat) ((delta2 bits (k + 3) : ℝ) / 2)
      pure ⟨0.01 ≤ P1 ∧ 0.01 ≤ P2, [P1, P2]⟩) := by
  have h0 : bits ≠ [] := by
    rintro rfl
    simp at hk
  unfold serial_with
  simp only [show k + 3 - 1 = k + 2 from rfl, show k + 3 - 2 = k + 1 from rfl, show k + 3 - 3 = k from rfl]
  rw [psi_run hb h0 hk (by omega), C_pure_bind, psi_run hb h0 hk (by omega), C_pure_bind, psi_run hb h0 hk (by omega), C_pure_bind]
  rw [← psi_eq hb h0, ← psi_eq hb h0, ← psi_eq hb h0]
  rfl

/-- C96: the serial test for words of `k + 3` bits: if both statistics are positive, then the two P values are the exact probabilities
for them. -/
theorem C96_serial_partial (hb : Bits bits) {k : Nat} (hk4 : k ≤ 4) (hk : k + 2 ≤ bits.length) (h2 : delta2 bits (k + 3) ≠ 0) :
    let P1 := upperGamma (2 ^ (k + 1) : Nat) ((delta1 bits (k + 3) : ℝ) / 2)
    let P2 := upperGamma (2 ^ k : Nat) ((delta2 bits (k + 3) : ℝ) / 2)
    serial_with (k + 3) bits = .ok ⟨0.01 ≤ P1 ∧ 0.01 ≤ P2, [P1, P2]⟩ := by
  intro P1 P2
  have h0 : bits ≠ [] := by
    rintro rfl
    simp at hk
  have h1 : delta1 bits (k + 3) ≠ 0 := fun h => h2 (C96_zero hb h0 _ (by omega) h)
  have hn := C96_nonneg hb h0 (k + 3) (by omega)
  have p1 : (0 : ℝ) < (delta1 bits (k + 3) : ℝ) / 2 := by
    have := lt_of_le_of_ne hn.1 h1.symm
    have : (0 : ℝ) < delta1 bits (k + 3) := by exact_mod_cast this
    linarith
  have p2 : (0 : ℝ) < (delta2 bits (k + 3) : ℝ) / 2 := by
    have := lt_of_le_of_ne hn.2 h2.symm
    have : (0 : ℝ) < delta2 bits (k + 3) := by exact_mod_cast this
    linarith
  have hpow : 2 ^ (k + 1) ≤ 50 := le_trans (Nat.pow_le_pow_right (by decide) (by omega : k + 1 ≤ 5)) (by decide)
  have hpow' : 2 ^ k ≤ 50 := le_trans (Nat.pow_le_pow_right (by decide) (by omega : k ≤ 5)) (by decide)
  rw [serial_run hb k hk, C94_whole_partial Nat.one_le_two_pow hpow p1, C_pure_bind, C94_whole_partial Nat.one_le_two_pow hpow' p2,
    C_pure_bind]
  rfl

/-- C96, what goes wrong: otherwise, for sequences in which the words are spread too evenly, there is a division by zero. -/
theorem C96_serial_violated (hb : Bits bits) {k : Nat} (hk4 : k ≤ 4) (hk : k + 2 ≤ bits.length) (h2 : delta2 bits (k + 3) = 0) :
    serial_with (k + 3) bits = .error .divZero := by
  have h0 : bits ≠ [] := by
    rintro rfl
    simp at hk
  have hn := C96_nonneg hb h0 (k + 3) (by omega)
  have hpow : 2 ^ (k + 1) ≤ 50 := le_trans (Nat.pow_le_pow_right (by decide) (by omega : k + 1 ≤ 5)) (by decide)
  have hpow' : 2 ^ k ≤ 50 := le_trans (Nat.pow_le_pow_right (by decide) (by omega : k ≤ 5)) (by decide)
  rw [serial_run hb k hk, h2, Rat.cast_zero, zero_div, (C94_zero_whole_violated Nat.one_le_two_pow hpow').1]
  by_cases h1 : delta1 bits (k + 3) = 0
  · rw [h1, Rat.cast_zero, zero_div, (C94_zero_whole_violated Nat.one_le_two_pow hpow).1]
    rfl
  · have p1 : (0 : ℝ) < (delta1 bits (k + 3) : ℝ) / 2 := by
      have := lt_of_le_of_ne hn.1 (Ne.symm h1)
      have : (0 : ℝ) < delta1 bits (k + 3) := by exact_mod_cast this
      linarith
    rw [C94_whole_partial Nat.one_le_two_pow hpow p1, C_pure_bind]
    rfl

/-- C96: without a given length, the words have four bits, from 64 bits on; fewer bits fail the test, and no bits are an error. -/
theorem C96_serial_length : (∀ bits : List Nat, 64 ≤ bits.length → serial_test bits = serial_with 4 bits) ∧
    (∀ bits : List Nat, bits ≠ [] → bits.length < 64 → serial_test bits = .ok ⟨False, [0]⟩) ∧ serial_test [] = .error .abort := by
  refine ⟨fun bits h => ?_, fun bits h0 h => ?_, rfl⟩
  · have h6 : 6 ≤ Nat.log 2 bits.length := Nat.le_log_of_pow_le (by decide) h
    unfold serial_test floorLog2
    rw [if_neg (by omega), C_pure_bind, if_neg (by omega)]
  · have hl := List.length_pos_iff.2 h0
    have h6 : Nat.log 2 bits.length < 6 := Nat.log_lt_of_lt_pow (by omega) h
    unfold serial_test floorLog2
    rw [if_neg (by omega), C_pure_bind, if_pos (by omega)]
    rfl

/-- The statistic of the approximate entropy test: twice the number of bits times the difference between `log 2` and the growth of the
entropy from words of `m` to words of `m + 1` bits. -/
noncomputable def entropyChisq (bits : List Nat) (m : Nat) : ℝ :=
  2 * bits.length * (Real.log 2 - (entropy bits (m + 1) - entropy bits m))

/-- C96: this statistic is never negative. -/
theorem C96_entropy_nonneg (hb : Bits bits) (h0 : bits ≠ []) (m : Nat) : 0 ≤ entropyChisq bits m := by
  have h := entropy_step hb h0 m
  have he : ∀ m, entropy bits m = -∑ w : Fin m → Fin 2, freq bits m w * Real.log (freq bits m w) := fun m => by
    unfold entropy Real.negMulLog freq
    rw [← Finset.sum_neg_distrib]
    exact Finset.sum_congr rfl fun _ _ => by ring
  unfold entropyChisq
  rw [he, he]
  refine mul_nonneg (by positivity) ?_
  linarith

theorem entropy_run (hb : Bits bits) (hn : 2 ≤ bits.length) :
    approximate_entropy_test bits = (do
      let p ← gammaincc (2 ^ ((if bits.length < 512 then 2 else 3) - 1) : Nat)
        (entropyChisq bits (if bits.length < 512 then 2 else 3) / 2)
      pure (result p)) := by
  have h0 : bits ≠ [] := by
    rintro rfl
    simp at hn
  unfold approximate_entropy_test floorLog2
  simp only
  rw [if_neg (by omega), C_pure_bind]
  have hm : (if (if ((Nat.log 2 bits.length : Nat) : Int) - 6 < 2 then (2 : Int) else ((Nat.log 2 bits.length : Nat) : Int) - 6) > 3 then (3 : Int)
      else (if ((Nat.log 2 bits.length : Nat) : Int) - 6 < 2 then 2 else ((Nat.log 2 bits.length : Nat) : Int) - 6)).toNat =
      if bits.length < 512 then 2 else 3 := by
    by_cases h : bits.length < 512
    · have h9 : Nat.log 2 bits.length < 9 := Nat.log_lt_of_lt_pow (by omega) h
      rw [if_pos h]
      by_cases h8 : ((Nat.log 2 bits.length : Nat) : Int) - 6 < 2
      · rw [if_pos h8, if_neg (by decide)]
        rfl
      · rw [if_neg h8, if_neg (by omega)]
        omega
    · have h9 : 9 ≤ Nat.log 2 bits.length := Nat.le_log_of_pow_le (by decide) (by omega)
      rw [if_neg h, if_neg (show ¬ ((Nat.log 2 bits.length : Nat) : Int) - 6 < 2 by omega)]
      by_cases h8 : ((Nat.log 2 bits.length : Nat) : Int) - 6 > 3
      · rw [if_pos h8]
        rfl
      · rw [if_neg h8]
        omega
  rw [hm]
  have hle : (if bits.length < 512 then 2 else 3) ≤ bits.length := by split <;> omega
  generalize (if bits.length < 512 then 2 else 3) = m at hle ⊢
  rw [phi_run hb h0 (by omega), C_pure_bind, phi_run hb h0 (by omega), C_pure_bind]
  have he : ∀ m, entropy bits m = -∑ w : Fin m → Fin 2, freq bits m w * Real.log (freq bits m w) := fun m => by
    unfold entropy Real.negMulLog freq
    rw [← Finset.sum_neg_distrib]
    exact Finset.sum_congr rfl fun _ _ => by ring
  unfold entropyChisq
  rw [he, he]
  have e : ∀ a b c : ℝ, a - c - (b - c) = -b - -a := fun a b c => by ring
  rw [e]

/-- C96: for two bits or more, the P value of the approximate entropy test, with words of two bits or, from 512 bits on, three bits, is
the exact probability for this statistic, if it is positive. -/
theorem C96_entropy_partial (hb : Bits bits) (hn : 2 ≤ bits.length) :
    let m := if bits.length < 512 then 2 else 3
    entropyChisq bits m ≠ 0 →
    approximate_entropy_test bits = .ok (result (upperGamma (2 ^ (m - 1) : Nat) (entropyChisq bits m / 2))) := by
  intro m h
  have h0 : bits ≠ [] := by
    rintro rfl
    simp at hn
  have hp : 0 < entropyChisq bits m / 2 := by
    have := lt_of_le_of_ne (C96_entropy_nonneg hb h0 m) h.symm
    linarith
  have hm : m ≤ 3 := by simp only [m]; split <;> omega
  have hpow : 2 ^ (m - 1) ≤ 50 := le_trans (Nat.pow_le_pow_right (by decide) (by omega : m - 1 ≤ 5)) (by decide)
  rw [entropy_run hb hn, C94_whole_partial Nat.one_le_two_pow hpow hp, C_pure_bind]
  rfl

/-- C96, what goes wrong: if it is 0, there is a division by zero. -/
theorem C96_entropy_violated (hb : Bits bits) (hn : 2 ≤ bits.length) :
    let m := if bits.length < 512 then 2 else 3
    entropyChisq bits m = 0 → approximate_entropy_test bits = .error .divZero := by
  intro m h
  have hm : m ≤ 3 := by simp only [m]; split <;> omega
  have hpow : 2 ^ (m - 1) ≤ 50 := le_trans (Nat.pow_le_pow_right (by decide) (by omega : m - 1 ≤ 5)) (by decide)
  rw [entropy_run hb hn]
  change (gammaincc (2 ^ (m - 1) : Nat) (entropyChisq bits m / 2) >>= _) = _
  rw [h, zero_div, (C94_zero_whole_violated Nat.one_le_two_pow hpow).1]
  rfl

/-- Four times a cycle of 16 bits in which every word of four bits occurs once. -/
def deBruijn : List Nat := (List.replicate 4 [0, 0, 0, 0, 1, 0, 0, 1, 1, 0, 1, 0, 1, 1, 1, 1]).flatten

/-- C96: 64 bits in which every word of four bits occurs equally often. -/
theorem C96_cycle : (∀ w : Fin 4 → Fin 2, occ deBruijn 4 w = 4) ∧ serial_test deBruijn = .error .divZero := by
  have h1 : ∀ w : Fin 4 → Fin 2, occ deBruijn 4 w = 4 := by decide +kernel
  have hb : Bits deBruijn := by unfold Bits; decide
  refine ⟨h1, ?_⟩
  rw [C96_serial_length.1 deBruijn (by decide)]
  refine C96_serial_violated (k := 1) hb (by decide) (by decide) ?_
  refine C96_zero hb (by decide) _ (by decide) ?_
  decide +kernel

/-- C96, full statement for the serial test: from 64 bits on the two P values are the exact probabilities for the statistics. -/
def C96_statement : Prop := ∀ bits : List Nat, Bits bits → 64 ≤ bits.length →
  serial_test bits = .ok ⟨0.01 ≤ upperGamma 4 ((delta1 bits 4 : ℝ) / 2) ∧ 0.01 ≤ upperGamma 2 ((delta2 bits 4 : ℝ) / 2),
    [upperGamma 4 ((delta1 bits 4 : ℝ) / 2), upperGamma 2 ((delta2 bits 4 : ℝ) / 2)]⟩

theorem C96_violated : ¬ C96_statement := fun h => by
  have := h deBruijn (by unfold Bits; decide) (by decide)
  rw [C96_cycle.2] at this
  exact absurd this (by simp)

/-- C96: the approximate entropy test does not get through these bits, either. -/
theorem C96_cycle_entropy : approximate_entropy_test deBruijn = .error .divZero := by
  have hb : Bits deBruijn := by unfold Bits; decide
  have hl : deBruijn.length = 64 := rfl
  have h := C96_entropy_violated hb (by decide)
  rw [hl, if_pos (by decide)] at h
  refine h ?_
  have h2 : ∀ w : Fin 2 → Fin 2, occ deBruijn 2 w = 16 := by decide +kernel
  have h3 : ∀ w : Fin 3 → Fin 2, occ deBruijn 3 w = 8 := by decide +kernel
  have e2 : (((16 : Nat) : ℝ) / ((64 : Nat) : ℝ)) = 2⁻¹ ^ 2 := by norm_num
  have e3 : (((8 : Nat) : ℝ) / ((64 : Nat) : ℝ)) = 2⁻¹ ^ 3 := by norm_num
  unfold entropyChisq entropy
  simp only [h2, h3, hl, e2, e3, Finset.sum_const, Finset.card_univ, Fintype.card_pi, Fintype.card_fin, Finset.prod_const,
    Real.negMulLog, Real.log_pow, Real.log_inv, nsmul_eq_mul]
  push_cast
  ring

/-- The hypotheses of the theorems above can be met. -/
example : Bits [0, 0, 1, 1, 0, 1, 1, 1, 0, 1] ∧ delta2 [0, 0, 1, 1, 0, 1, 1, 1, 0, 1] 3 ≠ 0 ∧
    delta1 [0, 0, 1, 1, 0, 1, 1, 1, 0, 1] 3 = 1.6 ∧ delta2 [0, 0, 1, 1, 0, 1, 1, 1, 0, 1] 3 = 0.8 := by
  refine ⟨by unfold Bits; decide, by decide +kernel, by decide +kernel, by decide +kernel⟩

end WB.sp
