import Verif.Proof.SpGamma

/-!
# C94 — the incomplete Gamma function of the randomness tests (`/repo/test/randomness`)
-/
namespace WB.sp

open MeasureTheory Set

/-- The probability that a Gamma distributed variable with shape `a` exceeds `x`. -/
noncomputable def upperGamma (a x : ℝ) : ℝ := (∫ t in Ioi x, t ^ (a - 1) * Real.exp (-t)) / Real.Gamma a

/-- C94, full statement: `gammaincc(a, x)` is this probability. -/
def C94_statement : Prop := ∀ a x : ℝ, 0 < a → 0 ≤ x → gammaincc a x = .ok (upperGamma a x)

theorem upperGamma_nat {p : Nat} {x : ℝ} (hx : 0 ≤ x) :
    upperGamma ((p + 1 : Nat) : ℝ) x = Real.exp (-x) * ∑ k ∈ Finset.range (p + 1), x ^ k / k.factorial := by
  have h : ∀ t : ℝ, t ^ (((p + 1 : Nat) : ℝ) - 1) * Real.exp (-t) = t ^ p * Real.exp (-t) := fun t => by
    rw [← Real.rpow_natCast]
    push_cast
    rw [add_sub_cancel_right]
  unfold upperGamma
  simp only [h]
  rw [integral_upper hx]
  push_cast
  rw [Real.Gamma_nat_eq_factorial, mul_div_cancel_left₀]
  positivity

/-- C94, what holds: for whole numbers `a` from 1 to 50 and positive `x` the truncated continued fraction is exact. -/
theorem C94_whole_partial {a : Nat} {x : ℝ} (ha : 1 ≤ a) (ha' : a ≤ 50) (hx : 0 < x) : gammaincc a x = .ok (upperGamma a x) := by
  obtain ⟨p, rfl⟩ : ∃ p, a = p + 1 := ⟨a - 1, by omega⟩
  rw [gammaincc_whole ha ha' hx, upperGamma_nat hx.le]

/-- C94: in this case the value lies between 0 and 1, and a test with this P value never raises an exception. -/
theorem C94_whole_range {a : Nat} {x : ℝ} (ha : 1 ≤ a) (ha' : a ≤ 50) (hx : 0 < x) :
    ∃ p, gammaincc a x = .ok p ∧ 0 < p ∧ p < 1 := by
  obtain ⟨q, rfl⟩ : ∃ q, a = q + 1 := ⟨a - 1, by omega⟩
  refine ⟨_, gammaincc_whole ha ha' hx, ?_, ?_⟩
  · refine mul_pos (Real.exp_pos _) (Finset.sum_pos (fun k _ => by positivity) ⟨0, by simp⟩)
  · have h1 : ∑ k ∈ Finset.range (q + 2), x ^ k / (k.factorial : ℝ) ≤ Real.exp x := Real.sum_le_exp_of_nonneg hx.le _
    rw [Finset.sum_range_succ] at h1
    have h2 : 0 < x ^ (q + 1) / ((q + 1).factorial : ℝ) := by positivity
    calc _ < Real.exp (-x) * Real.exp x := by
          refine mul_lt_mul_of_pos_left ?_ (Real.exp_pos _)
          linarith
      _ = 1 := by rw [← Real.exp_add]; simp

/-- C94, what goes wrong: for `x = 0`, where the probability is 1, whole numbers `a` from 1 to 50 end with a division by zero, … -/
theorem C94_zero_whole_violated {a : Nat} (ha : 1 ≤ a) (ha' : a ≤ 50) :
    gammaincc a 0 = .error .divZero ∧ upperGamma a 0 = 1 := by
  refine ⟨gammaincc_whole_zero ha ha', ?_⟩
  obtain ⟨p, rfl⟩ : ∃ p, a = p + 1 := ⟨a - 1, by omega⟩
  rw [upperGamma_nat (le_refl _), Finset.sum_range_succ']
  simp

/-- C94: … and whatever positive number `a` is, the result is 0 if there is one. -/
theorem C94_zero_violated {a : ℝ} (ha : 0 < a) : (∀ r, gammaincc a 0 = .ok r → r = 0) ∧ upperGamma a 0 = 1 := by
  refine ⟨fun r h => gammaincc_zero ha.ne' r h, ?_⟩
  unfold upperGamma
  rw [Real.Gamma_eq_integral ha]
  have : (fun t : ℝ => t ^ (a - 1) * Real.exp (-t)) = fun t => Real.exp (-t) * t ^ (a - 1) := by
    ext t
    rw [mul_comm]
  rw [this, div_self]
  rw [← Real.Gamma_eq_integral ha]
  exact (Real.Gamma_pos_of_pos ha).ne'

theorem C94_violated : ¬ C94_statement := fun h => by
  have := h 1 0 one_pos (le_refl _)
  have h1 := (C94_zero_whole_violated (a := 1) (by decide) (by decide)).1
  rw [Nat.cast_one] at h1
  rw [h1] at this
  exact absurd this (by simp)

/-- The hypotheses of the theorems above can be met: the parameters of five of the tests. -/
example : gammaincc 2 3 = .ok (4 * Real.exp (-3)) := by
  have := gammaincc_whole (a := 2) (x := 3) (by decide) (by decide) (by norm_num)
  push_cast at this
  rw [this]
  norm_num [Finset.sum_range_succ]
  ring

end WB.sp
