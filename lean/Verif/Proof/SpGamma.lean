import Mathlib.Analysis.SpecialFunctions.Gamma.Basic
import Mathlib.MeasureTheory.Integral.IntegralEqImproper
import Mathlib.Analysis.SpecialFunctions.Exp
import Verif.Model.SpGamma
import Verif.Proof.SpBase

/-!
# The continued fraction for the incomplete Gamma function (helper lemmas)
-/
namespace WB.sp

/-- ∫ (x + t)^p t^(q - 1) e^(-t) dt / (q - 1)! -/
noncomputable def w (x : ℝ) : Nat → Nat → ℝ
  | 0, _ => 1
  | p + 1, q => x * w x p q + q * w x p (q + 1)

variable {x : ℝ}

theorem w_pos (hx : 0 < x) : ∀ p q, 0 < w x p q
  | 0, _ => one_pos
  | p + 1, q => by
    have h1 := w_pos hx p q
    have h2 := w_pos hx p (q + 1)
    unfold w
    positivity

theorem w_zero (x : ℝ) : ∀ p, w x p 0 = x ^ p
  | 0 => by simp [w]
  | p + 1 => by rw [w, w_zero x p, pow_succ]; simp [mul_comm]

theorem w_succ (x : ℝ) : ∀ p q, w x (p + 1) (q + 1) = (p + 1) * w x p (q + 1) + w x (p + 1) q
  | 0, q => by simp [w]; ring
  | p + 1, q => by
    have h1 := w_succ x p q
    have h2 := w_succ x p (q + 1)
    rw [w, h1, h2, show w x (p + 1 + 1) q = x * w x (p + 1) q + q * w x (p + 1) (q + 1) from rfl]
    have h3 : w x (p + 1) (q + 1) = x * w x p (q + 1) + (q + 1 : Nat) * w x p (q + 1 + 1) := rfl
    push_cast at h3 ⊢
    rw [h3] at h1 ⊢
    linear_combination (p + 2) * h1

/-- the partial sums of the exponential series -/
theorem w_one (x : ℝ) : ∀ p, w x p 1 = p.factorial * ∑ k ∈ Finset.range (p + 1), x ^ k / k.factorial
  | 0 => by simp [w]
  | p + 1 => by
    rw [w_succ x p 0, w_one x p, w_zero, Finset.sum_range_succ _ (p + 1), Nat.factorial_succ]
    have : ((p + 1 : Nat) : ℝ) * p.factorial ≠ 0 := by positivity
    push_cast at this ⊢
    rw [mul_add, mul_div_cancel₀ _ this]
    ring

theorem rdiv_ok {a b : ℝ} (h : b ≠ 0) : rdiv a b = .ok (a / b) := if_neg h

theorem fraction_odd {a x y : ℝ} {k m : Nat} (hm : 1 ≤ m) (hk : k + 2 * m = 100) (h : fraction a x k = .ok y) (hy : y ≠ 0) :
    fraction a x (k + 1) = .ok (x + (m - a) / y) := by
  rw [fraction]
  simp only
  rw [if_pos (by omega), h, C_pure_bind, rdiv_ok hy, C_pure_bind, C_pure_eq]
  have : 99 - k = 2 * m - 1 := by omega
  rw [this, Nat.cast_sub (by omega)]
  push_cast
  rw [show (1 : ℝ) + (2 * m - 1 - 1) / 2 = m by ring]

theorem fraction_even {a x y : ℝ} {k m : Nat} (hm : 1 ≤ m) (hk : k + 2 * m = 99) (h : fraction a x k = .ok y) (hy : y ≠ 0) :
    fraction a x (k + 1) = .ok (1 + m / y) := by
  rw [fraction]
  simp only
  rw [if_neg (by omega), h, C_pure_bind, rdiv_ok hy, C_pure_bind, C_pure_eq]
  have : 99 - k = 2 * m := by omega
  rw [this]
  push_cast
  rw [show (2 * m / 2 : ℝ) = m by ring]

theorem fraction_even_zero {a x : ℝ} {k m : Nat} (hm : 1 ≤ m) (hk : k + 2 * m = 99) (h : fraction a x k = .ok 0) :
    fraction a x (k + 1) = .error .divZero := by
  rw [fraction]
  simp only
  rw [if_neg (by omega), h, C_pure_bind, rdiv, if_pos rfl]
  rfl

/-- the part of the fraction in which everything is positive -/
theorem fraction_tail {a : Nat} (hx : 0 ≤ x) (h : a < 50 ∨ a ≤ 50 ∧ 0 < x) : ∀ k, k + 2 * a ≤ 100 →
    ∃ y, fraction a x k = .ok y ∧ 0 < y
  | 0, hk => by
    refine ⟨_, rfl, ?_⟩
    rcases h with h | ⟨h, g⟩
    · have : (a : ℝ) < 50 := by exact_mod_cast h
      linarith
    · have : (a : ℝ) ≤ 50 := by exact_mod_cast h
      linarith
  | k + 1, hk => by
    obtain ⟨y, h1, h2⟩ := fraction_tail hx h k (by omega)
    rcases Nat.even_or_odd' k with ⟨c, hc | hc⟩
    · refine ⟨_, fraction_odd (m := 50 - c) (by omega) (by omega) h1 h2.ne', ?_⟩
      have h3 : ((a + 1 : Nat) : ℝ) ≤ (50 - c : Nat) := by exact_mod_cast (by omega : a + 1 ≤ 50 - c)
      push_cast at h3
      have : 0 < ((50 - c : Nat) - (a : ℝ)) / y := div_pos (by linarith) h2
      linarith
    · by_cases hm : 1 ≤ 49 - c
      · refine ⟨_, fraction_even (m := 49 - c) hm (by omega) h1 h2.ne', ?_⟩
        have : 0 ≤ ((49 - c : Nat) : ℝ) / y := by positivity
        linarith
      · have : a = 0 := by omega
        refine ⟨1, ?_, one_pos⟩
        rw [fraction]
        simp only
        rw [if_neg (by omega), h1, C_pure_bind, rdiv_ok h2.ne', C_pure_bind, C_pure_eq]
        have : 99 - k = 0 := by omega
        rw [this]
        simp

/-- where the fraction ends for a whole number `a` -/
theorem fraction_end {a : Nat} (hx : 0 ≤ x) (ha : 1 ≤ a) (h : a < 50 ∨ a ≤ 50 ∧ 0 < x) : fraction a x (101 - 2 * a) = .ok x := by
  obtain ⟨y, h1, h2⟩ := fraction_tail hx h (100 - 2 * a) (by omega)
  have := fraction_odd (m := a) ha (by omega) h1 h2.ne'
  rw [show 101 - 2 * a = 100 - 2 * a + 1 by omega, this]
  simp

theorem fraction_run {a : Nat} (hx : 0 < x) (ha : a ≤ 50) : ∀ j m, m + j + 1 = a →
    fraction a x (99 - 2 * m) = .ok (x * w x j m / w x j (m + 1))
  | 0, m, h => by
    have := fraction_end (a := a) hx.le (by omega) (Or.inr ⟨ha, hx⟩)
    rw [show 99 - 2 * m = 101 - 2 * a by omega, this]
    simp [w]
  | j + 1, m, h => by
    have h1 := fraction_run hx ha j (m + 1) (by omega)
    have p1 := w_pos hx j (m + 1)
    have p2 := w_pos hx j (m + 2)
    have p3 := w_pos hx (j + 1) (m + 1)
    have n1 : x * w x j (m + 1) / w x j (m + 1 + 1) ≠ 0 := by positivity
    have h2 := fraction_even (m := m + 1) (by omega) (by omega) h1 n1
    have e2 : 1 + ((m + 1 : Nat) : ℝ) / (x * w x j (m + 1) / w x j (m + 1 + 1)) = w x (j + 1) (m + 1) / (x * w x j (m + 1)) := by
      have : w x (j + 1) (m + 1) = x * w x j (m + 1) + (m + 1 : Nat) * w x j (m + 1 + 1) := rfl
      rw [this]
      field_simp
    rw [e2] at h2
    have n2 : w x (j + 1) (m + 1) / (x * w x j (m + 1)) ≠ 0 := by positivity
    have h3 := fraction_odd (m := m + 1) (by omega) (by omega) h2 n2
    rw [show 99 - 2 * m = 99 - 2 * (m + 1) + 1 + 1 by omega, h3]
    congr 1
    have e3 := w_succ x j m
    have e4 : ((m + 1 : Nat) : ℝ) - a = -(j + 1) := by
      rw [← h]
      push_cast
      ring
    rw [e4]
    have hx' := hx.ne'
    have p1' := p1.ne'
    have p3' := p3.ne'
    field_simp
    rw [e3]
    ring

theorem gammaincc_whole {a : Nat} (ha : 1 ≤ a) (ha' : a ≤ 50) (hx : 0 < x) :
    gammaincc a x = .ok (Real.exp (-x) * ∑ k ∈ Finset.range a, x ^ k / k.factorial) := by
  obtain ⟨p, rfl⟩ : ∃ p, a = p + 1 := ⟨a - 1, by omega⟩
  have h := fraction_run (a := p + 1) hx ha' p 0 (by omega)
  rw [show 99 - 2 * 0 = 99 from rfl] at h
  have h1 := w_pos hx p 0
  have h2 := w_pos hx p (0 + 1)
  have hG : Real.Gamma ((p + 1 : Nat) : ℝ) ≠ 0 := by
    refine (Real.Gamma_pos_of_pos ?_).ne'
    positivity
  unfold gammaincc upper_incomplete_gamma
  rw [h, C_pure_bind, rdiv_ok (by positivity), C_pure_bind, rdiv_ok hG]
  refine congrArg Except.ok ?_
  push_cast
  rw [Real.Gamma_nat_eq_factorial, show ((p : ℝ) + 1) = ((p + 1 : Nat) : ℝ) by push_cast; rfl, Real.rpow_natCast, w_zero, w_one]
  have hf : (p.factorial : ℝ) ≠ 0 := by positivity
  have hx' := hx.ne'
  have hs : ∑ k ∈ Finset.range (p + 1), x ^ k / (k.factorial : ℝ) ≠ 0 := by
    rw [zero_add, w_one] at h2
    intro h
    rw [h, mul_zero] at h2
    exact lt_irrefl _ h2
  rw [pow_succ]
  field_simp

/-- for `x = 0` the power is 0 -/
theorem gammaincc_zero {a : ℝ} (ha : a ≠ 0) (r : ℝ) (h : gammaincc a 0 = .ok r) : r = 0 := by
  unfold gammaincc upper_incomplete_gamma at h
  rw [Real.zero_rpow ha, zero_mul] at h
  cases hf : fraction a 0 99 with
  | error e => rw [hf] at h; exact absurd h (by simp [C_error_bind])
  | ok y =>
    rw [hf, C_pure_bind] at h
    unfold rdiv at h
    split at h
    · exact absurd h (by simp [C_error_bind])
    · rw [C_pure_bind] at h
      split at h
      · exact absurd h (by simp)
      · rw [zero_div, zero_div] at h
        exact ((Except.ok.injEq _ _).mp h).symm

theorem fraction_error {a x : ℝ} {k : Nat} (h : fraction a x k = .error .divZero) : ∀ n, fraction a x (k + n) = .error .divZero
  | 0 => h
  | n + 1 => by
    rw [← Nat.add_assoc, fraction, fraction_error h n]
    simp only [C_error_bind]
    split <;> rfl

theorem gammaincc_whole_zero {a : Nat} (ha : 1 ≤ a) (ha' : a ≤ 50) : gammaincc a 0 = .error .divZero := by
  have herr : fraction (a : ℝ) 0 99 = .error .divZero ∨ fraction (a : ℝ) 0 99 = .ok 0 := by
    by_cases h50 : a = 50
    · subst h50
      left
      refine fraction_error (k := 1) ?_ 98
      rw [fraction, fraction]
      simp [rdiv, C_pure_bind]
    · have h := fraction_end (a := a) (x := 0) (le_refl _) ha (Or.inl (by omega))
      by_cases h1 : a = 1
      · subst h1
        right
        exact h
      · left
        have := fraction_even_zero (m := a - 1) (by omega) (by omega) h
        have := fraction_error this (99 - (101 - 2 * a + 1))
        rwa [show 101 - 2 * a + 1 + (99 - (101 - 2 * a + 1)) = 99 by omega] at this
  unfold gammaincc upper_incomplete_gamma
  rcases herr with h | h
  · rw [h]
    rfl
  · rw [h, C_pure_bind, rdiv, if_pos rfl]
    rfl

theorem hasDerivAt_partial (p : Nat) (t : ℝ) :
    HasDerivAt (fun t : ℝ => ∑ k ∈ Finset.range (p + 1), t ^ k / k.factorial) (∑ k ∈ Finset.range p, t ^ k / k.factorial) t := by
  induction p with
  | zero => simpa using hasDerivAt_const t (1 : ℝ)
  | succ p ih =>
    have h : HasDerivAt (fun t : ℝ => t ^ (p + 1) / (p + 1).factorial) (t ^ p / p.factorial) t := by
      have := (hasDerivAt_pow (p + 1) t).div_const ((p + 1).factorial : ℝ)
      refine this.congr_deriv ?_
      rw [Nat.factorial_succ, Nat.add_sub_cancel]
      have : ((p + 1 : Nat) : ℝ) ≠ 0 := by positivity
      push_cast at this ⊢
      rw [mul_div_mul_left _ _ this]
    simp only [Finset.sum_range_succ _ (p + 1)]
    rw [Finset.sum_range_succ _ p]
    exact ih.add h

open MeasureTheory Set Filter in
/-- the integral behind it -/
theorem integral_upper (hx : 0 ≤ x) (p : Nat) :
    ∫ t in Ioi x, t ^ p * Real.exp (-t) = p.factorial * (Real.exp (-x) * ∑ k ∈ Finset.range (p + 1), x ^ k / k.factorial) := by
  have hd : ∀ t : ℝ, HasDerivAt (fun t : ℝ => -(p.factorial * (Real.exp (-t) * ∑ k ∈ Finset.range (p + 1), t ^ k / k.factorial)))
      (t ^ p * Real.exp (-t)) t := fun t => by
    have h1 : HasDerivAt (fun t : ℝ => Real.exp (-t)) (Real.exp (-t) * -1) t := (hasDerivAt_neg t).exp
    have h2 := ((h1.mul (hasDerivAt_partial p t)).const_mul (p.factorial : ℝ)).neg
    refine h2.congr_deriv ?_
    have : (p.factorial : ℝ) ≠ 0 := by positivity
    rw [Finset.sum_range_succ]
    field_simp
    ring
  have ht : Tendsto (fun t : ℝ => -(p.factorial * (Real.exp (-t) * ∑ k ∈ Finset.range (p + 1), t ^ k / k.factorial))) atTop
      (nhds 0) := by
    have h : ∀ k ∈ Finset.range (p + 1), Tendsto (fun t : ℝ => (1 / k.factorial : ℝ) * (t ^ k * Real.exp (-t))) atTop (nhds 0) :=
      fun k _ => by simpa using (Real.tendsto_pow_mul_exp_neg_atTop_nhds_zero k).const_mul (1 / k.factorial : ℝ)
    have h' := ((tendsto_finsetSum _ h).const_mul (p.factorial : ℝ)).neg
    simp only [Finset.sum_const_zero, mul_zero, neg_zero] at h'
    refine h'.congr fun t => ?_
    rw [Finset.mul_sum _ _ (Real.exp (-t))]
    congr 2
    refine Finset.sum_congr rfl fun k _ => ?_
    ring
  rw [integral_Ioi_of_hasDerivAt_of_nonneg' (fun t _ => hd t) (fun t ht' => ?_) ht]
  · ring
  · have : 0 ≤ t := hx.trans (le_of_lt ht')
    positivity

end WB.sp
