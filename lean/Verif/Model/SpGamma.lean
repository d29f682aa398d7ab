import Mathlib.Analysis.SpecialFunctions.Gamma.Basic
import Verif.Model.SpBase

/-!
# Model of `/repo/test/randomness/gamma_functions.py` and of the comparison of a P value

Numbers of type `float` are real numbers: there is no rounding, and a division by zero is the exception `divZero`, as in Python.
`math.gamma` is the Gamma function.

Not modelled: the functions that no test calls (`upper_incomplete_gamma2`, `lower_incomplete_gamma`, `lower_incomplete_gamma2`,
`complimentary_incomplete_gamma`, `gammainc`), and powers of negative numbers (complex numbers in Python; no test computes one).
-/
namespace WB.sp

open Classical in
/-- `x / y` -/
noncomputable def rdiv (x y : ℝ) : C ℝ := if y = 0 then .error .divZero else .ok (x / y)

/-- `gamma_functions.py:8-24` for `d = 100 - k` and `iterations = 100`, where `d` is not zero -/
noncomputable def fraction (a x : ℝ) : (k : Nat) → C ℝ
  | 0 => pure (x + (50 - a))
  | k + 1 => do
    let d := 99 - k
    if d % 2 = 1 then
      let m : ℝ := 1 + ((d : ℝ) - 1) / 2
      pure (x + (← rdiv (m - a) (← fraction a x k)))
    else
      let m : ℝ := (d : ℝ) / 2
      pure (1 + (← rdiv m (← fraction a x k)))

/-- `gamma_functions.py:8-24` for `d = 0` -/
noncomputable def upper_incomplete_gamma (a x : ℝ) : C ℝ := do
  rdiv (x ^ a * Real.exp (-x)) (← fraction a x 99)

/-- `gamma_functions.py:66-67` -/
noncomputable def gammaincc (a x : ℝ) : C ℝ := do
  rdiv (← upper_incomplete_gamma a x) (Real.Gamma a)

/-- What a test returns: `success` and the P value. -/
structure Result where
  success : Prop
  p : ℝ

/-- `success = (p >= 0.01)`, `return (success, p, None)` -/
noncomputable def result (p : ℝ) : Result := ⟨0.01 ≤ p, p⟩

end WB.sp
