import Mathlib.Analysis.SpecialFunctions.Log.Base
import Mathlib.Analysis.SpecialFunctions.Pow.Real
import Verif.Model.SpFreq

/-!
# Model of Maurer's universal test in `/repo/test/randomness`

`sp800_22_maurers_universal_test.py`, with real numbers as in `SpGamma`, and `/` between numbers of type `int` as in Python 3.  The
exception for the square root of a negative number is the fault `abort`.  Printing is not modelled.
-/
namespace WB.sp

/-- `sp800_22_maurers_universal_test.py:27-32` -/
def pattern2int (pattern : List Nat) : Nat := pattern.foldl (fun n bit => (n <<< 1) + bit) 0

/-- `sp800_22_maurers_universal_test.py:62-67` -/
def maurer_table (L Q : Nat) (bits : List Nat) : C (List Nat) :=
  forUp 0 Q (List.replicate (2 ^ L) 0) fun i T => do
    let pattern := slice bits (i * L) ((i + 1) * L)
    let idx := pattern2int pattern
    put T idx (i + 1)

/-- `sp800_22_maurers_universal_test.py:70-76`: the table and the sum -/
noncomputable def maurer_sum (L Q nblocks : Nat) (bits T : List Nat) : C (List Nat × ℝ) :=
  forUp Q nblocks (T, 0) fun i (T, sum) => do
    let pattern := slice bits (i * L) ((i + 1) * L)
    let j := pattern2int pattern
    let dist : ℤ := i + 1 - (← ix T j)
    let T ← put T j (i + 1)
    pure (T, sum + Real.logb 2 dist)

/-- `sp800_22_maurers_universal_test.py:86-89` -/
def ev_table : List ℚ :=
  [0, 0.73264948, 1.5374383, 2.40160681, 3.31122472, 4.25342659, 5.2177052, 6.1962507, 7.1836656, 8.1764248, 9.1723243, 10.170032,
   11.168765, 12.168070, 13.167693, 14.167488, 15.167379]

/-- `sp800_22_maurers_universal_test.py:90-92` -/
def var_table : List ℚ :=
  [0, 0.690, 1.338, 1.901, 2.358, 2.705, 2.954, 3.125, 3.238, 3.311, 3.356, 3.384, 3.401, 3.410, 3.416, 3.419, 3.421]

open Classical in
/-- `sp800_22_maurers_universal_test.py:53-99`, with `Q = initblocks` -/
noncomputable def maurers_with (L Q : Nat) (bits : List Nat) : C Result := do
  let n := bits.length
  let nblocks ← (if L = 0 then .error .divZero else .ok (n / L) : C Nat)
  let K : ℤ := nblocks - Q
  let T ← maurer_table L Q bits
  let (_, sum) ← maurer_sum L Q nblocks bits T
  let fn ← rdiv sum K
  let ev ← ix ev_table L
  let var ← ix var_table L
  let root ← (if K < 0 then .error .abort else .ok (Real.sqrt (var / K)) : C ℝ)
  let q ← rdiv (fn - ev) ((0.7 - 0.8 / L + (4 + 32 / L) * (K : ℝ) ^ ((-3 : ℝ) / L) / 15) * root * Real.sqrt 2)
  let mag := |q|
  pure (result (erfc mag))

/-- `sp800_22_maurers_universal_test.py:41-43` -/
def thresholds : List Nat :=
  [904960, 2068480, 4654080, 10342400, 22753280, 49643520, 107560960, 231669760, 496435200, 1059061760]

/-- `sp800_22_maurers_universal_test.py:34-99` without `patternlen` and `initblocks` -/
noncomputable def maurers_universal_test (bits : List Nat) : C Result := do
  let n := bits.length
  if n < 387840 then pure ⟨False, 0⟩
  else do
    let L := thresholds.foldl (fun L threshold => if n ≥ threshold then L + 1 else L) 6
    let Q := 10 * 2 ^ L
    maurers_with L Q bits

end WB.sp
