import Mathlib.MeasureTheory.Integral.Bochner.Set
import Mathlib.Analysis.SpecialFunctions.Sqrt
import Verif.Model.SpGamma
import Verif.Model.SpLinear

/-!
# Model of the tests for frequencies and runs in `/repo/test/randomness`

Numbers of type `float` are real numbers, as in `SpGamma`; `math.erfc` is the complementary error function.
-/
namespace WB.sp

/-- `math.erfc` -/
noncomputable def erfc (x : ℝ) : ℝ := 2 / Real.sqrt Real.pi * ∫ t in Set.Ioi x, Real.exp (-t ^ 2)

/-- `sp800_22_monobit_test.py:27-35`; the same function is in `sp800_22_frequency_within_block_test.py:31-39` and
`sp800_22_runs_test.py:34-42` -/
def count_ones_zeroes (bits : List Nat) : Nat × Nat :=
  bits.foldl (fun (zeroes, ones) bit => if bit = 1 then (zeroes, ones + 1) else (zeroes + 1, ones)) (0, 0)

/-- `sp800_22_monobit_test.py:37-48` -/
noncomputable def monobit_test (bits : List Nat) : C Result := do
  let n := bits.length
  let (zeroes, ones) := count_ones_zeroes bits
  let s := |(ones : ℤ) - zeroes|
  let p := erfc (← rdiv s (Real.sqrt n * Real.sqrt 2))
  pure (result p)

/-- `Fraction(a, b)` -/
def fractionQ (a b : Nat) : C ℚ := qdiv a b

/-- `sp800_22_frequency_within_block_test.py:64-72` -/
def block_chisq (N M : Nat) (bits : List Nat) : C ℚ := do
  let proportions ← forUp 0 N ([] : List ℚ) fun i proportions => do
    let block := slice bits (i * M) ((i + 1) * M)
    let (_, ones) := count_ones_zeroes block
    pure (proportions ++ [← fractionQ ones M])
  pure (proportions.foldl (fun chisq prop => chisq + 4 * M * (prop - 1 / 2) ^ 2) 0)

/-- `sp800_22_frequency_within_block_test.py:41-76` -/
noncomputable def frequency_within_block_test (bits : List Nat) : C Result := do
  let n := bits.length
  let (N, M) := if n / 20 > 99 then (99, n / 99) else (n / 20, 20)
  if n < 100 then pure ⟨False, 1⟩
  else do
    let chisq ← block_chisq N M bits
    let p ← gammaincc ((N : ℝ) / 2) ((chisq : ℝ) / 2)
    pure (result p)

/-- `sp800_22_runs_test.py:57-60` -/
def count_runs (bits : List Nat) : C Nat :=
  forUp 0 (bits.length - 1) 1 fun i vobs => do
    if (← ix bits i) ≠ (← ix bits (i + 1)) then pure (vobs + 1) else pure vobs

open Classical in
/-- `sp800_22_runs_test.py:44-66` -/
noncomputable def runs_test (bits : List Nat) : C Result := do
  let n := bits.length
  let (_, ones) := count_ones_zeroes bits
  let prop ← rdiv ones n
  let tau ← rdiv 2 (Real.sqrt n)
  if |prop - 0.5| > tau then pure ⟨False, 0⟩
  else do
    let vobs ← count_runs bits
    let p := erfc (← rdiv |vobs - 2 * n * prop * (1 - prop)| (2 * Real.sqrt (2 * n) * prop * (1 - prop)))
    pure (result p)

/-- `sp800_22_longest_run_ones_in_a_block_test.py:31-41` -/
def probs (M i : Nat) : C ℚ :=
  if M = 8 then ix [0.2148, 0.3672, 0.2305, 0.1875] i
  else if M = 128 then ix [0.1174, 0.2430, 0.2493, 0.1752, 0.1027, 0.1124] i
  else if M = 512 then ix [0.1170, 0.2460, 0.2523, 0.1755, 0.1027, 0.1124] i
  else if M = 1000 then ix [0.1307, 0.2437, 0.2452, 0.1714, 0.1002, 0.1088] i
  else ix [0.0882, 0.2092, 0.2483, 0.1933, 0.1208, 0.0675, 0.0727] i

/-- `sp800_22_longest_run_ones_in_a_block_test.py:73-81`: `run` and `longest` -/
def longest_run (M : Nat) (block : List Nat) : C (Nat × Nat) :=
  forUp 0 M (0, 0) fun j (run, longest) => do
    if (← ix block j) = 1 then
      let run := run + 1
      if run > longest then pure (run, run) else pure (run, longest)
    else pure (0, longest)

/-- `sp800_22_longest_run_ones_in_a_block_test.py:83-102`: the class that is counted -/
def runClass (M longest : Nat) : Nat :=
  if M = 8 then
    if longest ≤ 1 then 0
    else if longest = 2 then 1
    else if longest = 3 then 2
    else 3
  else if M = 128 then
    if longest ≤ 4 then 0
    else if longest = 5 then 1
    else if longest = 6 then 2
    else if longest = 7 then 3
    else if longest = 8 then 4
    else 5
  else
    if longest ≤ 10 then 0
    else if longest = 11 then 1
    else if longest = 12 then 2
    else if longest = 13 then 3
    else if longest = 14 then 4
    else if longest = 15 then 5
    else 6

/-- `sp800_22_longest_run_ones_in_a_block_test.py:67-102` -/
def run_counts (N M : Nat) (bits : List Nat) : C (List Nat) :=
  forUp 0 N [0, 0, 0, 0, 0, 0, 0] fun i v => do
    let block := slice bits (i * M) ((i + 1) * M)
    let (_, longest) ← longest_run M block
    put v (runClass M longest) ((← ix v (runClass M longest)) + 1)

/-- `sp800_22_longest_run_ones_in_a_block_test.py:105-110` -/
def run_chisq (K N M : Nat) (v : List Nat) : C ℚ :=
  forUp 0 (K + 1) 0 fun i chi_sq => do
    let p_i ← probs M i
    pure (chi_sq + (← qdiv (((← ix v i) - N * p_i) ^ 2) (N * p_i)))

/-- `sp800_22_longest_run_ones_in_a_block_test.py:43-119` -/
noncomputable def longest_run_ones_in_a_block_test (bits : List Nat) : C Result := do
  let n := bits.length
  if n < 128 then pure ⟨False, 1⟩
  else do
    let M := if n < 6272 then 8 else if n < 750000 then 128 else 10000
    let (K, N) := if M = 8 then (3, 16) else if M = 128 then (5, 49) else (6, 75)
    let v ← run_counts N M bits
    let chi_sq ← run_chisq K N M v
    let p ← gammaincc ((K : ℝ) / 2) ((chi_sq : ℝ) / 2)
    pure (result p)

end WB.sp
