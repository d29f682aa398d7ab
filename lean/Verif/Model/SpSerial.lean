import Mathlib.Analysis.SpecialFunctions.Log.Basic
import Verif.Model.SpGamma
import Verif.Model.SpLinear

/-!
# Model of the serial test and of the approximate entropy test in `/repo/test/randomness`

Numbers of type `float` are rational or real numbers, as in `SpGamma`; `int(math.floor(math.log(n, 2)))` is the exact value, and the
exception for the logarithm of 0 is the fault `abort`.
-/
namespace WB.sp

/-- What a test returns that has a list of P values. -/
structure Results where
  success : Prop
  ps : List ℝ

/-- `int(math.floor(math.log(n, 2)))` -/
def floorLog2 (n : Nat) : C Int := if n = 0 then .error .abort else .ok (Nat.log 2 n)

/-- `sp800_22_serial_test.py:29-33` -/
def int2patt (n m : Nat) : List Nat := (List.range m).map fun i => (n >>> i) &&& 1

/-- `sp800_22_serial_test.py:35-44` -/
def countpattern (patt bits : List Nat) (n : Nat) : C Nat :=
  forUp 0 n 0 fun i thecount => do
    let mtch ← forUp 0 patt.length true fun j mtch => do
      if (← ix patt j) ≠ (← ix bits (i + j)) then pure false else pure mtch
    if mtch then pure (thecount + 1) else pure thecount

/-- `sp800_22_serial_test.py:46-58` -/
def psi_sq_mv1 (m n : Nat) (padded_bits : List Nat) : C ℚ := do
  let counts := (List.range (2 ^ m)).map fun _ => 0
  let counts ← forUp 0 (2 ^ m) counts fun i counts => do
    let pattern := int2patt i m
    let count ← countpattern pattern padded_bits n
    pure (counts ++ [count])
  let psi_sq_m : ℚ := counts.foldl (fun (psi : ℚ) (count : Nat) => psi + (count ^ 2 : Nat)) 0
  let psi_sq_m ← qdiv (psi_sq_m * 2 ^ m) n
  pure (psi_sq_m - n)

/-- `sp800_22_serial_test.py:72-96` for a length `m` of at least 3 -/
noncomputable def serial_with (m : Nat) (bits : List Nat) : C Results := do
  let n := bits.length
  let padded_bits := bits ++ slice bits 0 (m - 1)
  let psi_sq_m ← psi_sq_mv1 m n padded_bits
  let psi_sq_mm1 ← psi_sq_mv1 (m - 1) n padded_bits
  let psi_sq_mm2 ← psi_sq_mv1 (m - 2) n padded_bits
  let delta1 := psi_sq_m - psi_sq_mm1
  let delta2 := psi_sq_m - 2 * psi_sq_mm1 + psi_sq_mm2
  let P1 ← gammaincc (2 ^ (m - 2) : Nat) ((delta1 : ℝ) / 2)
  let P2 ← gammaincc (2 ^ (m - 3) : Nat) ((delta2 : ℝ) / 2)
  pure ⟨0.01 ≤ P1 ∧ 0.01 ≤ P2, [P1, P2]⟩

/-- `sp800_22_serial_test.py:60-96` -/
noncomputable def serial_test (bits : List Nat) : C Results := do
  let m := (← floorLog2 bits.length) - 2
  if m < 4 then pure ⟨False, [0]⟩
  else serial_with 4 bits

/-- `sp800_22_approximate_entropy_test.py:29-33` -/
def bits_to_int (bits : List Nat) : Nat := bits.foldl (fun theint bit => (theint <<< 1) + bit) 0

/-- `sp800_22_approximate_entropy_test.py:51-61` -/
def entropy_counts (n iterm : Nat) (bits : List Nat) : List Nat :=
  let padded_bits := bits ++ slice bits 0 (iterm - 1)
  (List.range (2 ^ iterm)).map fun i =>
    (List.range n).foldl (fun count j => if bits_to_int (slice padded_bits j (j + iterm)) = i then count + 1 else count) 0

/-- `sp800_22_approximate_entropy_test.py:64-76` -/
noncomputable def phi (n iterm : Nat) (counts : List Nat) : C ℝ := do
  let Ci ← forUp 0 (2 ^ iterm) ([] : List ℚ) fun i Ci => do
    pure (Ci ++ [← qdiv (← ix counts i) n])
  forUp 0 (2 ^ iterm) 0 fun i sum => do
    if (← ix Ci i) > 0 then pure (sum + ((← ix Ci i : ℚ) : ℝ) * Real.log (((← ix Ci i : ℚ) : ℝ) / 10))
    else pure sum

/-- `sp800_22_approximate_entropy_test.py:35-90` -/
noncomputable def approximate_entropy_test (bits : List Nat) : C Result := do
  let n := bits.length
  let m := (← floorLog2 n) - 6
  let m := if m < 2 then 2 else m
  let m := if m > 3 then 3 else m
  let m := m.toNat
  let phi0 ← phi n m (entropy_counts n m bits)
  let phi1 ← phi n (m + 1) (entropy_counts n (m + 1) bits)
  let appen_m := phi0 - phi1
  let chisq := 2 * n * (Real.log 2 - appen_m)
  let p ← gammaincc (2 ^ (m - 1) : Nat) (chisq / 2)
  pure (result p)

end WB.sp
