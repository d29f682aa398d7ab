import Verif.Model.SpFreq

/-!
# Model of the template tests in `/repo/test/randomness`

`sp800_22_non_overlapping_template_matching_test.py` and `sp800_22_overlapping_template_matching_test.py`.  The two random choices of the
former are the parameters `r1` and `r2`.  Printing is not modelled, and neither is the list `piqty` of the latter, which is only printed.
-/
namespace WB.sp

/-- `sp800_22_non_overlapping_template_matching_test.py:32-72` -/
def templates : List (List (List Nat)) := [
  [[0, 1], [1, 0]],
  [[0, 0, 1], [0, 1, 1], [1, 0, 0], [1, 1, 0]],
  [[0, 0, 0, 1], [0, 0, 1, 1], [0, 1, 1, 1], [1, 0, 0, 0], [1, 1, 0, 0], [1, 1, 1, 0]],
  [[0, 0, 0, 0, 1], [0, 0, 0, 1, 1], [0, 0, 1, 0, 1], [0, 1, 0, 1, 1], [0, 0, 1, 1, 1], [0, 1, 1, 1, 1], [1, 1, 1, 0, 0],
   [1, 1, 0, 1, 0], [1, 0, 1, 0, 0], [1, 1, 0, 0, 0], [1, 0, 0, 0, 0], [1, 1, 1, 1, 0]],
  [[0, 0, 0, 0, 0, 1], [0, 0, 0, 0, 1, 1], [0, 0, 0, 1, 0, 1], [0, 0, 0, 1, 1, 1], [0, 0, 1, 0, 1, 1], [0, 0, 1, 1, 0, 1],
   [0, 0, 1, 1, 1, 1], [0, 1, 0, 0, 1, 1], [0, 1, 0, 1, 1, 1], [0, 1, 1, 1, 1, 1], [1, 0, 0, 0, 0, 0], [1, 0, 1, 0, 0, 0],
   [1, 0, 1, 1, 0, 0], [1, 1, 0, 0, 0, 0], [1, 1, 0, 0, 1, 0], [1, 1, 0, 1, 0, 0], [1, 1, 1, 0, 0, 0], [1, 1, 1, 0, 1, 0],
   [1, 1, 1, 1, 0, 0], [1, 1, 1, 1, 1, 0]],
  [[0, 0, 0, 0, 0, 0, 1], [0, 0, 0, 0, 0, 1, 1], [0, 0, 0, 0, 1, 0, 1], [0, 0, 0, 0, 1, 1, 1], [0, 0, 0, 1, 0, 0, 1],
   [0, 0, 0, 1, 0, 1, 1], [0, 0, 0, 1, 1, 0, 1], [0, 0, 0, 1, 1, 1, 1], [0, 0, 1, 0, 0, 1, 1], [0, 0, 1, 0, 1, 0, 1],
   [0, 0, 1, 0, 1, 1, 1], [0, 0, 1, 1, 0, 1, 1], [0, 0, 1, 1, 1, 0, 1], [0, 0, 1, 1, 1, 1, 1], [0, 1, 0, 0, 0, 1, 1],
   [0, 1, 0, 0, 1, 1, 1], [0, 1, 0, 1, 0, 1, 1], [0, 1, 0, 1, 1, 1, 1], [0, 1, 1, 0, 1, 1, 1], [0, 1, 1, 1, 1, 1, 1],
   [1, 0, 0, 0, 0, 0, 0], [1, 0, 0, 1, 0, 0, 0], [1, 0, 1, 0, 0, 0, 0], [1, 0, 1, 0, 1, 0, 0], [1, 0, 1, 1, 0, 0, 0],
   [1, 0, 1, 1, 1, 0, 0], [1, 1, 0, 0, 0, 0, 0], [1, 1, 0, 0, 0, 1, 0], [1, 1, 0, 0, 1, 0, 0], [1, 1, 0, 1, 0, 0, 0],
   [1, 1, 0, 1, 0, 1, 0], [1, 1, 0, 1, 1, 0, 0], [1, 1, 1, 0, 0, 0, 0], [1, 1, 1, 0, 0, 1, 0], [1, 1, 1, 0, 1, 0, 0],
   [1, 1, 1, 0, 1, 1, 0], [1, 1, 1, 1, 0, 0, 0], [1, 1, 1, 1, 0, 1, 0], [1, 1, 1, 1, 1, 0, 0], [1, 1, 1, 1, 1, 1, 0]],
  [[0, 0, 0, 0, 0, 0, 0, 1], [0, 0, 0, 0, 0, 0, 1, 1], [0, 0, 0, 0, 0, 1, 0, 1], [0, 0, 0, 0, 0, 1, 1, 1],
   [0, 0, 0, 0, 1, 0, 0, 1], [0, 0, 0, 0, 1, 0, 1, 1], [0, 0, 0, 0, 1, 1, 0, 1], [0, 0, 0, 0, 1, 1, 1, 1],
   [0, 0, 0, 1, 0, 0, 1, 1], [0, 0, 0, 1, 0, 1, 0, 1], [0, 0, 0, 1, 0, 1, 1, 1], [0, 0, 0, 1, 1, 0, 0, 1],
   [0, 0, 0, 1, 1, 0, 1, 1], [0, 0, 0, 1, 1, 1, 0, 1], [0, 0, 0, 1, 1, 1, 1, 1], [0, 0, 1, 0, 0, 0, 1, 1],
   [0, 0, 1, 0, 0, 1, 0, 1], [0, 0, 1, 0, 0, 1, 1, 1], [0, 0, 1, 0, 1, 0, 1, 1], [0, 0, 1, 0, 1, 1, 0, 1],
   [0, 0, 1, 0, 1, 1, 1, 1], [0, 0, 1, 1, 0, 1, 0, 1], [0, 0, 1, 1, 0, 1, 1, 1], [0, 0, 1, 1, 1, 0, 1, 1],
   [0, 0, 1, 1, 1, 1, 0, 1], [0, 0, 1, 1, 1, 1, 1, 1], [0, 1, 0, 0, 0, 0, 1, 1], [0, 1, 0, 0, 0, 1, 1, 1],
   [0, 1, 0, 0, 1, 0, 1, 1], [0, 1, 0, 0, 1, 1, 1, 1], [0, 1, 0, 1, 0, 0, 1, 1], [0, 1, 0, 1, 0, 1, 1, 1],
   [0, 1, 0, 1, 1, 0, 1, 1], [0, 1, 0, 1, 1, 1, 1, 1], [0, 1, 1, 0, 0, 1, 1, 1], [0, 1, 1, 0, 1, 1, 1, 1],
   [0, 1, 1, 1, 1, 1, 1, 1], [1, 0, 0, 0, 0, 0, 0, 0], [1, 0, 0, 1, 0, 0, 0, 0], [1, 0, 0, 1, 1, 0, 0, 0],
   [1, 0, 1, 0, 0, 0, 0, 0], [1, 0, 1, 0, 0, 1, 0, 0], [1, 0, 1, 0, 1, 0, 0, 0], [1, 0, 1, 0, 1, 1, 0, 0],
   [1, 0, 1, 1, 0, 0, 0, 0], [1, 0, 1, 1, 0, 1, 0, 0], [1, 0, 1, 1, 1, 0, 0, 0], [1, 0, 1, 1, 1, 1, 0, 0],
   [1, 1, 0, 0, 0, 0, 0, 0], [1, 1, 0, 0, 0, 0, 1, 0], [1, 1, 0, 0, 0, 1, 0, 0], [1, 1, 0, 0, 1, 0, 0, 0],
   [1, 1, 0, 0, 1, 0, 1, 0], [1, 1, 0, 1, 0, 0, 0, 0], [1, 1, 0, 1, 0, 0, 1, 0], [1, 1, 0, 1, 0, 1, 0, 0],
   [1, 1, 0, 1, 1, 0, 0, 0], [1, 1, 0, 1, 1, 0, 1, 0], [1, 1, 0, 1, 1, 1, 0, 0], [1, 1, 1, 0, 0, 0, 0, 0],
   [1, 1, 1, 0, 0, 0, 1, 0], [1, 1, 1, 0, 0, 1, 0, 0], [1, 1, 1, 0, 0, 1, 1, 0], [1, 1, 1, 0, 1, 0, 0, 0],
   [1, 1, 1, 0, 1, 0, 1, 0], [1, 1, 1, 0, 1, 1, 0, 0], [1, 1, 1, 1, 0, 0, 0, 0], [1, 1, 1, 1, 0, 0, 1, 0],
   [1, 1, 1, 1, 0, 1, 0, 0], [1, 1, 1, 1, 0, 1, 1, 0], [1, 1, 1, 1, 1, 0, 0, 0], [1, 1, 1, 1, 1, 0, 1, 0],
   [1, 1, 1, 1, 1, 1, 0, 0], [1, 1, 1, 1, 1, 1, 1, 0]]]

/-- `sp800_22_non_overlapping_template_matching_test.py:93-100`; there are at most `fuel` rounds -/
def scan (M : Nat) (B block : List Nat) : (fuel : Nat) → (position count : Nat) → C Nat
  | 0, _, _ => .error .diverge
  | fuel + 1, position, count =>
    if (position : ℤ) < (M : ℤ) - B.length then
      if slice block position (position + B.length) = B then scan M B block fuel (position + B.length) (count + 1)
      else scan M B block fuel (position + 1) count
    else pure count

/-- `sp800_22_non_overlapping_template_matching_test.py:87-101` -/
def template_counts (N M : Nat) (B bits : List Nat) : C (List Nat) := do
  let blocks := (List.range N).map fun i => slice bits (i * M) ((i + 1) * M)
  blocks.foldlM (fun W block => do pure (W ++ [← scan M B block (M + 1) 0 0])) []

/-- `sp800_22_non_overlapping_template_matching_test.py:103-108` -/
def template_chisq (N M m : Nat) (W : List Nat) : C ℚ := do
  let mu : ℚ := ((M : ℚ) - m + 1) / 2 ^ m
  let sigma : ℚ := M * (1 / 2 ^ m - (2 * m - 1) / 2 ^ (2 * m))
  forUp 0 N 0 fun j chisq => do
    pure (chisq + (← qdiv (((← ix W j) - mu) ^ 2) (sigma ^ 2)))

/-- `sp800_22_non_overlapping_template_matching_test.py:81-113`, for the template `B` -/
noncomputable def non_overlapping_with (B bits : List Nat) : C Result := do
  let m := B.length
  let N := 8
  let M := bits.length / 8
  let W ← template_counts N M B bits
  let chisq ← template_chisq N M m W
  let p ← gammaincc ((N : ℝ) / 2) ((chisq : ℝ) / 2)
  pure (result p)

/-- `sp800_22_non_overlapping_template_matching_test.py:30-113` -/
noncomputable def non_overlapping_template_matching_test (r1 r2 : Nat) (bits : List Nat) : C Result := do
  let template_list ← ix templates (r1 % templates.length)
  let B ← ix template_list (r2 % template_list.length)
  non_overlapping_with B bits

/-- `sp800_22_overlapping_template_matching_test.py:29-30` -/
noncomputable def lgamma (x : ℝ) : ℝ := Real.log (Real.Gamma x)

/-- `sp800_22_overlapping_template_matching_test.py:32-40` -/
noncomputable def Pr (u : Nat) (eta : ℝ) : ℝ :=
  if u = 0 then Real.exp (-eta)
  else ((List.range u).map (· + 1)).foldl (fun sum (l : Nat) =>
    sum + Real.exp (-eta - u * Real.log 2 + l * Real.log eta - lgamma (l + 1) + lgamma u - lgamma l - lgamma (u - l + 1))) 0

/-- `sp800_22_overlapping_template_matching_test.py:63-66` -/
def count_template (M : Nat) (B block : List Nat) : Nat :=
  (List.range (M - B.length)).foldl (fun count position =>
    if slice block position (position + B.length) = B then count + 1 else count) 0

/-- `sp800_22_overlapping_template_matching_test.py:56-71` -/
def overlapping_counts (N M K : Nat) (B bits : List Nat) : C (List Nat) := do
  let blocks := (List.range N).map fun i => slice bits (i * M) ((i + 1) * M)
  blocks.foldlM (fun v block => do
    let count := count_template M B block
    let k := if count ≥ K then K else count
    put v k ((← ix v k) + 1)) (List.replicate (K + 1) 0)

/-- `sp800_22_overlapping_template_matching_test.py:81-88` -/
noncomputable def overlapping_probs (M m K : Nat) : List ℝ :=
  let lambd : ℝ := ((M : ℝ) - m + 1) / 2 ^ m
  let eta := lambd / 2
  let pi := (List.range K).map fun i => Pr i eta
  pi ++ [1 - pi.foldl (· + ·) 0]

/-- `sp800_22_overlapping_template_matching_test.py:101-103` -/
noncomputable def overlapping_chisq (N K : Nat) (v : List Nat) (pi : List ℝ) : C ℝ :=
  forUp 0 (K + 1) 0 fun i chisq => do
    pure (chisq + (← rdiv (((← ix v i) - N * (← ix pi i)) ^ 2) (N * (← ix pi i))))

/-- `sp800_22_overlapping_template_matching_test.py:42-118` -/
noncomputable def overlapping_template_matching_test (bits : List Nat) : C Result := do
  let m := 10
  let B := List.replicate m 1
  let N := 968
  let K := 5
  let M := 1062
  if bits.length < M * N then pure ⟨False, 0⟩
  else do
    let v ← overlapping_counts N M K B bits
    let chisq ← overlapping_chisq N K v (overlapping_probs M m K)
    let p ← gammaincc (5 / 2) (chisq / 2)
    pure (result p)

end WB.sp
