import Verif.Model.SpGamma
import Verif.Model.SpLinear

/-!
# Model of `/repo/test/randomness/gf2matrix.py` and of `/repo/test/randomness/sp800_22_binary_matrix_rank_test.py`

A matrix is a list of rows.  The parameter `blknum`, which is never used, is left out.

Not modelled: `print_matrix` and `create_matrix` (never called), the output of the test.
-/
namespace WB.sp

/-- `m[i][j]` -/
def ix2 (m : List (List Nat)) (i j : Nat) : C Nat := do ix (← ix m i) j

/-- `m[i],m[j] = m[j],m[i]` -/
def swap (m : List (List Nat)) (i j : Nat) : C (List (List Nat)) := do
  let x ← ix m j
  let y ← ix m i
  put (← put m i x) j y

/-- The variables of the loop in `row_echelon`. -/
structure Echelon where
  lm : List (List Nat)
  pivotstartrow : Nat
  pivotstartcol : Nat

/-- `gf2matrix.py:59-64`: the row with the pivot, if there is one -/
def findPivot (Q : Nat) (s : Echelon) : C (Step Nat Unit) :=
  forRet s.pivotstartrow Q () fun k _ => do
    if (← ix2 s.lm k s.pivotstartcol) = 1 then pure (.stop k) else pure (.next ())

/-- `gf2matrix.py:72-74`: the state is `lm` -/
def eliminate (Q r c : Nat) (lm : List (List Nat)) : C (List (List Nat)) :=
  forUp (r + 1) Q lm fun j lm => do
    if (← ix2 lm j c) = 1 then
      put lm j (List.zipWith (· ^^^ ·) (← ix lm r) (← ix lm j))
    else pure lm

/-- `gf2matrix.py:57-79`: one iteration -/
def echelonStep (Q : Nat) (s : Echelon) : C Echelon := do
  match ← findPivot Q s with
  | .stop pivotrow => do
    let lm ← (if pivotrow ≠ s.pivotstartrow then swap s.lm pivotrow s.pivotstartrow else pure s.lm)
    let lm ← eliminate Q s.pivotstartrow s.pivotstartcol lm
    pure ⟨lm, s.pivotstartrow + 1, s.pivotstartcol + 1⟩
  | .next _ => pure { s with pivotstartcol := s.pivotstartcol + 1 }

/-- `gf2matrix.py:52-81` -/
def row_echelon (Q : Nat) (matrix : List (List Nat)) : C (List (List Nat)) := do
  let s ← forUp 0 Q ⟨matrix, 0, 0⟩ fun _ s => echelonStep Q s
  pure s.lm

/-- `gf2matrix.py:83-93` -/
def rank (Q : Nat) (matrix : List (List Nat)) : C Nat := do
  let lm ← row_echelon Q matrix
  forUp 0 Q 0 fun i rank => do
    let row ← ix lm i
    let nonzero := row.foldl (fun nonzero bit => if bit = 1 then true else nonzero) false
    pure (if nonzero then rank + 1 else rank)

/-- `gf2matrix.py:206-211` -/
def matrix_from_bits (M Q : Nat) (bits : List Nat) : List (List Nat) :=
  (List.range Q).map fun rownum => slice bits (rownum * M) ((rownum + 1) * M)

/-! ## The other function for the rank, which no test calls -/

/-- `gf2matrix.py:128-147` for the flag `MATRIX_FORWARD_ELIMINATION` -/
def forwardRows (i M Q : Nat) (A : List (List Nat)) : C (List (List Nat)) :=
  forUp (i + 1) M A fun j A => do
    if (← ix2 A j i) = 1 then
      forUp i Q A fun k A => do
        let row ← ix A j
        put A j (← put row k (((← ix row k) + (← ix2 A i k)) % 2))
    else pure A

/-- `gf2matrix.py:128-147` for the flag `MATRIX_BACKWARD_ELIMINATION` -/
def backwardRows (i Q : Nat) (A : List (List Nat)) : C (List (List Nat)) :=
  forDown i 0 A fun j A => do
    if (← ix2 A j i) = 1 then
      forUp 0 Q A fun k A => do
        let row ← ix A j
        put A j (← put row k (((← ix row k) + (← ix2 A i k)) % 2))
    else pure A

/-- `gf2matrix.py:154-159`: the loop from `index` on; `fuel` bounds the number of iterations -/
def unitForward (i M : Nat) : (fuel : Nat) → (index : Nat) → (row_op : Bool) → (A : List (List Nat)) → C (Bool × List (List Nat))
  | 0, _, row_op, A => pure (row_op, A)
  | fuel + 1, index, row_op, A => do
    if index < M then
      if (← ix2 A index i) = 0 then
        let index := index + 1
        if index < M then unitForward i M fuel index true (← swap A i index)
        else unitForward i M fuel index row_op A
      else pure (row_op, A)
    else pure (row_op, A)

/-- `gf2matrix.py:161-166`: the loop from `index = index1 - 1` on -/
def unitBackward (i : Nat) : (index1 : Nat) → (row_op : Bool) → (A : List (List Nat)) → C (Bool × List (List Nat))
  | 0, row_op, A => pure (row_op, A)
  | index + 1, row_op, A => do
    if (← ix2 A index i) = 0 then
      if 0 < index then unitBackward i index true (← swap A i (index - 1))
      else unitBackward i index row_op A
    else pure (row_op, A)

/-- `gf2matrix.py:177-196` -/
def determine_rank (m M Q : Nat) (A : List (List Nat)) : C Int :=
  forUp 0 M (m : Int) fun i rank => do
    let allZeroes ← forUp 0 Q true fun j allZeroes => do
      pure (if (← ix2 A i j) = 1 then false else allZeroes)
    pure (if allZeroes then rank - 1 else rank)

/-- `gf2matrix.py:95-126` -/
def computeRank (M Q : Nat) (matrix : List (List Nat)) : C Int := do
  let m := min M Q
  let A ← forUp 0 (m - 1) matrix fun i A => do
    if (← ix2 A i i) = 1 then forwardRows i M Q A
    else do
      let (row_op, A) ← unitForward i M M (i + 1) false A
      if row_op then forwardRows i M Q A else pure A
  let A ← forDown m 1 A fun i A => do
    if (← ix2 A i i) = 1 then backwardRows i Q A
    else do
      let (row_op, A) ← unitBackward i i false A
      if row_op then backwardRows i Q A else pure A
  determine_rank m M Q A

/-! ## The test -/

/-- `sp800_22_binary_matrix_rank_test.py:42-49` and `51-58`: the reference probability of rank `r` -/
def rankProb (M Q r : Nat) : ℚ :=
  (List.range r).foldl (fun product (i : Nat) =>
    let upper1 : ℚ := 1 - (2 : ℚ) ^ ((i : Int) - Q)
    let upper2 : ℚ := 1 - (2 : ℚ) ^ ((i : Int) - M)
    let lower : ℚ := 1 - (2 : ℚ) ^ ((i : Int) - r)
    product * ((upper1 * upper2) / lower)) 1 * (2 : ℚ) ^ ((r * (Q + M - r) : Int) - M * Q)

/-- `sp800_22_binary_matrix_rank_test.py:62-77`: the numbers `FM`, `FMM` and `remainder` -/
def rankCounts (M Q N : Nat) (bits : List Nat) : C (Nat × Nat × Nat) :=
  forUp 0 N (0, 0, 0) fun blknum (FM, FMM, remainder) => do
    let block := slice bits (blknum * (M * Q)) ((blknum + 1) * (M * Q))
    let rank ← rank Q (matrix_from_bits M Q block)
    if rank = M then pure (FM + 1, FMM, remainder)
    else if rank + 1 = M then pure (FM, FMM + 1, remainder)
    else pure (FM, FMM, remainder + 1)

/-- `sp800_22_binary_matrix_rank_test.py:29-90` for the default arguments `M = Q = 32` -/
noncomputable def binary_matrix_rank_test (bits : List Nat) : C Result := do
  let n := bits.length
  let N := n / (32 * 32)
  if N < 38 then pure ⟨False, 0⟩
  else do
    let FR_prob := rankProb 32 32 32
    let FRM1_prob := rankProb 32 32 31
    let LR_prob := 1 - (FR_prob + FRM1_prob)
    let (FM, FMM, remainder) ← rankCounts 32 32 N bits
    let chisq ← qdiv ((FM - FR_prob * N) ^ 2) (FR_prob * N)
    let chisq := chisq + (← qdiv ((FMM - FRM1_prob * N) ^ 2) (FRM1_prob * N))
    let chisq := chisq + (← qdiv ((remainder - LR_prob * N) ^ 2) (LR_prob * N))
    pure (result (Real.exp (-(chisq : ℝ) / 2)))

end WB.sp
