import Mathlib.Data.Rat.Floor
import Verif.Model.Cmp

/-!
# Model of `/repo/test/github7/inverseMatrix.c`

A `QMatrix` is an array of pointers to rows; `n` is its `dimension`.  `reverseMatrix` gets a copy of the structure with the same
pointers, so it changes the matrix of the caller: the new contents of `matrix` is a result of the model.  `junk` is the contents of
new memory (the same for all blocks; every element is assigned before it is used).

Not modelled: `qMatrixPrintf` and `qMatrixSwapColumns` (never called), the timing and the output of `main.c`, that nothing but the
buffers of `reverseMatrix` is freed.
-/
namespace WB.cmp.github7

/-- `abs(x)` for `x` of type `float`: `x` is converted to `int` first, which cuts off the fraction -/
def absInt (x : ℚ) : C ℚ :=
  let t : Int := if 0 ≤ x then ⌊x⌋ else ⌈x⌉
  if -2147483647 ≤ t ∧ t ≤ 2147483647 then .ok |t| else .error .overflow

/-- `inverseMatrix.c:314-331` -/
def qMatrixSwapRows (n : Nat) (A : Mem2 ℚ) (row1 row2 : Nat) : C (Mem2 ℚ) :=
  forUp 0 n A fun k A => do
    let buffer ← A.get row1 k
    let A ← A.put row1 k (← A.get row2 k)
    A.put row2 k buffer

/-- `inverseMatrix.c:352-376`: the new values of `*mainElementRow` and `*mainElementColumn` -/
def qMatrixMainElementLQ (n : Nat) (A : Mem2 ℚ) (limiter : Nat) : C (Nat × Nat) := do
  let mainElement ← absInt (← A.get limiter limiter)
  let (_, r, c) ← forUp limiter n (mainElement, limiter, limiter) fun i s =>
    forUp limiter n s fun j (mainElement, r, c) => do
      let x ← absInt (← A.get i j)
      if mainElement < x then pure (x, i, j) else pure (mainElement, r, c)
  pure (r, c)

/-- `inverseMatrix.c:378-390` -/
def qMatrixExtractRow (junk : Nat → ℚ) (n : Nat) (A : Mem2 ℚ) (row : Nat) : C (Mem ℚ) :=
  forUp 0 n ⟨n, junk⟩ fun k b => do b.put k (← A.get row k)

/-- `inverseMatrix.c:392-401` -/
def multiplyRow (row : Mem ℚ) (scalar : ℚ) (dimension : Nat) : C (Mem ℚ) :=
  forUp 0 dimension row fun k row => do row.put k ((← row.get k) * scalar)

/-- `inverseMatrix.c:403-417` -/
def subtractRowQMatrix (n : Nat) (A : Mem2 ℚ) (minuendRow : Nat) (subtrahend : Mem ℚ) (limiter : Nat) : C (Mem2 ℚ) :=
  forUp limiter n A fun k A => do A.put minuendRow k ((← A.get minuendRow k) - (← subtrahend.get k))

/-- `inverseMatrix.c:419-437` -/
def initEQMatrix (junk : Nat → ℚ) (n : Nat) : C (Mem2 ℚ) :=
  forUp 0 n ⟨n, n, fun _ => junk⟩ fun i A => forUp 0 n A fun j A => if i = j then A.put i j 1 else A.put i j 0

/-- `inverseMatrix.c:468-471`, `473-476`, `496-499` and `501-504`: subtract `k` times row `i` from row `j` -/
def subtract (junk : Nat → ℚ) (n : Nat) (A : Mem2 ℚ) (i j : Nat) (k : ℚ) (limiter : Nat) : C (Mem2 ℚ) := do
  let buffer ← qMatrixExtractRow junk n A i
  let buffer ← multiplyRow buffer k n
  subtractRowQMatrix n A j buffer limiter

/-- `inverseMatrix.c:455-462` -/
def swaps (n : Nat) (i : Nat) (rc : Nat × Nat) (s : Mem2 ℚ × Mem2 ℚ) : C (Mem2 ℚ × Mem2 ℚ) := do
  let (matrix, result) ← if rc.1 ≠ i then do
      pure (← qMatrixSwapRows n s.1 i rc.1, ← qMatrixSwapRows n s.2 i rc.1)
    else pure s
  if rc.2 ≠ i then do
    pure (← qMatrixSwapRows n matrix i rc.2, ← qMatrixSwapRows n result i rc.2)
  else pure (matrix, result)

/-- `inverseMatrix.c:464-477` -/
def eliminate (junk : Nat → ℚ) (n : Nat) (i : Nat) (s : Mem2 ℚ × Mem2 ℚ) : C (Mem2 ℚ × Mem2 ℚ) :=
  forUp (i + 1) n s fun j (matrix, result) => do
    let k ← fdiv (← matrix.get j i) (← matrix.get i i)
    let matrix ← subtract junk n matrix i j k i
    let result ← subtract junk n result i j k 0
    pure (matrix, result)

/-- `inverseMatrix.c:451-477`: the body of the loop of pass I -/
def stepI (junk : Nat → ℚ) (n : Nat) (i : Nat) (s : Mem2 ℚ × Mem2 ℚ) : C (Mem2 ℚ × Mem2 ℚ) := do
  let rc ← qMatrixMainElementLQ n s.1 i
  let s ← swaps n i rc s
  eliminate junk n i s

/-- `inverseMatrix.c:450-478`; the state is `matrix` and `result` -/
def passI (junk : Nat → ℚ) (n : Nat) (s : Mem2 ℚ × Mem2 ℚ) : C (Mem2 ℚ × Mem2 ℚ) := forUp 0 n s fun i s => stepI junk n i s

/-- `inverseMatrix.c:481-489` -/
def passII (n : Nat) (s : Mem2 ℚ × Mem2 ℚ) : C (Mem2 ℚ × Mem2 ℚ) :=
  forUp 0 n s fun i s => do
    let d ← s.1.get i i
    forUp 0 n s fun k (matrix, result) => do
      let matrix ← matrix.put i k (← fdiv (← matrix.get i k) d)
      let result ← result.put i k (← fdiv (← result.get i k) d)
      pure (matrix, result)

/-- `inverseMatrix.c:492-506` -/
def passIII (junk : Nat → ℚ) (n : Nat) (s : Mem2 ℚ × Mem2 ℚ) : C (Mem2 ℚ × Mem2 ℚ) :=
  forDown n 0 s fun i s => forDown i 0 s fun j (matrix, result) => do
    let k ← matrix.get j i
    let matrix ← subtract junk n matrix i j k 0
    let result ← subtract junk n result i j k 0
    pure (matrix, result)

/-- `inverseMatrix.c:439-509`: the new contents of `matrix`, and the result -/
def reverseMatrix (junk : Nat → ℚ) (n : Nat) (matrix : Mem2 ℚ) : C (Mem2 ℚ × Mem2 ℚ) := do
  let result ← initEQMatrix junk n
  let s ← passI junk n (matrix, result)
  let s ← passII n s
  passIII junk n s

/-- `inverseMatrix.c:33-66` -/
def a32 : List (List Nat) :=
  [[0,0,1,0,0,1,0,0,1,0,1,1,0,0,0,1,0,0,1,1,1,1,1,0,1,0,0,0,1,0,1,0],
   [0,0,1,0,0,0,1,0,0,0,0,0,1,1,1,0,0,0,0,0,0,0,0,0,0,0,0,0,1,0,0,0],
   [0,1,1,0,1,1,1,0,1,0,1,1,0,0,0,0,1,0,0,1,0,1,0,1,1,1,1,0,1,1,1,1],
   [0,0,0,0,1,1,1,0,0,1,0,1,0,1,1,0,1,0,1,1,1,1,1,0,0,0,1,0,1,0,1,1],
   [1,1,0,0,0,1,1,0,0,0,0,0,0,1,0,0,1,1,0,0,1,0,1,0,1,1,1,0,1,1,0,1],
   [0,0,0,1,1,0,0,1,0,1,0,1,0,0,1,1,0,0,0,0,1,0,0,0,1,1,0,1,0,0,0,1],
   [1,0,0,0,1,0,1,1,1,1,1,0,1,1,0,1,0,1,1,0,0,0,1,0,0,0,0,0,0,0,0,1],
   [1,0,0,1,1,0,0,0,1,0,0,0,1,1,1,0,1,1,1,1,1,0,1,0,0,1,1,0,1,0,1,0],
   [1,0,1,0,0,0,0,0,0,0,0,0,1,1,0,0,0,1,1,0,1,0,0,1,1,0,0,0,1,0,1,0],
   [1,0,1,1,0,0,0,0,0,0,1,0,0,1,1,0,1,1,1,1,1,0,0,0,0,0,0,0,1,0,1,0],
   [1,0,0,1,0,1,1,1,0,1,1,0,1,1,1,1,1,1,1,0,0,1,0,1,1,0,0,0,0,0,1,0],
   [1,1,0,1,1,1,0,0,0,0,0,0,0,1,1,0,1,1,1,1,0,1,0,0,1,1,0,1,1,1,1,0],
   [1,1,0,1,1,1,1,0,1,0,1,1,0,1,0,1,0,0,0,1,1,0,1,0,0,1,1,0,0,1,0,1],
   [1,1,1,1,0,0,1,0,1,0,0,1,0,0,1,0,1,0,1,1,0,1,1,1,0,0,0,0,1,1,1,1],
   [1,1,1,1,0,0,1,0,0,0,1,1,0,1,1,0,0,0,1,0,0,1,1,0,1,0,1,1,1,0,1,0],
   [0,0,1,1,1,1,1,1,1,0,1,1,0,0,0,0,1,0,1,1,1,1,0,1,1,0,0,1,1,0,1,1],
   [1,1,0,1,0,0,0,0,0,1,0,1,0,0,1,1,1,0,0,0,1,1,0,1,0,1,0,0,1,1,0,1],
   [0,1,0,1,0,0,1,0,0,0,0,0,0,1,1,1,1,0,1,0,1,0,0,1,0,0,1,0,1,1,0,0],
   [0,1,1,1,0,1,1,1,1,0,1,1,0,0,1,1,0,0,1,1,0,1,0,1,0,1,0,0,0,1,0,0],
   [1,0,1,0,0,1,1,0,1,0,0,1,0,1,1,1,1,0,1,1,1,1,1,1,0,1,0,1,1,0,0,0],
   [0,1,0,1,1,1,1,1,1,1,0,1,0,1,0,0,0,0,0,1,0,0,0,0,0,1,0,1,0,1,1,0],
   [0,0,0,0,1,0,1,0,0,1,0,1,0,1,0,1,0,0,1,1,0,0,1,0,1,0,1,1,1,0,0,1],
   [0,1,1,0,1,0,0,1,0,0,0,0,1,0,1,0,1,0,0,1,1,0,1,0,1,1,1,1,0,1,0,1],
   [1,0,1,1,0,1,1,1,1,1,0,1,1,1,0,1,0,0,1,0,1,1,1,0,1,0,1,1,1,0,0,0],
   [0,0,0,0,1,1,1,0,0,1,0,0,1,1,1,1,1,0,1,0,0,1,1,0,1,1,0,1,1,0,1,1],
   [0,0,0,0,0,0,1,0,0,0,1,1,1,0,0,1,0,0,0,0,0,1,0,0,0,0,1,1,1,1,0,1],
   [1,0,1,0,0,0,1,0,1,0,1,1,0,0,1,0,0,1,1,0,0,0,0,0,0,0,0,0,1,1,0,0],
   [0,0,1,1,0,0,0,0,0,0,1,0,1,1,0,1,0,0,1,1,1,0,0,0,1,0,1,0,0,0,0,1],
   [0,0,0,1,0,0,1,1,0,0,1,0,1,0,1,0,0,0,1,1,0,1,0,1,1,1,1,0,1,0,1,1],
   [1,1,0,0,1,0,1,0,0,0,1,0,1,1,1,1,1,0,0,1,0,1,0,1,0,1,1,0,0,1,0,1],
   [0,1,1,1,0,1,0,1,0,0,0,1,1,0,0,1,0,1,1,0,1,1,1,0,1,0,1,1,0,0,0,1],
   [1,1,1,0,0,1,1,0,0,1,0,0,0,0,0,0,1,0,1,1,1,1,1,0,0,1,0,0,1,1,0,0]]

/-- `inverseMatrix.c:263-274` and `276-290` -/
def scanned (junk : Nat → ℚ) (n : Nat) : C (Mem2 ℚ) :=
  forUp 0 n ⟨n, n, fun _ => junk⟩ fun i A => forUp 0 n A fun j A =>
    A.put i j (((a32[i]?.getD [])[j]?.getD 0 : Nat) : ℚ)

/-- `main.c:43-46`: the loop over `TEST = k` calls; `rMatrix` is not initialised before -/
def mainLoop (junk : Nat → ℚ) (n k : Nat) (matrix rMatrix : Mem2 ℚ) : C (Mem2 ℚ × Mem2 ℚ) :=
  forUp 0 k (matrix, rMatrix) fun _ s => reverseMatrix junk n s.1

/-- `main.c:37-46` -/
def main (junk : Nat → ℚ) (k : Nat) (rMatrix : Mem2 ℚ) : C (Mem2 ℚ × Mem2 ℚ) := do
  let matrix ← scanned junk 32
  mainLoop junk 32 k matrix rMatrix

end WB.cmp.github7
