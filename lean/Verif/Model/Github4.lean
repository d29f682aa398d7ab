import Verif.Model.Cmp

/-!
# Model of `/repo/test/github4/src/matrixinverse.c` and of the functions of its test program

The global `augmentedmatrix` is a two-dimensional array with `n` rows and `2 * n` columns (`n` is the global `dimension`).  The
other globals (`i`, `j`, `k`, `temp`, `temporary`, `r`) are assigned before they are used, except that `j` is the counter of the
loop of the test program and `temp` goes from `findPivo` to `swapLine`; these are arguments and results.

Not modelled: `read` and `write` (files, never called), the timing and the output of the test program; that the test program never
frees the matrices.
-/
namespace WB.cmp.github4

/-- `matrixinverse.c:29-35` -/
def augmentingmatrix (n : Nat) (A : Mem2 ℚ) : C (Mem2 ℚ) :=
  forUp 0 n A fun i A => forUp n (2 * n) A fun j A => if i = j % n then A.put i j 1 else A.put i j 0

/-- `matrixinverse.c:37-42`: the new value of `temp` -/
def findPivo (n : Nat) (A : Mem2 ℚ) (j : Nat) : C Nat :=
  forUp (j + 1) n j fun i temp => do
    if (← A.get i j) > (← A.get temp j) then pure i else pure temp

/-- `matrixinverse.c:45-52` -/
def swapLine (n : Nat) (A : Mem2 ℚ) (j temp : Nat) : C (Mem2 ℚ) :=
  if temp ≠ j then
    forUp 0 (2 * n) A fun k A => do
      let temporary ← A.get j k
      let A ← A.put j k (← A.get temp k)
      A.put temp k temporary
  else pure A

/-- `matrixinverse.c:57-65`: the body of the loop, for row `i` -/
def calcRow (n : Nat) (j i : Nat) (A : Mem2 ℚ) : C (Mem2 ℚ) :=
  if i ≠ j then do
    let r ← A.get i j
    forUp 0 (2 * n) A fun k A => do
      A.put i k ((← A.get i k) - (← fdiv (← A.get j k) (← A.get j j)) * r)
  else do
    let r ← A.get i j
    forUp 0 (2 * n) A fun k A => do
      A.put i k (← fdiv (← A.get i k) r)

/-- `matrixinverse.c:55-66` -/
def calcInverse (n : Nat) (A : Mem2 ℚ) (j : Nat) : C (Mem2 ℚ) := forUp 0 n A fun i A => calcRow n j i A

/-- `test/InvMatrix_test.c:333-337`: the body of the loop of `InvSMatM8` (and of the other sizes) -/
def step (n : Nat) (j : Nat) (A : Mem2 ℚ) : C (Mem2 ℚ) := do
  let temp ← findPivo n A j
  let A ← swapLine n A j temp
  calcInverse n A j

/-- `test/InvMatrix_test.c:331-370`: `InvSMatM8` … `InvSMatM128` -/
def invSMat (n : Nat) (A : Mem2 ℚ) : C (Mem2 ℚ) := forUp 0 n A fun j A => step n j A

/-- `test/InvMatrix_test.c:285-329`: `initM8` … `initM128` for the matrix `a`; `matrixinverse.c:4-10`: `junk` is the contents of
the new memory -/
def initM (junk : Nat → Nat → ℚ) (n : Nat) (a : Nat → Nat → ℚ) : C (Mem2 ℚ) := do
  let A : Mem2 ℚ := ⟨n, 2 * n, junk⟩
  let A ← forUp 0 n A fun i A => forUp 0 n A fun j A => A.put i j (a i j)
  augmentingmatrix n A

/-- `test/InvMatrix_test.c:381-428` for one size and `TEST = k`: the contents of `augmentedmatrix` in the end -/
def mainPart (junk : Nat → Nat → ℚ) (n k : Nat) (a : Nat → Nat → ℚ) : C (Mem2 ℚ) := do
  let A ← initM junk n a
  forUp 0 k A fun _ A => invSMat n A

end WB.cmp.github4
