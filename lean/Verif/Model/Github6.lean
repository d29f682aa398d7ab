import Verif.Model.Cmp

/-!
# Model of `/repo/test/github6/Inverse_of_matrix.c`

`order` is not negative.  The parameter `jf` is the contents of uninitialised memory with elements of type `float`, `ji` with
elements of type `int`.

Not modelled: `multi` and `print` (never called), the timing and the output of `main`.
-/
namespace WB.cmp.github6

/-- `Inverse_of_matrix.c:51-64`: the inner loop for row `i`; the state is `Minor`, `row` and `col`, and `order = n + 2` -/
def minorRow (n : Nat) (matrix : Mem Int) (runloop i : Nat) (s : Mem Int × Nat × Nat) : C (Mem Int × Nat × Nat) :=
  forUp 0 (n + 2) s fun j (Minor, row, col) => do
    let Minor ← Minor.put (i * (n + 1) + j) 0
    if i ≠ 0 ∧ j ≠ runloop then do
      let Minor ← Minor.put (row * (n + 1) + col) (← matrix.get (i * (n + 2) + j))
      let col := col + 1
      if col > n then pure (Minor, row + 1, 0) else pure (Minor, row, col)
    else pure (Minor, row, col)

/-- `Inverse_of_matrix.c:48-65` for `order = n + 2`: the new contents of `Minor` -/
def minor (n : Nat) (matrix : Mem Int) (runloop : Nat) (Minor : Mem Int) : C (Mem Int) := do
  let (Minor, _, _) ← forUp 0 (n + 2) (Minor, 0, 0) fun i s => minorRow n matrix runloop i s
  pure Minor

/-- `Inverse_of_matrix.c:34-72`; the block of the case `order == 1` is not freed -/
def determinant (ji : Junk Int) : (order : Nat) → (matrix : Mem Int) → HM Int
  | 0, _ => do
    let _ ← malloc ji 0
    free
    pure 0
  | 1, matrix => do
    let _ ← malloc ji 1
    liftC (matrix.get 0)
  | n + 2, matrix => do
    let Minor ← malloc ji ((n + 2) * (n + 2))
    let (det, _, _) ← forUp 0 (n + 2) ((0 : Int), (1 : Int), Minor) fun runloop (det, sign, Minor) => do
      let Minor ← liftC (minor n matrix runloop Minor)
      let d ← determinant ji (n + 1) Minor
      let p ← liftC (int32 ((← liftC (matrix.get runloop)) * d))
      let t ← liftC (int32 (sign * p))
      let det ← liftC (int32 (det + t))
      pure (det, -1 * sign, Minor)
    free
    pure det

/-- `Inverse_of_matrix.c:83-89`: `temp1` becomes the transpose of `in` -/
def transposed (order : Nat) (IN temp1 : Mem ℚ) : C (Mem ℚ) :=
  forUp 0 order temp1 fun row temp1 => forUp 0 order temp1 fun col temp1 => do
    temp1.put (row * order + col) (← IN.get (col * order + row))

/-- `Inverse_of_matrix.c:91-98`: the new contents of `in` and of `inverse` -/
def divided (order : Nat) (temp1 : Mem ℚ) (det : Int) (s : Mem ℚ × Mem ℚ) : C (Mem ℚ × Mem ℚ) :=
  forUp 0 order s fun row s => forUp 0 order s fun col (IN, inverse) => do
    let inverse ← inverse.put (row * order + col) (← fdiv (← temp1.get (row * order + col)) det)
    let IN ← IN.put (row * order + col) (← inverse.get (row * order + col))
    pure (IN, inverse)

/-- `Inverse_of_matrix.c:78-101`; the result is the new contents of `in` -/
def transpose (ji : Junk Int) (jf : Junk ℚ) (matrix : Mem Int) (IN : Mem ℚ) (order : Nat) : HM (Mem ℚ) := do
  let temp1 ← malloc jf (order * order)
  let inverse ← malloc jf (order * order)
  let temp1 ← liftC (transposed order IN temp1)
  let det ← determinant ji order matrix
  let (IN, _) ← liftC (divided order temp1 det (IN, inverse))
  free
  free
  pure IN

/-- `Inverse_of_matrix.c:121-134`: the inner loop for row `row`; the state is `temp2`, `rowcofactor` and `colcofactor` -/
def subRow (order : Nat) (matrix : Mem Int) (rowmain colmain row : Nat) (s : Mem Int × Nat × Nat) :
    C (Mem Int × Nat × Nat) :=
  forUp 0 order s fun col (temp2, rc, cc) => do
    let temp2 ← temp2.put (row * (order - 1) + col) 0
    if rowmain ≠ row ∧ colmain ≠ col then do
      let temp2 ← temp2.put (rc * (order - 1) + cc) (← matrix.get (row * order + col))
      let cc := cc + 1
      if cc > order - 2 then pure (temp2, rc + 1, 0) else pure (temp2, rc, cc)
    else pure (temp2, rc, cc)

/-- `Inverse_of_matrix.c:117-135`: the new contents of `temp2` (for `order = 1` the condition of line 124 is never true) -/
def sub (order : Nat) (matrix : Mem Int) (rowmain colmain : Nat) (temp2 : Mem Int) : C (Mem Int) := do
  let (temp2, _, _) ← forUp 0 order (temp2, 0, 0) fun row s => subRow order matrix rowmain colmain row s
  pure temp2

/-- `Inverse_of_matrix.c:117-138`: the loop body for one value of `rowmain` and `colmain`; the product of line 136 is of type
`double` and exact, and its conversion to `int` fails if it does not fit -/
def cofactorEntry (ji : Junk Int) (matrix : Mem Int) (order rowmain colmain : Nat) (s : Mem ℚ × Mem Int × Mem Int) :
    HM (Mem ℚ × Mem Int × Mem Int) := do
  let (IN, factor, temp2) := s
  let temp2 ← liftC (sub order matrix rowmain colmain temp2)
  let d ← determinant ji (order - 1) temp2
  let factor ← liftC (do factor.put (rowmain * order + colmain) (← int32 ((-1) ^ (rowmain + colmain) * d)))
  let IN ← liftC (do IN.put (rowmain * order + colmain) (← factor.get (rowmain * order + colmain)))
  pure (IN, factor, temp2)

/-- `Inverse_of_matrix.c:107-144`; the result is the new contents of `in` -/
def cofactor (ji : Junk Int) (jf : Junk ℚ) (matrix : Mem Int) (order : Nat) (IN : Mem ℚ) : HM (Mem ℚ) := do
  let factor ← malloc ji (order * order)
  let temp2 ← malloc ji (order * order)
  let (IN, _, _) ← forUp 0 order (IN, factor, temp2) fun rowmain s =>
    forUp 0 order s fun colmain s => cofactorEntry ji matrix order rowmain colmain s
  let IN ← transpose ji jf matrix IN order
  free
  free
  pure IN

/-- `Inverse_of_matrix.c:189-198` -/
def a8 : List (List Int) :=
  [[0,1,0,1,0,0,0,1],
   [1,1,0,0,1,0,1,1],
   [0,1,1,1,1,0,1,0],
   [1,1,0,1,0,1,0,0],
   [1,0,0,0,1,0,0,1],
   [0,1,0,0,1,0,1,1],
   [1,1,1,0,1,0,1,1],
   [1,1,0,0,0,0,0,1]]

/-- `&a8[0][0]`: the elements row by row -/
def a8mem : Mem Int := ⟨64, fun k => (a8.flatten)[k]?.getD 0⟩

/-- `Inverse_of_matrix.c:201-220` for `TEST = n`: the calls of the modelled function; `IN` is uninitialised -/
def main (ji : Junk Int) (jf : Junk ℚ) (n : Nat) (IN : Mem ℚ) : HM (Mem ℚ) :=
  forUp 0 n IN fun _ IN => cofactor ji jf a8mem 8 IN

end WB.cmp.github6
