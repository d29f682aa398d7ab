import Verif.Model.Cmp

/-!
# Model of `/repo/test/github5/src/invertiblematrix.c` and of `InvTMatM` in its test program

`rnd` are the values that `rand()` returns, in this order, after `srand(time(NULL))`; the position in this sequence is part of the
state.  `junk` is the contents of the memory that `malloc` returns.  The matrix is an array of pointers to rows.

Not modelled: the functions that print or write files, `freeMatrix`, the timing and the output of the test program.
-/
namespace WB.cmp.github5

/-- `(int)(rand()%5 - 10)`, for the value at position `p` -/
def factor (rnd : Nat → Nat) (p : Nat) : Int := ((rnd p % 5 : Nat) : Int) - 10

/-- `invertiblematrix.c:80-83`: the new value of `tempArray[k]`, and the new position; `a` is `array[mainRowNum][k]` and `old` is
the old value of `tempArray[k]`.  The second condition is evaluated only if the first one is false. -/
def tempEntry (rnd : Nat → Nat) (a old : Int) (p : Nat) : C (Int × Nat) := do
  let x ← int32 (a * factor rnd p)
  if (← int32 (65535 - x)) < 0 then pure (a, p + 1)
  else do
    let y ← int32 (a * factor rnd (p + 1))
    if (← int32 (-65535 - y)) > old then pure (a, p + 2)
    else do
      let z ← int32 (a * factor rnd (p + 2))
      pure (z, p + 3)

/-- `invertiblematrix.c:79-83`: the new `tempArray` and position -/
def tempRow (rnd : Nat → Nat) (n : Nat) (array : Mem2 Int) (main : Nat) (s : Mem Int × Nat) : C (Mem Int × Nat) :=
  forUp 0 n s fun k (temp, p) => do
    let (v, p) ← tempEntry rnd (← array.get main k) (← temp.get k) p
    pure (← temp.put k v, p)

/-- `invertiblematrix.c:89-92`: the new value of `array[j][k] = a`, with `tempArray[k] = t` -/
def updated (a t : Int) : C Int := do
  if (← int32 (65535 - a)) < t then pure (a.tdiv 4)
  else if (← int32 (-65535 - a)) > t then pure (a.tdiv 4)
  else int32 (a + t)

/-- `invertiblematrix.c:85-93` -/
def updateRows (n : Nat) (temp : Mem Int) (main : Nat) (array : Mem2 Int) : C (Mem2 Int) :=
  forUp 0 n array fun j array =>
    if main ≠ j then forUp 0 n array fun k array => do array.put j k (← updated (← array.get j k) (← temp.get k))
    else pure array

/-- `rand()%(n-1)` of line 78; for `n = 0` this is a remainder modulo -1 -/
def mainRow (x n : Nat) : C Nat := if n = 0 then .ok 0 else if n = 1 then .error .divZero else .ok (x % (n - 1))

/-- The state of the loop: `array`, `tempArray` and the position in the sequence of random numbers. -/
structure St where
  array : Mem2 Int
  temp : Mem Int
  pos : Nat

/-- `invertiblematrix.c:78-93`: one transformation -/
def transform (rnd : Nat → Nat) (n : Nat) (s : St) : C St := do
  let main ← mainRow (rnd s.pos) n
  let (temp, p) ← tempRow rnd n s.array main (s.temp, s.pos + 1)
  let array ← updateRows n temp main s.array
  pure ⟨array, temp, p⟩

/-- `invertiblematrix.c:61-97` -/
def getInvertibleMatrix (rnd : Nat → Nat) (junk : Nat → Int) (n : Nat) (array : Mem2 Int) : C (Mem2 Int) := do
  let s ← forUp 0 (rnd 0 % 1000) (⟨array, ⟨n, junk⟩, 1⟩ : St) fun _ s => transform rnd n s
  pure s.array

/-- `invertiblematrix.c:43-59` -/
def getIdentityMatrix (n : Nat) (array : Mem2 Int) : C (Mem2 Int) :=
  forUp 0 n array fun r array => forUp 0 n array fun c array => if r = c then array.put r c 1 else array.put r c 0

/-- `test/InvMatrix_test.c:24-34` -/
def invTMatM (rnd : Nat → Nat) (junk : Nat → Int) (n : Nat) (array : Mem2 Int) : C (Mem2 Int) := do
  getInvertibleMatrix rnd junk n (← getIdentityMatrix n array)

end WB.cmp.github5
