import Verif.Model.Cmp

/-!
# Model of `/repo/test/github2/src/Inverse-matrix.c`

The arrays have 100 rows and columns.  `n` is not negative.  `junk` is the contents of the uninitialised local arrays, which may
be different in every call: the list tells the call (the loop counters of the callers).

Not modelled: `cin` (never called) and `cout` (never called), the timing and the output of the test program.
-/
namespace WB.cmp.github2

/-- The contents of uninitialised local arrays. -/
abbrev Junk2 := List Nat → Nat → Nat → ℚ

/-- An uninitialised `float x[100][100]` -/
def localArray (junk : Nat → Nat → ℚ) : Mem2 ℚ := ⟨100, 100, junk⟩

/-- `Inverse-matrix.c:44-53`: the inner loop for row `l`; the state is `b`, `h` and `k` -/
def minorRow (a : Mem2 ℚ) (i n l : Nat) (s : Mem2 ℚ × Nat × Nat) : C (Mem2 ℚ × Nat × Nat) :=
  forUp 0 n s fun j (b, h, k) =>
    if j = i then pure (b, h, k)
    else do
      let b ← b.put h k (← a.get l j)
      let k := k + 1
      if k = n - 1 then pure (b, h + 1, 0) else pure (b, h, k)

/-- `Inverse-matrix.c:41-54`: the new contents of `b` -/
def minor (b a : Mem2 ℚ) (i n : Nat) : C (Mem2 ℚ) := do
  let (b, _, _) ← forUp 1 n (b, 0, 0) fun l s => minorRow a i n l s
  pure b

/-- `Inverse-matrix.c:58-71` -/
def det (junk : Junk2) (a : Mem2 ℚ) : (n : Nat) → C ℚ
  | 0 => pure 0
  | 1 => a.get 0 0
  | 2 => do pure ((← a.get 0 0) * (← a.get 1 1) - (← a.get 0 1) * (← a.get 1 0))
  | n + 3 => do
    let (_, sum) ← forUp 0 (n + 3) (localArray (junk []), (0 : ℚ)) fun i (b, sum) => do
      let b ← minor b a i (n + 3)
      let x ← a.get 0 i
      let d ← det (fun p => junk (i :: p)) b (n + 2)
      pure (b, sum + x * (-1) ^ i * d)
    pure sum

/-- `Inverse-matrix.c:75-84`: the new contents of `d` -/
def transpose (junk : Nat → Nat → ℚ) (c d : Mem2 ℚ) (n : Nat) (det : ℚ) : C (Mem2 ℚ) := do
  let b ← forUp 0 n (localArray junk) fun i b => forUp 0 n b fun j b => do b.put i j (← c.get j i)
  forUp 0 n d fun i d => forUp 0 n d fun j d => do d.put i j (← fdiv (← b.get i j) det)

/-- `Inverse-matrix.c:96-105`: the inner loop for row `i`; the state is `b`, `m` and `k` -/
def subRow (a : Mem2 ℚ) (n h l i : Nat) (s : Mem2 ℚ × Nat × Nat) : C (Mem2 ℚ × Nat × Nat) :=
  forUp 0 n s fun j (b, m, k) =>
    if i ≠ h ∧ j ≠ l then do
      let b ← b.put m k (← a.get i j)
      if (k : Int) < (n : Int) - 2 then pure (b, m, k + 1) else pure (b, m + 1, 0)
    else pure (b, m, k)

/-- `Inverse-matrix.c:93-105`: the new contents of `b` -/
def sub (a : Mem2 ℚ) (n h l : Nat) (b : Mem2 ℚ) : C (Mem2 ℚ) := do
  let (b, _, _) ← forUp 0 n (b, 0, 0) fun i s => subRow a n h l i s
  pure b

/-- `Inverse-matrix.c:93-106`: the loop body for one value of `h` and `l`; the state is `b` and `c` -/
def cofactorEntry (junk : Junk2) (a : Mem2 ℚ) (n h l : Nat) (s : Mem2 ℚ × Mem2 ℚ) : C (Mem2 ℚ × Mem2 ℚ) := do
  let (b, c) := s
  let b ← sub a n h l b
  let x ← det (fun p => junk (h :: l :: p)) b (n - 1)
  let c ← c.put h l ((-1) ^ (h + l) * x)
  pure (b, c)

/-- `Inverse-matrix.c:88-109`: the new contents of `d` -/
def cofactor (junk : Junk2) (a d : Mem2 ℚ) (n : Nat) (determinte : ℚ) : C (Mem2 ℚ) := do
  let (_, c) ← forUp 0 n (localArray (junk [0]), localArray (junk [1])) fun h s =>
    forUp 0 n s fun l s => cofactorEntry (fun p => junk (3 :: p)) a n h l s
  transpose (junk [2]) c d n determinte

/-- `Inverse-matrix.c:113-120`: the new contents of `d`, and whether the message is printed -/
def inverse (junk : Junk2) (a d : Mem2 ℚ) (n : Nat) (det : ℚ) : C (Mem2 ℚ × Bool) :=
  if det = 0 then pure (d, true)
  else if n = 1 then do pure (← d.put 0 0 1, false)
  else do pure (← cofactor junk a d n det, false)

/-- `test/InvMatrix_test.c:157-180`: `InvSMatM8`, `InvSMatM16`, `InvSMatM32` and `InvSMatM64`, here with the local array `d` as
result -/
def invSMat (junk : Junk2) (n : Nat) (a : Mem2 ℚ) : C (Mem2 ℚ × Bool) := do
  let deter ← det (fun p => junk (1 :: p)) a n
  inverse (fun p => junk (2 :: p)) a (localArray (junk [0])) n deter

end WB.cmp.github2
