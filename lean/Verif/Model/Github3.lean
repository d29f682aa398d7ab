import Verif.Model.Cmp

/-!
# Model of `/repo/test/github3/src/matriz_inversa.c`

A matrix (`mmatrix *`) is a two-dimensional array; `n` is the number of rows, `m` the number of columns.  A matrix with `n` rows
consists of `n + 2` blocks of memory.  `malloc` never fails; `jm b` is what the matrix allocated by the `b`-th call of `memmatr`
contains.  The sizes are not negative, and the parameter `tam` neither.

Not modelled: `printmmatrix` (never called), the timing and the output of the test program.
-/
namespace WB.cmp.github3

/-- The contents of new matrices. -/
abbrev JunkM := Nat → Nat → Nat → ℚ

/-- `matriz_inversa.c:18-39` -/
def memmatr (jm : JunkM) (filas columnas : Nat) : HM (Mem2 ℚ) :=
  fun s => .ok (⟨filas, columnas, jm s.next⟩, ⟨s.next + 1, s.live + (filas + 2)⟩)

/-- `matriz_inversa.c:4-16` -/
def freematr (A : Mem2 ℚ) : HM Unit := fun s => .ok ((), { s with live := s.live - (A.rows + 2) })

/-- `matriz_inversa.c:41-57`; `none` is the null pointer -/
def mulmat (jm : JunkM) (A B : Mem2 ℚ) : HM (Option (Mem2 ℚ)) :=
  if A.cols ≠ B.rows then pure none
  else do
    let C ← memmatr jm A.rows B.cols
    let C ← liftC (forUp 0 A.rows C fun j C => forUp 0 B.cols C fun i C => do
      let C ← C.put j i 0
      forUp 0 A.cols C fun k C => do
        C.put j i ((← C.get j i) + (← A.get j k) * (← B.get k i)))
    pure (some C)

/-- `matriz_inversa.c:75-84`: the inner loop for row `i`; the state is `D`, `k` and `w` -/
def cofacRow (A : Mem2 ℚ) (p q tam i : Nat) (s : Mem2 ℚ × Nat × Nat) : C (Mem2 ℚ × Nat × Nat) :=
  forUp 0 tam s fun j (D, k, w) =>
    if i ≠ p ∧ j ≠ q then do
      let D ← D.put k w (← A.get i j)
      let w := w + 1
      if w = tam - 1 then pure (D, k + 1, 0) else pure (D, k, w)
    else pure (D, k, w)

/-- `matriz_inversa.c:70-85`: the new contents of `D` -/
def cofacmmatrix (A D : Mem2 ℚ) (p q tam : Nat) : C (Mem2 ℚ) := do
  let (D, _, _) ← forUp 0 tam (D, 0, 0) fun i s => cofacRow A p q tam i s
  pure D

/-- `matriz_inversa.c:88-112`; for a matrix that is not square the function returns no value, and using it is undefined -/
def determmatrix (jm : JunkM) : (tam : Nat) → (A : Mem2 ℚ) → HM ℚ
  | 0, A =>
    if A.rows = A.cols then do
      let D ← memmatr jm A.rows A.cols
      freematr D
      pure 0
    else liftC (.error .oob)
  | 1, A => if A.rows = A.cols then liftC (A.get 0 0) else liftC (.error .oob)
  | 2, A =>
    if A.rows = A.cols then
      liftC (do pure ((← A.get 0 0) * (← A.get 1 1) - (← A.get 0 1) * (← A.get 1 0)))
    else liftC (.error .oob)
  | n + 3, A =>
    if A.rows = A.cols then do
      let D ← memmatr jm A.rows A.cols
      let (D, determ, _) ← forUp 0 (n + 3) (D, (0 : ℚ), (1 : ℚ)) fun i (D, determ, signo) => do
        let D ← liftC (cofacmmatrix A D 0 i (n + 3))
        let x ← liftC (A.get 0 i)
        let d ← determmatrix jm (n + 2) D
        pure (D, determ + signo * x * d, -signo)
      freematr D
      pure determ
    else liftC (.error .oob)

/-- `matriz_inversa.c:124-127`: the loop body for one value of `i` and `j`; the state is `Adj` and `E` -/
def adjEntry (jm : JunkM) (A : Mem2 ℚ) (tam i j : Nat) (s : Mem2 ℚ × Option (Mem2 ℚ)) : HM (Mem2 ℚ × Option (Mem2 ℚ)) := do
  let (Adj, _) := s
  let E ← memmatr jm A.rows A.cols
  let E ← liftC (cofacmmatrix A E i j tam)
  let signo2 : ℚ := if (i + j) % 2 = 0 then 1 else -1
  let d ← determmatrix jm (tam - 1) E
  let Adj ← liftC (Adj.put j i (signo2 * d))
  pure (Adj, some E)

/-- `matriz_inversa.c:114-130`: the new contents of `Adj`; `E` is not initialised before the loops -/
def adjmmatrix (jm : JunkM) (A Adj : Mem2 ℚ) (tam : Nat) : HM (Mem2 ℚ) := do
  let Adj ← if tam = 1 then liftC (Adj.put 0 0 1) else pure Adj
  let (Adj, E) ← forUp 0 tam (Adj, none) fun i s => forUp 0 tam s fun j s => adjEntry jm A tam i j s
  match E with
  | none => liftC (.error .oob)
  | some E => do
    freematr E
    pure Adj

/-- What `invermmatrix` does.  In the case `inverse` it stores the matrix in memory that it frees again: nobody can see it, the
lines that would print it are comments. -/
inductive Outcome
  /-- "La matriz no es cuadrada" is printed -/
  | notSquare
  /-- "La matrix no tiene inversa" is printed -/
  | noInverse
  /-- the contents of `inverA` before it is freed -/
  | inverse (inverA : Mem2 ℚ)

/-- `matriz_inversa.c:132-155` -/
def invermmatrix (jm : JunkM) (A : Mem2 ℚ) : HM Outcome :=
  if A.rows = A.cols then do
    let determt ← determmatrix jm A.rows A
    if determt = 0 then pure .noInverse
    else do
      let inverA ← memmatr jm A.rows A.cols
      let Adj ← memmatr jm A.rows A.cols
      let Adj ← adjmmatrix jm A Adj A.rows
      let inverA ← liftC (forUp 0 A.rows inverA fun i inverA => forUp 0 A.rows inverA fun j inverA => do
        inverA.put i j (← fdiv (← Adj.get i j) determt))
      freematr Adj
      freematr inverA
      pure (.inverse inverA)
  else pure .notSquare

/-- `test/InvMatrix_test.c:26-35`: the elements of `a8` -/
def a8 (i j : Nat) : ℚ :=
  (([[0,1,0,1,0,0,0,1],
     [1,1,0,0,1,0,1,1],
     [0,1,1,1,1,0,1,0],
     [1,1,0,1,0,1,0,0],
     [1,0,0,0,1,0,0,1],
     [0,1,0,0,1,0,1,1],
     [1,1,1,0,1,0,1,1],
     [1,1,0,0,0,0,0,1]] : List (List Int))[i]?.getD [])[j]?.getD 0

/-- `test/InvMatrix_test.c:163-176` for `TEST = n`: the calls of the modelled functions; the matrix `A8` is never freed -/
def main (jm : JunkM) (n : Nat) : HM Unit := do
  let A8 ← memmatr jm 8 8
  let A8 ← liftC (forUp 0 8 A8 fun i A8 => forUp 0 8 A8 fun j A8 => A8.put i j (a8 i j))
  forUp 0 n () fun _ _ => do
    let _ ← invermmatrix jm A8
    pure ()

end WB.cmp.github3
