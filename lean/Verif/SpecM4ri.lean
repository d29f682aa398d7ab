import Mathlib.LinearAlgebra.Matrix.NonsingularInverse
import Verif.Model.MatGf2
import Verif.Spec

/-!
# Specification vocabulary for the programs that use M4RI

What an `mzd_t` denotes, which heaps can occur, how many matrices are allocated, and what is assumed about the parts of
M4RI that are not modelled.
-/
namespace WB.m4ri

/-- The `mzd_t` object `m` denotes the matrix `A` over GF(2). -/
structure Is (m : Mzd) {r c : Nat} (A : Matrix (Fin r) (Fin c) (ZMod 2)) : Prop where
  nrows : m.nrows = r
  ncols : m.ncols = c
  bit : ∀ (i : Fin r) (j : Fin c), bitF (m.bit i j) = A i j

/-- The matrix of the bits of an array. -/
def bitMat (r c : Nat) (b : Nat → Nat → Bool) : Matrix (Fin r) (Fin c) (ZMod 2) := fun i j => bitF (b i j)

/-- The pointer `p` points to a matrix that denotes `A`. -/
def Points (s : Heap) (p : Nat) {r c : Nat} (A : Matrix (Fin r) (Fin c) (ZMod 2)) : Prop :=
  ∃ m, s.obj p = some m ∧ Is m A

/-- The heaps that occur: nothing lies at the null pointer or at an address that has not been given out yet. -/
structure Heap.Ok (s : Heap) : Prop where
  pos : 0 < s.next
  null : s.obj 0 = none
  fresh : ∀ p, s.next ≤ p → s.obj p = none

/-- The heap after the object at `p` has been replaced; `setObj s p none` is the heap after `p` has been freed. -/
def setObj (s : Heap) (p : Nat) (o : Option Mzd) : Heap := { s with obj := Function.update s.obj p o }

/-- The heap with one more matrix, at the address `s.next`. -/
def push (s : Heap) (m : Mzd) : Heap := { s with obj := Function.update s.obj s.next (some m), next := s.next + 1 }

/-- The number of matrices that are allocated and not freed. -/
def Heap.live (s : Heap) : Nat := ((List.range s.next).filter fun p => (s.obj p).isSome).length

/-- `A` on top of `B`. -/
def stackMat {r₁ r₂ c : Nat} (A : Matrix (Fin r₁) (Fin c) (ZMod 2)) (B : Matrix (Fin r₂) (Fin c) (ZMod 2)) :
    Matrix (Fin (r₁ + r₂)) (Fin c) (ZMod 2) := fun i j => Fin.addCases (fun i => A i j) (fun i => B i j) i

/-- `A` to the left of `B`. -/
def concatMat {r c₁ c₂ : Nat} (A : Matrix (Fin r) (Fin c₁) (ZMod 2)) (B : Matrix (Fin r) (Fin c₂) (ZMod 2)) :
    Matrix (Fin r) (Fin (c₁ + c₂)) (ZMod 2) := fun i j => Fin.addCases (fun j => A i j) (fun j => B i j) j

/-- `A` and `B` on the diagonal. -/
def diagMat {n₁ n₂ : Nat} (A : Matrix (Fin n₁) (Fin n₁) (ZMod 2)) (B : Matrix (Fin n₂) (Fin n₂) (ZMod 2)) :
    Matrix (Fin (n₁ + n₂)) (Fin (n₁ + n₂)) (ZMod 2) :=
  fun i j => Fin.addCases (fun i => Fin.addCases (fun j => A i j) (fun _ => 0) j)
    (fun i => Fin.addCases (fun _ => 0) (fun j => B i j) j) i

/-- A pointer that may be handed to a function that frees it: a null pointer or a pointer to a matrix. -/
def CanFree (s : Heap) (dst : Nat) : Prop := dst = 0 ∨ ∃ m, s.obj dst = some m

/-- A number as a column of bits, most significant bit first. -/
def colVec (n : Nat) {w : Nat} (x : BitVec w) : Matrix (Fin n) (Fin 1) (ZMod 2) := fun i _ => bitF (bitS n x i)

/-- What is assumed about M4RI: the product is the product, the inverse of an invertible matrix is its inverse, the
transpose is the transpose, all for matrices that are not empty (C104 shows this of M4RI's own algorithms), and the results have the right sizes.  Nothing is assumed about the
random bits. -/
structure M4ri.Ok (lib : M4ri) : Prop where
  mul : ∀ {a b : Mzd} {r k c : Nat} {A : Matrix (Fin r) (Fin k) (ZMod 2)} {B : Matrix (Fin k) (Fin c) (ZMod 2)},
    0 < k → 0 < c → Is a A → Is b B → Is (lib.mul a b) (A * B)
  inv : ∀ {a : Mzd} {n : Nat} {A : Matrix (Fin n) (Fin n) (ZMod 2)}, 0 < n → Is a A → IsUnit A → Is (lib.inv a) A⁻¹
  transpose : ∀ {a : Mzd} {r c : Nat} {A : Matrix (Fin r) (Fin c) (ZMod 2)}, 0 < r → 0 < c → Is a A →
    Is (lib.transpose a) A.transpose

end WB.m4ri
