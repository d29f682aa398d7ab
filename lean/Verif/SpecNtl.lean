import Mathlib.LinearAlgebra.Matrix.NonsingularInverse
import Verif.Model.Ntl
import Verif.Spec

/-!
# Specification vocabulary for the programs that use NTL
-/
namespace WB.ntl

/-- The number of ones in a vector. -/
def ones {n : Nat} (v : Fin n → ZMod 2) : Nat := (Finset.univ.filter fun j => v j = 1).card

/-- No row of the matrix has exactly one 1. -/
def NoUnitRow {r c : Nat} (A : Matrix (Fin r) (Fin c) (ZMod 2)) : Prop := ∀ i, ones (A i) ≠ 1

/-- The `n` low bits of a number, most significant bit first. -/
abbrev numBits (n : Nat) {w : Nat} (x : BitVec w) : Fin n → ZMod 2 := vecOf n (bitS n) x

/-- A number as a vector of `n` bits, most significant bit first. -/
def numVec (n : Nat) {w : Nat} (x : BitVec w) : VecGF2 := ⟨n, vecOf n (bitS n) x⟩

/-- The `n` bits of the sequence from position `p` on. -/
def slice (bits : Nat → ZMod 2) (p n : Nat) : Fin n → ZMod 2 := fun j => bits (p + j)

/-- A matrix as text: every element followed by a blank, every row by a line break. -/
def matText {r c : Nat} (A : Matrix (Fin r) (Fin c) (ZMod 2)) : List Char :=
  (List.ofFn fun i => (List.ofFn fun j => [if A i j = 1 then '1' else '0', ' ']).flatten ++ ['\n']).flatten

end WB.ntl
