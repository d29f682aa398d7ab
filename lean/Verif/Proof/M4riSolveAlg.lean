import Verif.SpecM4riTrsm
import Mathlib.Algebra.BigOperators.Fin
import Mathlib.Data.ZMod.Defs
import Mathlib.LinearAlgebra.Matrix.Notation
import Mathlib.Algebra.CharP.Two

/-!
# Systems of linear equations and factorisations (helper lemmas)
-/
namespace WB.m4w

variable {m n k c : Nat}

/-- Rows that are zero from `k` on. -/
theorem mul_top {U : Matrix (Fin k) (Fin n) (ZMod 2)} {C : Matrix (Fin n) (Fin c) (ZMod 2)} (hk : k ≤ n) (h0 : ∀ (b : Fin n) j, k ≤ (b : Nat) → C b j = 0) :
    U * C = U.submatrix id (Fin.castLE hk) * C.submatrix (Fin.castLE hk) id := by
  obtain ⟨d, rfl⟩ : ∃ d, n = k + d := ⟨n - k, by omega⟩
  ext i j
  rw [Matrix.mul_apply, Matrix.mul_apply, Fin.sum_univ_add]
  rw [show ∑ x : Fin d, U i (Fin.natAdd k x) * C (Fin.natAdd k x) j = 0 from Finset.sum_eq_zero fun x _ => by rw [h0 _ _ (by simp), mul_zero], add_zero]
  rfl

/-- What the steps of the solution amount to. -/
theorem solve_core {P : Matrix (Fin m) (Fin m) (ZMod 2)} {Q : Matrix (Fin n) (Fin n) (ZMod 2)} {L : Matrix (Fin m) (Fin k) (ZMod 2)} {U : Matrix (Fin k) (Fin n) (ZMod 2)}
    {B : Matrix (Fin m) (Fin c) (ZMod 2)} {Y Z : Matrix (Fin k) (Fin c) (ZMod 2)} {C : Matrix (Fin n) (Fin c) (ZMod 2)} (hm : k ≤ m) (hn : k ≤ n)
    (hP : P.transpose * P = 1 ∧ P * P.transpose = 1) (hQ : Q * Q.transpose = 1)
    (uniq : ∀ {X X' : Matrix (Fin k) (Fin c) (ZMod 2)}, L.submatrix (Fin.castLE hm) id * X = L.submatrix (Fin.castLE hm) id * X' → X = X')
    (hY : L.submatrix (Fin.castLE hm) id * Y = (P * B).submatrix (Fin.castLE hm) id) (hZ : U.submatrix id (Fin.castLE hn) * Z = Y) :
    ((∃ X, P.transpose * (L * U) * Q * X = B) → ∀ (i : Fin m) j, k ≤ (i : Nat) → (L * Y) i j = (P * B) i j) ∧
    ((∀ (i : Fin m) j, k ≤ (i : Nat) → (L * Y) i j = (P * B) i j) → C.submatrix (Fin.castLE hn) id = Z → (∀ (b : Fin n) j, k ≤ (b : Nat) → C b j = 0) →
      P.transpose * (L * U) * Q * (Q.transpose * C) = B) := by
  refine ⟨fun ⟨X, hX⟩ i j hi => ?_, fun h hC h0 => ?_⟩
  · have e1 : L * (U * (Q * X)) = P * B := by
      rw [← hX]
      simp only [← Matrix.mul_assoc]
      rw [hP.2, Matrix.one_mul]
    have e2 : U * (Q * X) = Y := uniq (by rw [hY, ← e1]; rfl)
    rw [← e1, e2]
  · have e1 : U * C = Y := by rw [mul_top hn h0, hC, hZ]
    have e2 : L * Y = P * B := by
      ext i j
      by_cases hi : k ≤ (i : Nat)
      · exact h i j hi
      · exact congrFun (congrFun hY ⟨i, by omega⟩) j
    rw [Matrix.mul_assoc, ← Matrix.mul_assoc Q, hQ, Matrix.one_mul, Matrix.mul_assoc, Matrix.mul_assoc, e1, e2, ← Matrix.mul_assoc, hP.1, Matrix.one_mul]

/-! ## The kernel -/

theorem sum_split {d : Nat} (hd : n = k + d) (f : Fin n → ZMod 2) : ∑ l, f l = ∑ i : Fin k, f ⟨i, by omega⟩ + ∑ j : Fin d, f ⟨k + j, by omega⟩ := by
  subst hd
  exact Fin.sum_univ_add f

theorem mul_split {d : Nat} (hd : n = k + d) (U : Matrix (Fin m) (Fin n) (ZMod 2)) (W : Matrix (Fin n) (Fin c) (ZMod 2)) {U1 : Matrix (Fin m) (Fin k) (ZMod 2)} {U2 : Matrix (Fin m) (Fin d) (ZMod 2)}
    {W1 : Matrix (Fin k) (Fin c) (ZMod 2)} {W2 : Matrix (Fin d) (Fin c) (ZMod 2)} (h1 : ∀ i (j : Fin k), U1 i j = U i ⟨j, by omega⟩) (h2 : ∀ i (j : Fin d), U2 i j = U i ⟨k + j, by omega⟩)
    (g1 : ∀ (i : Fin k) j, W1 i j = W ⟨i, by omega⟩ j) (g2 : ∀ (i : Fin d) j, W2 i j = W ⟨k + i, by omega⟩ j) : U * W = U1 * W1 + U2 * W2 := by
  ext i j
  rw [Matrix.add_apply, Matrix.mul_apply, Matrix.mul_apply, Matrix.mul_apply, sum_split hd]
  simp only [h1, h2, g1, g2]

/-- What the steps amount to. -/
theorem kernel_core {d : Nat} (hd : n = k + d) {P : Matrix (Fin m) (Fin m) (ZMod 2)} {Q : Matrix (Fin n) (Fin n) (ZMod 2)} {L : Matrix (Fin m) (Fin k) (ZMod 2)} {U : Matrix (Fin k) (Fin n) (ZMod 2)}
    {U1 : Matrix (Fin k) (Fin k) (ZMod 2)} {U2 Z : Matrix (Fin k) (Fin d) (ZMod 2)} {C : Matrix (Fin n) (Fin d) (ZMod 2)} (hP : P * P.transpose = 1)
    (hQ : Q.transpose * Q = 1 ∧ Q * Q.transpose = 1) (hL : ∀ {c : Nat} {X : Matrix (Fin k) (Fin c) (ZMod 2)}, L * X = 0 → X = 0)
    (hU1 : ∀ {c : Nat} {X X' : Matrix (Fin k) (Fin c) (ZMod 2)}, U1 * X = U1 * X' → X = X') (h1 : ∀ i (j : Fin k), U1 i j = U i ⟨j, by omega⟩) (h2 : ∀ i (j : Fin d), U2 i j = U i ⟨k + j, by omega⟩)
    (hZ : U1 * Z = U2) (g1 : ∀ (i : Fin k) j, Z i j = C ⟨i, by omega⟩ j) (g2 : ∀ (i : Fin d) j, (1 : Matrix (Fin d) (Fin d) (ZMod 2)) i j = C ⟨k + i, by omega⟩ j) :
    P.transpose * (L * U) * Q * (Q.transpose * C) = 0 ∧
    ∀ {c : Nat} (Y : Matrix (Fin n) (Fin c) (ZMod 2)), P.transpose * (L * U) * Q * Y = 0 → ∃! X : Matrix (Fin d) (Fin c) (ZMod 2), Y = Q.transpose * C * X := by
  have e0 : U * C = 0 := by
    rw [mul_split hd U C h1 h2 g1 g2, hZ, Matrix.mul_one]
    ext i j
    exact CharTwo.add_self_eq_zero _
  refine ⟨?_, fun {c} Y hY => ?_⟩
  · rw [Matrix.mul_assoc, ← Matrix.mul_assoc Q, hQ.2, Matrix.one_mul, Matrix.mul_assoc, Matrix.mul_assoc, e0, Matrix.mul_zero, Matrix.mul_zero]
  · have e1 : U * (Q * Y) = 0 := by
      refine hL ?_
      have := congrArg (P * ·) hY
      simp only [← Matrix.mul_assoc] at this ⊢
      rwa [hP, Matrix.one_mul, Matrix.mul_zero] at this
    let W := Q * Y
    let W1 : Matrix (Fin k) (Fin c) (ZMod 2) := fun i j => W ⟨i, by omega⟩ j
    let W2 : Matrix (Fin d) (Fin c) (ZMod 2) := fun i j => W ⟨k + i, by omega⟩ j
    have e2 := mul_split hd U W h1 h2 (W1 := W1) (W2 := W2) (fun _ _ => rfl) (fun _ _ => rfl)
    have e3 : U1 * W1 = U1 * (Z * W2) := by
      rw [← Matrix.mul_assoc, hZ]
      have e4 : U1 * W1 + U2 * W2 = 0 := e2.symm.trans e1
      ext i j
      exact CharTwo.add_eq_zero.1 (congrFun (congrFun e4 i) j)
    have e5 := hU1 e3
    have bot : ∀ (X : Matrix (Fin d) (Fin c) (ZMod 2)) (i : Fin d) j, (C * X) ⟨k + i, by omega⟩ j = X i j := fun X i j => by
      rw [Matrix.mul_apply]
      simp only [← g2]
      rw [← Matrix.mul_apply, Matrix.one_mul]
    have e6 : W = C * W2 := by
      ext a j
      by_cases ha : (a : Nat) < k
      · have := congrFun (congrFun e5 ⟨a, ha⟩) j
        rw [Matrix.mul_apply] at this ⊢
        simp only [g1] at this
        exact this
      · have ea : a = ⟨k + (a - k : Nat), by omega⟩ := Fin.ext (by show (a : Nat) = k + (a - k); omega)
        have := bot W2 ⟨a - k, by omega⟩ j
        rw [ea]
        exact this.symm
    refine ⟨W2, ?_, fun X hX => ?_⟩
    · show Y = Q.transpose * C * W2
      rw [Matrix.mul_assoc, ← e6]
      show Y = Q.transpose * (Q * Y)
      rw [← Matrix.mul_assoc, hQ.1, Matrix.one_mul]
    · have e7 : W = C * X := by
        show Q * Y = C * X
        rw [hX, Matrix.mul_assoc, ← Matrix.mul_assoc, hQ.2, Matrix.one_mul]
      ext i j
      rw [← bot X i j, ← e7]

end WB.m4w
