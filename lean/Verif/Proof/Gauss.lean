import Mathlib.LinearAlgebra.Matrix.Transvection
import Mathlib.LinearAlgebra.Matrix.Block
import Mathlib.LinearAlgebra.Matrix.NonsingularInverse
import Mathlib.Data.ZMod.Basic
import Mathlib.Algebra.Field.ZMod

/-!
# Row operations over GF(2) (helper lemmas, independent of the C model)
-/
namespace WB
open Matrix

variable {n : Nat}

/-- Square matrices over GF(2). -/
abbrev Mat (n : Nat) := Matrix (Fin n) (Fin n) (ZMod 2)

/-- Elementary matrix "add row i to row j". -/
def eAdd (j i : Fin n) : Mat n := transvection j i 1
/-- Elementary matrix "exchange rows i and j". -/
def eSwap (i j : Fin n) : Mat n := (1 : Mat n).submatrix (Equiv.swap i j) id

/-- Add row `i` to row `j`. -/
def addR (j i : Fin n) (A : Mat n) : Mat n := fun r c => if r = j then A j c + A i c else A r c
/-- Exchange rows `i` and `j`. -/
def swapR (i j : Fin n) (A : Mat n) : Mat n := fun r c => A (Equiv.swap i j r) c

theorem addR_eq (j i : Fin n) (A : Mat n) : addR j i A = eAdd j i * A := by
  ext r c
  unfold addR eAdd
  by_cases h : r = j
  · subst h; simp [transvection_mul_apply_same]
  · simp [h, transvection_mul_apply_of_ne]

theorem swapR_eq (i j : Fin n) (A : Mat n) : swapR i j A = eSwap i j * A := by
  ext r c
  simp [swapR, eSwap, Matrix.mul_apply, Matrix.one_apply]

theorem z2_cases (x : ZMod 2) : x = 0 ∨ x = 1 := by
  revert x; decide

theorem z2_add_self (x : ZMod 2) : x + x = 0 := by revert x; decide

theorem z2_ne_zero {x : ZMod 2} : x ≠ 0 ↔ x = 1 := by revert x; decide
theorem z2_ne_one {x : ZMod 2} : x ≠ 1 ↔ x = 0 := by revert x; decide

theorem eAdd_sq {j i : Fin n} (h : j ≠ i) : eAdd j i * eAdd j i = 1 := by
  unfold eAdd
  have := transvection_mul_transvection_same j i h (1 : ZMod 2) 1
  rw [this, z2_add_self, transvection_zero]

theorem eSwap_sq (i j : Fin n) : eSwap i j * eSwap i j = (1 : Mat n) := by
  rw [← swapR_eq]
  ext r c
  simp [swapR, eSwap, Matrix.one_apply]

theorem det_eAdd {j i : Fin n} (h : j ≠ i) : (eAdd j i).det = 1 :=
  det_transvection_of_ne j i h 1

theorem det_eSwap (i j : Fin n) : (eSwap i j).det = 1 := by
  have h : (eSwap i j).det * (eSwap i j).det = 1 := by
    rw [← det_mul, eSwap_sq, det_one]
  rcases z2_cases (eSwap i j).det with h0 | h1
  · rw [h0] at h; simp at h
  · exact h1

theorem det_addR {j i : Fin n} (h : j ≠ i) (A : Mat n) : (addR j i A).det = A.det := by
  rw [addR_eq, det_mul, det_eAdd h, one_mul]

theorem det_swapR (i j : Fin n) (A : Mat n) : (swapR i j A).det = A.det := by
  rw [swapR_eq, det_mul, det_eSwap, one_mul]

theorem isUnit_iff_det (A : Mat n) : IsUnit A ↔ A.det = 1 := by
  rw [Matrix.isUnit_iff_isUnit_det, isUnit_iff_ne_zero, z2_ne_zero]

/-- Columns `< i` are cleared below the diagonal. -/
def Tri (i : Nat) (A : Mat n) : Prop := ∀ r c : Fin n, c.val < i → c.val < r.val → A r c = 0

theorem Tri.zero (A : Mat n) : Tri 0 A := fun _ _ h => absurd h (Nat.not_lt_zero _)

theorem Tri.addR {i : Nat} {A : Mat n} (h : Tri i A) {j p : Fin n} (hp : p.val = i)
    (_hj : i < j.val) : Tri i (addR j p A) := by
  intro r c hc hr
  unfold WB.addR
  split
  · rw [h j c hc (by omega), h p c hc (by omega), add_zero]
  · exact h r c hc hr

theorem Tri.swapR {i : Nat} {A : Mat n} (h : Tri i A) {j p : Fin n} (hp : i ≤ p.val)
    (hj : i ≤ j.val) : Tri i (swapR p j A) := by
  intro r c hc hr
  unfold WB.swapR
  rw [Equiv.swap_apply_def]
  split
  · exact h _ _ hc (by omega)
  · split
    · exact h _ _ hc (by omega)
    · exact h _ _ hc hr

/-- A missing pivot makes the determinant vanish. -/
theorem det_zero_of_no_pivot {A : Mat n} (i : Fin n) (h : Tri i.val A)
    (h0 : ∀ r : Fin n, i.val ≤ r.val → A r i = 0) : A.det = 0 := by
  rw [twoBlockTriangular_det A (fun x : Fin n => x.val < i.val)]
  · refine mul_eq_zero_of_right _ ?_
    refine det_eq_zero_of_column_eq_zero (⟨i, lt_irrefl _⟩ : {x : Fin n // ¬ x.val < i.val}) ?_
    intro r
    exact h0 r.1 (by have := r.2; omega)
  · intro r hr c hc
    exact h r c hc (by omega)

theorem det_of_tri {A : Mat n} (h : Tri n A) : A.det = ∏ i, A i i := by
  refine det_of_isUpperTriangular ?_
  intro r c hrc
  exact h r c c.2 hrc

theorem det_one_of_tri {A : Mat n} (h : Tri n A) (hd : ∀ i, A i i = 1) : A.det = 1 := by
  rw [det_of_tri h]; simp [hd]

theorem diag_of_tri_det {A : Mat n} (h : Tri n A) (hd : A.det = 1) (i : Fin n) : A i i = 1 := by
  rw [det_of_tri h] at hd
  by_contra hne
  replace hne := z2_ne_one.1 hne
  have h0 : ∏ i, A i i = 0 := Finset.prod_eq_zero (Finset.mem_univ i) hne
  rw [h0] at hd
  exact zero_ne_one hd

/-- Columns `≥ t` have been cleared above the diagonal. -/
def Upp (t : Nat) (A : Mat n) : Prop := ∀ r c : Fin n, t ≤ c.val → r.val < c.val → A r c = 0

theorem eq_one_of {A : Mat n} (h : Tri n A) (hd : ∀ i, A i i = 1) (hu : Upp 0 A) : A = 1 := by
  ext r c
  rcases lt_trichotomy r.val c.val with hlt | heq | hgt
  · rw [hu r c (Nat.zero_le _) hlt, one_apply_ne (by intro e; subst e; omega)]
  · have : r = c := Fin.ext heq
    subst this; rw [hd, one_apply_eq]
  · rw [h r c c.2 hgt, one_apply_ne (by intro e; subst e; omega)]

end WB
