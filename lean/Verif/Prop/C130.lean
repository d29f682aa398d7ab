import Verif.Proof.M4riRows
import Verif.Proof.M4riPack

/-!
# C130 — the test for equality of matrices of M4RI (`/repo/test/github1_M4RI/src/m4ri/mzd.c`, `mzd_equal`)
-/
namespace WB.m4w

open WB.cmp (Mem Mem2)

variable {m n r s : Nat} {M MB : Mzd} {A : Matrix (Fin m) (Fin n) (ZMod 2)} {B : Matrix (Fin r) (Fin s) (ZMod 2)}

/-- C130, full statement: `mzd_equal(A, B)` returns 1 exactly if the matrices have the same size and the same entries; what is behind the last column does not matter. -/
def C130_statement : Prop :=
  (∀ {m n : Nat} {M MB : Mzd} {A B : Matrix (Fin m) (Fin n) (ZMod 2)}, Rep M A → Rep MB B → ∃ b, mzd_equal false M MB = .ok b ∧ (b = true ↔ A = B)) ∧
  ∀ {m n r s : Nat} {M MB : Mzd} {A : Matrix (Fin m) (Fin n) (ZMod 2)} {B : Matrix (Fin r) (Fin s) (ZMod 2)}, Rep M A → Rep MB B → ¬ (m = r ∧ n = s) → ∀ same, mzd_equal same M MB = .ok false

/-- C130, what holds: the full statement, for matrices with columns or without rows. -/
theorem C130_equal_partial {B : Matrix (Fin m) (Fin n) (ZMod 2)} (hM : Rep M A) (hB : Rep MB B) (h0 : 0 < n ∨ m = 0) : ∃ b, mzd_equal false M MB = .ok b ∧ (b = true ↔ A = B) := by
  rcases Nat.eq_zero_or_pos m with hm | hm
  · refine ⟨true, ?_, fun _ => ?_, fun _ => rfl⟩
    · unfold mzd_equal
      rw [if_neg (by rw [hM.nrows, hB.nrows]; simp), if_neg (by rw [hM.ncols, hB.ncols]; simp), if_neg (by simp), hM.nrows, hm]
      rfl
    · ext i; exact absurd i.2 (by omega)
  · have hn : 0 < n := h0.resolve_right (by omega)
    obtain ⟨b, e, hb⟩ := equal_spec hM.wf hB.wf (hM.nrows.trans hB.nrows.symm) (hM.ncols.trans hB.ncols.symm) (by rw [hM.ncols]; exact hn)
    refine ⟨b, e, hb.trans ?_⟩
    rw [hM.nrows, hM.ncols]
    constructor
    · intro h
      ext i j
      rw [← hM.bit i j, ← hB.bit i j, h i i.2 j j.2]
    · intro h i hi j hj
      have h1 := (hM.bit ⟨i, hi⟩ ⟨j, hj⟩).trans ((congrFun (congrFun h _) _).trans (hB.bit ⟨i, hi⟩ ⟨j, hj⟩).symm)
      have inj : ∀ x y : Bool, bitF x = bitF y → x = y := by decide
      exact inj _ _ h1

/-- C130: matrices of different sizes are not equal. -/
theorem C130_size (hM : Rep M A) (hB : Rep MB B) (h : ¬ (m = r ∧ n = s)) (same : Bool) : mzd_equal same M MB = .ok false := by
  unfold mzd_equal
  rw [hM.nrows, hB.nrows, hM.ncols, hB.ncols]
  by_cases h1 : m = r
  · rw [if_neg (by simp [h1]), if_pos (fun h2 => h ⟨h1, h2⟩)]; rfl
  · rw [if_pos h1]; rfl

/-- C130: a matrix is equal to itself, with and without columns. -/
theorem C130_same (M : Mzd) : mzd_equal true M M = .ok true := by
  unfold mzd_equal
  rw [if_neg (by simp), if_neg (by simp), if_pos rfl]; rfl

/-- C130, what goes wrong: for two matrices with rows and without columns the word before a row is accessed. -/
theorem C130_no_columns_violated {A B : Matrix (Fin (m + 1)) (Fin 0) (ZMod 2)} (hM : Rep M A) (hB : Rep MB B) : mzd_equal false M MB = .error .oob := by
  have hw : M.width = 0 := by unfold Mzd.width; rw [hM.ncols]
  unfold mzd_equal
  rw [if_neg (by rw [hM.nrows, hB.nrows]; simp), if_neg (by rw [hM.ncols, hB.ncols]; simp), if_neg (by simp), hM.nrows, hw]
  have h : ∀ k i, allUp (fun i => allUp (fun j => do pure (decide ((← M.get i j) = (← MB.get i j)))) (0 - 1) 0) k i = .ok true := by
    intro k
    induction k with
    | zero => intro i; rfl
    | succ k ih => intro i; exact ih (i + 1)
  rw [h, C_ok_bind, if_pos rfl, allUp, if_pos rfl]
  rfl

/-- C130: the full statement is false. -/
theorem C130_violated : ¬ C130_statement := by
  intro h
  have hM : Rep (mzd_init 1 0) (0 : Matrix (Fin 1) (Fin 0) (ZMod 2)) := ⟨init_wf _ _, rfl, rfl, fun _ j => j.elim0⟩
  obtain ⟨b, e, _⟩ := h.1 hM hM
  rw [C130_no_columns_violated hM hM] at e
  exact absurd e (by simp)

/-- Two rows of 70 columns, behind them `x`; the last entry is `y`. -/
def exEq (x y : Word) : Mzd := ⟨2, 70, 0, ⟨2, 2, fun i j => if j = 0 then 5#64 else if i = 1 then (x <<< 6) ||| (y <<< 5) else 0#64⟩⟩

/-- Bits behind the matrix do not matter, the last entry does. -/
example : mzd_equal false (exEq 1 1) (exEq 6 1) = .ok true ∧ mzd_equal false (exEq 1 1) (exEq 1 0) = .ok false := by
  refine ⟨?_, ?_⟩ <;> with_unfolding_all rfl

/-- The theorems apply to them. -/
example (x y z t : Word) : ∃ b, mzd_equal false (exEq x y) (exEq z t) = .ok b ∧ (b = true ↔ blk (exEq x y) 0 0 2 70 = blk (exEq z t) 0 0 2 70) :=
  C130_equal_partial (rep_blk (show (exEq x y).Wf from ⟨Nat.le_refl 2, by show 0 + (70 + 63) / 64 ≤ 2; decide⟩)) (rep_blk (show (exEq z t).Wf from ⟨Nat.le_refl 2, by show 0 + (70 + 63) / 64 ≤ 2; decide⟩)) (.inl (by decide))

end WB.m4w
