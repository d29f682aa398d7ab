import Verif.Proof.Github4
import Verif.SpecCmp

/-!
# C88 — inverses of the Gauss–Jordan program (`/repo/test/github4`)

Numbers of type `float` are exact rational numbers in the model.  The matrix to be inverted is the left half of the global
`augmentedmatrix`, and the result is its right half.
-/
namespace WB.cmp.github4

/-- The matrix with the elements `a i j`. -/
def mat (n : Nat) (a : Nat → Nat → ℚ) : Matrix (Fin n) (Fin n) ℚ := fun i j => a i j

/-- The left half of the augmented matrix. -/
def left (n : Nat) (A : Mem2 ℚ) : Matrix (Fin n) (Fin n) ℚ := fun i j => A.cell i j

/-- The right half of the augmented matrix. -/
def right (n : Nat) (A : Mem2 ℚ) : Matrix (Fin n) (Fin n) ℚ := fun i j => A.cell i (n + j)

/-- A loop that runs once. -/
theorem forUp_once {σ : Type} (t : σ) (f : Nat → σ → C σ) : forUp 0 1 t f = f 0 t := by
  show (List.range' 0 1).foldlM (fun t i => f i t) t = _
  simp [List.range']

/-- C88, full statement: for every matrix with a determinant that is not zero, the program computes the inverse. -/
def C88_statement : Prop :=
  ∀ (junk : Nat → Nat → ℚ) (n : Nat) (a : Nat → Nat → ℚ), (mat n a).det ≠ 0 →
    ∃ r, mainPart junk n 1 a = .ok r ∧ mat n a * right n r = 1

variable (junk : Nat → Nat → ℚ) (n : Nat) (a : Nat → Nat → ℚ)

/-- C88: the initialisation stores the matrix and the identity, whatever the memory contained. -/
theorem C88_init : ∃ A, initM junk n a = .ok A ∧ A.rows = n ∧ A.cols = 2 * n ∧ left n A = mat n a ∧ right n A = 1 := by
  obtain ⟨A, e, h1, h2, h3⟩ := init_run junk n a
  refine ⟨A, e, h1.1, h1.2, ?_, ?_⟩
  · ext i j
    exact h2 i j i.2 j.2
  · ext i j
    rw [Matrix.one_apply]
    show A.cell i (n + j) = _
    rw [h3 i j i.2 j.2]
    simp only [Fin.ext_iff]

theorem one_run : Out DivZero (mainPart junk n 1 a) fun r => left n r = 1 ∧ mat n a * right n r = 1 ∧ right n r * mat n a = 1 := by
  obtain ⟨A, e, h1, h2, h3⟩ := init_run junk n a
  rw [mainPart, e, C_pure_bind, forUp_once]
  refine (invSMat_run h1 (init_inv h2 h3)).mono ?_
  rintro r ⟨g1, g2, g3⟩
  have hl : left n r = 1 := by
    ext i j
    rw [Matrix.one_apply]
    show r.cell i j = _
    rw [g3 i j i.2 j.2]
    simp only [Fin.ext_iff]
  have hr : right n r * mat n a = 1 := by
    rw [← hl]
    ext i j
    rw [Matrix.mul_apply]
    show _ = r.cell i j
    rw [g2 i j i.2 j.2, ← Fin.sum_univ_eq_sum_range (fun l => r.cell i (n + l) * a l j)]
    rfl
  exact ⟨hl, mul_eq_one_comm.1 hr, hr⟩

/-- C88, what holds: whenever the program gets through without dividing by zero, the left half is the identity and the right half
is the inverse (on both sides). -/
theorem C88_inverse_partial (r : Mem2 ℚ) (h : mainPart junk n 1 a = .ok r) :
    left n r = 1 ∧ mat n a * right n r = 1 ∧ right n r * mat n a = 1 := (one_run junk n a).of_ok h

/-- C88: nothing else can go wrong than a division by zero; in particular no element outside the arrays is used. -/
theorem C88_outcome : (∃ r, mainPart junk n 1 a = .ok r) ∨ mainPart junk n 1 a = .error .divZero := by
  rcases one_run junk n a with ⟨r, e, _⟩ | ⟨e, h, h'⟩
  · exact .inl ⟨r, e⟩
  · cases h
    exact .inr h'

/-- C88: a singular matrix always leads to a division by zero. -/
theorem C88_singular (h : (mat n a).det = 0) : mainPart junk n 1 a = .error .divZero := by
  rcases C88_outcome junk n a with ⟨r, e⟩ | e
  · have := congrArg Matrix.det (C88_inverse_partial junk n a r e).2.1
    rw [Matrix.det_mul, h, zero_mul, Matrix.det_one] at this
    exact absurd this zero_ne_one
  · exact e

/-- C88: one step of the elimination divides by zero exactly if the largest value in the rest of the column is zero, no matter
whether there are negative values. -/
theorem C88_step (A : Mem2 ℚ) (j : Nat) (h1 : A.rows = n) (h2 : A.cols = 2 * n) (hj : j < n) :
    step n j A = .error .divZero ↔ (∀ i, j ≤ i → i < n → A.cell i j ≤ 0) ∧ ∃ i, j ≤ i ∧ i < n ∧ A.cell i j = 0 := by
  obtain ⟨t, t1, t2, t3, t4, t5⟩ := step_run ⟨h1, h2⟩ hj
  constructor
  · intro e
    have hz : A.cell t j = 0 := by
      by_contra hz
      rw [t4 hz] at e
      cases e
    exact ⟨fun i h3 h4 => (t3 i h3 h4).trans hz.le, t, t1, t2, hz⟩
  · rintro ⟨g1, i, g2, g3, g4⟩
    exact t5 (le_antisymm (g1 t t1 t2) (g4 ▸ t3 i g2 g3))

/-- C88: every further run of the test program leaves the augmented matrix as it is.  So with `TEST = k` all runs but the first
invert the identity matrix, and the result is that of a single run. -/
theorem C88_repeated (k : Nat) : mainPart junk n (k + 1) a = mainPart junk n 1 a := by
  obtain ⟨A, e, h1, h2, h3⟩ := init_run junk n a
  rw [mainPart, mainPart, e, C_pure_bind, C_pure_bind, forUp_once]
  show (List.range' 0 (k + 1)).foldlM (fun t _ => invSMat n t) A = _
  rw [List.range'_succ, List.foldlM_cons]
  rcases invSMat_run h1 (init_inv h2 h3) with ⟨r, e', g1, _, g3⟩ | ⟨f, _, e'⟩
  · rw [e', C_pure_bind]
    have : ∀ l : List Nat, l.foldlM (fun t (_ : Nat) => invSMat n t) r = .ok r := by
      intro l
      induction l with
      | nil => rfl
      | cons x l ih => rw [List.foldlM_cons, invSMat_again g1 g3, C_pure_bind, ih]
    exact this _
  · rw [e']
    rfl

/-- The matrix [[1, 1, 0], [1, 1, 1], [1, 0, 0]]: its elements are bits and its determinant is 1. -/
def bad (i j : Nat) : ℚ := if (i = 0 ∧ j = 2) ∨ (i = 2 ∧ 1 ≤ j) then 0 else 1

theorem bad_det : (mat 3 bad).det = 1 := by
  rw [Matrix.det_fin_three]
  simp [mat, bad]

/-- Whether a run has ended with a division by zero. -/
def isDivZero (x : C (Mem2 ℚ)) : Bool := match x with
  | .error .divZero => true
  | _ => false

theorem isDivZero_iff {x : C (Mem2 ℚ)} (h : isDivZero x = true) : x = .error .divZero := by
  unfold isDivZero at h
  split at h
  · rfl
  · cases h

/-- C88: for this matrix of bits with determinant 1 the program divides by zero. -/
theorem C88_bits_violated : (mat 3 bad).det = 1 ∧ mainPart (fun _ _ => 0) 3 1 bad = .error .divZero :=
  ⟨bad_det, isDivZero_iff (by decide +kernel)⟩

theorem C88_violated : ¬ C88_statement := fun h => by
  obtain ⟨r, e, _⟩ := h (fun _ _ => 0) 3 bad (by rw [bad_det]; norm_num)
  rw [C88_bits_violated.2] at e
  cases e

/-! ## Non-vacuity -/

/-- The matrix [[0, 1], [2, 0]]. -/
def ex (i j : Nat) : ℚ := if i = 0 ∧ j = 1 then 1 else if i = 1 ∧ j = 0 then 2 else 0

/-- C88_inverse_partial: a run that ends. -/
example : ∃ r, mainPart (fun _ _ => 7) 2 1 ex = .ok r ∧ right 2 r = fun i j => if i = 0 ∧ j = 1 then 1 / 2 else if i = 1 ∧ j = 0 then 1 else 0 := by
  have h : isDivZero (mainPart (fun _ _ => 7) 2 1 ex) = false := by decide +kernel
  rcases C88_outcome (fun _ _ => 7) 2 ex with ⟨r, e⟩ | e
  · refine ⟨r, e, ?_⟩
    have := (C88_inverse_partial _ 2 ex r e).2.2
    rw [← Matrix.ext_iff] at this
    simp only [Matrix.mul_apply, Fin.sum_univ_two, Matrix.one_apply, Fin.forall_fin_two, mat, ex] at this
    ext i j
    fin_cases i <;> fin_cases j <;> simp at this ⊢ <;> linarith
  · rw [e] at h
    cases h

/-- C88_singular: the zero matrix of order 2. -/
example : mainPart junk 2 1 (fun _ _ => 0) = .error .divZero := C88_singular junk 2 _ (by simp [mat, Matrix.det_fin_two])

/-- C88_step: [[0, 1], [-1, 0]], although there is a pivot. -/
example : step 2 0 ⟨2, 4, fun i j => if i = 1 ∧ j = 0 then -1 else 0⟩ = .error .divZero :=
  (C88_step 2 _ 0 rfl rfl (by omega)).2 ⟨fun i _ _ => by simp only; split <;> norm_num, 0, by omega, by omega, by simp⟩

end WB.cmp.github4
