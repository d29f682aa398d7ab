import Verif.Proof.Github7
import Verif.SpecCmp

/-!
# C89 — inverses of the program with a pivot search in both directions (`/repo/test/github7`)

Numbers of type `float` are exact rational numbers in the model.
-/
namespace WB.cmp.github7

/-- A `QMatrix` of the given dimension. -/
def Square (n : Nat) (A : Mem2 ℚ) : Prop := A.rows = n ∧ A.cols = n

/-- C89, full statement: for every matrix with a determinant that is not zero, `reverseMatrix` returns the inverse. -/
def C89_statement : Prop :=
  ∀ (junk : Nat → ℚ) (n : Nat) (M : Mem2 ℚ), Square n M → (M.toMat n).det ≠ 0 →
    ∃ s, reverseMatrix junk n M = .ok s ∧ M.toMat n * s.2.toMat n = 1

variable (junk : Nat → ℚ) {n : Nat} {M : Mem2 ℚ}

theorem toMat_ident {A : Mem2 ℚ} (h : Ident n A) : A.toMat n = 1 := by
  ext i j
  rw [Matrix.one_apply]
  show A.cell i j = _
  rw [h i j i.2 j.2]
  simp only [Fin.ext_iff]

/-- C89, what holds: whenever `reverseMatrix` returns, its result is the inverse (on both sides); the matrix of the caller has become
the identity. -/
theorem C89_reverse_partial (hM : Square n M) (s : Mem2 ℚ × Mem2 ℚ) (h : reverseMatrix junk n M = .ok s) :
    M.toMat n * s.2.toMat n = 1 ∧ s.2.toMat n * M.toMat n = 1 ∧ s.1.toMat n = 1 := by
  obtain ⟨g1, g2, g3, g4⟩ := (reverse_run junk hM).of_ok h
  have hi := toMat_ident g4
  have hr : s.2.toMat n * M.toMat n = 1 := by
    rw [← hi]
    ext i j
    rw [Matrix.mul_apply]
    show _ = s.1.cell i j
    rw [g3 i j i.2 j.2, ← Fin.sum_univ_eq_sum_range (fun l => s.2.cell i l * M.cell l j)]
    rfl
  exact ⟨mul_eq_one_comm.1 hr, hr, hi⟩

/-- C89: nothing else can go wrong than a division by zero, or the conversion of a number beyond 2147483647 to `int` in the call of
`abs`; in particular no element outside the matrices is used. -/
theorem C89_outcome (hM : Square n M) :
    (∃ s, reverseMatrix junk n M = .ok s) ∨ reverseMatrix junk n M = .error .divZero ∨ reverseMatrix junk n M = .error .overflow := by
  rcases reverse_run junk hM with ⟨s, e, _⟩ | ⟨e, rfl | rfl, h⟩
  · exact .inl ⟨s, e⟩
  · exact .inr (.inl h)
  · exact .inr (.inr h)

/-- C89: for a singular matrix it never returns. -/
theorem C89_singular (hM : Square n M) (h : (M.toMat n).det = 0) (s : Mem2 ℚ × Mem2 ℚ) : reverseMatrix junk n M ≠ .ok s := fun e => by
  have := congrArg Matrix.det (C89_reverse_partial junk hM s e).1
  rw [Matrix.det_mul, h, zero_mul, Matrix.det_one] at this
  exact absurd this zero_ne_one

/-- C89: the element that the search finds is the largest in the rest of the matrix, after the fractions have been cut off. -/
theorem C89_main_element (hM : Square n M) {i r c : Nat} (hi : i < n) (h : qMatrixMainElementLQ n M i = .ok (r, c)) :
    (i ≤ r ∧ r < n) ∧ (i ≤ c ∧ c < n) ∧
    ∀ a b, i ≤ a → a < n → i ≤ b → b < n →
      |if 0 ≤ M.cell a b then ⌊M.cell a b⌋ else ⌈M.cell a b⌉| ≤ |if 0 ≤ M.cell r c then ⌊M.cell r c⌋ else ⌈M.cell r c⌉| := by
  obtain ⟨h1, h2, h3⟩ := (mainElement_run hM hi).of_ok h
  exact ⟨h1, h2, fun a b g1 g2 g3 g4 => Int.cast_le.1 (h3 a b g1 g2 g3 g4)⟩

/-- C89: which element becomes the pivot.  The columns are never exchanged, so it is the element that has been found only if this
lies in column `i`; if it lies on the diagonal, both exchanges cancel each other and the old element remains. -/
theorem C89_pivot {R : Mem2 ℚ} (hM : Square n M) (hR : Square n R) {i r c : Nat} (hi : i < n) (hr : r < n) (hc : c < n) :
    ∃ s, swaps n i (r, c) (M, R) = .ok s ∧
      s.1.cell i i = if c = i then M.cell r i else if c = r then M.cell i i else M.cell c i := by
  refine ⟨_, swaps_run (s := (M, R)) hM hR hi hr hc, ?_⟩
  simp only [swapped2, swapped]
  by_cases h1 : r = i <;> by_cases h2 : c = i <;> by_cases h3 : c = r <;> simp_all

/-- C89: if this element is zero and not the last one of the diagonal, the step ends with a division by zero. -/
theorem C89_zero_pivot {R : Mem2 ℚ} (hM : Square n M) (hR : Square n R) {i r c : Nat} (hi : i + 1 < n)
    (h : qMatrixMainElementLQ n M i = .ok (r, c)) (h0 : (if c = i then M.cell r i else if c = r then M.cell i i else M.cell c i) = 0) :
    stepI junk n i (M, R) = .error .divZero := by
  obtain ⟨h1, h2, _⟩ := C89_main_element hM (by omega) h
  obtain ⟨s, e, h3⟩ := C89_pivot hM hR (by omega : i < n) h1.2 h2.2
  have hs : s = (swapped2 n i (r, c) M, swapped2 n i (r, c) R) := by
    have e2 := swaps_run (s := (M, R)) (rc := (r, c)) hM hR (by omega : i < n) h1.2 h2.2
    rw [e] at e2
    exact Except.ok.inj e2
  rw [stepI]
  simp only
  rw [h, C_pure_bind, e, C_pure_bind]
  refine eliminate_zero ?_ hi (h3.trans h0)
  rw [hs]
  exact swapped2_dim hM

/-- The permutation matrix [[0, 1, 0], [0, 0, 1], [1, 0, 0]]. -/
def perm : Mem2 ℚ := ⟨3, 3, fun i j => if (i = 0 ∧ j = 1) ∨ (i = 1 ∧ j = 2) ∨ (i = 2 ∧ j = 0) then 1 else 0⟩

theorem perm_det : (perm.toMat 3).det = 1 := by
  rw [Matrix.det_fin_three]
  simp [perm, Mem2.toMat]

/-- Whether a search has found the element in row `r` and column `c`. -/
def found (x : C (Nat × Nat)) (r c : Nat) : Bool := match x with
  | .ok p => p.1 == r && p.2 == c
  | .error _ => false

theorem found_iff {x : C (Nat × Nat)} {r c : Nat} (h : found x r c = true) : x = .ok (r, c) := by
  unfold found at h
  split at h
  · rename_i p
    simp only [Bool.and_eq_true, beq_iff_eq] at h
    obtain ⟨a, b⟩ := p
    rw [← h.1, ← h.2]
  · cases h

/-- A failure in the first step. -/
theorem reverse_zero (hM : Square n M) (hn : 1 < n) {r c : Nat} (h : qMatrixMainElementLQ n M 0 = .ok (r, c))
    (h0 : (if c = 0 then M.cell r 0 else if c = r then M.cell 0 0 else M.cell c 0) = 0) : reverseMatrix junk n M = .error .divZero := by
  obtain ⟨R, e, h1, _⟩ := init_run junk n
  have h2 : passI junk n (M, R) = .error .divZero := by
    obtain ⟨m, rfl⟩ := Nat.exists_eq_add_of_le' (show 1 ≤ n by omega)
    exact forUp_err (C89_zero_pivot junk hM h1 (by omega) h h0)
  rw [reverseMatrix, e, C_pure_bind, h2]
  rfl

/-- C89: even for a permutation matrix there is a division by zero. -/
theorem C89_permutation_violated : (perm.toMat 3).det = 1 ∧ reverseMatrix junk 3 perm = .error .divZero :=
  ⟨perm_det, reverse_zero junk ⟨rfl, rfl⟩ (by omega) (found_iff (r := 0) (c := 1) (by decide +kernel)) (by simp [perm])⟩

theorem C89_violated : ¬ C89_statement := fun h => by
  obtain ⟨s, e, _⟩ := h (fun _ => 0) 3 perm ⟨rfl, rfl⟩ (by rw [perm_det]; norm_num)
  rw [(C89_permutation_violated _).2] at e
  cases e

/-- C89: a second call for the same matrix gets the identity and returns the identity. -/
theorem C89_second_call (hM : Square n M) (s : Mem2 ℚ × Mem2 ℚ) (h : reverseMatrix junk n M = .ok s) :
    ∃ s', reverseMatrix junk n s.1 = .ok s' ∧ s'.2.toMat n = 1 ∧ s'.1.toMat n = 1 := by
  obtain ⟨g1, g2, g3, g4⟩ := (reverse_run junk hM).of_ok h
  obtain ⟨s', e⟩ := reverse_ident junk g1 g4
  obtain ⟨k1, _, k3⟩ := C89_reverse_partial junk g1 s' e
  rw [toMat_ident g4, Matrix.one_mul] at k1
  exact ⟨s', e, k1, k3⟩

/-- C89: so what a loop of at least two calls ends with is the identity, whatever the matrix was. -/
theorem C89_repeated_violated (hM : Square n M) (r : Mem2 ℚ) (s : Mem2 ℚ × Mem2 ℚ) (h : reverseMatrix junk n M = .ok s) (k : Nat) :
    ∃ t, mainLoop junk n (k + 2) M r = .ok t ∧ t.2.toMat n = 1 := by
  obtain ⟨g1, g2, g3, g4⟩ := (reverse_run junk hM).of_ok h
  have loop : ∀ (l : List Nat) (s : Mem2 ℚ × Mem2 ℚ), Dim n s.1 → Ident n s.1 → s.2.toMat n = 1 →
      ∃ t, l.foldlM (fun (s : Mem2 ℚ × Mem2 ℚ) (_ : Nat) => reverseMatrix junk n s.1) s = .ok t ∧ t.2.toMat n = 1 := by
    intro l
    induction l with
    | nil => exact fun s _ _ h => ⟨s, rfl, h⟩
    | cons x l ih =>
      intro s d i _
      obtain ⟨s', e⟩ := reverse_ident junk d i
      obtain ⟨d', _, _, i'⟩ := (reverse_run junk d).of_ok e
      have k1 := (C89_reverse_partial junk d s' e).1
      rw [toMat_ident i, Matrix.one_mul] at k1
      rw [List.foldlM_cons, e, C_pure_bind]
      exact ih s' d' i' k1
  show ∃ t, (List.range' 0 (k + 2)).foldlM (fun (s : Mem2 ℚ × Mem2 ℚ) (_ : Nat) => reverseMatrix junk n s.1) (M, r) = .ok t ∧ _
  obtain ⟨s', e⟩ := reverse_ident junk g1 g4
  obtain ⟨d', _, _, i'⟩ := (reverse_run junk g1).of_ok e
  have k1 := (C89_reverse_partial junk g1 s' e).1
  rw [toMat_ident g4, Matrix.one_mul] at k1
  rw [List.range'_succ, List.foldlM_cons, h, C_pure_bind, List.range'_succ, List.foldlM_cons, e, C_pure_bind]
  exact loop _ s' d' i' k1

/-- The matrix of the test program. -/
def a32mem : Mem2 ℚ := ⟨32, 32, fun i j => (((a32[i]?.getD [])[j]?.getD 0 : Nat) : ℚ)⟩

theorem scanned_run : Ok (scanned junk 32) fun A => Dim 32 A ∧ ∀ i j, i < 32 → j < 32 → A.cell i j = a32mem.cell i j := by
  unfold scanned
  refine (fill (look := fun (m : Mem2 ℚ) i j => m.cell i j) (F := a32mem.cell) (Good := fun m => Dim 32 m) ⟨rfl, rfl⟩ ?_)
  rintro i j m hi hj ⟨h1, h2⟩
  rw [Mem2.Ok_put]
  exact ⟨by omega, ⟨h1, h2⟩, if_pos ⟨rfl, rfl⟩, fun k l _ _ h => if_neg (by omega)⟩

/-- C89: the test program divides by zero in the first step of its first call. -/
theorem C89_main_violated (k : Nat) (r : Mem2 ℚ) : main junk (k + 1) r = .error .divZero := by
  obtain ⟨A, e, h1, h2⟩ := scanned_run junk
  have h3 : qMatrixMainElementLQ 32 A 0 = .ok (0, 2) := by
    rw [mainElement_congr h1 (⟨rfl, rfl⟩ : Dim 32 a32mem) (by omega) h2]
    exact found_iff (by decide +kernel)
  have h4 : a32mem.cell 2 0 = 0 := by decide +kernel
  rw [main, e, C_pure_bind, mainLoop]
  refine forUp_err ?_
  refine reverse_zero junk h1 (by omega) h3 ?_
  rw [if_neg (by omega), if_neg (by omega), h2 2 0 (by omega) (by omega), h4]

/-! ## Non-vacuity -/

/-- The matrix [[4, 1], [2, 1]]. -/
def ex : Mem2 ℚ := ⟨2, 2, fun i j => if i = 0 ∧ j = 0 then 4 else if i = 1 ∧ j = 0 then 2 else 1⟩

/-- Whether a run has returned. -/
def returned (x : C (Mem2 ℚ × Mem2 ℚ)) : Bool := match x with
  | .ok _ => true
  | .error _ => false

/-- C89_reverse_partial, C89_second_call and C89_repeated_violated: a run that ends. -/
example : ∃ s, reverseMatrix (fun _ => 7) 2 ex = .ok s := by
  have : returned (reverseMatrix (fun _ => 7) 2 ex) = true := by decide +kernel
  match e : reverseMatrix (fun _ => 7) 2 ex with
  | .ok s => exact ⟨s, rfl⟩
  | .error f => rw [e] at this; cases this

/-- C89_main_element and C89_pivot: a largest element on the diagonal. -/
example : ∃ s, swaps 2 0 (1, 1) (ex, ex) = .ok s ∧ s.1.cell 0 0 = 4 :=
  C89_pivot (n := 2) (i := 0) (r := 1) (c := 1) ⟨rfl, rfl⟩ ⟨rfl, rfl⟩ (by omega) (by omega) (by omega)

example : qMatrixMainElementLQ 2 ex 0 = .ok (0, 0) := found_iff (by decide +kernel)

/-- C89_singular: the zero matrix of order 2. -/
example (s : Mem2 ℚ × Mem2 ℚ) : reverseMatrix junk 2 ⟨2, 2, fun _ _ => 0⟩ ≠ .ok s :=
  C89_singular junk (n := 2) (M := ⟨2, 2, fun _ _ => 0⟩) ⟨rfl, rfl⟩ (by rw [Matrix.det_fin_two]; simp [Mem2.toMat]) s

end WB.cmp.github7
