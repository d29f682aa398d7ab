import Verif.Proof.Github5
import Verif.SpecCmp

/-!
# C90 — the generator of invertible matrices of the comparison (`/repo/test/github5`)
-/
namespace WB.cmp.github5

/-- A matrix with `n` rows and columns. -/
def Square (n : Nat) (A : Mem2 Int) : Prop := A.rows = n ∧ A.cols = n

/-- C90, full statement: the result is an invertible matrix (over the rational numbers), for every size and all random numbers. -/
def C90_statement : Prop :=
  ∀ (rnd : Nat → Nat) (junk : Nat → Int) (n : Nat) (A : Mem2 Int), 1 ≤ n → Square n A →
    ∃ r, invTMatM rnd junk n A = .ok r ∧ (r.toMat n).det ≠ 0

variable (rnd : Nat → Nat) (junk : Nat → Int) {n : Nat} {A : Mem2 Int}

/-- An invariant of the transformations that the identity satisfies holds for the result. -/
theorem generated (hn : 2 ≤ n) (hA : Square n A) (I : Mem2 Int → Prop)
    (hI : ∀ B : Mem2 Int, (∀ i j, i < n → j < n → B.cell i j = if i = j then 1 else 0) → I B)
    (hs : ∀ B C main, main < n - 1 → Stepped n main B C → I B → I C) :
    ∃ r, invTMatM rnd junk n A = .ok r ∧ Square n r ∧ Bounded n r ∧ I r := by
  obtain ⟨B, e, h1, h2⟩ := identity_run hA
  obtain ⟨r, e', g1, g2, g3⟩ := generate_run rnd junk hn h1 (ident_bounded h2) I (hI B h2) hs
  refine ⟨r, ?_, g1, g2, g3⟩
  rw [invTMatM, e, C_pure_bind, e']

/-- C90: from size 2 on the generator always returns, without signed overflow and without leaving the arrays, and no element
exceeds 65535 in absolute value, whatever the random numbers and the contents of new memory are. -/
theorem C90_bounds (hn : 2 ≤ n) (hA : Square n A) :
    ∃ r, invTMatM rnd junk n A = .ok r ∧ Square n r ∧ ∀ i j, i < n → j < n → |r.cell i j| ≤ 65535 := by
  obtain ⟨r, e, h1, h2, _⟩ := generated rnd junk hn hA (fun _ => True) (fun _ _ => trivial) fun _ _ _ _ _ _ => trivial
  exact ⟨r, e, h1, fun i j hi hj => abs_le.2 (h2 i j hi hj)⟩

/-- C90: the last column of the result is always the last unit column, so most invertible matrices never turn up. -/
theorem C90_last_column_violated (hn : 2 ≤ n) (hA : Square n A) :
    ∃ r, invTMatM rnd junk n A = .ok r ∧ ∀ i, i < n → r.cell i (n - 1) = if i = n - 1 then 1 else 0 := by
  obtain ⟨r, e, _, _, h⟩ := generated rnd junk hn hA (LastCol n) (fun B hB i hi => hB i (n - 1) hi (by omega))
    fun B C main hm hs hB => lastCol_step hn B C main hm hs hB
  exact ⟨r, e, h⟩

/-- C90, what holds: for size 2 the determinant is always 1 (and the matrix is lower triangular). -/
theorem C90_order_two_partial (hA : Square 2 A) : ∃ r, invTMatM rnd junk 2 A = .ok r ∧ (r.toMat 2).det = 1 := by
  obtain ⟨r, e, _, _, h1, h2⟩ := generated rnd junk (Nat.le_refl 2) hA (fun B => LastCol 2 B ∧ B.cell 0 0 = 1)
    (fun B hB => ⟨fun i hi => hB i 1 hi (by omega), hB 0 0 (by omega) (by omega)⟩) firstRow_step
  refine ⟨r, e, ?_⟩
  have e0 : r.cell 0 1 = 0 := h1 0 (by omega)
  have e1 : r.cell 1 1 = 1 := h1 1 (by omega)
  rw [Matrix.det_fin_two]
  show r.cell 0 0 * r.cell 1 1 - r.cell 0 1 * r.cell 1 0 = 1
  rw [h2, e0, e1]
  ring

/-- C90: for size 1 the generator computes a remainder modulo zero, unless the number of transformations is zero. -/
theorem C90_order_one_violated (hA : Square 1 A) (h : rnd 0 % 1000 ≠ 0) : invTMatM rnd junk 1 A = .error .divZero := by
  obtain ⟨B, e, _, _⟩ := identity_run hA
  obtain ⟨m, hm⟩ := Nat.exists_eq_succ_of_ne_zero h
  rw [invTMatM, e, C_pure_bind, getInvertibleMatrix, hm, forUp_err (e := .divZero)]
  · rfl
  · rfl

/-- Random numbers: 24 transformations of a 3 by 3 matrix. -/
def singular : List Nat :=
  [24, 0, 0, 0, 3, 0, 0, 0, 0, 0, 0, 1, 0, 0, 4, 0, 0, 0, 0, 0, 0, 0, 0, 0, 3, 0, 0, 2, 0, 0, 0, 0, 0, 0, 4, 0, 0, 2, 0,
   0, 0, 0, 0, 0, 3, 0, 0, 2, 0, 0, 0, 1, 0, 0, 3, 0, 0, 0, 0, 0, 0, 0, 0, 0, 3, 0, 0, 2, 0, 0, 0, 0, 0, 0, 0, 0, 0, 0, 0,
   0, 0, 0, 0, 3, 0, 0, 0, 0, 0, 0, 1, 0, 0, 0, 0, 0, 0, 1, 0, 0, 0, 0, 0, 0, 1, 4, 0, 1, 0, 4, 2, 0, 0, 0, 1, 0, 0, 0, 0,
   0, 0, 1, 4, 0, 1, 0, 4, 2, 0, 0, 0, 1, 0, 0, 0, 0, 0, 0, 1, 4, 0, 1, 0, 4, 2, 0, 0, 0, 1, 0, 0, 0, 0, 0, 0, 1, 4, 0, 1,
   0, 4, 2, 0, 0, 0, 1, 0, 0, 0, 0, 0, 0, 1, 4, 0, 1, 0, 4, 2, 0, 0, 0, 1, 0, 0, 0, 0, 0, 0, 1, 4, 0, 1, 0, 4, 2, 0, 0, 0,
   1, 0, 0, 0, 0, 0, 0, 1, 4, 0, 1, 0, 4, 2, 0, 0, 0]

/-- The result of a call has the given elements in the first two rows. -/
def isRes (x : C (Mem2 Int)) (a b c d : Int) : Bool := match x with
  | .ok r => r.cell 0 0 == a && r.cell 0 1 == b && r.cell 1 0 == c && r.cell 1 1 == d
  | .error _ => false

theorem isRes_iff {x : C (Mem2 Int)} {a b c d : Int} (h : isRes x a b c d = true) :
    ∃ r, x = .ok r ∧ r.cell 0 0 = a ∧ r.cell 0 1 = b ∧ r.cell 1 0 = c ∧ r.cell 1 1 = d := by
  unfold isRes at h
  split at h
  · rename_i r
    simp only [Bool.and_eq_true, beq_iff_eq] at h
    exact ⟨r, rfl, h.1.1.1, h.1.1.2, h.1.2, h.2⟩
  · cases h

/-- A 3 by 3 array. -/
def arr : Mem2 Int := ⟨3, 3, fun _ _ => 0⟩

theorem det3 {r : Mem2 Int} (h : ∀ i, i < 3 → r.cell i (3 - 1) = if i = 3 - 1 then 1 else 0) :
    (r.toMat 3).det = r.cell 0 0 * r.cell 1 1 - r.cell 0 1 * r.cell 1 0 := by
  have e0 : r.cell 0 2 = 0 := h 0 (by omega)
  have e1 : r.cell 1 2 = 0 := h 1 (by omega)
  have e2 : r.cell 2 2 = 1 := h 2 (by omega)
  rw [Matrix.det_fin_three]
  show r.cell 0 0 * r.cell 1 1 * r.cell 2 2 - r.cell 0 0 * r.cell 1 2 * r.cell 2 1 - r.cell 0 1 * r.cell 1 0 * r.cell 2 2 +
    r.cell 0 1 * r.cell 1 2 * r.cell 2 0 + r.cell 0 2 * r.cell 1 0 * r.cell 2 1 - r.cell 0 2 * r.cell 1 1 * r.cell 2 0 = _
  rw [e0, e1, e2]
  ring

/-- C90: with these random numbers the second row is three times the first one, and the result is singular. -/
theorem C90_singular_violated :
    ∃ r, invTMatM (fun p => singular.getD p 0) (fun _ => 0) 3 arr = .ok r ∧ (r.toMat 3).det = 0 ∧
      r.cell 1 0 = 3 * r.cell 0 0 ∧ r.cell 1 1 = 3 * r.cell 0 1 := by
  obtain ⟨r, e, h1, h2, h3, h4⟩ := isRes_iff (x := invTMatM (fun p => singular.getD p 0) (fun _ => 0) 3 arr)
    (a := -3128) (b := 3650) (c := -9384) (d := 10950) (by decide +kernel)
  obtain ⟨r', e', h⟩ := C90_last_column_violated (fun p => singular.getD p 0) (fun _ => 0) (n := 3) (A := arr) (by omega) ⟨rfl, rfl⟩
  rw [e] at e'
  cases e'
  refine ⟨r, e, ?_, by rw [h1, h3]; rfl, by rw [h2, h4]; rfl⟩
  rw [det3 h, h1, h2, h3, h4]
  norm_num

theorem C90_violated : ¬ C90_statement := fun h => by
  obtain ⟨r, e, h1⟩ := h (fun p => singular.getD p 0) (fun _ => 0) 3 arr (by omega) ⟨rfl, rfl⟩
  obtain ⟨r', e', h2, _⟩ := C90_singular_violated
  rw [e] at e'
  cases e'
  exact h1 h2

/-- Random numbers: 2 transformations of a 3 by 3 matrix. -/
def even : List Nat := [2, 0, 0, 0, 1, 0, 0, 0, 0, 0, 0, 1, 0, 0, 1, 0, 0, 0, 0, 0, 0]

/-- C90: two transformations are enough for a determinant that is even and not zero: the result is invertible over the rational
numbers but not over GF(2), where the library works. -/
theorem C90_gf2_violated :
    ∃ r, invTMatM (fun p => even.getD p 0) (fun _ => 0) 3 arr = .ok r ∧ (r.toMat 3).det = -8 := by
  obtain ⟨r, e, h1, h2, h3, h4⟩ := isRes_iff (x := invTMatM (fun p => even.getD p 0) (fun _ => 0) 3 arr)
    (a := 82) (b := -10) (c := -9) (d := 1) (by decide +kernel)
  obtain ⟨r', e', h⟩ := C90_last_column_violated (fun p => even.getD p 0) (fun _ => 0) (n := 3) (A := arr) (by omega) ⟨rfl, rfl⟩
  rw [e] at e'
  cases e'
  refine ⟨r, e, ?_⟩
  rw [det3 h, h1, h2, h3, h4]
  norm_num

/-- C90: the result depends on uninitialised memory: one transformation with the same random numbers and two contents of new memory. -/
theorem C90_uninitialised_violated :
    (∃ r, invTMatM (fun p => if p = 0 then 1 else 0) (fun _ => 0) 2 ⟨2, 2, fun _ _ => 0⟩ = .ok r ∧ r.cell 1 0 = -10) ∧
    ∃ r, invTMatM (fun p => if p = 0 then 1 else 0) (fun _ => -100000) 2 ⟨2, 2, fun _ _ => 0⟩ = .ok r ∧ r.cell 1 0 = 1 := by
  obtain ⟨r, e, _, _, h, _⟩ := isRes_iff (x := invTMatM (fun p => if p = 0 then 1 else 0) (fun _ => 0) 2 ⟨2, 2, fun _ _ => 0⟩)
    (a := 1) (b := 0) (c := -10) (d := 1) (by decide +kernel)
  obtain ⟨r', e', _, _, h', _⟩ := isRes_iff (x := invTMatM (fun p => if p = 0 then 1 else 0) (fun _ => -100000) 2 ⟨2, 2, fun _ _ => 0⟩)
    (a := 1) (b := 0) (c := 1) (d := 1) (by decide +kernel)
  exact ⟨⟨r, e, h⟩, r', e', h'⟩

/-! ## Non-vacuity -/

/-- C90_bounds, C90_last_column_violated: size 8 with 999 transformations. -/
example : ∃ r, invTMatM (fun p => 31 * p + 999) junk 8 ⟨8, 8, fun _ _ => 7⟩ = .ok r ∧ ∀ i, i < 8 → r.cell i 7 = if i = 7 then 1 else 0 :=
  C90_last_column_violated (n := 8) _ junk (by omega) ⟨rfl, rfl⟩

/-- C90_order_two_partial -/
example : ∃ r, invTMatM (fun p => 31 * p + 999) junk 2 ⟨2, 2, fun _ _ => 7⟩ = .ok r ∧ (r.toMat 2).det = 1 :=
  C90_order_two_partial _ junk ⟨rfl, rfl⟩

/-- C90_order_one_violated -/
example : invTMatM (fun p => 31 * p + 999) junk 1 ⟨1, 1, fun _ _ => 7⟩ = .error .divZero :=
  C90_order_one_violated _ junk ⟨rfl, rfl⟩ (by norm_num)

end WB.cmp.github5
