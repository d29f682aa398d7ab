import Mathlib.Data.ZMod.Basic
import Mathlib.Algebra.Field.ZMod
import Verif.Proof.Github6

/-!
# C83 — determinants and inverses of the cofactor program (`/repo/test/github6`)

Numbers of type `float` are exact rational numbers in the model.
-/
namespace WB.cmp.github6

/-- C83, full statement: the matrix that `cofactor` stores is the inverse of the given one. -/
def C83_statement : Prop :=
  ∀ (ji : Junk Int) (jf : Junk ℚ) (n : Nat) (m : Mem Int) (IN : Mem ℚ) (s : Heap) (r : Mem ℚ) (s' : Heap), 1 ≤ n →
    n * n ≤ m.size → n * n ≤ IN.size → cofactor ji jf m n IN s = .ok (r, s') → toRat (m.toMat n) * r.toMat n = 1

variable (ji : Junk Int) (jf : Junk ℚ) {n : Nat} (m : Mem Int) (IN : Mem ℚ) (s : Heap)

/-- C83: a result of `determinant` is the determinant, for every order and every matrix, whatever the new memory contains. -/
theorem C83_determinant (hn : 1 ≤ n) (hm : n * n ≤ m.size) {d : Int} {s' : Heap} (h : determinant ji n m s = .ok (d, s')) :
    d = (m.toMat n).det := by
  obtain ⟨n, rfl⟩ := Nat.exists_eq_add_of_le' hn
  exact ((det_run ji (le_refl 1) n m s hm).of_ok h).1

/-- C83: `determinant` returns if the entries are at most `B` in absolute value and `n! * B ^ n` is less than 2^31. -/
theorem C83_determinant_returns (hn : 1 ≤ n) (hm : n * n ≤ m.size) (B : Int) (hB : 1 ≤ B) (hb : ∀ i j, |m.toMat n i j| ≤ B)
    (hs : (n.factorial : Int) * B ^ n ≤ 2 ^ 31 - 1) : ∃ s', determinant ji n m s = .ok ((m.toMat n).det, s') := by
  obtain ⟨n, rfl⟩ := Nat.exists_eq_add_of_le' hn
  obtain ⟨d, s', e, rfl, _⟩ := Res.ok (H := Small _ _ B) ⟨hb, hs.trans (by norm_num)⟩ (det_run ji hB n m s hm)
  exact ⟨s', e⟩

/-- C83: otherwise the only thing that can go wrong in `determinant` is a signed overflow. -/
theorem C83_determinant_faults (hn : 1 ≤ n) (hm : n * n ≤ m.size) :
    (∃ s', determinant ji n m s = .ok ((m.toMat n).det, s')) ∨ determinant ji n m s = .error .overflow := by
  obtain ⟨n, rfl⟩ := Nat.exists_eq_add_of_le' hn
  rcases det_run ji (le_refl 1) n m s hm with ⟨d, s', e, rfl, _⟩ | ⟨e, ⟨rfl, _⟩, h⟩
  · exact .inl ⟨s', e⟩
  · exact .inr h

/-- C83, what holds: for every order from 2 on, a result of `cofactor` is the inverse, on both sides, and the determinant is not
zero. -/
theorem C83_cofactor_partial (hn : 2 ≤ n) (hm : n * n ≤ m.size) (hi : n * n ≤ IN.size) {r : Mem ℚ} {s' : Heap}
    (h : cofactor ji jf m n IN s = .ok (r, s')) :
    toRat (m.toMat n) * r.toMat n = 1 ∧ r.toMat n * toRat (m.toMat n) = 1 ∧ (m.toMat n).det ≠ 0 ∧ r.size = IN.size := by
  obtain ⟨n, rfl⟩ := Nat.exists_eq_add_of_le' hn
  obtain ⟨h1, h2, h3, _⟩ := (cofactor_run ji jf (le_refl 1) n m IN s hm hi).of_ok h
  have hu : IsUnit (toRat (m.toMat (n + 2))).det := by
    rw [show (toRat (m.toMat (n + 2))).det = ((m.toMat (n + 2)).det : ℚ) from
      (RingHom.map_det (Int.castRingHom ℚ) _).symm]
    exact isUnit_iff_ne_zero.2 (by exact_mod_cast h1)
  rw [h3]
  exact ⟨Matrix.mul_nonsing_inv _ hu, Matrix.nonsing_inv_mul _ hu, h1, h2⟩

/-- C83: `cofactor` returns if the determinant is not zero and the entries are small. -/
theorem C83_cofactor_returns (hn : 2 ≤ n) (hm : n * n ≤ m.size) (hi : n * n ≤ IN.size) (B : Int) (hB : 1 ≤ B)
    (hb : ∀ i j, |m.toMat n i j| ≤ B) (hs : (n.factorial : Int) * B ^ n ≤ 2 ^ 31 - 1) (hd : (m.toMat n).det ≠ 0) :
    ∃ r s', cofactor ji jf m n IN s = .ok (r, s') := by
  obtain ⟨n, rfl⟩ := Nat.exists_eq_add_of_le' hn
  rcases cofactor_run ji jf hB n m IN s hm hi with ⟨d, s', e, _⟩ | ⟨e, h, _⟩
  · exact ⟨d, s', e⟩
  · rcases h with h | h
    · exact absurd ⟨hb, hs.trans (by norm_num)⟩ h.2
    · exact absurd h.2 hd

/-- C83: `cofactor` does not test the determinant: for a singular matrix it divides by zero. -/
theorem C83_singular_violated (hn : 2 ≤ n) (hm : n * n ≤ m.size) (hi : n * n ≤ IN.size) (B : Int) (hB : 1 ≤ B)
    (hb : ∀ i j, |m.toMat n i j| ≤ B) (hs : (n.factorial : Int) * B ^ n ≤ 2 ^ 31 - 1) (hd : (m.toMat n).det = 0) :
    cofactor ji jf m n IN s = .error .divZero := by
  obtain ⟨n, rfl⟩ := Nat.exists_eq_add_of_le' hn
  rcases cofactor_run ji jf hB n m IN s hm hi with ⟨d, s', e, h, _⟩ | ⟨e, h, he⟩
  · exact absurd hd h
  · rcases h with h | h
    · exact absurd ⟨hb, hs.trans (by norm_num)⟩ h.2
    · rw [he, h.1]

/-- C83: for order 1 the result is 0, whatever the matrix is; it never is the inverse. -/
theorem C83_order_one_violated (hm : 1 ≤ m.size) (hi : 1 ≤ IN.size) (h0 : m.cell 0 ≠ 0) :
    ∃ r s', cofactor ji jf m 1 IN s = .ok (r, s') ∧ r.cell 0 = 0 ∧ toRat (m.toMat 1) * r.toMat 1 ≠ 1 := by
  rcases order1_run ji jf m IN s hm hi with ⟨r, s', e, _, _, h, _⟩ | ⟨e, h, _⟩
  · refine ⟨r, s', e, h, fun h1 => ?_⟩
    have := congrFun (congrFun h1 0) 0
    rw [Matrix.mul_apply, Fin.sum_univ_one, show r.toMat 1 0 0 = r.cell 0 from rfl, h, mul_zero] at this
    exact absurd this (by simp)
  · exact absurd h.2 h0

theorem C83_violated : ¬ C83_statement := fun h => by
  obtain ⟨r, s', e, _, hne⟩ := C83_order_one_violated (fun _ _ => 0) (fun _ _ => 0) ⟨1, fun _ => 1⟩ ⟨1, fun _ => 0⟩ ⟨0, 0⟩
    (Nat.le_refl _) (Nat.le_refl _) (by decide)
  exact hne (h _ _ 1 _ _ _ r s' (Nat.le_refl _) (Nat.le_refl _) (Nat.le_refl _) e)

/-- A matrix of integers over GF(2), as the library sees it. -/
def mod2 (A : Matrix (Fin n) (Fin n) Int) : Matrix (Fin n) (Fin n) (ZMod 2) := A.map fun x => (x : ZMod 2)

/-- C83: the relation to the inverse over GF(2), which is what the library computes.  A matrix is invertible over GF(2) exactly if
its determinant is odd, and then `det * result` is a matrix of integers which is, modulo 2, the inverse over GF(2). -/
theorem C83_mod2 (hn : 2 ≤ n) (hm : n * n ≤ m.size) (hi : n * n ≤ IN.size) {r : Mem ℚ} {s' : Heap}
    (h : cofactor ji jf m n IN s = .ok (r, s')) :
    (IsUnit (mod2 (m.toMat n)) ↔ (m.toMat n).det % 2 = 1) ∧
      ((m.toMat n).det % 2 = 1 → ∃ Z : Matrix (Fin n) (Fin n) Int,
        (∀ i j, (Z i j : ℚ) = (m.toMat n).det * r.toMat n i j) ∧ mod2 (m.toMat n) * mod2 Z = 1) := by
  have hdet : (mod2 (m.toMat n)).det = ((m.toMat n).det : ZMod 2) := (RingHom.map_det (Int.castRingHom (ZMod 2)) _).symm
  have hodd : (m.toMat n).det % 2 = 1 ↔ ((m.toMat n).det : ZMod 2) = 1 := by
    rw [← Int.cast_one (R := ZMod 2), ZMod.intCast_eq_intCast_iff]
    rfl
  refine ⟨?_, fun h1 => ⟨(m.toMat n).adjugate, fun i j => ?_, ?_⟩⟩
  · rw [Matrix.isUnit_iff_isUnit_det, hdet, hodd, isUnit_iff_ne_zero]
    generalize ((m.toMat n).det : ZMod 2) = x
    revert x; decide
  · obtain ⟨n, rfl⟩ := Nat.exists_eq_add_of_le' hn
    obtain ⟨h1, _, h3, _⟩ := (cofactor_run ji jf (le_refl 1) n m IN s hm hi).of_ok h
    rw [h3, toRat_inv _ h1, Matrix.smul_apply, smul_eq_mul, ← mul_assoc, mul_inv_cancel₀ (by exact_mod_cast h1), one_mul]
    rfl
  · have : mod2 (m.toMat n).adjugate = (mod2 (m.toMat n)).adjugate := RingHom.map_adjugate (Int.castRingHom (ZMod 2)) _
    rw [this, Matrix.mul_adjugate, hdet, hodd.1 h1, one_smul]

/-- A matrix of zeros and ones with determinant 2. -/
def two : Mem Int := ⟨9, fun k => [0, 1, 1, 1, 0, 1, 1, 1, 0][k]?.getD 0⟩

theorem two_det : (two.toMat 3).det = 2 := by
  rw [Matrix.det_fin_three]
  decide

/-- C83: so the program inverts matrices of zeros and ones that are not invertible for the library. -/
theorem C83_other_matrices : ∃ r s', cofactor ji jf two 3 ⟨9, fun _ => 0⟩ s = .ok (r, s') ∧ toRat (two.toMat 3) * r.toMat 3 = 1 ∧
    ¬ IsUnit (mod2 (two.toMat 3)) := by
  obtain ⟨r, s', e⟩ := C83_cofactor_returns ji jf two ⟨9, fun _ => 0⟩ s (n := 3) (by omega) (Nat.le_refl _) (Nat.le_refl _) 1 (le_refl _)
    (by decide) (by decide) (by rw [two_det]; decide)
  refine ⟨r, s', e, (C83_cofactor_partial ji jf two _ s (by omega) (Nat.le_refl _) (Nat.le_refl _) e).1, fun h => ?_⟩
  have := (C83_mod2 ji jf two _ s (by omega) (Nat.le_refl _) (Nat.le_refl _) e).1.1 h
  rw [two_det] at this
  exact absurd this (by decide)

/-! ## The matrix of the program -/

/-- The inverse of `a8`, negated. -/
def adj8 : List (List Int) :=
  [[0, -1, 0, 0, 0, 1, 0, 0],
   [1, 1, -1, 0, 0, -1, 1, -2],
   [0, 1, 0, 0, 0, 0, -1, 0],
   [-1, -1, 0, 0, 0, 1, 0, 1],
   [1, 1, -1, 0, -1, -1, 1, -1],
   [0, 1, 1, -1, 0, -1, -1, 1],
   [-1, -2, 1, 0, 1, 1, -1, 2],
   [-1, 0, 1, 0, 0, 0, -1, 1]]

theorem a8_mul : a8mem.toMat 8 * (Matrix.of fun i j : Fin 8 => (adj8[i.val]?.getD [])[j.val]?.getD 0) = -1 := by decide +kernel

theorem a8_det : (a8mem.toMat 8).det ≠ 0 := fun h => by
  have := congrArg Matrix.det a8_mul
  rw [Matrix.det_mul, h, zero_mul] at this
  rw [show ((-1 : Matrix (Fin 8) (Fin 8) Int)) = -(1 : Matrix (Fin 8) (Fin 8) Int) from rfl, Matrix.det_neg] at this
  simp at this

theorem a8_small : ∀ i j, |a8mem.toMat 8 i j| ≤ 1 := by decide +kernel

/-- C83: the program computes the inverse of its matrix in every run, for any number `k + 1` of runs. -/
theorem C83_main (k : Nat) (hi : IN.size = 64) : ∃ r s', main ji jf (k + 1) IN s = .ok (r, s') ∧ r.size = 64 ∧
    toRat (a8mem.toMat 8) * r.toMat 8 = 1 := by
  have step : ∀ (I : Mem ℚ) (s : Heap), I.size = 64 → ∃ r s', cofactor ji jf a8mem 8 I s = .ok (r, s') ∧ r.size = 64 ∧
      toRat (a8mem.toMat 8) * r.toMat 8 = 1 := fun I s hI => by
    obtain ⟨r, s', e⟩ := C83_cofactor_returns ji jf a8mem I s (n := 8) (by omega) (Nat.le_refl _) (by omega) 1 (le_refl _)
      a8_small (by decide) a8_det
    obtain ⟨h1, _, _, h4⟩ := C83_cofactor_partial ji jf a8mem I s (by omega) (Nat.le_refl _) (by omega) e
    exact ⟨r, s', e, h4.trans hI, h1⟩
  have := Res.forUp (E := fun _ => False) (s := s) (hi := k + 1) (t := IN) (f := fun _ I => cofactor ji jf a8mem 8 I)
    (Q := fun I _ => I.size = 64 ∧ toRat (a8mem.toMat 8) * I.toMat 8 = 1)
    (P := fun i I _ => I.size = 64 ∧ (i ≠ 0 → toRat (a8mem.toMat 8) * I.toMat 8 = 1)) ⟨hi, fun h => absurd rfl h⟩
    (fun i I s _ ⟨h, _⟩ => by
      obtain ⟨r, s', e, h1, h2⟩ := step I s h
      exact .inl ⟨r, s', e, h1, fun _ => h2⟩)
    (fun I _ ⟨h1, h2⟩ => ⟨h1, h2 (by omega)⟩)
  rcases this with ⟨r, s', e, h1, h2⟩ | ⟨e, h, _⟩
  · exact ⟨r, s', e, h1, h2⟩
  · exact h.elim

/-! ## Non-vacuity -/

/-- The matrix [[1, 2], [3, 4]]. -/
def ex : Mem Int := ⟨4, fun k => [1, 2, 3, 4][k]?.getD 0⟩

theorem ex_det : (ex.toMat 2).det = -2 := by
  rw [Matrix.det_fin_two]
  decide

/-- C83_determinant, C83_determinant_returns, C83_determinant_faults, C83_cofactor_partial, C83_cofactor_returns, C83_mod2: the
matrix [[1, 2], [3, 4]]. -/
example : ∃ r s', cofactor ji jf ex 2 ⟨4, fun _ => 7⟩ s = .ok (r, s') ∧ toRat (ex.toMat 2) * r.toMat 2 = 1 := by
  obtain ⟨r, s', e⟩ := C83_cofactor_returns ji jf ex ⟨4, fun _ => 7⟩ s (n := 2) (by omega) (Nat.le_refl _) (Nat.le_refl _) 4 (by decide)
    (by decide) (by decide) (by rw [ex_det]; decide)
  exact ⟨r, s', e, (C83_cofactor_partial ji jf ex _ s (by omega) (Nat.le_refl _) (Nat.le_refl _) e).1⟩

example : ∃ s', determinant ji 2 ex s = .ok (-2, s') := by
  have := C83_determinant_returns ji ex s (n := 2) (by omega) (Nat.le_refl _) 4 (by decide) (by decide) (by decide)
  rwa [ex_det] at this

/-- C83_singular_violated: the zero matrix. -/
example : cofactor ji jf ⟨4, fun _ => 0⟩ 2 ⟨4, fun _ => 7⟩ s = .error .divZero :=
  C83_singular_violated ji jf _ _ s (by omega) (Nat.le_refl _) (Nat.le_refl _) 1 (by decide) (by decide) (by decide)
    (by rw [Matrix.det_fin_two]; decide)

end WB.cmp.github6
