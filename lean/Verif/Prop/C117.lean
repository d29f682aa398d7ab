import Verif.Prop.C116

/-!
# C117 — linear maps as programs of row additions in M4RI: the execution (`/repo/test/github1_M4RI/src/m4ri/djb.c`)

`djb.h` says of `djb_apply_mzd(z, W, V)`: "W = m*V; apply the linear map m to V and write the result in W."
-/
namespace WB.m4w

open WB.cmp (Mem Mem2)

variable {r c : Nat} {M : Mzd} {A : Matrix (Fin r) (Fin c) (ZMod 2)}

/-- C117, full statement: the program of a matrix writes the product into `W`, whatever `W` held before. -/
def C117_statement : Prop := ∀ (junk : Nat → Nat) {r c : Nat} {M : Mzd} {A : Matrix (Fin r) (Fin c) (ZMod 2)}, 0 < r → Rep M A → M.Clean →
  ∃ z M', djb_compile junk M = .ok (z, M') ∧ ∀ {k : Nat} {W V : Mzd} {W0 : Matrix (Fin r) (Fin k) (ZMod 2)} {B : Matrix (Fin c) (Fin k) (ZMod 2)}, Rep W W0 → Rep V B →
    ∃ W', djb_apply_mzd z W V = .ok W' ∧ Rep W' (A * B)

/-- C117, what holds: the program adds `T * W0` to the product, where `W0` is what `W` held before and `T` is an invertible matrix that depends on the program only.
Unused bits that were zero in both matrices are zero afterwards. -/
theorem C117_apply_partial (junk : Nat → Nat) (hr : 0 < r) (hM : Rep M A) (hC : M.Clean) :
    ∃ z M', ∃ T : Matrix (Fin r) (Fin r) (ZMod 2), djb_compile junk M = .ok (z, M') ∧ IsUnit T ∧
      ∀ {k : Nat} {W V : Mzd} {W0 : Matrix (Fin r) (Fin k) (ZMod 2)} {B : Matrix (Fin c) (Fin k) (ZMod 2)}, Rep W W0 → Rep V B →
        ∃ W', djb_apply_mzd z W V = .ok W' ∧ Rep W' (A * B + T * W0) ∧ (W.Clean → V.Clean → W'.Clean) := by
  obtain ⟨⟨z, M'⟩, h1, inv⟩ := compile_ok (junk := junk) hr hM hC
  obtain ⟨X, T, L, hX, hT, hL, hA⟩ := inv.rep
  have hX0 : X = 0 := by
    ext i j
    rw [← hX.bit, inv.high i i.2 j (Nat.zero_le _) (by unfold Mzd.width; rw [hX.ncols]; have := j.2; omega)]
    rfl
  rw [hX0, Matrix.mul_zero, zero_add] at hA
  refine ⟨z, M', T, h1, hT, fun {k W V W0 B} hW hV => ?_⟩
  unfold djb_apply_mzd
  rw [if_neg (by rw [rep_width hW hV]; simp)]
  obtain ⟨W', h2, _, h3, h4⟩ := hL hW hV
  rw [hA, add_comm] at h3
  exact ⟨W', h2, h3, h4⟩

/-- C117: the result is the product exactly when `W` was zero before. -/
theorem C117_product_iff (junk : Nat → Nat) (hr : 0 < r) (hM : Rep M A) (hC : M.Clean) :
    ∃ z M', djb_compile junk M = .ok (z, M') ∧
      ∀ {k : Nat} {W V : Mzd} {W0 : Matrix (Fin r) (Fin k) (ZMod 2)} {B : Matrix (Fin c) (Fin k) (ZMod 2)}, Rep W W0 → Rep V B →
        ((∃ W', djb_apply_mzd z W V = .ok W' ∧ Rep W' (A * B)) ↔ W0 = 0) := by
  obtain ⟨z, M', T, h1, hT, h⟩ := C117_apply_partial junk hr hM hC
  refine ⟨z, M', h1, fun {k W V W0 B} hW hV => ?_⟩
  obtain ⟨W', h2, h3, _⟩ := h hW hV
  constructor
  · rintro ⟨W'', h4, h5⟩
    rw [h2] at h4
    obtain rfl : W' = W'' := by injection h4
    have e : A * B + T * W0 = A * B := by
      ext i j
      rw [← h3.bit, ← h5.bit]
    have e' : T * W0 = 0 := by simpa using e
    obtain ⟨U, rfl⟩ := hT
    calc W0 = (↑U⁻¹ * ↑U : Matrix (Fin r) (Fin r) (ZMod 2)) * W0 := by rw [Units.inv_mul, Matrix.one_mul]
      _ = 0 := by rw [Matrix.mul_assoc, e', Matrix.mul_zero]
  · rintro rfl
    rw [Matrix.mul_zero, add_zero] at h3
    exact ⟨W', h2, h3⟩

/-- C117: matrices whose rows take different numbers of words are rejected, whatever the program. -/
theorem C117_dimension (z : Djb) (W V : Mzd) (h : W.width ≠ V.width) : djb_apply_mzd z W V = .error .abort := if_pos h

/-- The 1 × 1 matrix 1 -/
def exOne : Mzd := ⟨1, 1, 0, ⟨1, 1, fun _ _ => 1#64⟩⟩

/-- The same as a window of a matrix whose next column is 1 too -/
def exOneWin : Mzd := ⟨1, 1, 0, ⟨1, 1, fun _ _ => 3#64⟩⟩

theorem exOne_rep : Rep exOne (1 : Matrix (Fin 1) (Fin 1) (ZMod 2)) ∧ exOne.Clean :=
  ⟨⟨⟨le_refl _, le_refl _⟩, rfl, rfl, fun i j => by fin_cases i; fin_cases j; rfl⟩, by
    intro i hi j h1 h2
    have h2' : j < 64 := h2
    have h1' : 1 ≤ j := h1
    show (1#64).getLsbD (j % 64) = false
    rw [Nat.mod_eq_of_lt h2']
    have : ∀ j' < 64, 1 ≤ j' → (1#64).getLsbD j' = false := by decide
    exact this j h2' h1'⟩

theorem exOneWin_rep : Rep exOneWin (1 : Matrix (Fin 1) (Fin 1) (ZMod 2)) :=
  ⟨⟨le_refl _, le_refl _⟩, rfl, rfl, fun i j => by fin_cases i; fin_cases j; rfl⟩

/-- C117, what goes wrong: 1 · 1, written over a matrix that held 1, is 0. -/
theorem C117_old_rows_violated (junk : Nat → Nat) :
    ((djb_compile junk exOne).bind fun s => djb_apply_mzd s.1 exOne exOne).map (fun W' => W'.bit 0 0) = .ok false := by
  with_unfolding_all rfl

/-- C117: the full statement does not hold. -/
theorem C117_violated : ¬ C117_statement := by
  intro h
  obtain ⟨z, M', h1, h2⟩ := h (fun _ => 0) (by omega) exOne_rep.1 exOne_rep.2
  obtain ⟨z', M'', h1', h2'⟩ := C117_product_iff (fun _ => 0) (by omega) exOne_rep.1 exOne_rep.2
  rw [h1] at h1'
  obtain ⟨rfl, rfl⟩ : z = z' ∧ M' = M'' := by injection h1' with e; exact Prod.mk.inj e
  exact absurd ((h2' exOne_rep.1 exOne_rep.1).1 (h2 exOne_rep.1 exOne_rep.1)) one_ne_zero

/-- C117, what goes wrong: the additions take whole words, so columns to the right of a window change (here from 0 to 1). -/
theorem C117_window_violated (junk : Nat → Nat) :
    ((djb_compile junk exOne).bind fun s => djb_apply_mzd s.1 (mzd_init 1 1) exOneWin).map (fun W' => (W'.bit 0 0, W'.bit 0 1)) = .ok (true, true) ∧
      (mzd_init 1 1).bit 0 1 = false := by
  refine ⟨?_, rfl⟩
  with_unfolding_all rfl

/-- The theorem applied to the matrix of C116 and a matrix that is not zero: the result is the sum. -/
example : ∃ z M', ∃ T : Matrix (Fin 3) (Fin 3) (ZMod 2), djb_compile (fun _ => 7) exDjb = .ok (z, M') ∧ IsUnit T ∧
    ∀ {V : Mzd} {B : Matrix (Fin 2) (Fin 2) (ZMod 2)}, Rep V B → ∃ W', djb_apply_mzd z exDjb V = .ok W' ∧ Rep W' (exDjbM * B + T * exDjbM) := by
  obtain ⟨z, M', T, h1, h2, h3⟩ := C117_apply_partial (fun _ => 7) (by omega) exDjb_rep.1 exDjb_rep.2
  exact ⟨z, M', T, h1, h2, fun hV => let ⟨W', a, b, _⟩ := h3 exDjb_rep.1 hV; ⟨W', a, b⟩⟩

end WB.m4w
