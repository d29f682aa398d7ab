import Verif.Prop.C114

/-!
# C115 — systems with triangular matrices from the right in M4RI (`/repo/test/github1_M4RI/src/m4ri/triangular.c`)

`mzd_trsm_lower_right(L, B, cutoff)` replaces `B` by the solution `X` of `X * L = B`, where `L` is triangular and has ones on the diagonal; `_mzd_trsm_upper_right_base(U, B)` does the same for `X * U = B` and
up to 64 columns.  `e`, `junk` and `mb` are as in C108, `junk'` is what an array holds that is not initialised.
-/
namespace WB.m4w

variable {r n : Nat} {ML MB : Mzd} {A : Matrix (Fin n) (Fin n) (ZMod 2)} {B : Matrix (Fin r) (Fin n) (ZMod 2)}

/-- C115: the equations of the following theorems determine `X`. -/
theorem C115_unique (A : Matrix (Fin n) (Fin n) (ZMod 2)) {X Y : Matrix (Fin r) (Fin n) (ZMod 2)} :
    (X * unitLower A = Y * unitLower A → X = Y) ∧ (X * unitUpper A = Y * unitUpper A → X = Y) :=
  ⟨fun h => by
    have h1 := congrArg (· * (unitLower A)⁻¹) h
    simpa only [Matrix.mul_assoc, Matrix.mul_nonsing_inv _ ((Matrix.isUnit_iff_isUnit_det _).1 (unitLower_unit A)), Matrix.mul_one] using h1,
   fun h => by
    have h1 := congrArg (· * (unitUpper A)⁻¹) h
    simpa only [Matrix.mul_assoc, Matrix.mul_nonsing_inv _ ((Matrix.isUnit_iff_isUnit_det _).1 (unitUpper_unit A)), Matrix.mul_one] using h1⟩

/-- C115, full statement: `mzd_trsm_lower_right` solves the system, for every cutoff below `2^29`. -/
def C115_statement : Prop := ∀ (junk junk' : Nat → Word) (mb : Mzd → Mzd → C Mzd) (dflt cutoff : Nat) (e : List Nat → TrsmEnv) {r n : Nat} {ML MB : Mzd} {A : Matrix (Fin n) (Fin n) (ZMod 2)}
  {B : Matrix (Fin r) (Fin n) (ZMod 2)}, asked dflt cutoff < 2 ^ 29 → n ≤ 2 ^ 24 → r < 2 ^ 29 → Rep ML A → ML.Clean → Rep MB B → MB.Clean →
  ∃ N X, mzd_trsm_lower_right (mzd_transpose_any junk mb) junk' dflt cutoff e ML MB = .ok N ∧ Rep N X ∧ X * unitLower A = B

/-- C115, what holds: `mzd_trsm_lower_right` solves `X * L = B` and changes no bits outside of the matrix, for all sizes and cutoffs except cutoffs from `2^29` on, and cutoffs below 128 for at least
128 rows and numbers of columns that are described by `TailCrash`.  Of `L` only the entries below the diagonal matter. -/
theorem C115_lower_partial (junk junk' : Nat → Word) (mb : Mzd → Mzd → C Mzd) (dflt cutoff : Nat) (e : List Nat → TrsmEnv) (hcut : asked dflt cutoff < 2 ^ 29) (hn : n ≤ 2 ^ 24) (hr : r < 2 ^ 29)
    (hL : Rep ML A) (hB : Rep MB B) (cB : 64 < n → MB.Clean) (hbad : asked dflt cutoff < 128 → 128 ≤ r → ¬ TailCrash n) :
    ∃ N X, mzd_trsm_lower_right (mzd_transpose_any junk mb) junk' dflt cutoff e ML MB = .ok N ∧ Rep N X ∧ X * unitLower A = B ∧ ∀ i j, ¬ (i < r ∧ j < n) → N.bit i j = MB.bit i j := by
  unfold mzd_trsm_lower_right
  rw [hL.ncols, hL.nrows, hB.ncols, if_neg (by simp), if_neg (by simp)]
  obtain ⟨N, h1, h2⟩ := lower_right (junk := junk) (junk' := junk') (mb := mb) hr hcut (n + 1) e n ML MB (by omega) hn hL.wf hL.nrows hL.ncols hB.wf hB.nrows hB.ncols cB hbad
  exact ⟨N, _, h1, bitsOf_rep hB h2.sh, h2.lower hL hB, h2.out⟩

/-- C115: with the default of this configuration, 1024, there is no exception. -/
theorem C115_default (junk junk' : Nat → Word) (mb : Mzd → Mzd → C Mzd) (e : List Nat → TrsmEnv) (hn : n ≤ 2 ^ 24) (hr : r < 2 ^ 29) (hL : Rep ML A) (hB : Rep MB B) (cB : 64 < n → MB.Clean) :
    ∃ N X, mzd_trsm_lower_right (mzd_transpose_any junk mb) junk' 1024 0 e ML MB = .ok N ∧ Rep N X ∧ X * unitLower A = B ∧ ∀ i j, ¬ (i < r ∧ j < n) → N.bit i j = MB.bit i j :=
  C115_lower_partial junk junk' mb 1024 0 e (by decide) hn hr hL hB cB fun h => absurd h (by decide)

/-- C115, what goes wrong: in all the other cases with a cutoff below 128 the program accesses memory outside of the matrices. -/
theorem C115_crash_violated (junk junk' : Nat → Word) (mb : Mzd → Mzd → C Mzd) (dflt cutoff : Nat) (e : List Nat → TrsmEnv) (hcut : asked dflt cutoff < 128) (hn : n ≤ 2 ^ 24) (hr : r < 2 ^ 29)
    (hL : Rep ML A) (hB : Rep MB B) (cB : MB.Clean) (hr' : 128 ≤ r) (h : TailCrash n) : mzd_trsm_lower_right (mzd_transpose_any junk mb) junk' dflt cutoff e ML MB = .error .oob := by
  unfold mzd_trsm_lower_right
  rw [hL.ncols, hL.nrows, hB.ncols, if_neg (by simp), if_neg (by simp)]
  exact lower_right_crash hr hcut hr' (n + 1) e n ML MB (by omega) hn hL.wf hL.nrows hL.ncols hB.wf hB.nrows hB.ncols cB h

/-- C115: `_mzd_trsm_upper_right_base` solves `X * U = B` for up to 64 columns and any number of rows. -/
theorem C115_upper_base (junk : Nat → Word) (hn : n ≤ 64) (hL : Rep ML A) (hB : Rep MB B) :
    ∃ N X, upperRightBase junk ML MB = .ok N ∧ Rep N X ∧ X * unitUpper A = B ∧ ∀ i j, ¬ (i < r ∧ j < n) → N.bit i j = MB.bit i j := by
  obtain ⟨N, h1, h2⟩ := upperRightBase_spec junk hL.wf hL.nrows hL.ncols hB.wf hB.nrows hB.ncols hn
  exact ⟨N, _, h1, bitsOf_rep hB h2.sh, h2.upper hL hB, h2.out⟩

/-- C115: matrices whose sizes do not match make the program abort. -/
theorem C115_dimension (tr : Bool → Mzd → C Mzd) (junk' : Nat → Word) (dflt cutoff : Nat) (e : List Nat → TrsmEnv) (h : ML.nrows ≠ MB.ncols ∨ ML.nrows ≠ ML.ncols) :
    mzd_trsm_lower_right tr junk' dflt cutoff e ML MB = .error .abort := by
  unfold mzd_trsm_lower_right
  by_cases h1 : ML.nrows ≠ MB.ncols
  · rw [if_pos h1]
  · rw [if_neg h1, if_pos (h.resolve_left h1)]

/-! ## Examples -/

/-- 250 columns: 3 words, and 58 more columns. -/
theorem tail_250 : TailCrash 250 := ⟨by decide, 0, by decide, by decide⟩

/-- C115 is false: 200 rows, 250 columns and the cutoff 64. -/
theorem C115_violated : ¬ C115_statement := by
  intro h
  obtain ⟨N, X, h1, _⟩ := h (fun _ => 0#64) (fun _ => 0#64) (fun D _ => .ok D) 1024 64 (fun _ => ⟨true, 4, fun _ => ⟨fun _ _ => 0, true, 4⟩⟩) (by decide) (by omega) (by omega) (exTri_rep 250)
    (pack_clean _ _ _) (exRhs_rep 200 250) (pack_clean _ _ _)
  rw [C115_crash_violated _ _ _ _ _ _ (by decide) (by omega) (by omega) (exTri_rep 250) (exRhs_rep 200 250) (pack_clean _ _ _) (by omega) tail_250] at h1
  cases h1

/-- The number of columns is large, and the cutoff is small. -/
example : ∃ N X, mzd_trsm_lower_right (mzd_transpose_any (fun _ => 7#64) fun D _ => .ok D) (fun _ => 3#64) 1024 64 (fun l => ⟨true, l.length, fun _ => ⟨fun _ _ => 5, true, 4⟩⟩) (exTriM 350) (exRhsM 200 350) =
    .ok N ∧ Rep N X ∧ X * unitLower (exTri 350) = exRhs 200 350 ∧ ∀ i j, ¬ (i < 200 ∧ j < 350) → N.bit i j = (exRhsM 200 350).bit i j :=
  C115_lower_partial _ _ _ _ _ _ (by decide) (by omega) (by omega) (exTri_rep _) (exRhs_rep _ _) (fun _ => pack_clean _ _ _) fun _ _ ⟨_, j, h1, h2⟩ => by
    rcases j with _ | _ | j
    · omega
    · omega
    · rw [Nat.pow_succ, Nat.pow_succ] at h1
      have := Nat.two_pow_pos j
      omega

example : ∃ N X, mzd_trsm_lower_right (mzd_transpose_any (fun _ => 7#64) fun D _ => .ok D) (fun _ => 3#64) 1024 0 (fun l => ⟨true, l.length, fun _ => ⟨fun _ _ => 5, true, 4⟩⟩) (exTriM 250) (exRhsM 200 250) =
    .ok N ∧ Rep N X ∧ X * unitLower (exTri 250) = exRhs 200 250 ∧ ∀ i j, ¬ (i < 200 ∧ j < 250) → N.bit i j = (exRhsM 200 250).bit i j :=
  C115_default _ _ _ _ (by omega) (by omega) (exTri_rep _) (exRhs_rep _ _) fun _ => pack_clean _ _ _

example : mzd_trsm_lower_right (mzd_transpose_any (fun _ => 7#64) fun D _ => .ok D) (fun _ => 3#64) 1024 100 (fun l => ⟨true, l.length, fun _ => ⟨fun _ _ => 5, true, 4⟩⟩) (exTriM 250) (exRhsM 200 250) =
    .error .oob :=
  C115_crash_violated _ _ _ _ _ _ (by decide) (by omega) (by omega) (exTri_rep _) (exRhs_rep _ _) (pack_clean _ _ _) (by omega) tail_250

example : ∃ N X, upperRightBase (fun _ => 3#64) (exTriM 50) (exRhsM 200 50) = .ok N ∧ Rep N X ∧ X * unitUpper (exTri 50) = exRhs 200 50 ∧ ∀ i j, ¬ (i < 200 ∧ j < 50) → N.bit i j = (exRhsM 200 50).bit i j :=
  C115_upper_base _ (by omega) (exTri_rep _) (exRhs_rep _ _)

example : mzd_trsm_lower_right (mzd_transpose_any (fun _ => 7#64) fun D _ => .ok D) (fun _ => 3#64) 1024 0 (fun l => ⟨true, l.length, fun _ => ⟨fun _ _ => 5, true, 4⟩⟩) (exTriM 9) (exRhsM 9 3) =
    .error .abort := C115_dimension _ _ _ _ _ (Or.inl (by decide))

example (X : Matrix (Fin 3) (Fin 2) (ZMod 2)) (h : X * unitLower (exTri 2) = exRhs 3 2 * unitLower (exTri 2)) : X = exRhs 3 2 := (C115_unique _).1 h

end WB.m4w
