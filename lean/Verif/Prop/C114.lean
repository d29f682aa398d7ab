import Verif.Proof.M4riTrsmMat
import Verif.Proof.M4riPack

/-!
# C114 — systems with triangular matrices from the left in M4RI (`/repo/test/github1_M4RI/src/m4ri/triangular.c`, `triangular_russian.c`)

`mzd_trsm_lower_left(L, B, cutoff)` and `mzd_trsm_upper_left(U, B, cutoff)` replace `B` by the solution `X` of `L * X = B` and `U * X = B`, where `L` and `U` are triangular and have ones on the
diagonal.  `bs` is the number of rows from which on the matrices are cut into blocks (512 in this configuration); `e`, `junk` and `mb` are as in C108.
-/
namespace WB.m4w

variable {n c : Nat} {ML MB : Mzd} {A : Matrix (Fin n) (Fin n) (ZMod 2)} {B : Matrix (Fin n) (Fin c) (ZMod 2)}

/-- C114: triangular matrices with ones on the diagonal are invertible: the equations of the following theorems determine `X`. -/
theorem C114_unique (A : Matrix (Fin n) (Fin n) (ZMod 2)) {X Y : Matrix (Fin n) (Fin c) (ZMod 2)} :
    (unitLower A * X = unitLower A * Y → X = Y) ∧ (unitUpper A * X = unitUpper A * Y → X = Y) :=
  ⟨fun h => by
    have h1 := congrArg ((unitLower A)⁻¹ * ·) h
    simpa only [← Matrix.mul_assoc, Matrix.nonsing_inv_mul _ ((Matrix.isUnit_iff_isUnit_det _).1 (unitLower_unit A)), Matrix.one_mul] using h1,
   fun h => by
    have h1 := congrArg ((unitUpper A)⁻¹ * ·) h
    simpa only [← Matrix.mul_assoc, Matrix.nonsing_inv_mul _ ((Matrix.isUnit_iff_isUnit_det _).1 (unitUpper_unit A)), Matrix.one_mul] using h1⟩

/-- C114, full statement: both procedures solve the system, for every cutoff below `2^29`. -/
def C114_statement : Prop := ∀ (junk : Nat → Word) (mb : Mzd → Mzd → C Mzd) (dflt cutoff : Nat) (e : List Nat → TrsmEnv) {n c : Nat} {ML MB : Mzd} {A : Matrix (Fin n) (Fin n) (ZMod 2)}
  {B : Matrix (Fin n) (Fin c) (ZMod 2)}, asked dflt cutoff < 2 ^ 29 → n ≤ 2 ^ 24 → c < 2 ^ 29 → Rep ML A → ML.Clean → Rep MB B → MB.Clean →
  (∃ N X, mzd_trsm_lower_left (mzd_transpose_any junk mb) 512 dflt cutoff e ML MB = .ok N ∧ Rep N X ∧ unitLower A * X = B) ∧
  (∃ N X, mzd_trsm_upper_left (mzd_transpose_any junk mb) 512 cutoff e ML MB = .ok N ∧ Rep N X ∧ unitUpper A * X = B)

/-- C114, what holds: `mzd_trsm_lower_left` solves `L * X = B` for every right-hand side that has columns, and changes no bits outside of it.  Of `L` only the entries below the diagonal
matter. -/
theorem C114_lower_partial (junk : Nat → Word) (mb : Mzd → Mzd → C Mzd) (bs dflt cutoff : Nat) (e : List Nat → TrsmEnv) (hbs : 64 ≤ bs) (hcut : asked dflt cutoff < 2 ^ 29) (hn : n ≤ 2 ^ 24)
    (h0 : 0 < c) (hc : c < 2 ^ 29) (hL : Rep ML A) (hB : Rep MB B) (cB : bs < n → MB.Clean) :
    ∃ N X, mzd_trsm_lower_left (mzd_transpose_any junk mb) bs dflt cutoff e ML MB = .ok N ∧ Rep N X ∧ unitLower A * X = B ∧ ∀ i j, ¬ (i < n ∧ j < c) → N.bit i j = MB.bit i j := by
  unfold mzd_trsm_lower_left
  rw [hL.ncols, hL.nrows, hB.nrows, if_neg (by simp), if_neg (by simp)]
  obtain ⟨N, h1, h2⟩ := lower_left (junk := junk) (mb := mb) h0 hc hbs hcut (n + 1) e n ML MB (by omega) hn hL.wf hL.nrows hL.ncols hB.wf hB.nrows hB.ncols cB
  exact ⟨N, _, h1, bitsOf_rep hB h2.sh, h2.lower hL hB, h2.out⟩

/-- C114, what holds: `mzd_trsm_upper_left` solves `U * X = B` for every right-hand side that has columns and every cutoff that is a multiple of 64, 0 among them, and changes no bits outside of
it.  Of `U` only the entries above the diagonal matter. -/
theorem C114_upper_partial (junk : Nat → Word) (mb : Mzd → Mzd → C Mzd) (bs cutoff : Nat) (e : List Nat → TrsmEnv) (hbs : 256 ≤ bs) (hcut : cutoff % 64 = 0) (hcut' : cutoff < 2 ^ 29) (hn : n ≤ 2 ^ 24)
    (h0 : 0 < c) (hc : c < 2 ^ 29) (hL : Rep ML A) (cL : bs < n → ML.Clean) (hB : Rep MB B) (cB : bs < n → MB.Clean) :
    ∃ N X, mzd_trsm_upper_left (mzd_transpose_any junk mb) bs cutoff e ML MB = .ok N ∧ Rep N X ∧ unitUpper A * X = B ∧ ∀ i j, ¬ (i < n ∧ j < c) → N.bit i j = MB.bit i j := by
  unfold mzd_trsm_upper_left
  rw [hL.ncols, hL.nrows, hB.nrows, if_neg (by simp), if_neg (by simp)]
  obtain ⟨N, h1, h2⟩ := upper_left (junk := junk) (mb := mb) h0 hc hbs ⟨hcut, hcut'⟩ (n + 1) e n ML MB (by omega) hn hL.wf hL.nrows hL.ncols hB.wf hB.nrows hB.ncols cB cL
  exact ⟨N, _, h1, bitsOf_rep hB h2.sh, h2.upper hL hB, h2.out⟩

/-- C114, what holds: up to `bs` rows every cutoff is right in `mzd_trsm_upper_left`. -/
theorem C114_upper_small_partial (tr : Bool → Mzd → C Mzd) (bs cutoff : Nat) (e : List Nat → TrsmEnv) (hn : n ≤ bs) (h0 : 0 < c) (hL : Rep ML A) (hB : Rep MB B) :
    ∃ N X, mzd_trsm_upper_left tr bs cutoff e ML MB = .ok N ∧ Rep N X ∧ unitUpper A * X = B ∧ ∀ i j, ¬ (i < n ∧ j < c) → N.bit i j = MB.bit i j := by
  unfold mzd_trsm_upper_left
  rw [hL.ncols, hL.nrows, hB.nrows, if_neg (by simp), if_neg (by simp), _mzd_trsm_upper_left]
  simp only []
  rw [hB.nrows]
  by_cases h64 : n ≤ 64
  · rw [if_pos h64]
    obtain ⟨N, h1, h2⟩ := upperLeftBase_spec hL.wf hL.nrows hL.ncols hB.wf hB.nrows hB.ncols h0 h64
    exact ⟨N, _, h1, bitsOf_rep hB h2.sh, h2.upper hL hB, h2.out⟩
  · rw [if_neg h64, if_pos hn]
    obtain ⟨N, h1, h2⟩ := upper_left_russian hL.wf hL.nrows hL.ncols hB.wf hB.nrows hB.ncols h0 (by omega) (e []).align (e []).k0
    exact ⟨N, _, h1, bitsOf_rep hB h2.sh, h2.upper hL hB, h2.out⟩

/-- C114: matrices whose sizes do not match make the program abort. -/
theorem C114_dimension (tr : Bool → Mzd → C Mzd) (bs dflt cutoff : Nat) (e : List Nat → TrsmEnv) (h : ML.ncols ≠ MB.nrows ∨ ML.nrows ≠ ML.ncols) :
    mzd_trsm_lower_left tr bs dflt cutoff e ML MB = .error .abort ∧ mzd_trsm_upper_left tr bs cutoff e ML MB = .error .abort := by
  unfold mzd_trsm_lower_left mzd_trsm_upper_left
  by_cases h1 : ML.ncols ≠ MB.nrows
  · rw [if_pos h1, if_pos h1]
    exact ⟨rfl, rfl⟩
  · have h2 : ML.nrows ≠ ML.ncols := h.resolve_left h1
    rw [if_neg h1, if_neg h1, if_pos h2, if_pos h2]
    exact ⟨rfl, rfl⟩

/-- C114, what goes wrong: `mzd_trsm_upper_left` does not prepare the cutoff as the other procedures do.  With 1000 rows, 512 to 1023 columns and the cutoff 40 it accesses memory outside of the
matrices. -/
theorem C114_cutoff_violated (junk : Nat → Word) (mb : Mzd → Mzd → C Mzd) (e : List Nat → TrsmEnv) {A : Matrix (Fin 1000) (Fin 1000) (ZMod 2)} {B : Matrix (Fin 1000) (Fin c) (ZMod 2)}
    (h1 : 512 ≤ c) (h2 : c < 1024) (hL : Rep ML A) (hB : Rep MB B) : mzd_trsm_upper_left (mzd_transpose_any junk mb) 512 40 e ML MB = .error .oob := by
  unfold mzd_trsm_upper_left
  rw [hL.ncols, hL.nrows, hB.nrows, if_neg (by simp), if_neg (by simp)]
  exact upper_left_crash (fuel := 999) e h1 h2 hL.wf hL.nrows hL.ncols hB.wf hB.nrows hB.ncols

/-- C114, what goes wrong: when the right-hand side has no columns, `mzd_trsm_lower_left` accesses the word before the first one of a row, as soon as `L` has a one where the first two rows meet. -/
theorem C114_no_columns_violated (tr : Bool → Mzd → C Mzd) (bs dflt cutoff : Nat) (e : List Nat → TrsmEnv) {B : Matrix (Fin n) (Fin 0) (ZMod 2)} (hL : Rep ML A) (hB : Rep MB B) (hn : 2 ≤ n)
    (hn' : n ≤ 64) (h : A ⟨1, hn⟩ ⟨0, by omega⟩ = 1) : mzd_trsm_lower_left tr bs dflt cutoff e ML MB = .error .oob := by
  unfold mzd_trsm_lower_left
  rw [hL.ncols, hL.nrows, hB.nrows, if_neg (by simp), if_neg (by simp), _mzd_trsm_lower_left]
  simp only []
  rw [hB.nrows, if_pos hn']
  refine no_columns hL.wf hL.nrows hL.ncols hB.nrows hB.ncols hn ?_
  have h1 := hL.bit ⟨1, hn⟩ ⟨0, by omega⟩
  rw [h] at h1
  cases h2 : ML.bit 1 0 with
  | true => rfl
  | false =>
    rw [show ML.bit (Fin.val ⟨1, hn⟩) (Fin.val (⟨0, by omega⟩ : Fin n)) = ML.bit 1 0 from rfl, h2] at h1
    exact absurd h1 (by decide)

/-! ## Examples -/

/-- A matrix of `n` rows and columns. -/
def exTri (n : Nat) : Matrix (Fin n) (Fin n) (ZMod 2) := fun i j => bitF (decide (((i : Nat) * 3 + j * 5 + i * j) % 7 < 3))

/-- Its words. -/
def exTriM (n : Nat) : Mzd := pack n n fun i j => decide ((i * 3 + j * 5 + i * j) % 7 < 3)

theorem exTri_rep (n : Nat) : Rep (exTriM n) (exTri n) := pack_rep fun _ _ => rfl

/-- A right-hand side. -/
def exRhs (r c : Nat) : Matrix (Fin r) (Fin c) (ZMod 2) := fun i j => bitF (decide (((i : Nat) * 7 + j * 3 + i * j) % 5 < 2))

/-- Its words. -/
def exRhsM (r c : Nat) : Mzd := pack r c fun i j => decide ((i * 7 + j * 3 + i * j) % 5 < 2)

theorem exRhs_rep (r c : Nat) : Rep (exRhsM r c) (exRhs r c) := pack_rep fun _ _ => rfl

/-- C114 is false: 1000 rows, 600 columns and the cutoff 40. -/
theorem C114_violated : ¬ C114_statement := by
  intro h
  obtain ⟨N, X, h1, _⟩ := (h (fun _ => 0#64) (fun D _ => .ok D) 1024 40 (fun _ => ⟨true, 4, fun _ => ⟨fun _ _ => 0, true, 4⟩⟩) (by decide) (by omega) (by omega) (exTri_rep 1000) (pack_clean _ _ _)
    (exRhs_rep 1000 600) (pack_clean _ _ _)).2
  rw [C114_cutoff_violated _ _ _ (by omega) (by omega) (exTri_rep 1000) (exRhs_rep 1000 600)] at h1
  cases h1

/-- The system is cut into blocks twice. -/
example : ∃ N X, mzd_trsm_lower_left (mzd_transpose_any (fun _ => 7#64) fun D _ => .ok D) 512 1024 0 (fun l => ⟨true, l.length, fun _ => ⟨fun _ _ => 5, true, 4⟩⟩) (exTriM 1300) (exRhsM 1300 200) = .ok N ∧
    Rep N X ∧ unitLower (exTri 1300) * X = exRhs 1300 200 ∧ ∀ i j, ¬ (i < 1300 ∧ j < 200) → N.bit i j = (exRhsM 1300 200).bit i j :=
  C114_lower_partial _ _ _ _ _ _ (by omega) (by decide) (by omega) (by omega) (by omega) (exTri_rep _) (exRhs_rep _ _) fun _ => pack_clean _ _ _

example : ∃ N X, mzd_trsm_upper_left (mzd_transpose_any (fun _ => 7#64) fun D _ => .ok D) 512 0 (fun l => ⟨true, l.length, fun _ => ⟨fun _ _ => 5, true, 4⟩⟩) (exTriM 1300) (exRhsM 1300 200) = .ok N ∧
    Rep N X ∧ unitUpper (exTri 1300) * X = exRhs 1300 200 ∧ ∀ i j, ¬ (i < 1300 ∧ j < 200) → N.bit i j = (exRhsM 1300 200).bit i j :=
  C114_upper_partial _ _ _ _ _ (by omega) (by omega) (by omega) (by omega) (by omega) (by omega) (exTri_rep _) (fun _ => pack_clean _ _ _) (exRhs_rep _ _) fun _ => pack_clean _ _ _

example : ∃ N X, mzd_trsm_upper_left (mzd_transpose_any (fun _ => 7#64) fun D _ => .ok D) 512 40 (fun l => ⟨true, l.length, fun _ => ⟨fun _ _ => 5, true, 4⟩⟩) (exTriM 300) (exRhsM 300 200) = .ok N ∧
    Rep N X ∧ unitUpper (exTri 300) * X = exRhs 300 200 ∧ ∀ i j, ¬ (i < 300 ∧ j < 200) → N.bit i j = (exRhsM 300 200).bit i j :=
  C114_upper_small_partial _ _ _ _ (by omega) (by omega) (exTri_rep _) (exRhs_rep _ _)

example : mzd_trsm_upper_left (mzd_transpose_any (fun _ => 7#64) fun D _ => .ok D) 512 40 (fun l => ⟨true, l.length, fun _ => ⟨fun _ _ => 5, true, 4⟩⟩) (exTriM 1000) (exRhsM 1000 700) = .error .oob :=
  C114_cutoff_violated _ _ _ (by omega) (by omega) (exTri_rep _) (exRhs_rep _ _)

example : mzd_trsm_lower_left (mzd_transpose_any (fun _ => 7#64) fun D _ => .ok D) 512 1024 0 (fun l => ⟨true, l.length, fun _ => ⟨fun _ _ => 5, true, 4⟩⟩) (exTriM 9) (exRhsM 8 3) = .error .abort :=
  (C114_dimension _ _ _ _ _ (Or.inl (by decide))).1

/-- Five rows and no columns. -/
example : mzd_trsm_lower_left (mzd_transpose_any (fun _ => 7#64) fun D _ => .ok D) 512 1024 0 (fun l => ⟨true, l.length, fun _ => ⟨fun _ _ => 5, true, 4⟩⟩) (pack 5 5 fun _ _ => true) (exRhsM 5 0) =
    .error .oob :=
  C114_no_columns_violated (A := fun _ _ => 1) _ _ _ _ _ (pack_rep fun _ _ => rfl) (exRhs_rep _ _) (by omega) (by omega) rfl

example (X : Matrix (Fin 2) (Fin 3) (ZMod 2)) (h : unitLower (exTri 2) * X = unitLower (exTri 2) * exRhs 2 3) : X = exRhs 2 3 := (C114_unique _).1 h

end WB.m4w
