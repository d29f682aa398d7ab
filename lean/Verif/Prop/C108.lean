import Verif.Prop.C100
import Verif.Proof.M4riAddmul

/-!
# C108 — the product after Strassen in M4RI (`/repo/test/github1_M4RI/src/m4ri/strassen.c`)

`mzd_mul(C, A, B, cutoff)` and `mzd_addmul(C, A, B, cutoff)` cut the matrices into blocks until they are small in comparison with the cutoff; 0 stands for a default.
The claims are for all sizes, cutoffs and defaults.  `e` and `junk` are what the program reads without having written it (addresses, uninitialised memory, the
parameter of the Gray code tables), and `win` says whether one of the matrices is a window into another one.
-/
namespace WB.m4w

/-- The cutoff that the caller asks for. -/
def asked (dflt cutoff : Nat) : Nat := if cutoff = 0 then dflt else cutoff

/-- Sizes of products that make the program abort, for cutoffs below 128. -/
def Aborts (m k n : Nat) : Prop := 86 ≤ m ∧ 86 ≤ k ∧ 86 ≤ n ∧ n < 128 ∧ m % 128 ≠ 0

/-- Sizes of products that make the program access memory outside of the matrices, for cutoffs below 128. -/
def Crashes (m k n : Nat) : Prop := 86 ≤ k ∧ k < 128 ∧ 128 ≤ m ∧ 128 ≤ n

theorem cutoff_ge (dflt cutoff : Nat) : 64 ≤ cutoffOf dflt cutoff := by
  unfold cutoffOf
  simp only []
  generalize (if cutoff = 0 then dflt else cutoff) = a
  split <;> omega

theorem cutoff_mod (dflt cutoff : Nat) : cutoffOf dflt cutoff % 64 = 0 := by
  unfold cutoffOf
  simp only []
  generalize (if cutoff = 0 then dflt else cutoff) = a
  split <;> omega

theorem cutoff_small {dflt cutoff : Nat} : cutoffOf dflt cutoff = 64 ↔ asked dflt cutoff < 128 := by
  unfold cutoffOf asked
  simp only []
  generalize (if cutoff = 0 then dflt else cutoff) = a
  split <;> omega

theorem cutoff_big {dflt cutoff : Nat} : 2 ^ 29 ≤ cutoffOf dflt cutoff ↔ 2 ^ 29 ≤ asked dflt cutoff := by
  unfold cutoffOf asked
  simp only []
  generalize (if cutoff = 0 then dflt else cutoff) = a
  split <;> omega

theorem closer_fits {a dflt cutoff : Nat} (h : asked dflt cutoff < 2 ^ 29) (ha : a < 2 ^ 29) : closerOverflows a (cutoffOf dflt cutoff) = false := by
  have := (cutoff_big (dflt := dflt) (cutoff := cutoff)).not
  unfold closerOverflows
  rw [Bool.or_eq_false_iff]
  constructor <;> rw [decide_eq_false_iff_not] <;> omega

theorem product_fits {m k n dflt cutoff : Nat} (h : asked dflt cutoff < 2 ^ 29) (hm : m < 2 ^ 29) (hk : k ≤ 2 ^ 24) (hn : n < 2 ^ 29) :
    productOverflows m k n (cutoffOf dflt cutoff) = false := by
  unfold productOverflows
  rw [closer_fits h hm, closer_fits h (show k < 2 ^ 29 by omega), closer_fits h hn]
  simp

variable {m k n : Nat} {MA MB MC : Mzd} {A : Matrix (Fin m) (Fin k) (ZMod 2)} {B : Matrix (Fin k) (Fin n) (ZMod 2)} {X : Matrix (Fin m) (Fin n) (ZMod 2)}

/-- C108, full statement: the product is right, for every cutoff. -/
def C108_statement : Prop := ∀ (junk : Nat → Word) (mb : Mzd → Mzd → C Mzd) (e : List Nat → MulEnv) (win : Bool) (dflt cutoff : Nat) {m k n : Nat} {MA MB : Mzd}
  {A : Matrix (Fin m) (Fin k) (ZMod 2)} {B : Matrix (Fin k) (Fin n) (ZMod 2)}, 0 < k → k ≤ 2 ^ 24 → m < 2 ^ 29 → n < 2 ^ 29 → Rep MA A → MA.Clean → Rep MB B → MB.Clean →
  ∃ D, mzd_mul (mzd_transpose_any junk mb) e win dflt cutoff MA MB = .ok D ∧ Rep D (A * B) ∧ D.Clean

/-- C108, what holds: `mzd_mul(NULL, A, B, cutoff)` is the product of the two matrices and its unused bits are zero, for all sizes and cutoffs except the following: cutoffs from
`2^29` on, and cutoffs below 128 for sizes that are described by `Aborts` and `Crashes`. -/
theorem C108_product_partial (junk : Nat → Word) (mb : Mzd → Mzd → C Mzd) (e : List Nat → MulEnv) (win : Bool) (dflt cutoff : Nat) (hk : 0 < k) (hk' : k ≤ 2 ^ 24) (hm : m < 2 ^ 29)
    (hn : n < 2 ^ 29) (hA : Rep MA A) (cA : MA.Clean) (hB : Rep MB B) (cB : MB.Clean) (hbig : asked dflt cutoff < 2 ^ 29)
    (hbad : asked dflt cutoff < 128 → ¬ Aborts m k n ∧ ¬ Crashes m k n) :
    ∃ D, mzd_mul (mzd_transpose_any junk mb) e win dflt cutoff MA MB = .ok D ∧ Rep D (A * B) ∧ D.Clean := by
  unfold mzd_mul
  rw [hA.nrows, hA.ncols, hB.nrows, hB.ncols, if_neg (by simp), if_neg (by rw [product_fits hbig hm hk' hn]; simp)]
  have hg : Good (cutoffOf dflt cutoff) m k n := by
    unfold Good
    rw [cutoff_small]
    unfold Aborts Crashes at hbad
    omega
  obtain ⟨D, e1, h1⟩ := mul_even (transposes_any junk mb) (cutoff_ge dflt cutoff) (cutoff_mod dflt cutoff) (m + 1) e win m k n (by omega) (Or.inl hk) hk' hg (init_wf m n) rfl rfl hA cA hB cB
  exact ⟨D, e1, h1.rep (init_wf m n) rfl rfl, h1.clean rfl (init_clean m n)⟩

/-- C108: with the default of this configuration, 1024, there is no exception. -/
theorem C108_default (junk : Nat → Word) (mb : Mzd → Mzd → C Mzd) (e : List Nat → MulEnv) (win : Bool) (hk : 0 < k) (hk' : k ≤ 2 ^ 24) (hm : m < 2 ^ 29)
    (hn : n < 2 ^ 29) (hA : Rep MA A) (cA : MA.Clean) (hB : Rep MB B) (cB : MB.Clean) :
    ∃ D, mzd_mul (mzd_transpose_any junk mb) e win 1024 0 MA MB = .ok D ∧ Rep D (A * B) ∧ D.Clean :=
  C108_product_partial junk mb e win 1024 0 hk hk' hm hn hA cA hB cB (by decide) fun h => absurd h (by decide)

/-- C108: different cutoffs, and the product without Strassen, give the same words. -/
theorem C108_cutoff (junk junk' : Nat → Word) (mb mb' : Mzd → Mzd → C Mzd) (e : List Nat → MulEnv) (e' : MulEnv) (win : Bool) (dflt cutoff : Nat) (hk : 0 < k) (hn0 : 0 < n)
    (hk' : k ≤ 2 ^ 24) (hm : m < 2 ^ 29) (hn : n < 2 ^ 29) (hA : Rep MA A) (cA : MA.Clean) (hB : Rep MB B) (cB : MB.Clean) (hbig : asked dflt cutoff < 2 ^ 29)
    (hbad : asked dflt cutoff < 128 → ¬ Aborts m k n ∧ ¬ Crashes m k n) :
    ∃ D D', mzd_mul (mzd_transpose_any junk mb) e win dflt cutoff MA MB = .ok D ∧ mzd_mul_m4rm (mzd_transpose junk' mb') e' MA MB = .ok D' ∧
      ∀ i < m, ∀ j < D.width, D.word i j = D'.word i j := by
  obtain ⟨D, h1, h2, h3⟩ := C108_product_partial junk mb e win dflt cutoff hk hk' hm hn hA cA hB cB hbig hbad
  obtain ⟨D', h4, h5, h6⟩ := C100_product junk' mb' e' hk hn0 (fun h => fits_small hk' h) hA cA hB cB
  refine ⟨D, D', h1, h4, fun i hi j hj => bit_ext fun b hb => ?_⟩
  have w : D'.width = D.width := by unfold Mzd.width; rw [h2.ncols, h5.ncols]
  have e1 : (D.word i j).getLsbD b = D.bit i (64 * j + b) := by
    unfold Mzd.bit; rw [show (64 * j + b) / 64 = j by omega, show (64 * j + b) % 64 = b by omega]
  have e2 : (D'.word i j).getLsbD b = D'.bit i (64 * j + b) := by
    unfold Mzd.bit; rw [show (64 * j + b) / 64 = j by omega, show (64 * j + b) % 64 = b by omega]
  rw [e1, e2]
  by_cases hb' : 64 * j + b < n
  · exact bitF_inj.1 ((h2.bit ⟨i, hi⟩ ⟨_, hb'⟩).trans (h5.bit ⟨i, hi⟩ ⟨_, hb'⟩).symm)
  · rw [h3 i (by rw [h2.nrows]; exact hi) _ (by rw [h2.ncols]; omega) (by omega), h6 i (by rw [h5.nrows]; exact hi) _ (by rw [h5.ncols]; omega) (by omega)]

/-- C108: matrices whose sizes do not match make the program abort. -/
theorem C108_dimension (tr : Bool → Mzd → C Mzd) (e : List Nat → MulEnv) (win : Bool) (dflt cutoff : Nat) (h : MA.ncols ≠ MB.nrows) :
    mzd_mul tr e win dflt cutoff MA MB = .error .abort ∧ mzd_addmul tr e win dflt cutoff MC MA MB = .error .abort := ⟨if_pos h, if_pos h⟩

/-- C108, what goes wrong: for cutoffs below 128 the program aborts on products of certain sizes, among them the square matrices of 86 to 127 rows. -/
theorem C108_abort_violated (junk : Nat → Word) (mb : Mzd → Mzd → C Mzd) (e : List Nat → MulEnv) (win : Bool) (dflt cutoff : Nat) (hk' : k ≤ 2 ^ 24) (hm : m < 2 ^ 29) (hA : Rep MA A)
    (cA : MA.Clean) (hB : Rep MB B) (cB : MB.Clean) (hs : asked dflt cutoff < 128) (h : Aborts m k n) :
    mzd_mul (mzd_transpose_any junk mb) e win dflt cutoff MA MB = .error .abort := by
  obtain ⟨h1, h2, h3, h4, h5⟩ := h
  unfold mzd_mul
  rw [hA.nrows, hA.ncols, hB.nrows, hB.ncols, if_neg (by simp), if_neg (by rw [product_fits (by omega) hm hk' (by omega)]; simp), cutoff_small.2 hs]
  exact mul_even_abort (transposes_any junk mb) (fun b M h1 h2 => transpose_empty junk mb b (Or.inr ⟨h1, h2⟩)) e win (Nat.le_refl m) hk' (init_wf m n) rfl rfl hA cA hB cB h1 h2 h3 h4 h5

/-- C108, what goes wrong: for cutoffs below 128 the program accesses memory outside of the matrices, when the common dimension is 86 to 127 and the product has at least 128 rows and columns. -/
theorem C108_crash_violated (tr : Bool → Mzd → C Mzd) (e : List Nat → MulEnv) (win : Bool) (dflt cutoff : Nat) (hm : m < 2 ^ 29) (hn : n < 2 ^ 29) (hA : Rep MA A)
    (hB : Rep MB B) (hs : asked dflt cutoff < 128) (h : Crashes m k n) : mzd_mul tr e win dflt cutoff MA MB = .error .oob := by
  obtain ⟨h1, h2, h3, h4⟩ := h
  unfold mzd_mul
  rw [hA.nrows, hA.ncols, hB.nrows, hB.ncols, if_neg (by simp), if_neg (by rw [product_fits (by omega) hm (by omega) hn]; simp), cutoff_small.2 hs]
  obtain ⟨f, rfl⟩ : ∃ f, m = f + 1 := ⟨m - 1, by omega⟩
  exact mul_even_crash tr e win (init_wf _ n) rfl rfl hA hB h3 h4 h1 h2

/-- C108, what goes wrong: with a cutoff of `2^29` or more, such as `INT_MAX` for "never", the comparison with the cutoff overflows. -/
theorem C108_overflow_violated (tr : Bool → Mzd → C Mzd) (e : List Nat → MulEnv) (win : Bool) (dflt cutoff : Nat) (hm : 0 < m) (hn : 0 < n) (hA : Rep MA A) (hB : Rep MB B)
    (h : 2 ^ 29 ≤ asked dflt cutoff) : mzd_mul tr e win dflt cutoff MA MB = .error .overflow := by
  have h' := cutoff_big.2 h
  unfold mzd_mul
  rw [hA.nrows, hA.ncols, hB.nrows, hB.ncols, if_neg (by simp)]
  refine if_pos ⟨by omega, by omega, ?_⟩
  unfold productOverflows closerOverflows
  rw [show decide (2 ^ 31 ≤ 4 * cutoffOf dflt cutoff) = true from decide_eq_true (by omega), Bool.or_true, Bool.true_or]

/-! ## Squares -/

/-- C108, what holds for squares (`mzd_mul(NULL, A, A, cutoff)` takes another path through the program): the only exceptions are cutoffs from `2^29` on, and 86 to 127 rows for
cutoffs below 128. -/
theorem C108_square_partial (junk : Nat → Word) (mb : Mzd → Mzd → C Mzd) (e : List Nat → MulEnv) (win : Bool) (dflt cutoff : Nat) {A : Matrix (Fin m) (Fin m) (ZMod 2)} (hm : m ≤ 2 ^ 24)
    (hA : Rep MA A) (cA : MA.Clean) (hbig : asked dflt cutoff < 2 ^ 29) (hbad : asked dflt cutoff < 128 → m < 86 ∨ 128 ≤ m) :
    ∃ D, mzd_sqr (mzd_transpose_any junk mb) e win dflt cutoff MA = .ok D ∧ Rep D (A * A) ∧ D.Clean := by
  unfold mzd_sqr
  rw [hA.nrows, hA.ncols, if_neg (by simp), if_neg (by rw [closer_fits hbig (by omega)]; simp)]
  have hg : Good (cutoffOf dflt cutoff) m m m := by
    unfold Good
    rw [cutoff_small]
    omega
  obtain ⟨D, e1, h1⟩ := sqr_even (transposes_any junk mb) (transposes_zero junk mb) (cutoff_ge dflt cutoff) (cutoff_mod dflt cutoff) (m + 1) e win m (by omega) hm hg (init_wf m m) rfl rfl hA cA
  exact ⟨D, e1, h1.rep (init_wf m m) rfl rfl, h1.clean rfl (init_clean m m)⟩

/-- C108, what goes wrong: these squares make the program abort. -/
theorem C108_square_abort_violated (junk : Nat → Word) (mb : Mzd → Mzd → C Mzd) (e : List Nat → MulEnv) (win : Bool) (dflt cutoff : Nat) {A : Matrix (Fin m) (Fin m) (ZMod 2)}
    (hA : Rep MA A) (cA : MA.Clean) (hs : asked dflt cutoff < 128) (h1 : 86 ≤ m) (h2 : m < 128) :
    mzd_sqr (mzd_transpose_any junk mb) e win dflt cutoff MA = .error .abort := by
  unfold mzd_sqr
  rw [hA.nrows, hA.ncols, if_neg (by simp), if_neg (by rw [closer_fits (by omega) (by omega)]; simp), cutoff_small.2 hs]
  obtain ⟨f, rfl⟩ : ∃ f, m = f + 1 := ⟨m - 1, by omega⟩
  exact sqr_even_abort (transposes_any junk mb) (transposes_zero junk mb) (fun b M h1 h2 => transpose_empty junk mb b (Or.inr ⟨h1, h2⟩)) e win (init_wf _ _) rfl rfl hA cA h1 h2

/-! ## Products that are added -/

/-- C108, what holds: `mzd_addmul(C, A, B, cutoff)` adds the product to `C` and changes no other bits, for all sizes and cutoffs except cutoffs from `2^29` on, and cutoffs below 128
for sizes that are described by `Crashes`. -/
theorem C108_addmul_partial (junk : Nat → Word) (mb : Mzd → Mzd → C Mzd) (e : List Nat → MulEnv) (win : Bool) (dflt cutoff : Nat) (hk' : k ≤ 2 ^ 24) (hm : m < 2 ^ 29)
    (hn : n < 2 ^ 29) (hX : Rep MC X) (hA : Rep MA A) (cA : MA.Clean) (hB : Rep MB B) (cB : MB.Clean) (hbig : asked dflt cutoff < 2 ^ 29)
    (hbad : asked dflt cutoff < 128 → ¬ Crashes m k n) :
    ∃ D, mzd_addmul (mzd_transpose_any junk mb) e win dflt cutoff MC MA MB = .ok D ∧ Rep D (X + A * B) ∧ ∀ i j, ¬ (i < m ∧ j < n) → D.bit i j = MC.bit i j := by
  unfold mzd_addmul
  rw [hX.nrows, hX.ncols, hA.nrows, hA.ncols, hB.nrows, hB.ncols, if_neg (by simp), if_neg (by simp)]
  by_cases hz : m = 0 ∨ k = 0 ∨ n = 0
  · rw [if_pos hz]
    refine ⟨MC, rfl, ?_, fun _ _ _ => rfl⟩
    refine ⟨hX.wf, hX.nrows, hX.ncols, fun i j => ?_⟩
    rw [hX.bit, Matrix.add_apply, Matrix.mul_apply]
    have h1 := i.2
    have h2 := j.2
    have : k = 0 := by omega
    subst this
    simp
  rw [if_neg hz, if_neg (by rw [product_fits hbig hm hk' hn]; simp)]
  have hg : GoodAdd (cutoffOf dflt cutoff) m k n := by
    unfold GoodAdd
    rw [cutoff_small]
    unfold Crashes at hbad
    omega
  obtain ⟨D, e1, h1⟩ := addmul_even (transposes_any junk mb) (cutoff_ge dflt cutoff) (cutoff_mod dflt cutoff) (m + 1) e win m k n (by omega) (by omega) hk' hg hX hA cA hB cB
  exact ⟨D, e1, h1.rep hX.wf hX.nrows hX.ncols, h1.out⟩

/-- C108, what goes wrong: for these sizes the program accesses memory outside of the matrices. -/
theorem C108_addmul_crash_violated (tr : Bool → Mzd → C Mzd) (e : List Nat → MulEnv) (win : Bool) (dflt cutoff : Nat) (hm : m < 2 ^ 29) (hn : n < 2 ^ 29) (hX : Rep MC X) (hA : Rep MA A)
    (hB : Rep MB B) (hs : asked dflt cutoff < 128) (h : Crashes m k n) : mzd_addmul tr e win dflt cutoff MC MA MB = .error .oob := by
  obtain ⟨h1, h2, h3, h4⟩ := h
  unfold mzd_addmul
  rw [hX.nrows, hX.ncols, hA.nrows, hA.ncols, hB.nrows, hB.ncols, if_neg (by simp), if_neg (by simp), if_neg (by omega), if_neg (by rw [product_fits (by omega) hm (by omega) hn]; simp),
    cutoff_small.2 hs]
  obtain ⟨f, rfl⟩ : ∃ f, m = f + 1 := ⟨m - 1, by omega⟩
  exact addmul_even_crash tr e win hX hA hB h3 h4 h1 h2

/-- C108: squares that are added (`mzd_addmul(C, A, A, cutoff)`) are right for all sizes and cutoffs below `2^29`. -/
theorem C108_addsquare (junk : Nat → Word) (mb : Mzd → Mzd → C Mzd) (e : List Nat → MulEnv) (win : Bool) (dflt cutoff : Nat) {X A : Matrix (Fin m) (Fin m) (ZMod 2)} (hm : m ≤ 2 ^ 24)
    (hX : Rep MC X) (hA : Rep MA A) (cA : MA.Clean) (hbig : asked dflt cutoff < 2 ^ 29) :
    ∃ D, mzd_addsqr (mzd_transpose_any junk mb) e win dflt cutoff MC MA = .ok D ∧ Rep D (X + A * A) ∧ ∀ i j, ¬ (i < m ∧ j < m) → D.bit i j = MC.bit i j := by
  unfold mzd_addsqr
  rw [hX.nrows, hX.ncols, hA.nrows, hA.ncols, if_neg (by simp), if_neg (by simp)]
  by_cases hz : m = 0 ∨ m = 0
  · rw [if_pos hz]
    refine ⟨MC, rfl, ⟨hX.wf, hX.nrows, hX.ncols, fun i j => ?_⟩, fun _ _ _ => rfl⟩
    have h1 := i.2
    omega
  rw [if_neg hz, if_neg (by rw [closer_fits hbig (by omega)]; simp)]
  obtain ⟨D, e1, h1⟩ := addsqr_even (transposes_any junk mb) (transposes_zero junk mb) (cutoff_ge dflt cutoff) (cutoff_mod dflt cutoff) (m + 1) e win m (by omega) hm hX hA cA
  exact ⟨D, e1, h1.rep hX.wf hX.nrows hX.ncols, h1.out⟩

/-! ## Examples -/

/-- A matrix of 100 rows and 100 columns. -/
def exS : Matrix (Fin 100) (Fin 100) (ZMod 2) := fun i j => bitF (decide (((i : Nat) * 3 + j * 5 + i * j) % 7 < 3))

/-- Its words. -/
def exSM : Mzd := pack 100 100 fun i j => decide ((i * 3 + j * 5 + i * j) % 7 < 3)

theorem exS_rep : Rep exSM exS := pack_rep fun _ _ => rfl

/-- A matrix of 300 rows and 200 columns. -/
def exL : Matrix (Fin 300) (Fin 200) (ZMod 2) := fun i j => bitF (decide (((i : Nat) * 3 + j * 5 + i * j) % 7 < 3))

/-- Its words. -/
def exLM : Mzd := pack 300 200 fun i j => decide ((i * 3 + j * 5 + i * j) % 7 < 3)

theorem exL_rep : Rep exLM exL := pack_rep fun _ _ => rfl

/-- A matrix of 200 rows and 130 columns. -/
def exR : Matrix (Fin 200) (Fin 130) (ZMod 2) := fun i j => bitF (decide (((i : Nat) * 7 + j * 3 + i * j) % 5 < 2))

/-- Its words. -/
def exRM : Mzd := pack 200 130 fun i j => decide ((i * 7 + j * 3 + i * j) % 5 < 2)

theorem exR_rep : Rep exRM exR := pack_rep fun _ _ => rfl

/-- Two other matrices, for the crash. -/
def exW : Matrix (Fin 130) (Fin 100) (ZMod 2) := fun i j => bitF (decide (((i : Nat) * 7 + j * 3 + i * j) % 5 < 2))

/-- Its words. -/
def exWM : Mzd := pack 130 100 fun i j => decide ((i * 7 + j * 3 + i * j) % 5 < 2)

theorem exW_rep : Rep exWM exW := pack_rep fun _ _ => rfl

/-- The other one. -/
def exV : Matrix (Fin 100) (Fin 140) (ZMod 2) := fun i j => bitF (decide (((i : Nat) * 7 + j * 3 + i * j) % 5 < 2))

/-- Its words. -/
def exVM : Mzd := pack 100 140 fun i j => decide ((i * 7 + j * 3 + i * j) % 5 < 2)

theorem exV_rep : Rep exVM exV := pack_rep fun _ _ => rfl

/-- C108 is false: the product of two matrices of 100 rows and columns with the cutoff 64. -/
theorem C108_violated : ¬ C108_statement := by
  intro h
  obtain ⟨D, h1, _⟩ := h (fun _ => 0#64) (fun D _ => .ok D) (fun _ => ⟨fun _ _ => 0, true, 4⟩) false 1024 64 (by omega) (by omega) (by omega) (by omega) exS_rep (pack_clean _ _ _) exS_rep (pack_clean _ _ _)
  rw [C108_abort_violated _ _ _ _ _ _ (by omega) (by omega) exS_rep (pack_clean _ _ _) exS_rep (pack_clean _ _ _) (by decide) (by unfold Aborts; omega)] at h1
  cases h1

/-- Blocks and rests are used: 300 × 200 times 200 × 130 with the cutoff 64. -/
example : ∃ D, mzd_mul (mzd_transpose_any (fun _ => 7#64) fun D _ => .ok D) (fun l => ⟨fun _ _ => 5, true, l.length⟩) false 1024 64 exLM exRM = .ok D ∧ Rep D (exL * exR) ∧ D.Clean :=
  C108_product_partial _ _ _ _ _ _ (by omega) (by omega) (by omega) (by omega) exL_rep (pack_clean _ _ _) exR_rep (pack_clean _ _ _) (by decide)
    fun _ => by unfold Aborts Crashes; omega

example : ∃ D, mzd_mul (mzd_transpose_any (fun _ => 7#64) fun D _ => .ok D) (fun l => ⟨fun _ _ => 5, true, l.length⟩) false 1024 0 exSM exSM = .ok D ∧ Rep D (exS * exS) ∧ D.Clean :=
  C108_default _ _ _ _ (by omega) (by omega) (by omega) (by omega) exS_rep (pack_clean _ _ _) exS_rep (pack_clean _ _ _)

example : ∃ D D', mzd_mul (mzd_transpose_any (fun _ => 7#64) fun D _ => .ok D) (fun l => ⟨fun _ _ => 5, true, l.length⟩) false 1024 64 exLM exRM = .ok D ∧
    mzd_mul_m4rm (mzd_transpose (fun _ => 9#64) fun D _ => .ok D) ⟨fun _ _ => 6, false, 3⟩ exLM exRM = .ok D' ∧ ∀ i < 300, ∀ j < D.width, D.word i j = D'.word i j :=
  C108_cutoff _ _ _ _ _ _ _ _ _ (by omega) (by omega) (by omega) (by omega) (by omega) exL_rep (pack_clean _ _ _) exR_rep (pack_clean _ _ _) (by decide)
    fun _ => by unfold Aborts Crashes; omega

example : mzd_mul (mzd_transpose_any (fun _ => 7#64) fun D _ => .ok D) (fun _ => ⟨fun _ _ => 5, true, 4⟩) false 1024 64 exRM exLM = .error .abort := (C108_dimension (MC := exLM) _ _ _ _ _ (by decide)).1

example : mzd_mul (mzd_transpose_any (fun _ => 7#64) fun D _ => .ok D) (fun _ => ⟨fun _ _ => 5, true, 4⟩) false 1024 64 exSM exSM = .error .abort :=
  C108_abort_violated _ _ _ _ _ _ (by omega) (by omega) exS_rep (pack_clean _ _ _) exS_rep (pack_clean _ _ _) (by decide) (by unfold Aborts; omega)

example : mzd_mul (mzd_transpose_any (fun _ => 7#64) fun D _ => .ok D) (fun _ => ⟨fun _ _ => 5, true, 4⟩) false 1024 100 exWM exVM = .error .oob :=
  C108_crash_violated _ _ _ _ _ (by omega) (by omega) exW_rep exV_rep (by decide) (by unfold Crashes; omega)

example : mzd_mul (mzd_transpose_any (fun _ => 7#64) fun D _ => .ok D) (fun _ => ⟨fun _ _ => 5, true, 4⟩) false 1024 (2 ^ 31 - 1) exSM exSM = .error .overflow :=
  C108_overflow_violated _ _ _ _ _ (by omega) (by omega) exS_rep exS_rep (by decide)

example : ∃ D, mzd_sqr (mzd_transpose_any (fun _ => 7#64) fun D _ => .ok D) (fun _ => ⟨fun _ _ => 5, true, 4⟩) true 1024 200 exSM = .ok D ∧ Rep D (exS * exS) ∧ D.Clean :=
  C108_square_partial _ _ _ _ _ _ (by omega) exS_rep (pack_clean _ _ _) (by decide) fun h => absurd h (by decide)

example : mzd_sqr (mzd_transpose_any (fun _ => 7#64) fun D _ => .ok D) (fun _ => ⟨fun _ _ => 5, true, 4⟩) true 1024 64 exSM = .error .abort :=
  C108_square_abort_violated _ _ _ _ _ _ exS_rep (pack_clean _ _ _) (by decide) (by omega) (by omega)

example : ∃ D, mzd_addmul (mzd_transpose_any (fun _ => 7#64) fun D _ => .ok D) (fun _ => ⟨fun _ _ => 5, true, 4⟩) false 1024 64 exSM exSM exSM = .ok D ∧ Rep D (exS + exS * exS) ∧
    ∀ i j, ¬ (i < 100 ∧ j < 100) → D.bit i j = exSM.bit i j :=
  C108_addmul_partial _ _ _ _ _ _ (by omega) (by omega) (by omega) exS_rep exS_rep (pack_clean _ _ _) exS_rep (pack_clean _ _ _) (by decide) fun _ => by unfold Crashes; omega

example : mzd_addmul (mzd_transpose_any (fun _ => 7#64) fun D _ => .ok D) (fun _ => ⟨fun _ _ => 5, true, 4⟩) false 1024 64 (mzd_init 130 140) exWM exVM = .error .oob :=
  C108_addmul_crash_violated (m := 130) (n := 140) _ _ _ _ _ (by omega) (by omega) (X := 0) ⟨init_wf _ _, rfl, rfl, fun i j => by rw [init_bit]; rfl⟩ exW_rep exV_rep (by decide) (by unfold Crashes; omega)

example : ∃ D, mzd_addsqr (mzd_transpose_any (fun _ => 7#64) fun D _ => .ok D) (fun _ => ⟨fun _ _ => 5, true, 4⟩) false 1024 64 exSM exSM = .ok D ∧ Rep D (exS + exS * exS) ∧
    ∀ i j, ¬ (i < 100 ∧ j < 100) → D.bit i j = exSM.bit i j :=
  C108_addsquare _ _ _ _ _ _ (by omega) exS_rep exS_rep (pack_clean _ _ _) (by decide)

end WB.m4w
