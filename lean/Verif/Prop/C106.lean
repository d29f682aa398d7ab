import Verif.Prop.C103
import Verif.Prop.C105
import Verif.Proof.M4riSub

/-!
# C106 — elimination row by row, submatrices and the naive inverse in M4RI (`/repo/test/github1_M4RI/src/m4ri/mzd.c`)
-/
namespace WB.m4w

/-- C106: `mzd_echelonize_naive(A, TRUE)` for every matrix: the number that is returned is the rank, and the matrix is replaced by its reduced row echelon
form.  The unused bits are left as they are. -/
theorem C106_reduced {M : Mzd} {r c : Nat} {A : Matrix (Fin r) (Fin c) (ZMod 2)} (hM : Rep M A) :
    ∃ N, mzd_echelonize_naive M true = .ok (N, A.rank) ∧ (∃ P : Matrix (Fin r) (Fin r) (ZMod 2), IsUnit P ∧ Rep N (P * A) ∧ IsRref (P * A) A.rank) ∧
      ∀ i j, c ≤ j → N.bit i j = M.bit i j := by
  obtain ⟨⟨N, n⟩, e, p, hx⟩ := naive_spec hM.wf true
  obtain ⟨P, hP, h3, h4, h5⟩ := EchRes.rref (x := (N, n)) ⟨p, hx.toEI⟩ hM.wf hM
  dsimp only at h3 h4 h5
  have hn : n = A.rank := by rw [← h4.rank, Matrix.rank_mul_eq_right_of_isUnit_det _ _ ((Matrix.isUnit_iff_isUnit_det _).1 hP)]
  rw [hn] at e h4
  exact ⟨N, e, ⟨P, hP, h3, h4⟩, fun i j hj => h5 i j (.inr hj)⟩

/-- C106: the words of the result are those that the method of the four Russians computes. -/
theorem C106_same {M : Mzd} {r c : Nat} {A : Matrix (Fin r) (Fin c) (ZMod 2)} (hM : Rep M A) {k fuel : Nat} (h1 : 1 ≤ k) (h2 : k ≤ 10) (hf : 2 * c + 2 ≤ fuel) :
    ∃ N N', mzd_echelonize_naive M true = .ok (N, A.rank) ∧ mzd_echelonize_m4ri fuel M k = .ok (N', A.rank) ∧ ∀ i < r, ∀ j, N.bit i j = N'.bit i j := by
  obtain ⟨N, e1, ⟨P, hP, g1, g2⟩, g3⟩ := C106_reduced hM
  obtain ⟨N', e2, ⟨Q, hQ, q1, q2⟩, q3⟩ := C102_echelonize hM h1 h2 hf
  refine ⟨N, N', e1, e2, fun i hi j => ?_⟩
  by_cases hj : j < c
  · refine bitF_inj.1 ((g1.bit ⟨i, hi⟩ ⟨j, hj⟩).trans ?_)
    rw [(C102_unique hP hQ g2 q2).2]
    exact (q1.bit ⟨i, hi⟩ ⟨j, hj⟩).symm
  · rw [g3 i j (by omega), q3 i j (by omega)]

/-- C106: `mzd_echelonize_naive(A, FALSE)` for every matrix: the number that is returned is the rank, and the matrix is replaced by a row echelon form. -/
theorem C106_echelon {M : Mzd} {r c : Nat} {A : Matrix (Fin r) (Fin c) (ZMod 2)} (hM : Rep M A) :
    ∃ N, mzd_echelonize_naive M false = .ok (N, A.rank) ∧ (∃ P : Matrix (Fin r) (Fin r) (ZMod 2), IsUnit P ∧ Rep N (P * A) ∧ IsRef (P * A) A.rank) ∧
      ∀ i j, c ≤ j → N.bit i j = M.bit i j := by
  obtain ⟨⟨N, n⟩, e, p, hx⟩ := naive_spec hM.wf false
  obtain ⟨P, hP, h3, h4, h5⟩ := hx.ref hM
  dsimp only at h3 h4 h5
  have hn : n = A.rank := by rw [← h4.rank, Matrix.rank_mul_eq_right_of_isUnit_det _ _ ((Matrix.isUnit_iff_isUnit_det _).1 hP)]
  rw [hn] at e h4
  exact ⟨N, e, ⟨P, hP, h3, h4⟩, fun i j hj => h5 i j (.inr hj)⟩

theorem strictMono_last {n : Nat} {p : Fin n → Fin n} (hp : StrictMono p) (i : Fin n) : p i = i := by
  have h' : StrictMono.orderIsoOfSurjective p hp ((Finite.injective_iff_surjective).1 hp.injective) = OrderIso.refl _ := Subsingleton.elim _ _
  exact congrArg (fun f : Fin n ≃o Fin n => f i) h'

/-- C106: the test of the callers, which look at the last bit of the last row of the echelon form of a square matrix: it is 1 exactly for the matrices that have an inverse. -/
theorem C106_last_bit {M : Mzd} {n : Nat} {A : Matrix (Fin (n + 1)) (Fin (n + 1)) (ZMod 2)} (hM : Rep M A) (full : Bool) :
    ∃ N k, mzd_echelonize_naive M full = .ok (N, k) ∧ mzd_read_bit N n n = .ok (N.bit n n) ∧ (N.bit n n = true ↔ IsUnit A) := by
  obtain ⟨⟨N, k⟩, e, p, hx⟩ := naive_spec hM.wf full
  obtain ⟨P, hP, h3, h4, _⟩ := hx.ref hM
  dsimp only at h3 h4
  have hk : k = A.rank := by rw [← h4.rank, Matrix.rank_mul_eq_right_of_isUnit_det _ _ ((Matrix.isUnit_iff_isUnit_det _).1 hP)]
  refine ⟨N, k, e, read_bit h3.wf (by rw [h3.nrows]; omega) (by rw [h3.ncols]; omega), ?_⟩
  have hb := h3.bit (Fin.last n) (Fin.last n)
  rw [Fin.val_last] at hb
  constructor
  · intro h
    by_contra hu
    have hlt : k ≤ n := by
      have h1 : A.rank ≤ n + 1 := (Matrix.rank_le_height A)
      have h2 : A.rank ≠ n + 1 := fun h => hu (by
        rw [Matrix.isUnit_iff_isUnit_det, isUnit_iff_ne_zero]
        intro hd
        have hlin : ¬ LinearIndependent (ZMod 2) A.row := fun hl => by
          have := (Matrix.linearIndependent_rows_iff_isUnit).1 hl
          rw [Matrix.isUnit_iff_isUnit_det, hd] at this
          exact not_isUnit_zero this
        apply hlin
        rw [linearIndependent_iff_card_eq_finrank_span, Fintype.card_fin, Set.finrank, ← Matrix.rank_eq_finrank_span_row, h])
      omega
    obtain ⟨_, _, _, _, _, hz⟩ := h4
    rw [hz (Fin.last n) hlt, h] at hb
    exact absurd hb (by decide)
  · intro hu
    have hr : k = n + 1 := by rw [hk, Matrix.rank_of_isUnit _ hu, Fintype.card_fin]
    subst hr
    obtain ⟨_, q, hq, h1, _⟩ := h4
    have := h1 (Fin.last n)
    rw [strictMono_last hq] at this
    rw [show Fin.castLE _ (Fin.last n) = Fin.last n from rfl] at this
    rw [this] at hb
    cases hN : N.bit n n
    · rw [hN] at hb; exact absurd hb (by decide)
    · rfl

/-- The part of `A` with `n` rows from row `sr` on and `m` columns from column `sc` on. -/
def part {r c : Nat} (A : Matrix (Fin r) (Fin c) (ZMod 2)) (sr sc n m : Nat) (hr : sr + n ≤ r) (hc : sc + m ≤ c) : Matrix (Fin n) (Fin m) (ZMod 2) :=
  fun i j => A ⟨sr + i, by omega⟩ ⟨sc + j, by omega⟩

/-- C106: `mzd_submatrix(NULL, A, …)` is the part of the matrix if the first column is the first of a word or the number of columns is not a multiple of 64.  The unused bits of the
argument do not matter. -/
theorem C106_submatrix_partial {M : Mzd} {r c : Nat} {A : Matrix (Fin r) (Fin c) (ZMod 2)} (hM : Rep M A) {sr sc n m : Nat} (hr : sr + n ≤ r) (hc : sc + m ≤ c)
    (h : sc % 64 = 0 ∨ m % 64 ≠ 0) : ∃ N, mzd_submatrix M sr sc (sr + n) (sc + m) = .ok N ∧ Rep N (part A sr sc n m hr hc) ∧ N.Clean := by
  obtain ⟨N, e, sh, hN⟩ := submatrix_spec hM.wf (sr := sr) (sc := sc) (n := n) (m := m) (by rw [hM.nrows]; exact hr) (by rw [hM.ncols]; exact hc) h
  refine ⟨N, e, ⟨sh.wf (init_wf _ _), sh.nrows, sh.ncols, fun i j => ?_⟩, fun i hi j hj _ => ?_⟩
  · rw [hN, decide_eq_true ⟨i.2, j.2⟩, Bool.true_and]
    exact hM.bit ⟨sr + i, by omega⟩ ⟨sc + j, by omega⟩
  · have : N.ncols = m := sh.ncols
    rw [hN, decide_eq_false (by omega), Bool.false_and]

/-- C106, full statement: every part of a matrix can be copied. -/
def C106_submatrix_statement : Prop := ∀ {M : Mzd} {r c : Nat} {A : Matrix (Fin r) (Fin c) (ZMod 2)}, Rep M A → ∀ {sr sc n m : Nat} (hr : sr + n ≤ r) (hc : sc + m ≤ c),
  ∃ N, mzd_submatrix M sr sc (sr + n) (sc + m) = .ok N ∧ Rep N (part A sr sc n m hr hc)

/-- C106, what goes wrong: in all other cases the word after the last one of a row of the result is accessed. -/
theorem C106_submatrix_oob_violated {M : Mzd} {r c : Nat} {A : Matrix (Fin r) (Fin c) (ZMod 2)} (hM : Rep M A) {sr sc n m : Nat} (hn : 0 < n) (hr : sr + n ≤ r) (hc : sc + m ≤ c)
    (h1 : sc % 64 ≠ 0) (h2 : m % 64 = 0) : mzd_submatrix M sr sc (sr + n) (sc + m) = .error .oob :=
  submatrix_oob hM.wf hn (by rw [hM.nrows]; exact hr) (by rw [hM.ncols]; exact hc) h1 h2

theorem C106_submatrix_violated : ¬ C106_submatrix_statement := by
  intro h
  have hM : Rep (pack 2 70 fun _ _ => true) (fun _ _ => 1 : Matrix (Fin 2) (Fin 70) (ZMod 2)) := pack_rep fun _ _ => rfl
  obtain ⟨N, e, _⟩ := h hM (sr := 0) (sc := 3) (n := 2) (m := 64) (by decide) (by decide)
  rw [C106_submatrix_oob_violated hM (by decide) (by decide) (by decide) (by decide) (by decide)] at e
  exact absurd e (by simp)

/-- What `mzd_invert_naive(NULL, A, I)` does for a square matrix that is not empty. -/
theorem invert_naive {MA MI : Mzd} {n : Nat} {A : Matrix (Fin n) (Fin n) (ZMod 2)} (hn : 0 < n) (hA : Rep MA A) (cA : MA.Clean) (hI : Rep MI (1 : Matrix (Fin n) (Fin n) (ZMod 2))) :
    ∃ N, mzd_invert_naive MA MI = .ok (some N) ∧ N.Clean ∧ ∃ P : Matrix (Fin n) (Fin n) (ZMod 2), IsUnit P ∧ Rep N P ∧ ∃ k, IsRref (P * A) k := by
  obtain ⟨H, e1, hH, _⟩ := C105_concat hA cA hI
  obtain ⟨X, e2, ⟨P, hP, hX, hR⟩, _⟩ := C106_reduced hH
  have hle : n ≤ n + n := by omega
  have hleft : P * A = (P * m4ri.concatMat A (1 : Matrix (Fin n) (Fin n) (ZMod 2))).submatrix id (Fin.castLE hle) := by
    ext i j
    rw [Matrix.submatrix_apply, Matrix.mul_apply, Matrix.mul_apply]
    refine Finset.sum_congr rfl fun l _ => ?_
    congr 1
    show _ = Fin.addCases (motive := fun _ => ZMod 2) _ _ (Fin.castAdd n j)
    rw [Fin.addCases_left]
  have hright : part (P * m4ri.concatMat A (1 : Matrix (Fin n) (Fin n) (ZMod 2))) 0 n n n (by omega) (by omega) = P := by
    ext i j
    unfold part
    rw [Matrix.mul_apply, Finset.sum_eq_single j]
    · have : m4ri.concatMat A (1 : Matrix (Fin n) (Fin n) (ZMod 2)) j ⟨n + j, by omega⟩ = 1 := by
        show Fin.addCases (motive := fun _ => ZMod 2) _ _ (Fin.natAdd n j) = _
        rw [Fin.addCases_right, Matrix.one_apply_eq]
      rw [this, mul_one]
      congr 1
      exact Fin.ext (Nat.zero_add _)
    · intro b _ hb
      have : m4ri.concatMat A (1 : Matrix (Fin n) (Fin n) (ZMod 2)) b ⟨n + j, by omega⟩ = 0 := by
        show Fin.addCases (motive := fun _ => ZMod 2) _ _ (Fin.natAdd n j) = _
        rw [Fin.addCases_right, Matrix.one_apply_ne hb]
      rw [this, mul_zero]
    · intro h; exact absurd (Finset.mem_univ _) h
  obtain ⟨N, e3, hN, cN⟩ := C106_submatrix_partial hX (sr := 0) (sc := n) (n := n) (m := n) (by omega) (by omega) (by omega)
  rw [hright] at hN
  have hrank : (m4ri.concatMat A (1 : Matrix (Fin n) (Fin n) (ZMod 2))).rank ≠ 0 := by
    intro h0
    obtain ⟨_, _, _, _, _, hz⟩ := hR
    have h1 : P = 0 := by
      rw [← hright]
      ext i j
      unfold part
      exact hz _ (by omega) _
    rw [h1] at hP
    haveI : Nonempty (Fin n) := ⟨⟨0, hn⟩⟩
    exact not_isUnit_zero hP
  refine ⟨N, ?_, cN, P, hP, hN, ?_⟩
  · unfold mzd_invert_naive
    rw [e1, C_ok_bind, e2, C_ok_bind, if_neg hrank, hA.ncols, hA.nrows, show 2 * n = n + n by omega]
    rw [Nat.zero_add] at e3
    rw [e3]
    rfl
  · obtain ⟨k, hk⟩ := hR.cols hle
    exact ⟨k, by rw [hleft]; exact hk⟩

theorem one_rref (n : Nat) : IsRref (1 : Matrix (Fin n) (Fin n) (ZMod 2)) n :=
  ⟨Nat.le_refl _, id, strictMono_id, fun i a => Matrix.one_apply, fun i j hj => Matrix.one_apply_ne (ne_of_gt hj), fun a ha => by omega⟩

/-- C106: `mzd_invert_naive(NULL, A, I)` of an invertible matrix is its inverse, and its unused bits are zero. -/
theorem C106_inverse {MA MI : Mzd} {n : Nat} {A : Matrix (Fin n) (Fin n) (ZMod 2)} (hn : 0 < n) (hM : Rep MA A) (cM : MA.Clean) (hI : Rep MI (1 : Matrix (Fin n) (Fin n) (ZMod 2)))
    (hA : IsUnit A) : ∃ N, mzd_invert_naive MA MI = .ok (some N) ∧ Rep N A⁻¹ ∧ N.Clean := by
  obtain ⟨N, e, cN, P, hP, hN, k, hk⟩ := invert_naive hn hM cM hI
  have hd := (Matrix.isUnit_iff_isUnit_det A).1 hA
  have h1 : A⁻¹ * A = 1 := Matrix.nonsing_inv_mul A hd
  have hPA : P * A = A⁻¹ * A := (C102_unique hP ((Matrix.isUnit_nonsing_inv_iff).2 hA) hk (by rw [h1]; exact one_rref n)).2
  refine ⟨N, e, ?_, cN⟩
  rw [Matrix.inv_eq_left_inv (hPA.trans h1)]
  exact hN

/-- C106, full statement: a matrix without inverse is reported by a null pointer. -/
def C106_invert_statement : Prop := ∀ {MA MI : Mzd} {n : Nat} {A : Matrix (Fin n) (Fin n) (ZMod 2)}, 0 < n → Rep MA A → MA.Clean → Rep MI (1 : Matrix (Fin n) (Fin n) (ZMod 2)) →
  ¬ IsUnit A → mzd_invert_naive MA MI = .ok none

/-- C106, what goes wrong: a matrix without inverse is never reported, although the function has a branch that returns a null pointer.  A matrix is returned, which looks like an inverse
(it is invertible), but its product with the argument is not the identity matrix. -/
theorem C106_singular_violated {MA MI : Mzd} {n : Nat} {A : Matrix (Fin n) (Fin n) (ZMod 2)} (hn : 0 < n) (hM : Rep MA A) (cM : MA.Clean)
    (hI : Rep MI (1 : Matrix (Fin n) (Fin n) (ZMod 2))) (hA : ¬ IsUnit A) :
    ∃ N, mzd_invert_naive MA MI = .ok (some N) ∧ ∃ P : Matrix (Fin n) (Fin n) (ZMod 2), IsUnit P ∧ Rep N P ∧ P * A ≠ 1 ∧ A * P ≠ 1 := by
  obtain ⟨N, e, _, P, hP, hN, _⟩ := invert_naive hn hM cM hI
  refine ⟨N, e, P, hP, hN, fun h => hA ?_, fun h => hA ?_⟩
  · exact ⟨⟨A, P, mul_eq_one_comm.1 h, h⟩, rfl⟩
  · exact ⟨⟨A, P, h, mul_eq_one_comm.1 h⟩, rfl⟩

theorem C106_invert_violated : ¬ C106_invert_statement := by
  intro h
  have hM : Rep (pack 1 1 fun _ _ => false) (0 : Matrix (Fin 1) (Fin 1) (ZMod 2)) := pack_rep fun _ _ => rfl
  have hI : Rep (pack 1 1 fun _ _ => true) (1 : Matrix (Fin 1) (Fin 1) (ZMod 2)) := pack_rep fun i j => by rw [Subsingleton.elim i j, Matrix.one_apply_eq]; rfl
  obtain ⟨N, e, _⟩ := C106_singular_violated (by decide) hM (pack_clean _ _ _) hI zero_not_unit
  rw [h (by decide) hM (pack_clean _ _ _) hI zero_not_unit] at e
  exact absurd e (by simp)

/-- C106: if the numbers of rows differ, the program aborts. -/
theorem C106_invert_sizes {A I : Mzd} (h : A.nrows ≠ I.nrows) : mzd_invert_naive A I = .error .abort := by
  unfold mzd_invert_naive
  rw [C105_concat_sizes h]; rfl

/-! ## Examples -/

def exG : Matrix (Fin 70) (Fin 130) (ZMod 2) := fun i j => bitF (decide ((i * j + i : Nat) % 5 = 1))
def exGM : Mzd := pack 70 130 fun i j => decide ((i * j + i) % 5 = 1)
theorem exG_rep : Rep exGM exG := pack_rep fun _ _ => rfl

example : ∃ N, mzd_echelonize_naive exGM true = .ok (N, exG.rank) ∧ (∃ P : Matrix (Fin 70) (Fin 70) (ZMod 2), IsUnit P ∧ Rep N (P * exG) ∧ IsRref (P * exG) exG.rank) ∧
    ∀ i j, 130 ≤ j → N.bit i j = exGM.bit i j := C106_reduced exG_rep
example : ∃ N, mzd_echelonize_naive exGM false = .ok (N, exG.rank) ∧ (∃ P : Matrix (Fin 70) (Fin 70) (ZMod 2), IsUnit P ∧ Rep N (P * exG) ∧ IsRef (P * exG) exG.rank) ∧
    ∀ i j, 130 ≤ j → N.bit i j = exGM.bit i j := C106_echelon exG_rep
example : ∃ N N', mzd_echelonize_naive exGM true = .ok (N, exG.rank) ∧ mzd_echelonize_m4ri 300 exGM 4 = .ok (N', exG.rank) ∧ ∀ i < 70, ∀ j, N.bit i j = N'.bit i j :=
  C106_same exG_rep (by decide) (by decide) (by decide)
example : ∃ N, mzd_submatrix exGM 3 64 (3 + 20) (64 + 64) = .ok N ∧ Rep N (part exG 3 64 20 64 (by decide) (by decide)) ∧ N.Clean := C106_submatrix_partial exG_rep _ _ (.inl rfl)
example : ∃ N, mzd_submatrix exGM 3 7 (3 + 20) (7 + 100) = .ok N ∧ Rep N (part exG 3 7 20 100 (by decide) (by decide)) ∧ N.Clean :=
  C106_submatrix_partial exG_rep _ _ (.inr (by decide))
example : mzd_submatrix exGM 3 7 (3 + 20) (7 + 64) = .error .oob := C106_submatrix_oob_violated exG_rep (by decide) (by decide) (by decide) (by decide) (by decide)
example : ∃ N k, mzd_echelonize_naive (pack 100 100 fun i j => decide (i = j ∨ i < j ∧ (i * j) % 3 = 1)) false = .ok (N, k) ∧ mzd_read_bit N 99 99 = .ok (N.bit 99 99) ∧
    (N.bit 99 99 = true ↔ IsUnit exU) := C106_last_bit (pack_rep fun _ _ => rfl) false
example : ∃ N, mzd_invert_naive (pack 100 100 fun i j => decide (i = j ∨ i < j ∧ (i * j) % 3 = 1)) (pack 100 100 fun i j => decide (i = j)) = .ok (some N) ∧ Rep N exU⁻¹ ∧ N.Clean :=
  C106_inverse (by decide) (pack_rep fun _ _ => rfl) (pack_clean _ _ _) (pack_rep fun i j => by rw [Matrix.one_apply]; by_cases h : i = j <;> simp [h, bitF, Fin.val_inj]) exU_unit
example : mzd_invert_naive (pack 3 3 fun _ _ => true) (pack 4 4 fun _ _ => true) = .error .abort := C106_invert_sizes (show 3 ≠ 4 by decide)

/-- The programs are run. -/
example : (match mzd_echelonize_naive (pack 3 4 fun i j => decide ((i + 1) * (j + 2) % 3 = 1)) false with | .ok x => (x.2, (List.range 3).map fun i => (x.1.word i 0).toNat) | .error _ => (9, [])) =
    (2, [9, 4, 0]) := by decide +kernel

end WB.m4w
