import Verif.Proof.M4riEchPluq
import Verif.Prop.C125
import Verif.Prop.C126

/-!
# C127 — the reduced row echelon form from a PLUQ factorisation of M4RI (`/repo/test/github1_M4RI/src/m4ri/echelonform.c`)
-/
namespace WB.m4w

open WB.cmp (Mem)

variable {m n : Nat} {M : Mzd} {A : Matrix (Fin m) (Fin n) (ZMod 2)}

/-- C127, full statement: `mzd_echelonize_pluq(A, 1)` returns the rank of `A` and leaves the reduced row echelon form of `A`, whatever procedure delivers PLE factorisations. -/
def C127_statement : Prop := ∀ (ple : Mzd → Mem Nat → Mem Nat → C (Ple × Nat)) (l1 : Nat) (junk' : Nat → Nat) (junk : Nat → Word) (mb : Mzd → Mzd → C Mzd) (e e' : List Nat → TrsmEnv) {m n : Nat}
  {M : Mzd} {A : Matrix (Fin m) (Fin n) (ZMod 2)}, FactorsPerm ple → A.rank ≤ 2 ^ 24 → n < 2 ^ 29 → Rep M A → M.Clean →
  ∃ N, mzd_echelonize_pluq1 ple l1 junk' (mzd_transpose_any junk mb) 512 e e' M = .ok (N, A.rank) ∧
    (∃ P : Matrix (Fin m) (Fin m) (ZMod 2), IsUnit P ∧ Rep N (P * A) ∧ IsRref (P * A) A.rank) ∧ ∀ a b, n ≤ b → N.bit a b = M.bit a b

/-- C127, what holds: the full statement for matrices with columns whose rank is at most `bs` (512 in this configuration) or a multiple of 64.  In the first case `M` may be a window with other
bits behind its last column. -/
theorem C127_echelon_partial (ple : Mzd → Mem Nat → Mem Nat → C (Ple × Nat)) (l1 : Nat) (junk' : Nat → Nat) (junk : Nat → Word) (mb : Mzd → Mzd → C Mzd) (bs : Nat) (e e' : List Nat → TrsmEnv)
    (hple : FactorsPerm ple) (hbs : 256 ≤ bs) (hk : A.rank ≤ 2 ^ 24) (h0 : 0 < n) (hn' : n < 2 ^ 29) (hM : Rep M A) (hbig : A.rank ≤ bs ∨ A.rank % 64 = 0 ∧ M.Clean) :
    ∃ N, mzd_echelonize_pluq1 ple l1 junk' (mzd_transpose_any junk mb) bs e e' M = .ok (N, A.rank) ∧
      (∃ P : Matrix (Fin m) (Fin m) (ZMod 2), IsUnit P ∧ Rep N (P * A) ∧ IsRref (P * A) A.rank) ∧ ∀ a b, n ≤ b → N.bit a b = M.bit a b := by
  obtain ⟨P0, eP, sP, _⟩ := C109_init junk' m
  obtain ⟨Q0, eQ, sQ, _⟩ := C109_init junk' n
  obtain ⟨N0, P, Q, k, e0, hE, out0⟩ := hple hM sP sQ
  obtain ⟨D, e1, hD, out1, hU0⟩ := pluq_of_ple l1 h0 hE
  have hkr := C125_rank hD
  rw [← hkr] at hk hbig
  have hm := hD.rows
  have hn := hD.cols
  have out : ∀ a b, n ≤ b → D.bit a b = M.bit a b := fun a b hb => (out1 a b hb).trans (out0 a b hb)
  obtain ⟨L, U, hA, hL, hU⟩ := hD.factors
  have hU0 := hU0 U hU
  let F : Matrix (Fin m) (Fin n) (ZMod 2) := fun a b => bitF (D.bit a b)
  have hF : Rep D F := ⟨hD.wf, hD.nrows, hD.ncols, fun _ _ => rfl⟩
  let T := unitUpper (F.submatrix (Fin.castLE hm) (Fin.castLE hn))
  obtain ⟨D1, e2, sh1, cols1, o1⟩ := right_part_ok junk mb bs e e' hbs hk hn' hF hm hn (hbig.imp_right fun h => ⟨h.1, clean_same hM h.2 hD.nrows hD.ncols out⟩)
  obtain ⟨D2, e3, sh2, b2⟩ := set_corner_ok (k := k) (sh1.wf hD.wf) (by rw [sh1.nrows, hD.nrows]; exact hm) (by rw [sh1.ncols, hD.ncols]; exact hn)
  have sh12 := sh1.trans sh2
  let F2 : Matrix (Fin m) (Fin n) (ZMod 2) := fun a b => bitF (D2.bit a b)
  have hF2 : Rep D2 F2 := ⟨sh12.wf hD.wf, sh12.nrows.trans hD.nrows, sh12.ncols.trans hD.ncols, fun _ _ => rfl⟩
  obtain ⟨D3, e4, sh3, b3, o3⟩ := perm_part_ok (k := k) l1 hF2 hm h0 hD.permQ.1 hD.permQ.2
  have sh13 := sh12.trans sh3
  obtain ⟨N, e5, sh4, b4⟩ := zero_rest_ok (k := k) (sh13.wf hD.wf) (by rw [sh13.ncols, hD.ncols]; exact h0) (by rw [sh13.nrows, hD.nrows]; exact hm)
  rw [sh13.nrows, sh13.ncols, hD.nrows, hD.ncols] at b4
  have sh14 := sh13.trans sh4
  let Y : Matrix (Fin k) (Fin n) (ZMod 2) := F2.submatrix (Fin.castLE hm) id
  let Z : Matrix (Fin k) (Fin n) (ZMod 2) := Y * PMat Q.cell n n
  have hY : ∀ (i : Fin k) (j : Fin n), Y i j = bitF (D2.bit i j) := fun _ _ => rfl
  have hY1 : ∀ (i : Fin k) (j : Fin n), (j : Nat) < k → Y i j = if (i : Nat) = j then 1 else 0 := fun i j hj => by
    rw [hY, b2, if_pos ⟨i.2, hj⟩]
    by_cases g : (i : Nat) = j
    · rw [if_pos g, decide_eq_true g]; rfl
    · rw [if_neg g, decide_eq_false g]; rfl
  have hTY : T * Y = U := by
    ext i j
    rw [Matrix.mul_apply, hU]
    by_cases hj : (j : Nat) < k
    · rw [Finset.sum_eq_single ⟨j, hj⟩ (fun l _ hl => by
        rw [hY1 l j hj, if_neg (fun g => hl (Fin.ext g)), mul_zero]) (fun h => absurd (Finset.mem_univ _) h), hY1 _ _ hj, if_pos rfl, mul_one]
      show (if i = ⟨j, hj⟩ then (1 : ZMod 2) else if i < ⟨j, hj⟩ then bitF (D.bit i j) else 0) = _
      by_cases g : (i : Nat) = j
      · rw [if_pos (Fin.ext g), if_neg (by omega), if_pos g]
      · rw [if_neg (fun h => g (congrArg Fin.val h)), if_neg g]
        rfl
    · have hi := i.2
      rw [if_pos (by omega), ← cols1 j (by omega) j.2 i]
      exact Finset.sum_congr rfl fun l _ => by rw [hY, b2, if_neg (by omega)]
  have hTZ : T * Z = U * PMat Q.cell n n := by
    show T * (Y * PMat Q.cell n n) = _
    rw [← Matrix.mul_assoc, hTY]
  have hR : Rep N (extRows m Z) := by
    refine ⟨sh14.wf hD.wf, sh14.nrows.trans hD.nrows, sh14.ncols.trans hD.ncols, fun a b => ?_⟩
    unfold extRows
    rw [b4]
    by_cases h : (a : Nat) < k
    · rw [dif_pos h, if_neg (by omega), b3 ⟨a, h⟩ b]
    · rw [dif_neg h, if_pos ⟨by omega, a.2, b.2⟩]; rfl
  have low : ∀ (i : Fin k) (b : Fin n), (b : Nat) < Q.cell i → Z i b = 0 := fun i b hb => by
    refine upper_zero (C := F.submatrix (Fin.castLE hm) (Fin.castLE hn)) (x := fun l => Z l b) (y := fun l => (U * PMat Q.cell n n) l b) (fun i => ?_) k i (by omega) fun l hl => ?_
    · have := congrFun (congrFun hTZ i) b
      rw [Matrix.mul_apply] at this
      exact this
    · refine hU0 l b ?_
      rcases Nat.eq_or_lt_of_le (show (i : Nat) ≤ l from hl) with g | g
      · rw [← g]; exact hb
      · exact hb.trans (hE.increasing i l g l.2)
  have piv : ∀ (i a : Fin k), Z a ⟨Q.cell i, (hD.permQ.2 i (by omega)).2⟩ = if (a : Nat) = i then 1 else 0 := fun i a => by
    have hw : Walk Q.cell (List.range n) i = Q.cell i := walk_pivot n (by omega) (fun i hi => (hD.permQ.2 i hi).1) fun j hj => hE.increasing j i hj i.2
    show (Y * PMat Q.cell n n) a _ = _
    rw [mul_pmat (fun i hi => ⟨hi, (hD.permQ.2 i hi).2⟩), hY1 _ _ (by simp only [← (walk_eq_iff _ _ _ _).1 hw]; exact i.2)]
    simp only [← (walk_eq_iff _ _ _ _).1 hw]
  have iP := C109_matrix_inverse (n := m) (v := P.cell) (len := m) fun i hi => ⟨hi, (hD.permP.2 i hi).2⟩
  let V := (PMat P.cell m m).transpose * extCols L * extCols (extRows m T)
  have hV : IsUnit V := by
    refine ((IsUnit.of_mul_eq_one _ iP.1).mul (ext_lower (fun a j h => ?_) fun a j h => ?_)).mul (ext_upper (fun a j h => ?_) fun a j h => ?_)
    · rw [hL, if_neg (by omega), if_pos h]
    · rw [hL, if_neg (by omega), if_neg (by omega)]
    · unfold extRows
      rw [dif_pos (by omega)]
      exact if_pos (Fin.ext h.symm)
    · unfold extRows
      by_cases ha : (a : Nat) < k
      · rw [dif_pos ha]
        show (if (⟨a, ha⟩ : Fin k) = j then (1 : ZMod 2) else if (⟨a, ha⟩ : Fin k) < j then _ else 0) = 0
        rw [if_neg (fun g => by have := congrArg Fin.val g; simp only [] at this; omega), if_neg (fun g => by have g : (a : Nat) < j := g; omega)]
      · rw [dif_neg ha]
  have hAV : A = V * extRows m Z := by
    show A = (PMat P.cell m m).transpose * extCols L * extCols (extRows m T) * extRows m Z
    have h1 : extRows m T * Z = extRows m (T * Z) := by
      ext a b
      rw [Matrix.mul_apply]
      unfold extRows
      by_cases ha : (a : Nat) < k
      · rw [dif_pos ha, Matrix.mul_apply]
        exact Finset.sum_congr rfl fun l _ => by rw [dif_pos ha]
      · rw [dif_neg ha]
        exact Finset.sum_eq_zero fun l _ => by rw [dif_neg ha, zero_mul]
    rw [Matrix.mul_assoc, ext_mul hm, h1, Matrix.mul_assoc, ext_mul hm, hTZ, hA, Matrix.mul_assoc, Matrix.mul_assoc]
  have hd := (Matrix.isUnit_iff_isUnit_det _).1 hV
  have hPA : V⁻¹ * A = extRows m Z := by
    conv_lhs => rw [hAV]
    rw [← Matrix.mul_assoc, Matrix.nonsing_inv_mul _ hd, Matrix.one_mul]
  have href : IsRref (extRows m Z) k := by
    refine ⟨hm, fun i => ⟨Q.cell i, (hD.permQ.2 i (by omega)).2⟩, fun i j h => hE.increasing i j h j.2, fun i a => ?_, fun i j h => ?_, fun a ha j => dif_neg (by omega)⟩
    · unfold extRows
      by_cases ha : (a : Nat) < k
      · rw [dif_pos ha, piv i ⟨a, ha⟩]
        exact if_congr (Fin.ext_iff (a := a) (b := Fin.castLE hm i)).symm rfl rfl
      · rw [dif_neg ha, if_neg (fun g => ha (by rw [g]; exact i.2))]
    · show (if h : (i : Nat) < k then Z ⟨i, h⟩ j else 0) = 0
      rw [dif_pos i.2]
      exact low i j h
  refine ⟨N, ?_, ⟨V⁻¹, (Matrix.isUnit_nonsing_inv_iff).2 hV, by rw [hPA]; exact hR, by rw [hPA, ← hkr]; exact href⟩, fun a b hb => ?_⟩
  · have ep : mzd_pluq ple l1 M P0 Q0 = .ok (⟨D, P, Q⟩, k) := by
      unfold mzd_pluq _mzd_pluq
      rw [if_neg (by rw [sP, hM.nrows]; simp), if_neg (by rw [sQ, hM.ncols]; simp)]
      simp only [e0, C_ok_bind, e1]
      rfl
    unfold mzd_echelonize_pluq1
    rw [hM.nrows, hM.ncols]
    simp only [eP, eQ, ep, e2, e3, e4, e5, C_ok_bind]
    rw [← hkr]
    rfl
  · rw [b4, if_neg (by omega), o3 a b (.inr hb), b2, if_neg (by omega), o1 a b (.inr hb), out a b hb]

/-- C127: the result is the same as that of `mzd_echelonize_naive(A, 1)`. -/
theorem C127_same (ple : Mzd → Mem Nat → Mem Nat → C (Ple × Nat)) (l1 : Nat) (junk' : Nat → Nat) (junk : Nat → Word) (mb : Mzd → Mzd → C Mzd) (bs : Nat) (e e' : List Nat → TrsmEnv)
    (hple : FactorsPerm ple) (hbs : 256 ≤ bs) (hk : A.rank ≤ 2 ^ 24) (h0 : 0 < n) (hn' : n < 2 ^ 29) (hM : Rep M A) (hbig : A.rank ≤ bs ∨ A.rank % 64 = 0 ∧ M.Clean) :
    ∃ N N', mzd_echelonize_pluq1 ple l1 junk' (mzd_transpose_any junk mb) bs e e' M = .ok (N, A.rank) ∧ mzd_echelonize_naive M true = .ok (N', A.rank) ∧ ∀ i < m, ∀ j, N.bit i j = N'.bit i j := by
  obtain ⟨N, e1, ⟨P, hP, g1, g2⟩, g3⟩ := C127_echelon_partial ple l1 junk' junk mb bs e e' hple hbs hk h0 hn' hM hbig
  obtain ⟨N', e2, ⟨Q, hQ, q1, q2⟩, q3⟩ := C106_reduced hM
  refine ⟨N, N', e1, e2, fun i hi j => ?_⟩
  by_cases hj : j < n
  · have h1 := g1.bit ⟨i, hi⟩ ⟨j, hj⟩
    rw [(C102_unique hP hQ g2 q2).2, ← q1.bit] at h1
    exact bitF_inj.1 h1
  · rw [g3 i j (by omega), q3 i j (by omega)]

/-- C127, what goes wrong: without columns the program divides by zero. -/
theorem C127_no_columns_violated (ple : Mzd → Mem Nat → Mem Nat → C (Ple × Nat)) (l1 : Nat) (junk' : Nat → Nat) (tr : Bool → Mzd → C Mzd) (bs : Nat) (e e' : List Nat → TrsmEnv)
    (hple : FactorsPerm ple) {A : Matrix (Fin m) (Fin 0) (ZMod 2)} (hM : Rep M A) : mzd_echelonize_pluq1 ple l1 junk' tr bs e e' M = .error .divZero := by
  obtain ⟨P, eP, sP, _⟩ := C109_init junk' m
  obtain ⟨Q, eQ, sQ, _⟩ := C109_init junk' 0
  unfold mzd_echelonize_pluq1
  rw [hM.nrows, hM.ncols]
  simp only [eP, eQ, C_ok_bind, C125_no_columns_violated ple l1 hple hM sP sQ]
  rfl

/-- C127: the full statement is false. -/
theorem C127_violated : ¬ C127_statement := by
  intro h
  have hM : Rep (mzd_init 2 0) (0 : Matrix (Fin 2) (Fin 0) (ZMod 2)) := ⟨init_wf _ _, rfl, rfl, fun _ j => j.elim0⟩
  obtain ⟨N, h1, _⟩ := h _mzd_ple_naive 32768 (fun _ => 0) (fun _ => 0) (fun D _ => .ok D) (fun _ => ⟨true, 2, fun _ => ⟨fun _ _ => 0, true, 2⟩⟩) (fun _ => ⟨true, 2, fun _ => ⟨fun _ _ => 0, true, 2⟩⟩)
    C125_naive_factors ((Matrix.rank_le_width _).trans (by decide)) (by decide) hM (init_clean _ _)
  rw [C127_no_columns_violated _ _ _ _ _ _ _ C125_naive_factors hM] at h1
  exact absurd h1 (by simp)

/-- The theorem applies to the matrix of C109 with 130 rows and columns. -/
example (junk : Nat → Word) (mb : Mzd → Mzd → C Mzd) (e e' : List Nat → TrsmEnv) :
    ∃ N, mzd_echelonize_pluq1 _mzd_ple_naive 32768 (fun _ => 7) (mzd_transpose_any junk mb) 512 e e' exPM = .ok (N, exPA.rank) ∧
      ∃ P : Matrix (Fin 130) (Fin 130) (ZMod 2), IsUnit P ∧ Rep N (P * exPA) ∧ IsRref (P * exPA) exPA.rank := by
  have hr : exPA.rank ≤ 130 := Matrix.rank_le_height _
  obtain ⟨N, h1, h2, _⟩ := C127_echelon_partial _mzd_ple_naive 32768 (fun _ => 7) junk mb 512 e e' C125_naive_factors (by decide) (hr.trans (by decide)) (by decide) (by decide) exP_rep
    (.inl (hr.trans (by decide)))
  exact ⟨N, h1, h2⟩

/-- The matrix of C119 with three rows and four columns: rank 2, and the rows `0110` and `0001` (column 0 first) are left. -/
example : (mzd_echelonize_pluq1 _mzd_ple_naive 32768 (fun _ => 7) (mzd_transpose_any (fun _ => 0) fun D _ => .ok D) 512 (fun _ => ⟨true, 2, fun _ => ⟨fun _ _ => 0, true, 2⟩⟩)
    (fun _ => ⟨true, 2, fun _ => ⟨fun _ _ => 0, true, 2⟩⟩) exPle).map (fun s => (s.2, (List.range 3).map fun i => s.1.word i 0)) = .ok (2, [6#64, 8#64, 0#64]) := by
  with_unfolding_all rfl

end WB.m4w
