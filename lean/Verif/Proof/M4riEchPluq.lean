import Verif.Model.M4riEchPluq
import Verif.Proof.M4riTri
import Verif.Proof.M4riSolve
import Verif.Proof.M4riKernel
import Verif.Prop.C106
import Verif.Prop.C109

/-!
# The reduced row echelon form from a PLUQ factorisation (helper lemmas)
-/
namespace WB.m4w

open WB.cmp (Mem Mem2)

variable {m n k : Nat} {MA : Mzd} {F : Matrix (Fin m) (Fin n) (ZMod 2)}

/-- What is in the columns of `D` from `y` to `y'` is a solution of the triangular system. -/
def ColsOk (C : Matrix (Fin k) (Fin k) (ZMod 2)) (A D : Mzd) (y y' : Nat) : Prop :=
  ∀ j, y ≤ j → j < y' → ∀ i : Fin k, ∑ l : Fin k, unitUpper C i l * bitF (D.bit l j) = bitF (A.bit i j)

theorem trsm_window (junk : Nat → Word) (mb : Mzd → Mzd → C Mzd) (bs : Nat) (e : List Nat → TrsmEnv) (hbs : 256 ≤ bs) (hk : k ≤ 2 ^ 24) (hc : n < 2 ^ 29) (hA : Rep MA F) (hm : k ≤ m) (hn : k ≤ n)
    (hbig : k ≤ bs ∨ k % 64 = 0 ∧ MA.Clean) {y : Nat} (hy : y % 64 = 0) (hyn : y < n) :
    Ok (onWindow MA 0 y k MA.ncols fun B => mzd_trsm_upper_left (mzd_transpose_any junk mb) bs 0 e (mzd_window MA 0 0 k k) B) fun D => Sh MA D ∧
      ColsOk (F.submatrix (Fin.castLE hm) (Fin.castLE hn)) MA D y n ∧ ∀ a b, ¬ (a < k ∧ y ≤ b ∧ b < n) → D.bit a b = MA.bit a b := by
  have hw := window_rep hA.wf (x := 0) (x' := k) (y := y) (y' := MA.ncols) (r := k) (c := n - y) hy (by rw [hA.ncols]; omega) (by omega) (by rw [hA.nrows]; exact hm) (le_refl _) (by omega)
    (by rw [hA.ncols])
  obtain ⟨W, eW, X, wr, hX⟩ := upper_wr junk mb bs 0 e hbs (.inr ⟨rfl, by omega⟩) hk (show 0 < n - y by omega) (by omega) (corner_rep hA hm hn)
    (fun h => window_clean' (by omega)) hw fun h => window_clean (hbig.resolve_left (by omega)).2 hy (by rw [hA.ncols]; omega) (by omega) (by rw [hA.nrows]; exact hm) (.inl rfl)
  refine (onWindow_spec hA.wf hy (Y := X) ⟨W, eW, wr⟩).mono ?_
  intro D ⟨sh, h1, h2⟩
  refine ⟨sh, fun j g1 g2 i => ?_, fun a b hab => h2 a b (by omega)⟩
  have h3 := congrFun (congrFun hX i) ⟨j - y, by omega⟩
  rw [Matrix.mul_apply] at h3
  unfold blk at h3
  rw [Nat.zero_add, show y + (j - y) = j by omega] at h3
  rw [← h3]
  refine Finset.sum_congr rfl fun l _ => ?_
  have h4 := h1 l ⟨j - y, by omega⟩
  rw [Nat.zero_add, show y + (j - y) = j by omega] at h4
  rw [h4]

theorem trsm_copy (junk : Nat → Word) (mb : Mzd → Mzd → C Mzd) (bs : Nat) (e : List Nat → TrsmEnv) (hbs : 256 ≤ bs) (hk : k ≤ 2 ^ 24) (hc : n < 2 ^ 29) (hA : Rep MA F) (hm : k ≤ m) (hn : k ≤ n)
    (hbig : k ≤ bs) {y y' : Nat} (hy : y % 64 = 0) (hyn : y < y') (hyn' : y' ≤ n) :
    Ok (mzd_submatrix MA 0 y k y') fun B0 => Ok (mzd_trsm_upper_left (mzd_transpose_any junk mb) bs 0 e (mzd_window MA 0 0 k k) B0) fun B => ∀ M : Mzd, Sh MA M →
      Ok (onWindow M 0 y k y' fun W => mzd_copy W B) fun D => Sh MA D ∧
        ColsOk (F.submatrix (Fin.castLE hm) (Fin.castLE hn)) MA D y y' ∧ ∀ a b, ¬ (a < k ∧ y ≤ b ∧ b < y') → D.bit a b = M.bit a b := by
  obtain ⟨B0, e0, h0, c0⟩ := C106_submatrix_partial hA (sr := 0) (sc := y) (n := k) (m := y' - y) (by omega) (by omega) (.inl hy)
  rw [Nat.zero_add, show y + (y' - y) = y' by omega] at e0
  refine ⟨B0, e0, ?_⟩
  refine (upper_wr junk mb bs 0 e hbs (.inl hbig) hk (show 0 < y' - y by omega) (by omega) (corner_rep hA hm hn) (fun h => absurd h (by omega)) h0 fun h => absurd h (by omega)).mono ?_
  intro B ⟨X, wr, hX⟩ M shM
  have hB := wr.rep h0.wf h0.nrows h0.ncols
  have wM := shM.wf hA.wf
  have hw := window_rep wM (x := 0) (x' := k) (y := y) (y' := y') (r := k) (c := y' - y) hy (by omega) (by omega) (by rw [shM.nrows, hA.nrows]; exact hm)
    (by rw [shM.ncols, hA.ncols]; omega) (by omega) rfl
  refine (onWindow_spec wM hy (f := fun W => mzd_copy W B) (copy_wr hw.wf (by omega) hw.nrows hw.ncols hB)).mono ?_
  intro D ⟨sh, h1, h2⟩
  refine ⟨shM.trans sh, fun j g1 g2 i => ?_, fun a b hab => h2 a b (by omega)⟩
  have h3 := congrFun (congrFun hX i) ⟨j - y, by omega⟩
  rw [Matrix.mul_apply] at h3
  have h5 : part F 0 y k (y' - y) (by omega) (by omega) i ⟨j - y, by omega⟩ = bitF (MA.bit i j) := by
    rw [hA.bit ⟨i, by omega⟩ ⟨j, by omega⟩]
    unfold part
    congr 1 <;> exact Fin.ext (by simp only []; omega)
  rw [h5] at h3
  rw [← h3]
  refine Finset.sum_congr rfl fun l _ => ?_
  have h4 := h1 l ⟨j - y, by omega⟩
  rw [Nat.zero_add, show y + (j - y) = j by omega] at h4
  rw [h4]

theorem right_part_ok (junk : Nat → Word) (mb : Mzd → Mzd → C Mzd) (bs : Nat) (e e' : List Nat → TrsmEnv) (hbs : 256 ≤ bs) (hk : k ≤ 2 ^ 24) (hc : n < 2 ^ 29) (hA : Rep MA F) (hm : k ≤ m) (hn : k ≤ n)
    (hbig : k ≤ bs ∨ k % 64 = 0 ∧ MA.Clean) :
    Ok (rightPart (mzd_transpose_any junk mb) bs e e' k MA) fun D => Sh MA D ∧ ColsOk (F.submatrix (Fin.castLE hm) (Fin.castLE hn)) MA D k n ∧
      ∀ a b, (k ≤ a ∨ n ≤ b) → D.bit a b = MA.bit a b := by
  unfold rightPart
  simp only []
  by_cases hkn : k = n
  · rw [if_neg (by rw [hA.ncols]; omega), if_neg (by rw [hA.ncols]; omega)]
    exact ⟨MA, rfl, Sh.refl _, fun j h1 h2 => by omega, fun _ _ _ => rfl⟩
  · by_cases ht : 64 * (k / 64) = k
    · rw [if_pos (by rw [hA.ncols]; exact ⟨ht, hkn⟩)]
      refine (trsm_window junk mb bs e hbs hk hc hA hm hn hbig (y := k) (by omega) (by omega)).mono ?_
      intro D ⟨sh, h1, h2⟩
      exact ⟨sh, h1, fun a b hab => h2 a b (by omega)⟩
    · have hb : k ≤ bs := hbig.resolve_right (by omega)
      rw [if_neg (by omega), if_pos (by rw [hA.ncols]; exact ⟨ht, hkn⟩)]
      by_cases h64 : 64 * (k / 64) + 64 < MA.ncols
      · rw [if_pos h64]
        rw [hA.ncols] at h64
        obtain ⟨B0, e0, B, e1, hB⟩ := trsm_copy junk mb bs e hbs hk hc hA hm hn hb (y := 64 * (k / 64)) (y' := 64 * (k / 64) + 64) (by omega) (by omega) (by omega)
        obtain ⟨M, e2, sh, g1, g2⟩ := trsm_window junk mb bs e' hbs hk hc hA hm hn hbig (y := 64 * (k / 64) + 64) (by omega) (by omega)
        obtain ⟨D, e3, sh', g3, g4⟩ := hB M sh
        simp only [e0, e1, e2, C_ok_bind]
        refine ⟨D, e3, sh', fun j h1 h2 i => ?_, fun a b hab => by rw [g4 a b (by omega), g2 a b (by omega)]⟩
        by_cases hj : j < 64 * (k / 64) + 64
        · exact g3 j (by omega) hj i
        · rw [← g1 j (by omega) h2 i]
          exact Finset.sum_congr rfl fun l _ => by rw [g4 l j (by omega)]
      · rw [if_neg h64]
        obtain ⟨B0, e0, B, e1, hB⟩ := trsm_copy junk mb bs e hbs hk hc hA hm hn hb (y := 64 * (k / 64)) (y' := MA.ncols) (by omega) (by rw [hA.ncols]; omega) (by rw [hA.ncols])
        obtain ⟨D, e3, sh', g3, g4⟩ := hB MA (Sh.refl _)
        simp only [e0, e1, C_ok_bind]
        exact ⟨D, e3, sh', fun j h1 h2 i => g3 j (by omega) (by rw [hA.ncols]; exact h2) i, fun a b hab => g4 a b (by rw [hA.ncols]; omega)⟩

theorem set_corner_ok {M : Mzd} (w : M.Wf) (hm : k ≤ M.nrows) (hn : k ≤ M.ncols) :
    Ok (onWindow M 0 0 k k fun W => mzd_set_ui W 1) fun D => Sh M D ∧ ∀ a b, D.bit a b = if a < k ∧ b < k then decide (a = b) else M.bit a b := by
  have hw := window_rep w (x := 0) (x' := k) (y := 0) (y' := k) (r := k) (c := k) (by omega) (by omega) (by omega) hm hn (by omega) (by omega)
  have key : Ok (mzd_set_ui (mzd_window M 0 0 k k) 1) fun N => Wr (mzd_window M 0 0 k k) N (fun (a b : Fin k) => bitF (decide ((a : Nat) = b))) := by
    rcases Nat.eq_zero_or_pos k with h | h
    · subst h
      refine ⟨mzd_window M 0 0 0 0, ?_, Sh.refl _, fun i => i.elim0, fun _ _ _ => rfl⟩
      unfold mzd_set_ui
      rw [hw.nrows]
      show (if 1 % 2 = 0 then pure (mzd_window M 0 0 0 0) else forUp 0 (min (mzd_window M 0 0 0 0).nrows (mzd_window M 0 0 0 0).ncols) (mzd_window M 0 0 0 0) fun i A => mzd_write_bit A i i true) = _
      rw [if_neg (by omega), hw.nrows, Nat.zero_min]
      rfl
    · refine (set_one hw.wf (by rw [hw.ncols]; exact h)).mono ?_
      rw [hw.nrows, hw.ncols]
      intro N ⟨sh, hN⟩
      exact ⟨sh, fun i j => by rw [hN, if_pos ⟨i.2, j.2⟩], fun a b hab => by rw [hN, if_neg hab]⟩
  refine (onWindow_spec w (by omega) key).mono ?_
  intro D ⟨sh, h1, h2⟩
  refine ⟨sh, fun a b => ?_⟩
  by_cases h : a < k ∧ b < k
  · rw [if_pos h]
    have := h1 ⟨a, h.1⟩ ⟨b, h.2⟩
    simp only [Nat.zero_add] at this
    exact bitF_inj.1 this
  · rw [if_neg h, h2 a b (by omega)]

theorem perm_part_ok {M : Mzd} {Q : Mem Nat} (l1 : Nat) (hM : Rep M F) (hm : k ≤ m) (h0 : 0 < n) (hs : Q.size = n) (hv : ∀ i < n, i ≤ Q.cell i ∧ Q.cell i < n) :
    Ok (permPart l1 k Q M) fun D => Sh M D ∧ (∀ (a : Fin k) (b : Fin n), bitF (D.bit a b) = (F.submatrix (Fin.castLE hm) id * PMat Q.cell n n) a b) ∧
      ∀ a b, (k ≤ a ∨ n ≤ b) → D.bit a b = M.bit a b := by
  unfold permPart
  by_cases h : k ≠ 0
  · rw [if_pos h]
    have hw := window_rep hM.wf (x := 0) (x' := k) (y := 0) (y' := M.ncols) (r := k) (c := n) (by omega) (by omega) (by omega) (by rw [hM.nrows]; exact hm) (by omega) (by omega) (by rw [hM.ncols]; omega)
    obtain ⟨W, eW, hW, oW⟩ := C109_right_partial (P := Q) l1 hw h0 (by rw [hs, Nat.min_self]; exact fun i hi => (hv i hi).2)
    rw [hs, Nat.min_self] at hW
    have hF : blk M 0 0 k n = F.submatrix (Fin.castLE hm) id := by
      ext i j
      unfold blk
      rw [Nat.zero_add, Nat.zero_add]
      exact hM.bit ⟨i, by omega⟩ j
    rw [hF] at hW
    obtain ⟨N, eN, shN, hN⟩ := right_even_spec (P := Q) (start_row := 0) (start_col := 0) (notrans := true) l1 hw.wf (by rw [hw.ncols]; exact h0) (Nat.zero_le _)
      (by rw [hw.ncols, hs, Nat.min_self]; exact fun i hi => (hv i hi).2)
    have hWN : W = N := by
      unfold mzd_apply_p_right at eW
      rw [if_neg (by rw [hw.nrows]; exact h)] at eW
      rw [eW] at eN
      exact Except.ok.inj eN
    subst hWN
    refine (onWindow_spec hM.wf (by omega) (f := fun W => mzd_apply_p_right l1 W Q) (Y := F.submatrix (Fin.castLE hm) id * PMat Q.cell n n)
      ⟨W, eW, shN, hW.bit, fun a b hab => ?_⟩).mono ?_
    · rw [hN]
      unfold rightBit
      rw [if_neg (by rw [hw.nrows, hw.ncols]; omega)]
    · intro D ⟨sh, h1, h2⟩
      refine ⟨sh, fun a b => ?_, fun a b hab => h2 a b (by omega)⟩
      have := h1 a b
      rw [Nat.zero_add, Nat.zero_add] at this
      exact this
  · have h : k = 0 := by omega
    subst h
    rw [if_neg (by simp)]
    exact ⟨M, rfl, Sh.refl _, fun a => a.elim0, fun _ _ _ => rfl⟩

/-! ## Matrices -/

/-- A matrix with zeros below. -/
def extRows (m : Nat) (E : Matrix (Fin k) (Fin n) (ZMod 2)) : Matrix (Fin m) (Fin n) (ZMod 2) := fun a b => if h : (a : Nat) < k then E ⟨a, h⟩ b else 0

/-- A matrix with the columns of the identity matrix to the right. -/
def extCols (L : Matrix (Fin m) (Fin k) (ZMod 2)) : Matrix (Fin m) (Fin m) (ZMod 2) := fun a j => if h : (j : Nat) < k then L a ⟨j, h⟩ else if a = j then 1 else 0

theorem ext_mul (hk : k ≤ m) (L : Matrix (Fin m) (Fin k) (ZMod 2)) (E : Matrix (Fin k) (Fin n) (ZMod 2)) : extCols L * extRows m E = L * E := by
  ext a b
  rw [Matrix.mul_apply, Matrix.mul_apply]
  have e1 : ∑ j : Fin m, extCols L a j * extRows m E j b = ∑ j ∈ Finset.range m, (if h : j < k then L a ⟨j, h⟩ * E ⟨j, h⟩ b else 0) := by
    rw [Finset.sum_range]
    refine Finset.sum_congr rfl fun j _ => ?_
    show (if h : (j : Nat) < k then L a ⟨j, h⟩ else if a = j then 1 else 0) * (if h : (j : Nat) < k then E ⟨j, h⟩ b else 0) = _
    by_cases hj : (j : Nat) < k
    · rw [dif_pos hj, dif_pos hj, dif_pos hj]
    · rw [dif_neg hj, dif_neg hj, dif_neg hj, mul_zero]
  have e2 : ∑ j : Fin k, L a j * E j b = ∑ j ∈ Finset.range k, (if h : j < k then L a ⟨j, h⟩ * E ⟨j, h⟩ b else 0) := by
    rw [Finset.sum_range]
    refine Finset.sum_congr rfl fun j _ => ?_
    rw [dif_pos j.2]
  rw [e1, e2]
  refine (Finset.sum_subset (Finset.range_mono hk) fun j _ hj => ?_).symm
  rw [Finset.mem_range] at hj
  rw [dif_neg hj]

theorem ext_lower {L : Matrix (Fin m) (Fin k) (ZMod 2)} (h1 : ∀ (a : Fin m) (j : Fin k), (j : Nat) = a → L a j = 1) (h2 : ∀ (a : Fin m) (j : Fin k), (a : Nat) < j → L a j = 0) : IsUnit (extCols L) := by
  rw [Matrix.isUnit_iff_isUnit_det]
  have t : (extCols L).IsLowerTriangular := fun i j h => by
    have h : i < j := OrderDual.toDual_lt_toDual.1 h
    show (if h : (j : Nat) < k then L i ⟨j, h⟩ else if i = j then 1 else 0) = 0
    by_cases hj : (j : Nat) < k
    · rw [dif_pos hj, h2 i ⟨j, hj⟩ h]
    · rw [dif_neg hj, if_neg (ne_of_lt h)]
  rw [Matrix.det_of_isLowerTriangular _ t, Finset.prod_eq_one fun i _ => ?_]
  · exact isUnit_one
  · show (if h : (i : Nat) < k then L i ⟨i, h⟩ else if i = i then 1 else 0) = 1
    by_cases hi : (i : Nat) < k
    · rw [dif_pos hi, h1 i ⟨i, hi⟩ rfl]
    · rw [dif_neg hi, if_pos rfl]

theorem ext_upper {L : Matrix (Fin m) (Fin k) (ZMod 2)} (h1 : ∀ (a : Fin m) (j : Fin k), (j : Nat) = a → L a j = 1) (h2 : ∀ (a : Fin m) (j : Fin k), (j : Nat) < a → L a j = 0) : IsUnit (extCols L) := by
  rw [Matrix.isUnit_iff_isUnit_det]
  have t : (extCols L).IsUpperTriangular := fun i j h => by
    have h : j < i := h
    show (if h : (j : Nat) < k then L i ⟨j, h⟩ else if i = j then 1 else 0) = 0
    by_cases hj : (j : Nat) < k
    · rw [dif_pos hj, h2 i ⟨j, hj⟩ h]
    · rw [dif_neg hj, if_neg (ne_of_gt h)]
  rw [Matrix.det_of_isUpperTriangular t, Finset.prod_eq_one fun i _ => ?_]
  · exact isUnit_one
  · show (if h : (i : Nat) < k then L i ⟨i, h⟩ else if i = i then 1 else 0) = 1
    by_cases hi : (i : Nat) < k
    · rw [dif_pos hi, h1 i ⟨i, hi⟩ rfl]
    · rw [dif_neg hi, if_pos rfl]

/-- What is zero in all rows from `i` on stays so when an upper triangular system is solved. -/
theorem upper_zero {C : Matrix (Fin k) (Fin k) (ZMod 2)} {x y : Fin k → ZMod 2} (h : ∀ i, ∑ l, unitUpper C i l * x l = y i) : ∀ (d : Nat) (i : Fin k), k ≤ i + d → (∀ l, i ≤ l → y l = 0) → x i = 0 := by
  intro d
  induction d with
  | zero => intro i hi; exact absurd i.2 (by omega)
  | succ d ih =>
    intro i _ hy
    have h1 := h i
    rw [hy i (le_refl _), Finset.sum_eq_single i] at h1
    · unfold unitUpper at h1
      rw [if_pos rfl, one_mul] at h1
      exact h1
    · intro l _ hl
      unfold unitUpper
      rw [if_neg hl.symm]
      by_cases g : i < l
      · have g' : (i : Nat) < l := g
        rw [if_pos g, ih l (by omega) fun l' hl' => hy l' (g.le.trans hl'), mul_zero]
      · rw [if_neg g, zero_mul]
    · intro h; exact absurd (Finset.mem_univ _) h

end WB.m4w
