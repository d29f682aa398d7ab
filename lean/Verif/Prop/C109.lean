import Verif.Proof.M4riPerm
import Verif.Proof.M4riPack

/-!
# C109 — permutations in M4RI (`/repo/test/github1_M4RI/src/m4ri/mzp.c`)
-/
namespace WB.m4w

open WB.cmp (Mem)

variable {r c n : Nat} {M : Mzd} {P : Mem Nat}

/-! ## The matrix of a permutation -/

/-- C109: no exchanges give the identity matrix. -/
theorem C109_matrix_zero (v : Nat → Nat) (n : Nat) : PMat v 0 n = 1 := by
  ext i j
  show (if ((i : Nat) = (j : Nat)) then (1 : ZMod 2) else 0) = _
  rw [Matrix.one_apply]
  exact if_congr Fin.val_inj rfl rfl

/-- C109: one more exchange exchanges two rows of the matrix. -/
theorem C109_matrix_succ {v : Nat → Nat} {k : Nat} (hk : k < n) (hv : v k < n) : PMat v (k + 1) n = (PMat v k n).submatrix (Equiv.swap ⟨k, hk⟩ ⟨v k, hv⟩) id := by
  ext i j
  show (if Walk v (List.range (k + 1)) i = (j : Nat) then (1 : ZMod 2) else 0) = if Walk v (List.range k) ((Equiv.swap (⟨k, hk⟩ : Fin n) ⟨v k, hv⟩ i : Fin n) : Nat) = (j : Nat) then 1 else 0
  rw [List.range_succ, walk_append, Equiv.Perm.mul_apply]
  have : ((Equiv.swap (⟨k, hk⟩ : Fin n) ⟨v k, hv⟩ i : Fin n) : Nat) = Equiv.swap k (v k) (i : Nat) := by
    rw [Equiv.swap_apply_def, Equiv.swap_apply_def]
    by_cases h1 : (i : Nat) = k
    · rw [if_pos h1, if_pos (Fin.ext h1)]
    · rw [if_neg h1, if_neg (fun h => h1 (congrArg Fin.val h))]
      by_cases h2 : (i : Nat) = v k
      · rw [if_pos h2, if_pos (Fin.ext h2)]
      · rw [if_neg h2, if_neg (fun h => h2 (congrArg Fin.val h))]
  rw [this]

theorem pmat_mul {v : Nat → Nat} {len : Nat} (hv : ∀ i < len, i < r ∧ v i < r) (A : Matrix (Fin r) (Fin c) (ZMod 2)) (i : Fin r) (j : Fin c) :
    (PMat v len r * A) i j = A ⟨Walk v (List.range len) i, walk_lt _ (fun i hi => hv i (List.mem_range.1 hi)) i i.2⟩ j := by
  rw [Matrix.mul_apply, Finset.sum_eq_single ⟨Walk v (List.range len) i, walk_lt _ (fun i hi => hv i (List.mem_range.1 hi)) i i.2⟩]
  · unfold PMat; rw [if_pos rfl, one_mul]
  · intro b _ hb
    unfold PMat
    rw [if_neg (fun h => hb (Fin.ext h.symm)), zero_mul]
  · intro h; exact absurd (Finset.mem_univ _) h

theorem walk_eq_iff (v : Nat → Nat) (l : List Nat) (i j : Nat) : Walk v l i = j ↔ i = Walk v l.reverse j := by
  rw [walk_reverse, Equiv.Perm.eq_inv_iff_eq]

theorem pmat_trans_mul {v : Nat → Nat} {len : Nat} (hv : ∀ i < len, i < r ∧ v i < r) (A : Matrix (Fin r) (Fin c) (ZMod 2)) (i : Fin r) (j : Fin c) :
    ((PMat v len r).transpose * A) i j = A ⟨Walk v (List.range len).reverse i, walk_lt _ (fun i hi => hv i (List.mem_range.1 (List.mem_reverse.1 hi))) i i.2⟩ j := by
  rw [Matrix.mul_apply, Finset.sum_eq_single ⟨Walk v (List.range len).reverse i, walk_lt _ (fun i hi => hv i (List.mem_range.1 (List.mem_reverse.1 hi))) i i.2⟩]
  · rw [Matrix.transpose_apply]; unfold PMat
    rw [if_pos ((walk_eq_iff _ _ _ _).2 rfl), one_mul]
  · intro b _ hb
    rw [Matrix.transpose_apply]; unfold PMat
    rw [if_neg (fun h => hb (Fin.ext ((walk_eq_iff _ _ _ _).1 h))), zero_mul]
  · intro h; exact absurd (Finset.mem_univ _) h

theorem mul_pmat {v : Nat → Nat} {len : Nat} (hv : ∀ i < len, i < c ∧ v i < c) (A : Matrix (Fin r) (Fin c) (ZMod 2)) (i : Fin r) (j : Fin c) :
    (A * PMat v len c) i j = A i ⟨Walk v (List.range len).reverse j, walk_lt _ (fun i hi => hv i (List.mem_range.1 (List.mem_reverse.1 hi))) j j.2⟩ := by
  have := pmat_trans_mul hv A.transpose j i
  rw [← Matrix.transpose_mul, Matrix.transpose_apply, Matrix.transpose_apply] at this
  exact this

theorem mul_pmat_trans {v : Nat → Nat} {len : Nat} (hv : ∀ i < len, i < c ∧ v i < c) (A : Matrix (Fin r) (Fin c) (ZMod 2)) (i : Fin r) (j : Fin c) :
    (A * (PMat v len c).transpose) i j = A i ⟨Walk v (List.range len) j, walk_lt _ (fun i hi => hv i (List.mem_range.1 hi)) j j.2⟩ := by
  have := pmat_mul hv A.transpose j i
  rw [← Matrix.transpose_transpose (PMat v len c), ← Matrix.transpose_mul, Matrix.transpose_apply, Matrix.transpose_apply] at this
  exact this

/-- C109: the transposed matrix is the inverse. -/
theorem C109_matrix_inverse {v : Nat → Nat} {len : Nat} (hv : ∀ i < len, i < n ∧ v i < n) :
    (PMat v len n).transpose * PMat v len n = 1 ∧ PMat v len n * (PMat v len n).transpose = 1 := by
  have : (PMat v len n).transpose * PMat v len n = 1 := by
    ext i j
    rw [pmat_trans_mul hv]
    show (if Walk v (List.range len) (Walk v (List.range len).reverse i) = (j : Nat) then (1 : ZMod 2) else 0) = _
    rw [(walk_eq_iff v (List.range len) _ _).2 rfl, Matrix.one_apply]
    exact if_congr Fin.val_inj rfl rfl
  exact ⟨this, mul_eq_one_comm.1 this⟩

/-! ## Rows -/

/-- C109: `mzd_apply_p_left` multiplies by the matrix of the permutation from the left.  The unused bits stay as they are. -/
theorem C109_left {A : Matrix (Fin r) (Fin c) (ZMod 2)} (hM : Rep M A) (hv : ∀ i < min P.size r, i ≤ P.cell i ∧ P.cell i < r) :
    ∃ N, mzd_apply_p_left M P = .ok N ∧ Rep N (PMat P.cell (min P.size r) r * A) ∧ ∀ a b, c ≤ b → N.bit a b = M.bit a b := by
  have hv' : ∀ i < min P.size r, i < r ∧ P.cell i < r := fun i hi => ⟨by omega, (hv i hi).2⟩
  obtain ⟨N, e, sh, hN⟩ := left_spec hM.wf (by rw [hM.nrows]; exact hv)
  rw [hM.nrows, hM.ncols] at hN
  refine ⟨N, e, ⟨sh.wf hM.wf, sh.nrows.trans hM.nrows, sh.ncols.trans hM.ncols, fun i j => ?_⟩, fun a b hb => by rw [hN, if_neg (by omega)]⟩
  rw [hN, if_pos j.2, pmat_mul hv', ← hM.bit]

/-- C109: `mzd_apply_p_left_trans` multiplies by the transposed matrix. -/
theorem C109_left_trans {A : Matrix (Fin r) (Fin c) (ZMod 2)} (hM : Rep M A) (hv : ∀ i < min P.size r, i ≤ P.cell i ∧ P.cell i < r) :
    ∃ N, mzd_apply_p_left_trans M P = .ok N ∧ Rep N ((PMat P.cell (min P.size r) r).transpose * A) ∧ ∀ a b, c ≤ b → N.bit a b = M.bit a b := by
  have hv' : ∀ i < min P.size r, i < r ∧ P.cell i < r := fun i hi => ⟨by omega, (hv i hi).2⟩
  obtain ⟨N, e, sh, hN⟩ := left_trans_spec hM.wf (by rw [hM.nrows]; exact hv)
  rw [hM.nrows, hM.ncols] at hN
  refine ⟨N, e, ⟨sh.wf hM.wf, sh.nrows.trans hM.nrows, sh.ncols.trans hM.ncols, fun i j => ?_⟩, fun a b hb => by rw [hN, if_neg (by omega)]⟩
  rw [hN, if_pos j.2, pmat_trans_mul hv', ← hM.bit]

/-- C109: the two functions undo each other. -/
theorem C109_left_undo {A : Matrix (Fin r) (Fin c) (ZMod 2)} (hM : Rep M A) (hv : ∀ i < min P.size r, i ≤ P.cell i ∧ P.cell i < r) :
    (∃ N, (do mzd_apply_p_left_trans (← mzd_apply_p_left M P) P) = .ok N ∧ Rep N A) ∧
    ∃ N, (do mzd_apply_p_left (← mzd_apply_p_left_trans M P) P) = .ok N ∧ Rep N A := by
  have hi := C109_matrix_inverse (n := r) (v := P.cell) (len := min P.size r) fun i hi => ⟨by omega, (hv i hi).2⟩
  obtain ⟨N, e, hN, _⟩ := C109_left hM hv
  obtain ⟨N', e', hN', _⟩ := C109_left_trans hN hv
  obtain ⟨K, f, hK, _⟩ := C109_left_trans hM hv
  obtain ⟨K', f', hK', _⟩ := C109_left hK hv
  rw [← Matrix.mul_assoc, hi.1, Matrix.one_mul] at hN'
  rw [← Matrix.mul_assoc, hi.2, Matrix.one_mul] at hK'
  exact ⟨⟨N', by rw [e, C_ok_bind, e'], hN'⟩, ⟨K', by rw [f, C_ok_bind, f'], hK'⟩⟩

/-- C109: an element that is smaller than its index stops the program (assertions are on). -/
theorem C109_left_assert {A : Matrix (Fin r) (Fin c) (ZMod 2)} (hM : Rep M A) (hc : 0 < c) (hv : ∀ i < min P.size r, P.cell i < r) {k : Nat} (hk : k < min P.size r) (hb : P.cell k < k) :
    mzd_apply_p_left M P = .error .abort := by
  obtain ⟨k, ⟨hk, hb⟩, hmin⟩ : ∃ k, (k < min P.size r ∧ P.cell k < k) ∧ ∀ i < k, ¬ (i < min P.size r ∧ P.cell i < i) := by
    have hex : ∃ k, k < min P.size r ∧ P.cell k < k := ⟨k, hk, hb⟩
    classical
    exact ⟨Nat.find hex, Nat.find_spec hex, fun i hi => Nat.find_min hex hi⟩
  unfold mzd_apply_p_left
  rw [if_neg (by rw [hM.ncols]; omega), hM.nrows]
  refine loop_fails (fun _ N => Sh M N) (k := k) (Sh.refl M) hk (fun i N hi sh => ?_) fun N sh => ?_
  · have h1 := hmin i hi
    rw [checked_eq (by omega) (by omega)]
    have := left_step (l := []) (v := P.cell) (i := i) (sh.wf hM.wf) (Sh.refl N) (fun a b => by rw [walk_nil]; simp) (by rw [sh.nrows, hM.nrows]; omega)
      (by rw [sh.nrows, hM.nrows]; exact hv i (by omega))
    exact this.mono fun D h => sh.trans h.1
  · unfold checked
    rw [Mem.get_eq (by omega), C_ok_bind, if_pos hb]

/-! ## Columns -/

/-- C109: what `mzd_apply_p_right_trans` computes, entry by entry, for every permutation with elements less than the number of columns. -/
theorem C109_right_trans_entries (l1 : Nat) {A : Matrix (Fin r) (Fin c) (ZMod 2)} (hM : Rep M A) (hc : 0 < c) (hv : ∀ i < min P.size c, P.cell i < c) :
    ∃ N, mzd_apply_p_right_trans l1 M P = .ok N ∧ (∃ B : Matrix (Fin r) (Fin c) (ZMod 2), Rep N B ∧
      ∀ a j, B a j = if (j : Nat) < P.size ∨ Walk P.cell (List.range (min P.size c)) j = j then
        A a ⟨Walk P.cell (List.range (min P.size c)) j, walk_lt _ (fun i hi => ⟨by have := List.mem_range.1 hi; omega, hv i (List.mem_range.1 hi)⟩) j j.2⟩ else 0) ∧
      ∀ a b, c ≤ b → N.bit a b = M.bit a b := by
  unfold mzd_apply_p_right_trans
  by_cases hz : M.nrows = 0
  · rw [if_pos hz]
    have hr : r = 0 := hM.nrows.symm.trans hz
    subst hr
    exact ⟨M, rfl, ⟨A, hM, fun a => a.elim0⟩, fun a b _ => rfl⟩
  rw [if_neg hz]
  obtain ⟨N, e, sh, hN⟩ := right_even_spec (P := P) (start_row := 0) (start_col := 0) (notrans := false) l1 hM.wf (by rw [hM.ncols]; exact hc) (Nat.zero_le _) (by rw [hM.ncols]; exact hv)
  rw [hM.nrows, hM.ncols] at hN
  unfold rightBit order at hN
  simp only [Bool.false_eq_true, if_false, Nat.sub_zero] at hN
  rw [← List.range_eq_range'] at hN
  refine ⟨N, e, ⟨_, ⟨sh.wf hM.wf, sh.nrows.trans hM.nrows, sh.ncols.trans hM.ncols, fun i j => ?_⟩, fun a j => rfl⟩, fun a b hb => by rw [hN, if_neg (by rw [hM.ncols]; omega)]⟩
  rw [hN, if_pos ⟨Nat.zero_le _, i.2, by rw [hM.ncols]; exact j.2⟩]
  have hj := j.2
  by_cases h : (j : Nat) < P.size ∨ Walk P.cell (List.range (min P.size c)) j = j
  · rw [if_pos h, if_pos (by omega), ← hM.bit]
  · rw [if_neg h, if_neg (by omega)]; rfl

/-- C109: the same for `mzd_apply_p_right`. -/
theorem C109_right_entries (l1 : Nat) {A : Matrix (Fin r) (Fin c) (ZMod 2)} (hM : Rep M A) (hc : 0 < c) (hv : ∀ i < min P.size c, P.cell i < c) :
    ∃ N, mzd_apply_p_right l1 M P = .ok N ∧ (∃ B : Matrix (Fin r) (Fin c) (ZMod 2), Rep N B ∧
      ∀ a j, B a j = if (j : Nat) < P.size ∨ Walk P.cell (List.range (min P.size c)).reverse j = j then
        A a ⟨Walk P.cell (List.range (min P.size c)).reverse j,
          walk_lt _ (fun i hi => ⟨by have := List.mem_range.1 (List.mem_reverse.1 hi); omega, hv i (List.mem_range.1 (List.mem_reverse.1 hi))⟩) j j.2⟩ else 0) ∧
      ∀ a b, c ≤ b → N.bit a b = M.bit a b := by
  unfold mzd_apply_p_right
  by_cases hz : M.nrows = 0
  · rw [if_pos hz]
    have hr : r = 0 := hM.nrows.symm.trans hz
    subst hr
    exact ⟨M, rfl, ⟨A, hM, fun a => a.elim0⟩, fun a b _ => rfl⟩
  rw [if_neg hz]
  obtain ⟨N, e, sh, hN⟩ := right_even_spec (P := P) (start_row := 0) (start_col := 0) (notrans := true) l1 hM.wf (by rw [hM.ncols]; exact hc) (Nat.zero_le _) (by rw [hM.ncols]; exact hv)
  rw [hM.nrows, hM.ncols] at hN
  unfold rightBit order at hN
  simp only [if_true, Nat.sub_zero] at hN
  refine ⟨N, e, ⟨_, ⟨sh.wf hM.wf, sh.nrows.trans hM.nrows, sh.ncols.trans hM.ncols, fun i j => ?_⟩, fun a j => rfl⟩, fun a b hb => by rw [hN, if_neg (by rw [hM.ncols]; omega)]⟩
  rw [hN, if_pos ⟨Nat.zero_le _, i.2, by rw [hM.ncols]; exact j.2⟩]
  have hj := j.2
  by_cases h : (j : Nat) < P.size ∨ Walk P.cell (List.range (min P.size c)).reverse j = j
  · rw [if_pos h, if_pos (by omega), ← hM.bit]
  · rw [if_neg h, if_neg (by omega)]; rfl

/-- C109, full statement: `mzd_apply_p_right_trans` multiplies by the transposed matrix of the permutation from the right, whenever all elements are indices of columns. -/
def C109_right_statement : Prop := ∀ {r c : Nat} {M : Mzd} {P : Mem Nat} (l1 : Nat) {A : Matrix (Fin r) (Fin c) (ZMod 2)}, Rep M A → (∀ i < min P.size c, i ≤ P.cell i ∧ P.cell i < c) →
  ∃ N, mzd_apply_p_right_trans l1 M P = .ok N ∧ Rep N (A * (PMat P.cell (min P.size c) c).transpose)

/-- C109: it does if there is a column and the elements are less than the length of the permutation too, for every size of the cache. -/
theorem C109_right_trans_partial (l1 : Nat) {A : Matrix (Fin r) (Fin c) (ZMod 2)} (hM : Rep M A) (hc : 0 < c) (hv : ∀ i < min P.size c, P.cell i < min P.size c) :
    ∃ N, mzd_apply_p_right_trans l1 M P = .ok N ∧ Rep N (A * (PMat P.cell (min P.size c) c).transpose) ∧ ∀ a b, c ≤ b → N.bit a b = M.bit a b := by
  obtain ⟨N, e, ⟨B, hB, hE⟩, hu⟩ := C109_right_trans_entries (P := P) l1 hM hc (fun i hi => by have := hv i hi; omega)
  refine ⟨N, e, ?_, hu⟩
  have : B = A * (PMat P.cell (min P.size c) c).transpose := by
    ext a j
    rw [hE, mul_pmat_trans fun i hi => ⟨by omega, by have := hv i hi; omega⟩, if_pos]
    by_cases h : (j : Nat) < P.size
    · exact .inl h
    · exact .inr (walk_fix (n := min P.size c) _ (fun i hi => ⟨List.mem_range.1 hi, hv i (List.mem_range.1 hi)⟩) _ (by omega))
  rw [← this]; exact hB

/-- C109: `mzd_apply_p_right` multiplies by the matrix of the permutation under the same conditions. -/
theorem C109_right_partial (l1 : Nat) {A : Matrix (Fin r) (Fin c) (ZMod 2)} (hM : Rep M A) (hc : 0 < c) (hv : ∀ i < min P.size c, P.cell i < min P.size c) :
    ∃ N, mzd_apply_p_right l1 M P = .ok N ∧ Rep N (A * PMat P.cell (min P.size c) c) ∧ ∀ a b, c ≤ b → N.bit a b = M.bit a b := by
  obtain ⟨N, e, ⟨B, hB, hE⟩, hu⟩ := C109_right_entries (P := P) l1 hM hc (fun i hi => by have := hv i hi; omega)
  refine ⟨N, e, ?_, hu⟩
  have : B = A * PMat P.cell (min P.size c) c := by
    ext a j
    rw [hE, mul_pmat fun i hi => ⟨by omega, by have := hv i hi; omega⟩, if_pos]
    by_cases h : (j : Nat) < P.size
    · exact .inl h
    · exact .inr (walk_fix (n := min P.size c) _ (fun i hi => ⟨List.mem_range.1 (List.mem_reverse.1 hi), hv i (List.mem_range.1 (List.mem_reverse.1 hi))⟩) _ (by omega))
  rw [← this]; exact hB

/-- C109: under these conditions the two functions undo each other. -/
theorem C109_right_undo_partial (l1 l1' : Nat) {A : Matrix (Fin r) (Fin c) (ZMod 2)} (hM : Rep M A) (hc : 0 < c) (hv : ∀ i < min P.size c, P.cell i < min P.size c) :
    (∃ N, (do mzd_apply_p_right_trans l1' (← mzd_apply_p_right l1 M P) P) = .ok N ∧ Rep N A) ∧
    ∃ N, (do mzd_apply_p_right l1' (← mzd_apply_p_right_trans l1 M P) P) = .ok N ∧ Rep N A := by
  have hi := C109_matrix_inverse (n := c) (v := P.cell) (len := min P.size c) fun i hi => ⟨by omega, by have := hv i hi; omega⟩
  obtain ⟨N, e, hN, _⟩ := C109_right_partial l1 hM hc hv
  obtain ⟨N', e', hN', _⟩ := C109_right_trans_partial l1' hN hc hv
  obtain ⟨K, f, hK, _⟩ := C109_right_trans_partial l1 hM hc hv
  obtain ⟨K', f', hK', _⟩ := C109_right_partial l1' hK hc hv
  rw [Matrix.mul_assoc, hi.2, Matrix.mul_one] at hN'
  rw [Matrix.mul_assoc, hi.1, Matrix.mul_one] at hK'
  exact ⟨⟨N', by rw [e, C_ok_bind, e'], hN'⟩, ⟨K', by rw [f, C_ok_bind, f'], hK'⟩⟩

/-- C109, what goes wrong: a permutation that is shorter than the rows and that moves a column behind its end loses a column.  With the one exchange of columns 0 and 1, column 0 is
overwritten and column 1 becomes zero, so the result is not the product if column 0 is not zero. -/
theorem C109_short_violated (l1 : Nat) {A : Matrix (Fin r) (Fin c) (ZMod 2)} (hM : Rep M A) (hc : 1 < c) (hs : P.size = 1) (h1 : P.cell 0 = 1) :
    ∃ N, mzd_apply_p_right_trans l1 M P = .ok N ∧ ∃ B : Matrix (Fin r) (Fin c) (ZMod 2), Rep N B ∧ (∀ a, B a ⟨0, by omega⟩ = A a ⟨1, hc⟩) ∧ (∀ a, B a ⟨1, hc⟩ = 0) ∧
      ∀ a, (A * (PMat P.cell 1 c).transpose) a ⟨1, hc⟩ = A a ⟨0, by omega⟩ := by
  have hw : Walk P.cell (List.range 1) = Equiv.swap 0 1 := by
    rw [show List.range 1 = [0] from rfl, walk_cons, walk_nil, mul_one, h1]
  have hmin : min P.size c = 1 := by omega
  obtain ⟨N, e, ⟨B, hB, hE⟩, _⟩ := C109_right_trans_entries (P := P) l1 hM (by omega)
    (fun i hi => by rw [show i = 0 by omega, h1]; omega)
  refine ⟨N, e, B, hB, fun a => ?_, fun a => ?_, fun a => ?_⟩
  · rw [hE, if_pos (.inl (by show 0 < P.size; omega))]
    congr 1
    apply Fin.ext
    show Walk P.cell (List.range (min P.size c)) 0 = 1
    rw [hmin, hw]; rfl
  · rw [hE, if_neg]
    intro h
    rcases h with h | h
    · have : 1 < P.size := h
      omega
    · have : Walk P.cell (List.range (min P.size c)) 1 = 1 := h
      rw [hmin, hw] at this
      exact absurd this (by decide)
  · rw [mul_pmat_trans (fun i hi => by rw [show i = 0 by omega, h1]; omega)]
    congr 1
    apply Fin.ext
    show Walk P.cell (List.range 1) 1 = 0
    rw [hw]; rfl

/-- C109, what goes wrong: a matrix with rows but without columns makes the program divide by zero. -/
theorem C109_no_columns_violated (l1 : Nat) (h : 0 < M.nrows) (h0 : M.ncols = 0) (P : Mem Nat) :
    mzd_apply_p_right_trans l1 M P = .error .divZero ∧ mzd_apply_p_right l1 M P = .error .divZero ∧
    _mzd_apply_p_right_trans l1 M P = .error .divZero ∧ _mzd_apply_p_right l1 M P = .error .divZero := by
  have hw : M.width = 0 := by unfold Mzd.width; omega
  unfold mzd_apply_p_right_trans mzd_apply_p_right _mzd_apply_p_right_even _mzd_apply_p_right_trans _mzd_apply_p_right
  rw [if_neg (by omega), if_neg (by omega), if_pos hw, if_neg (by omega), if_neg (by omega), if_pos hw, if_neg (by omega), if_pos hw, if_neg (by omega), if_pos hw]
  exact ⟨rfl, rfl, rfl, rfl⟩

/-- C109, what goes wrong: an element that is not the index of a column makes the program leave the array of the permutation; there is no assertion. -/
theorem C109_range_violated (l1 : Nat) (hr : 0 < M.nrows) (hc : 0 < M.ncols) {k : Nat} (hk : k < min P.size M.ncols) (hb : M.ncols ≤ P.cell k) :
    mzd_apply_p_right_trans l1 M P = .error .oob := by
  obtain ⟨k, ⟨hk, hb⟩, hmin⟩ : ∃ k, (k < min P.size M.ncols ∧ M.ncols ≤ P.cell k) ∧ ∀ i < k, ¬ (i < min P.size M.ncols ∧ M.ncols ≤ P.cell i) := by
    have hex : ∃ k, k < min P.size M.ncols ∧ M.ncols ≤ P.cell k := ⟨k, hk, hb⟩
    classical
    exact ⟨Nat.find hex, Nat.find_spec hex, fun i hi => Nat.find_min hex hi⟩
  unfold mzd_apply_p_right_trans _mzd_apply_p_right_even permArray
  rw [if_neg (by omega), if_neg (by omega), if_neg (by unfold Mzd.width; omega)]
  simp only [Bool.not_false, if_true]
  obtain ⟨p, e, hs, _⟩ := iota_spec M.ncols
  rw [e, C_ok_bind]
  rw [loop_fails (e := .oob) (fun _ (q : Mem Nat) => q.size = M.ncols) (k := k) hs hk (fun i q hi hq => ?_) fun q hq => ?_]
  · rfl
  · have := hmin i hi
    rw [Mem.get_eq (by omega), C_ok_bind]
    exact (swapPerm_spec (p := q) (by omega) (by omega)).mono fun D h => h.1.trans hq
  · rw [Mem.get_eq (by omega), C_ok_bind]
    unfold swapPerm
    rw [Mem.get_eq (by omega), C_ok_bind]
    show (q.get (P.cell k) >>= _) = _
    rw [show q.get (P.cell k) = .error .oob from if_neg (by omega)]
    rfl

/-! ## Column by column -/

/-- C109: `mzd_col_swap_in_rows` exchanges two columns in some rows and changes nothing else, for every choice of columns. -/
theorem C109_col_swap {A : Matrix (Fin r) (Fin c) (ZMod 2)} (hM : Rep M A) (x y : Fin c) {lo hi : Nat} (hh : hi ≤ r) :
    ∃ N, mzd_col_swap_in_rows M x y lo hi = .ok N ∧ Rep N (fun a j => if lo ≤ (a : Nat) ∧ (a : Nat) < hi then A a (Equiv.swap x y j) else A a j) ∧ ∀ a b, c ≤ b → N.bit a b = M.bit a b := by
  obtain ⟨N, e, sh, hN⟩ := colSwap_spec (x := x) (y := y) (lo := lo) (hi := hi) hM.wf (by rw [hM.ncols]; exact x.2) (by rw [hM.ncols]; exact y.2) (by rw [hM.nrows]; exact hh)
  refine ⟨N, e, ⟨sh.wf hM.wf, sh.nrows.trans hM.nrows, sh.ncols.trans hM.ncols, fun i j => ?_⟩, fun a b hb => ?_⟩
  · rw [hN]
    have : ((Equiv.swap x y j : Fin c) : Nat) = Equiv.swap (x : Nat) y (j : Nat) := by
      rw [Equiv.swap_apply_def, Equiv.swap_apply_def]
      by_cases h1 : (j : Nat) = x
      · rw [if_pos h1, if_pos (Fin.ext h1)]
      · rw [if_neg h1, if_neg (fun h => h1 (congrArg Fin.val h))]
        by_cases h2 : (j : Nat) = y
        · rw [if_pos h2, if_pos (Fin.ext h2)]
        · rw [if_neg h2, if_neg (fun h => h2 (congrArg Fin.val h))]
    rw [← this]
    split
    · exact hM.bit _ _
    · exact hM.bit _ _
  · rw [hN, Equiv.swap_apply_of_ne_of_ne (by have := x.2; omega) (by have := y.2; omega), ite_self]

/-- C109: the version of `mzd_apply_p_right_trans` that exchanges columns computes the product whenever there is a column, also for short permutations. -/
theorem C109_columns_trans (l1 : Nat) {A : Matrix (Fin r) (Fin c) (ZMod 2)} (hM : Rep M A) (hc : 0 < c) (hv : ∀ i < min P.size c, i ≤ P.cell i ∧ P.cell i < c) :
    ∃ N, _mzd_apply_p_right_trans l1 M P = .ok N ∧ Rep N (A * (PMat P.cell (min P.size c) c).transpose) ∧ ∀ a b, c ≤ b → N.bit a b = M.bit a b := by
  have hv' : ∀ i < min P.size c, i < c ∧ P.cell i < c := fun i hi => ⟨by omega, (hv i hi).2⟩
  obtain ⟨N, e, sh, hN⟩ := slow_trans_spec (P := P) l1 hM.wf (by rw [hM.ncols]; exact hc) (by rw [hM.ncols]; exact hv)
  rw [hM.nrows, hM.ncols] at hN
  refine ⟨N, e, ⟨sh.wf hM.wf, sh.nrows.trans hM.nrows, sh.ncols.trans hM.ncols, fun i j => ?_⟩, fun a b hb => ?_⟩
  · rw [hN, if_pos i.2, mul_pmat_trans hv', ← hM.bit]
  · rw [hN, walk_fix _ (fun i hi => hv' i (List.mem_range.1 hi)) b hb, ite_self]

/-- C109: the same for `mzd_apply_p_right`. -/
theorem C109_columns (l1 : Nat) {A : Matrix (Fin r) (Fin c) (ZMod 2)} (hM : Rep M A) (hc : 0 < c) (hv : ∀ i < P.size, i ≤ P.cell i ∧ P.cell i < c) :
    ∃ N, _mzd_apply_p_right l1 M P = .ok N ∧ Rep N (A * PMat P.cell (min P.size c) c) ∧ ∀ a b, c ≤ b → N.bit a b = M.bit a b := by
  have hv' : ∀ i < min P.size c, i < c ∧ P.cell i < c := fun i hi => ⟨by omega, (hv i (by omega)).2⟩
  obtain ⟨N, e, sh, hN⟩ := slow_spec (P := P) l1 hM.wf (by rw [hM.ncols]; exact hc) (by rw [hM.ncols]; exact hv)
  rw [hM.nrows, hM.ncols] at hN
  refine ⟨N, e, ⟨sh.wf hM.wf, sh.nrows.trans hM.nrows, sh.ncols.trans hM.ncols, fun i j => ?_⟩, fun a b hb => ?_⟩
  · rw [hN, if_pos i.2, mul_pmat hv', ← hM.bit]
  · rw [hN, walk_fix _ (fun i hi => hv' i (List.mem_range.1 (List.mem_reverse.1 hi))) b hb, ite_self]

theorem C109_right_violated : ¬ C109_right_statement := by
  intro h
  have hM : Rep (pack 1 0 fun _ _ => true) (fun _ j => j.elim0 : Matrix (Fin 1) (Fin 0) (ZMod 2)) := pack_rep fun _ j => j.elim0
  obtain ⟨N, e, _⟩ := h (P := ⟨0, fun _ => 0⟩) 0 hM (fun i hi => by simp at hi)
  rw [(C109_no_columns_violated 0 (show 0 < 1 by decide) rfl _).1] at e
  exact absurd e (by simp)

/-! ## Some rows and columns -/

/-- C109: `mzd_apply_p_right_trans_even_capped` does the exchanges from number `start_col` on, in the rows from `start_row` on. -/
theorem C109_capped_trans (l1 : Nat) {A : Matrix (Fin r) (Fin c) (ZMod 2)} (hM : Rep M A) (hc : 0 < c) {start_row : Nat} (start_col : Nat) (hr : start_row ≤ r)
    (hv : ∀ i < P.size, P.cell i < P.size) (hs : P.size ≤ c) :
    ∃ N, mzd_apply_p_right_trans_even_capped l1 M P start_row start_col = .ok N ∧ N.Wf ∧ N.nrows = r ∧ N.ncols = c ∧
      ∀ a j, N.bit a j = if start_row ≤ a ∧ a < r then M.bit a (Walk P.cell (List.range' start_col (P.size - start_col)) j) else M.bit a j := by
  unfold mzd_apply_p_right_trans_even_capped
  by_cases hz : M.nrows = 0
  · rw [if_pos hz]
    exact ⟨M, rfl, hM.wf, hM.nrows, hM.ncols, fun a j => by rw [if_neg (by have := hM.nrows; omega)]⟩
  rw [if_neg hz]
  have hmin : min P.size c = P.size := by omega
  obtain ⟨N, e, sh, hN⟩ := right_even_spec (P := P) (start_row := start_row) (start_col := start_col) (notrans := false) l1 hM.wf (by rw [hM.ncols]; exact hc) (by rw [hM.nrows]; exact hr)
    (by rw [hM.ncols, hmin]; exact fun i hi => by have := hv i hi; omega)
  rw [hM.nrows, hM.ncols, hmin] at hN
  unfold rightBit order at hN
  simp only [Bool.false_eq_true, if_false] at hN
  refine ⟨N, e, sh.wf hM.wf, sh.nrows.trans hM.nrows, sh.ncols.trans hM.ncols, fun a j => ?_⟩
  have hl : ∀ i ∈ List.range' start_col (P.size - start_col), i < P.size ∧ P.cell i < P.size := fun i hi => by
    have := List.mem_range'_1.1 hi
    exact ⟨by omega, hv i (by omega)⟩
  rw [hN, hM.ncols]
  by_cases ha : start_row ≤ a ∧ a < r
  · rw [if_pos ha]
    by_cases hj : j < c
    · rw [if_pos ⟨ha.1, ha.2, hj⟩, if_pos]
      by_cases hp : j < P.size
      · exact .inl hp
      · exact .inr (walk_fix _ hl j (by omega))
    · rw [if_neg (by omega), walk_fix _ hl j (by omega)]
  · rw [if_neg ha, if_neg (by omega)]

/-- C109, full statement: `mzd_apply_p_right_even_capped` is the inverse of the function before. -/
def C109_capped_statement : Prop := ∀ {r c : Nat} {M : Mzd} {P : Mem Nat} (l1 start_row start_col : Nat) {A : Matrix (Fin r) (Fin c) (ZMod 2)}, Rep M A → 0 < c → start_row ≤ r → P.size = c →
  (∀ i < c, i ≤ P.cell i ∧ P.cell i < c) →
  ∃ N, (do mzd_apply_p_right_even_capped l1 (← mzd_apply_p_right_trans_even_capped l1 M P start_row start_col) P start_row start_col) = .ok N ∧ Rep N A

/-- C109: what `mzd_apply_p_right_even_capped` does: it leaves out the last `start_col` exchanges, not the first. -/
theorem C109_capped (l1 : Nat) {A : Matrix (Fin r) (Fin c) (ZMod 2)} (hM : Rep M A) (hc : 0 < c) {start_row : Nat} (start_col : Nat) (hr : start_row ≤ r)
    (hv : ∀ i < P.size, P.cell i < P.size) (hs : P.size ≤ c) :
    ∃ N, mzd_apply_p_right_even_capped l1 M P start_row start_col = .ok N ∧ N.Wf ∧ N.nrows = r ∧ N.ncols = c ∧
      ∀ a j, N.bit a j = if start_row ≤ a ∧ a < r then M.bit a (Walk P.cell (List.range (P.size - start_col)).reverse j) else M.bit a j := by
  unfold mzd_apply_p_right_even_capped
  by_cases hz : M.nrows = 0
  · rw [if_pos hz]
    exact ⟨M, rfl, hM.wf, hM.nrows, hM.ncols, fun a j => by rw [if_neg (by have := hM.nrows; omega)]⟩
  rw [if_neg hz]
  have hmin : min P.size c = P.size := by omega
  obtain ⟨N, e, sh, hN⟩ := right_even_spec (P := P) (start_row := start_row) (start_col := start_col) (notrans := true) l1 hM.wf (by rw [hM.ncols]; exact hc) (by rw [hM.nrows]; exact hr)
    (by rw [hM.ncols, hmin]; exact fun i hi => by have := hv i hi; omega)
  rw [hM.nrows, hM.ncols, hmin] at hN
  unfold rightBit order at hN
  simp only [if_true] at hN
  refine ⟨N, e, sh.wf hM.wf, sh.nrows.trans hM.nrows, sh.ncols.trans hM.ncols, fun a j => ?_⟩
  have hl : ∀ i ∈ (List.range (P.size - start_col)).reverse, i < P.size ∧ P.cell i < P.size := fun i hi => by
    have := List.mem_range.1 (List.mem_reverse.1 hi)
    exact ⟨by omega, hv i (by omega)⟩
  rw [hN, hM.ncols]
  by_cases ha : start_row ≤ a ∧ a < r
  · rw [if_pos ha]
    by_cases hj : j < c
    · rw [if_pos ⟨ha.1, ha.2, hj⟩, if_pos]
      by_cases hp : j < P.size
      · exact .inl hp
      · exact .inr (walk_fix _ hl j (by omega))
    · rw [if_neg (by omega), walk_fix _ hl j (by omega)]
  · rw [if_neg ha, if_neg (by omega)]

/-- C109: with `start_col = 0` it is the inverse. -/
theorem C109_capped_partial (l1 : Nat) {A : Matrix (Fin r) (Fin c) (ZMod 2)} (hM : Rep M A) (hc : 0 < c) {start_row : Nat} (hr : start_row ≤ r) (hs : P.size = c) (hv : ∀ i < c, P.cell i < c) :
    ∃ N, (do mzd_apply_p_right_even_capped l1 (← mzd_apply_p_right_trans_even_capped l1 M P start_row 0) P start_row 0) = .ok N ∧ Rep N A := by
  obtain ⟨N, e, wN, nN, cN, hN⟩ := C109_capped_trans (P := P) l1 hM hc 0 hr (by rw [hs]; exact hv) (by omega)
  have hN' : Rep N (fun i j => bitF (N.bit i j) : Matrix (Fin r) (Fin c) (ZMod 2)) := ⟨wN, nN, cN, fun _ _ => rfl⟩
  obtain ⟨K, f, wK, nK, cK, hK⟩ := C109_capped (P := P) l1 hN' hc 0 hr (by rw [hs]; exact hv) (by omega)
  refine ⟨K, by rw [e, C_ok_bind, f], wK, nK, cK, fun i j => ?_⟩
  rw [hK, hN, hN, Nat.sub_zero, ← List.range_eq_range', (walk_eq_iff P.cell (List.range P.size) _ _).2 rfl, ← hM.bit]
  by_cases h : start_row ≤ (i : Nat) ∧ (i : Nat) < r
  · rw [if_pos h, if_pos h]
  · rw [if_neg h, if_neg h]

/-- C109, what goes wrong: with `start_col = 1`, the transposed function leaves a matrix with three columns unchanged for the permutation that only exchanges columns 0 and 1, but the other function exchanges
these columns, although the first of them lies before `start_col`. -/
theorem C109_capped_column_violated (l1 : Nat) {A : Matrix (Fin r) (Fin 3) (ZMod 2)} (hM : Rep M A) (hs : P.size = 3) (h0 : P.cell 0 = 1) (h1 : P.cell 1 = 1) (h2 : P.cell 2 = 2) :
    (∃ N, mzd_apply_p_right_trans_even_capped l1 M P 0 1 = .ok N ∧ Rep N A) ∧
    ∃ N, mzd_apply_p_right_even_capped l1 M P 0 1 = .ok N ∧ Rep N (fun a j => A a (Equiv.swap 0 1 j)) := by
  have hv : ∀ i < P.size, P.cell i < P.size := by
    rw [hs]; intro i hi
    rcases (show i = 0 ∨ i = 1 ∨ i = 2 by omega) with rfl | rfl | rfl <;> omega
  constructor
  · obtain ⟨N, e, wN, nN, cN, hN⟩ := C109_capped_trans (P := P) l1 hM (by decide) 1 (Nat.zero_le r) hv (by omega)
    refine ⟨N, e, wN, nN, cN, fun i j => ?_⟩
    have : Walk P.cell (List.range' 1 (P.size - 1)) = 1 := by
      rw [hs, show List.range' 1 (3 - 1) = [1, 2] from rfl, walk_cons, walk_cons, walk_nil, h1, h2, Equiv.swap_self, Equiv.swap_self]; rfl
    rw [hN, this, if_pos ⟨Nat.zero_le _, i.2⟩]
    exact hM.bit i j
  · obtain ⟨N, e, wN, nN, cN, hN⟩ := C109_capped (P := P) l1 hM (by decide) 1 (Nat.zero_le r) hv (by omega)
    refine ⟨N, e, wN, nN, cN, fun i j => ?_⟩
    have : Walk P.cell (List.range (P.size - 1)).reverse = Equiv.swap 0 1 := by
      rw [hs, show (List.range (3 - 1)).reverse = [1, 0] from rfl, walk_cons, walk_cons, walk_nil, h0, h1, Equiv.swap_self]; rfl
    rw [hN, this, if_pos ⟨Nat.zero_le _, i.2⟩, ← hM.bit]
    congr 2
    revert j; decide

theorem C109_capped_violated : ¬ C109_capped_statement := by
  intro h
  have hM : Rep (pack 1 3 fun _ j => decide (j = 0)) (fun _ j => bitF (decide ((j : Nat) = 0)) : Matrix (Fin 1) (Fin 3) (ZMod 2)) := pack_rep fun _ _ => rfl
  let P : Mem Nat := ⟨3, fun k => if k = 0 then 1 else k⟩
  obtain ⟨⟨N, e, hN⟩, _⟩ := C109_capped_column_violated (P := P) 0 hM rfl rfl rfl rfl
  obtain ⟨_, ⟨K, f, hK⟩⟩ := C109_capped_column_violated (P := P) 0 hN rfl rfl rfl rfl
  obtain ⟨L, g, hL⟩ := h (P := P) 0 0 1 hM (by decide) (by decide) rfl (fun i hi => by rcases (show i = 0 ∨ i = 1 ∨ i = 2 by omega) with rfl | rfl | rfl <;> decide)
  rw [e, C_ok_bind, f] at g
  obtain rfl : K = L := by simpa using g
  have a := hK.bit 0 0
  rw [hL.bit 0 0] at a
  exact absurd a (by decide)

/-- C109: `mzd_apply_p_right_trans_tri`: in row `a`, only the exchanges with an index behind `a` are done. -/
theorem C109_tri (l1 : Nat) {A : Matrix (Fin r) (Fin c) (ZMod 2)} (hM : Rep M A) (hc : 0 < c) (hs : P.size = c) (hv : ∀ i < c, i ≤ P.cell i ∧ P.cell i < c) :
    ∃ N, mzd_apply_p_right_trans_tri l1 M P = .ok N ∧ N.Wf ∧ N.nrows = r ∧ N.ncols = c ∧
      ∀ a < r, (∀ j, N.bit a j = M.bit a (Walk P.cell (List.range' (a + 1) (c - (a + 1))) j)) ∧ ∀ j, j ≤ a → N.bit a j = M.bit a j := by
  obtain ⟨N, e, sh, hN⟩ := tri_spec (P := P) l1 hM.wf (by rw [hM.ncols]; exact hc) (by rw [hM.ncols]; exact hs) (by rw [hM.ncols]; exact hv)
  rw [hM.nrows, hM.ncols] at hN
  refine ⟨N, e, sh.wf hM.wf, sh.nrows.trans hM.nrows, sh.ncols.trans hM.ncols, fun a ha => ⟨fun j => by rw [hN, if_pos ha], fun j hj => ?_⟩⟩
  rw [hN, if_pos ha]
  congr 1
  have : ∀ l : List Nat, (∀ i ∈ l, a < i ∧ i < c) → Walk P.cell l j = j := by
    intro l
    induction l with
    | nil => intro _; rfl
    | cons i l ih =>
      intro h
      have h1 := h i List.mem_cons_self
      have h2 := hv i h1.2
      rw [walk_cons, Equiv.Perm.mul_apply, ih fun i hi => h i (List.mem_cons_of_mem _ hi)]
      exact Equiv.swap_apply_of_ne_of_ne (by omega) (by omega)
  exact this _ fun i hi => by have := List.mem_range'_1.1 hi; omega

/-- C109: it aborts if the length of the permutation is not the number of columns. -/
theorem C109_tri_sizes (l1 : Nat) (h : P.size ≠ M.ncols) : mzd_apply_p_right_trans_tri l1 M P = .error .abort := if_pos h

/-! ## Making permutations -/

/-- C109: a new permutation is the identity, whatever the memory contained. -/
theorem C109_init (junk : Nat → Nat) (length : Nat) : ∃ Q, mzp_init junk length = .ok Q ∧ Q.size = length ∧ ∀ i < length, Q.cell i = i := by
  show Ok _ _
  unfold mzp_init
  refine Ok.forUp (P := fun i (q : Mem Nat) => q.size = length ∧ ∀ j < i, q.cell j = j) (Nat.zero_le _) ⟨rfl, fun j hj => by omega⟩ ?_ (fun q h => h)
  intro i q _ hi ⟨hs, hq⟩
  rw [mem_put_eq _ (by omega), Ok.ok_iff]
  refine ⟨hs, fun j hj => ?_⟩
  show (if j = i then i else q.cell j) = j
  split
  · omega
  · exact hq j (by omega)

/-- C109: so is a permutation that is set to 1. -/
theorem C109_set_ui (P : Mem Nat) : ∃ Q, mzp_set_ui P = .ok Q ∧ Q.size = P.size ∧ ∀ i < P.size, Q.cell i = i := C109_init P.cell P.size

/-- C109: `mzp_copy` copies to a permutation that is long enough. -/
theorem C109_copy {P Q : Mem Nat} (h : Q.size ≤ P.size) : ∃ R, mzp_copy P Q = .ok R ∧ R.size = P.size ∧ (∀ i < Q.size, R.cell i = Q.cell i) ∧ ∀ i, Q.size ≤ i → R.cell i = P.cell i := by
  show Ok _ _
  unfold mzp_copy
  refine Ok.forUp (P := fun i (q : Mem Nat) => q.size = P.size ∧ (∀ j < i, q.cell j = Q.cell j) ∧ ∀ j, i ≤ j → q.cell j = P.cell j) (Nat.zero_le _) ⟨rfl, fun j hj => by omega, fun _ _ => rfl⟩ ?_ (fun q h => h)
  intro i q _ hi ⟨hs, hq, hr⟩
  rw [Mem.get_eq hi, C_ok_bind, mem_put_eq _ (by omega), Ok.ok_iff]
  refine ⟨hs, fun j hj => ?_, fun j hj => ?_⟩
  · show (if j = i then Q.cell i else q.cell j) = _
    split
    · subst j; rfl
    · exact hq j (by omega)
  · show (if j = i then Q.cell i else q.cell j) = _
    rw [if_neg (by omega)]; exact hr j (by omega)

/-- C109, what goes wrong: with a destination that is too short it leaves the memory; the length is not checked. -/
theorem C109_copy_violated {P Q : Mem Nat} (h : P.size < Q.size) : mzp_copy P Q = .error .oob := by
  unfold mzp_copy
  refine loop_fails (fun _ (q : Mem Nat) => q.size = P.size) (k := P.size) rfl h (fun i q hi hq => ?_) fun q hq => ?_
  · rw [Mem.get_eq (by omega), C_ok_bind, mem_put_eq _ (by omega), Ok.ok_iff]; exact hq
  · rw [Mem.get_eq (by omega), C_ok_bind]; exact if_neg (by omega)

/-! ## Examples -/

def exPP : Mem Nat := ⟨130, fun i => i + (i * i) % (130 - i)⟩
theorem exPP_ok : ∀ i < 130, i ≤ exPP.cell i ∧ exPP.cell i < 130 := fun i hi => ⟨Nat.le_add_right _ _, by
  have := Nat.mod_lt (i * i) (show 0 < 130 - i by omega)
  show i + (i * i) % (130 - i) < 130
  omega⟩
def exPA : Matrix (Fin 130) (Fin 130) (ZMod 2) := fun i j => bitF (decide ((i * j + i : Nat) % 5 = 1))
def exPM : Mzd := pack 130 130 fun i j => decide ((i * j + i) % 5 = 1)
theorem exP_rep : Rep exPM exPA := pack_rep fun _ _ => rfl

example : ∃ N, mzd_apply_p_left exPM exPP = .ok N ∧ Rep N (PMat exPP.cell 130 130 * exPA) ∧ ∀ a b, 130 ≤ b → N.bit a b = exPM.bit a b := C109_left exP_rep exPP_ok
example : ∃ N, mzd_apply_p_left_trans exPM exPP = .ok N ∧ Rep N ((PMat exPP.cell 130 130).transpose * exPA) ∧ ∀ a b, 130 ≤ b → N.bit a b = exPM.bit a b := C109_left_trans exP_rep exPP_ok
example : ∃ N, mzd_apply_p_right 32768 exPM exPP = .ok N ∧ Rep N (exPA * PMat exPP.cell 130 130) ∧ ∀ a b, 130 ≤ b → N.bit a b = exPM.bit a b :=
  C109_right_partial _ exP_rep (by decide) fun i hi => (exPP_ok i hi).2
example : ∃ N, mzd_apply_p_right_trans 100 exPM exPP = .ok N ∧ Rep N (exPA * (PMat exPP.cell 130 130).transpose) ∧ ∀ a b, 130 ≤ b → N.bit a b = exPM.bit a b :=
  C109_right_trans_partial _ exP_rep (by decide) fun i hi => (exPP_ok i hi).2
example : ∃ N, _mzd_apply_p_right 32768 exPM exPP = .ok N ∧ Rep N (exPA * PMat exPP.cell 130 130) ∧ ∀ a b, 130 ≤ b → N.bit a b = exPM.bit a b := C109_columns _ exP_rep (by decide) exPP_ok
example : ∃ N, _mzd_apply_p_right_trans 32768 exPM exPP = .ok N ∧ Rep N (exPA * (PMat exPP.cell 130 130).transpose) ∧ ∀ a b, 130 ≤ b → N.bit a b = exPM.bit a b :=
  C109_columns_trans _ exP_rep (by decide) exPP_ok
example : ∃ N, mzd_apply_p_right_trans_tri 32768 exPM exPP = .ok N ∧ N.Wf ∧ N.nrows = 130 ∧ N.ncols = 130 ∧
    ∀ a < 130, (∀ j, N.bit a j = exPM.bit a (Walk exPP.cell (List.range' (a + 1) (130 - (a + 1))) j)) ∧ ∀ j, j ≤ a → N.bit a j = exPM.bit a j :=
  C109_tri _ exP_rep (by decide) rfl exPP_ok
example : mzd_apply_p_left exPM ⟨130, fun _ => 0⟩ = .error .abort := C109_left_assert exP_rep (by decide) (fun _ _ => by show 0 < 130; decide) (k := 7) (by decide) (by show 0 < 7; decide)
example : mzd_apply_p_right_trans 0 exPM ⟨3, fun _ => 130⟩ = .error .oob := C109_range_violated 0 (show 0 < 130 by decide) (show 0 < 130 by decide) (k := 2) (show 2 < min 3 130 by decide) (show 130 ≤ 130 by decide)
example : mzp_copy ⟨3, fun _ => 0⟩ exPP = .error .oob := C109_copy_violated (show 3 < 130 by decide)

/-- The programs are run. -/
example : (match mzd_apply_p_right_trans 16 (pack 3 5 fun i j => decide ((i + 1) * (j + 2) % 3 = 1)) ⟨5, fun i => [3, 4, 2, 4, 4].getD i 0⟩ with
    | .ok N => (List.range 3).map fun i => (N.word i 0).toNat | .error _ => []) = [4, 17, 0] ∧
  (match _mzd_apply_p_right_trans 16 (pack 3 5 fun i j => decide ((i + 1) * (j + 2) % 3 = 1)) ⟨5, fun i => [3, 4, 2, 4, 4].getD i 0⟩ with
    | .ok N => (List.range 3).map fun i => (N.word i 0).toNat | .error _ => []) = [4, 17, 0] := by decide +kernel

end WB.m4w
