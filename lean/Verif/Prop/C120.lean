import Verif.Proof.M4riSolve
import Verif.Prop.C118

/-!
# C120 — systems of linear equations from a PLUQ factorisation in M4RI (`/repo/test/github1_M4RI/src/m4ri/solve.c`)

`mzd_pluq_solve_left(A, rank, P, Q, B, cutoff, inconsistency_check)` is given a factorisation as C118 delivers it: `MA` holds `L` below and `U` on and above the diagonal, for the rank `k`.  It
replaces the right-hand side `B` by a solution.  `B` has at least as many rows as `A` has rows and columns; the first `m` rows are the right-hand side, the first `n` rows the solution.  `bs` is the
number of rows from which on the triangular matrices are cut into blocks (512 in this configuration); `e`, `junk` and `mb` are as in C108.
-/
namespace WB.m4w

open WB.cmp (Mem)

variable {m n k r c : Nat} {MA MB : Mzd} {P Q : Mem Nat} {F : Matrix (Fin m) (Fin n) (ZMod 2)} {L : Matrix (Fin m) (Fin k) (ZMod 2)} {U : Matrix (Fin k) (Fin n) (ZMod 2)}
  {B : Matrix (Fin r) (Fin c) (ZMod 2)}

/-- What the result `N`, `ret` has to be for `A * X = R`: without the test `ret` is 0, and `X` is a solution if there is one; with the test `ret` is 0 if there is a solution, and then `X` is one,
and -1 if there is none.  The rows of a solution that the system does not have are zero. -/
def Solves (check : Bool) (A : Matrix (Fin m) (Fin n) (ZMod 2)) (R : Matrix (Fin m) (Fin c) (ZMod 2)) (hnr : n ≤ r) (X : Matrix (Fin r) (Fin c) (ZMod 2)) (ret : Int) : Prop :=
  (ret = 0 ↔ (check = true → ∃ Y : Matrix (Fin n) (Fin c) (ZMod 2), A * Y = R)) ∧ (ret ≠ 0 → ret = -1) ∧
  ((∃ Y : Matrix (Fin n) (Fin c) (ZMod 2), A * Y = R) → A * X.submatrix (Fin.castLE hnr) id = R ∧ ∀ (i : Fin r) j, n ≤ (i : Nat) → X i j = 0)

/-- C120, full statement: the procedure solves the system or reports that there is no solution, for every cutoff below `2^29`. -/
def C120_statement : Prop := ∀ (junk : Nat → Word) (mb : Mzd → Mzd → C Mzd) (dflt cutoff : Nat) (e : SolveEnv) (check : Bool) {m n k r c : Nat} {MA MB : Mzd} {P Q : Mem Nat}
  {F : Matrix (Fin m) (Fin n) (ZMod 2)} {L : Matrix (Fin m) (Fin k) (ZMod 2)} {U : Matrix (Fin k) (Fin n) (ZMod 2)} {B : Matrix (Fin r) (Fin c) (ZMod 2)},
  asked dflt cutoff < 2 ^ 29 → k ≤ 2 ^ 24 → m < 2 ^ 29 → c < 2 ^ 29 → Rep MA F → MA.Clean → Rep MB B → MB.Clean → k ≤ m → k ≤ n → ∀ (hmr : m ≤ r) (hnr : n ≤ r),
  (P.size = m ∧ ∀ i < m, i ≤ P.cell i ∧ P.cell i < m) → (Q.size = n ∧ ∀ i < n, i ≤ Q.cell i ∧ Q.cell i < n) →
  (∀ a j, L a j = if (j : Nat) < a then bitF (MA.bit a j) else if (j : Nat) = a then 1 else 0) →
  (∀ i b, U i b = if (i : Nat) < b then bitF (MA.bit i b) else if (i : Nat) = b then 1 else 0) →
  (∀ (a : Fin m) (b : Fin n), k ≤ (a : Nat) → k ≤ (b : Nat) → F a b = 0) →
  ∃ N ret X, mzd_pluq_solve_left (mzd_transpose_any junk mb) 512 dflt cutoff e check MA k P Q MB = .ok (N, ret) ∧ Rep N X ∧
    Solves check ((PMat P.cell m m).transpose * (L * U) * PMat Q.cell n n) (B.submatrix (Fin.castLE hmr) id) hnr X ret ∧ ∀ a b, c ≤ b → N.bit a b = MB.bit a b

/-- C120, what holds: the full statement, when there are columns, the rank is at most `bs` or the cutoff is a multiple of 64 and the rank is one as well or the number of columns, and the test
does not run into the products of C108 that leave the matrices. -/
theorem C120_solve_partial (junk : Nat → Word) (mb : Mzd → Mzd → C Mzd) (bs dflt cutoff : Nat) (e : SolveEnv) (check : Bool) (hbs : 256 ≤ bs) (hcut : asked dflt cutoff < 2 ^ 29) (hk : k ≤ 2 ^ 24)
    (hm' : m < 2 ^ 29) (h0 : 0 < c) (hc : c < 2 ^ 29) (hA : Rep MA F) (cA : MA.Clean) (hB : Rep MB B) (cB : MB.Clean) (hm : k ≤ m) (hn : k ≤ n) (hmr : m ≤ r) (hnr : n ≤ r)
    (hP : P.size = m ∧ ∀ i < m, i ≤ P.cell i ∧ P.cell i < m) (hQ : Q.size = n ∧ ∀ i < n, i ≤ Q.cell i ∧ Q.cell i < n)
    (hL : ∀ a j, L a j = if (j : Nat) < a then bitF (MA.bit a j) else if (j : Nat) = a then 1 else 0)
    (hU : ∀ i b, U i b = if (i : Nat) < b then bitF (MA.bit i b) else if (i : Nat) = b then 1 else 0)
    (hz : ∀ (a : Fin m) (b : Fin n), k ≤ (a : Nat) → k ≤ (b : Nat) → F a b = 0)
    (hbig : k ≤ bs ∨ cutoff % 64 = 0 ∧ cutoff < 2 ^ 29 ∧ (k % 64 = 0 ∨ k = n)) (hbad : check = true → asked dflt cutoff < 128 → ¬ Crashes (m - k) k c) :
    ∃ N ret X, mzd_pluq_solve_left (mzd_transpose_any junk mb) bs dflt cutoff e check MA k P Q MB = .ok (N, ret) ∧ Rep N X ∧
      Solves check ((PMat P.cell m m).transpose * (L * U) * PMat Q.cell n n) (B.submatrix (Fin.castLE hmr) id) hnr X ret ∧ ∀ a b, c ≤ b → N.bit a b = MB.bit a b := by
  have hp : ∀ i < m, i < m ∧ P.cell i < m := fun i hi => ⟨hi, (hP.2 i hi).2⟩
  have hq : ∀ i < n, i < n ∧ Q.cell i < n := fun i hi => ⟨hi, (hQ.2 i hi).2⟩
  have hpr : ∀ i < m, i < r ∧ P.cell i < r := fun i hi => ⟨by omega, by have := (hP.2 i hi).2; omega⟩
  have hqr : ∀ i < n, i < r ∧ Q.cell i < r := fun i hi => ⟨by omega, by have := (hQ.2 i hi).2; omega⟩
  have hkr : k ≤ r := by omega
  have iP := C109_matrix_inverse (n := m) (v := P.cell) (len := m) hp
  have iQ := C109_matrix_inverse (n := n) (v := Q.cell) (len := n) hq
  have uL := factor_lower hA hm hn hL
  have uU := factor_upper hA hm hn hU
  have hLU := corner_rep hA hm hn
  have cLU : bs < k → (mzd_window MA 0 0 k k).Clean := fun h => by
    refine window_clean cA rfl (by omega) (by omega) (by rw [hA.nrows]; exact hm) ?_
    rw [hA.ncols]
    omega
  unfold mzd_pluq_solve_left
  rw [hB.nrows, hA.ncols, hA.nrows, if_neg (by omega), if_neg (by rw [hP.1]; simp), if_neg (by rw [hQ.1]; simp)]
  unfold _mzd_pluq_solve_left
  -- the rows of the right-hand side
  obtain ⟨M1, e1, h1, o1⟩ := C109_left (P := P) hB (by
    rw [hP.1, Nat.min_eq_left hmr]
    exact fun i hi => ⟨(hP.2 i hi).1, by have := (hP.2 i hi).2; omega⟩)
  rw [hP.1, Nat.min_eq_left hmr] at h1
  have c1 : M1.Clean := fun i hi j g1 g2 => by
    rw [h1.ncols] at g1
    rw [o1 i j g1]
    refine cB i (by rw [hB.nrows]; rw [h1.nrows] at hi; exact hi) j (by rw [hB.ncols]; exact g1) ?_
    have : MB.width = M1.width := by unfold Mzd.width; rw [h1.ncols, hB.ncols]
    rw [this]; exact g2
  generalize hB1 : PMat P.cell m r * B = B1 at h1
  have b1 : ∀ (i : Fin m) j, B1 ⟨i, by omega⟩ j = (PMat P.cell m m * B.submatrix (Fin.castLE hmr) id) i j := fun i j => by
    rw [← hB1, pmat_mul hpr, pmat_mul hp]
    rfl
  simp only [e1, C_ok_bind]
  -- the lower triangular matrix
  have hx0 : 0 + k ≤ r := by omega
  have w1 := rows_rep h1 hx0
  have s1 := on_rows h1 c1 hx0 (f := fun W => mzd_trsm_lower_left (mzd_transpose_any junk mb) bs dflt cutoff e.lower (mzd_window MA 0 0 k k) W)
    (p := fun Y => unitLower (F.submatrix (Fin.castLE hm) (Fin.castLE hn)) * Y = rowsOf B1 0 k hx0)
    (lower_wr junk mb bs dflt cutoff e.lower (by omega) hcut hk h0 hc hLU w1 fun _ => rows_clean h1 c1 hx0)
  rw [Nat.zero_add] at s1
  obtain ⟨M2, e2, B2, Y, h2, c2, o2, eY, a2, r2⟩ := s1
  simp only [e2, C_ok_bind]
  have tY : ∀ (i : Fin k) j, B2 ⟨i, by omega⟩ j = Y i j := fun i j => by
    rw [← a2 i j]; congr 1; exact Fin.ext (by show (i : Nat) = 0 + i; omega)
  have hY : L.submatrix (Fin.castLE hm) id * Y = (PMat P.cell m m * B.submatrix (Fin.castLE hmr) id).submatrix (Fin.castLE hm) id := by
    rw [uL, eY]
    ext i j
    show B1 ⟨0 + i, by omega⟩ j = (PMat P.cell m m * B.submatrix (Fin.castLE hmr) id) ⟨i, by omega⟩ j
    rw [← b1]
    congr 1
    exact Fin.ext (by show 0 + (i : Nat) = i; omega)
  have lowL : ∀ (i : Fin (m - k)) j, (lowPart F hm hn * Y) i j = (L * Y) ⟨k + i, by omega⟩ j := fun i j => by
    rw [Matrix.mul_apply, Matrix.mul_apply]
    refine Finset.sum_congr rfl fun l _ => ?_
    rw [hL, if_pos (show (l : Nat) < k + i by omega)]
    congr 1
    exact (hA.bit ⟨k + i, by omega⟩ ⟨l, by omega⟩).symm
  -- the test
  have s2 : Ok (if check = true then checkRest (mzd_transpose_any junk mb) dflt cutoff e.mul MA k M2 else pure (M2, 0)) fun s => ∃ B3, Rep s.1 B3 ∧ s.1.Clean ∧
      (∀ a b, c ≤ b → s.1.bit a b = M2.bit a b) ∧ (∀ (i : Fin r) j, (i : Nat) < k → B3 i j = B2 i j) ∧ (s.2 = 0 ∨ s.2 = -1) ∧
      (s.2 = 0 ↔ (check = true → ∀ (i : Fin m) j, k ≤ (i : Nat) → (L * Y) i j = (PMat P.cell m m * B.submatrix (Fin.castLE hmr) id) i j)) ∧
      (check = true → s.2 = 0 → ∀ (i : Fin r) j, k ≤ (i : Nat) → B3 i j = 0) := by
    by_cases hch : check = true
    · rw [if_pos hch]
      refine (check_ok (n := n) (e := e.mul) (junk := junk) (mb := mb) hA cA h2 c2 h0 hc hm hn hmr hk hm' hz hcut (hbad hch)).mono ?_
      rintro ⟨M3, ret⟩ ⟨B3, h3, c3, o3, a3, z3, v3, d3, q3⟩
      have top : B2.submatrix (Fin.castLE (hm.trans hmr)) id = Y := by ext i j; exact tY i j
      rw [top] at v3
      have v4 : ∀ (i : Fin (m - k)) j, B3 ⟨k + i, by omega⟩ j = (PMat P.cell m m * B.submatrix (Fin.castLE hmr) id) ⟨k + i, by omega⟩ j + (L * Y) ⟨k + i, by omega⟩ j := fun i j => by
        rw [v3, lowL, r2 _ _ (.inr (by show k ≤ k + (i : Nat); omega)), ← b1]
      refine ⟨B3, h3, c3, o3, a3, d3, q3.trans ⟨fun h _ i j hi => ?_, fun h i j => ?_⟩, fun _ h i j hi => ?_⟩
      · have g := h ⟨i - k, by omega⟩ j
        rw [v4] at g
        have ei : (⟨k + (i - k : Nat), by omega⟩ : Fin m) = i := Fin.ext (by show k + (i - k : Nat) = i; omega)
        rw [ei] at g
        exact (CharTwo.add_eq_zero.1 g).symm
      · rw [v4, h hch ⟨k + i, by omega⟩ j (by show k ≤ k + (i : Nat); omega)]
        exact CharTwo.add_self_eq_zero _
      · by_cases hi' : m ≤ (i : Nat)
        · exact z3 i j hi'
        · have g := q3.1 h ⟨i - k, by omega⟩ j
          have ei : (⟨k + (i - k : Nat), by omega⟩ : Fin r) = i := Fin.ext (by show k + (i - k : Nat) = i; omega)
          rw [ei] at g
          exact g
    · rw [if_neg hch, Ok.pure_iff]
      exact ⟨B2, h2, c2, fun _ _ _ => rfl, fun _ _ _ => rfl, .inl rfl, by simp [hch], fun h => absurd h hch⟩
  obtain ⟨⟨M3, ret⟩, e3, B3, h3, c3, o3, a3, d3, q3, z3⟩ := s2
  simp only [e3, C_ok_bind] at o3 d3 q3 z3 h3 c3 ⊢
  -- the upper triangular matrix
  have w3 := rows_rep h3 hx0
  have s3 := on_rows h3 c3 hx0 (f := fun W => mzd_trsm_upper_left (mzd_transpose_any junk mb) bs cutoff e.upper (mzd_window MA 0 0 k k) W)
    (p := fun Z => unitUpper (F.submatrix (Fin.castLE hm) (Fin.castLE hn)) * Z = rowsOf B3 0 k hx0)
    (upper_wr junk mb bs cutoff e.upper hbs (by omega) hk h0 hc hLU cLU w3 fun _ => rows_clean h3 c3 hx0)
  rw [Nat.zero_add] at s3
  obtain ⟨M4, e4, B4, Z, h4, c4, o4, eZ, a4, r4⟩ := s3
  simp only [e4, C_ok_bind]
  have hZ : U.submatrix id (Fin.castLE hn) * Z = Y := by
    rw [uU, eZ]
    ext i j
    show B3 ⟨0 + i, by omega⟩ j = Y i j
    rw [a3 _ _ (by show 0 + (i : Nat) < k; omega), a2]
  have s4 : Ok (if check = true then pure M4 else clearFrom k M4) fun N => ∃ B5, Rep N B5 ∧ (∀ a b, c ≤ b → N.bit a b = M4.bit a b) ∧ (∀ (i : Fin k) j, B5 ⟨i, by omega⟩ j = Z i j) ∧
      (ret = 0 → ∀ (i : Fin r) j, k ≤ (i : Nat) → B5 i j = 0) := by
    have tZ : ∀ (i : Fin k) j, B4 ⟨i, by omega⟩ j = Z i j := fun i j => by
      rw [← a4 i j]; congr 1; exact Fin.ext (by show (i : Nat) = 0 + i; omega)
    by_cases hch : check = true
    · rw [if_pos hch, Ok.pure_iff]
      exact ⟨B4, h4, fun _ _ _ => rfl, tZ, fun h i j hi => (r4 i j (.inr (by omega))).trans (z3 hch h i j hi)⟩
    · rw [if_neg hch]
      refine (clear_from_ok h4.wf (by rw [h4.nrows]; exact hkr)).mono ?_
      rintro N ⟨sh, hN⟩
      refine ⟨fun i j => bitF (N.bit i j), ⟨sh.wf h4.wf, sh.nrows.trans h4.nrows, sh.ncols.trans h4.ncols, fun _ _ => rfl⟩, fun a b hb => ?_, fun i j => ?_, fun _ i j hi => ?_⟩
      · rw [hN, if_neg (by rw [h4.ncols]; omega)]
      · show bitF (N.bit i j) = _
        rw [hN, if_neg (by omega), ← tZ]
        exact h4.bit ⟨i, by omega⟩ j
      · show bitF (N.bit i j) = _
        rw [hN, if_pos ⟨hi, by rw [h4.nrows]; exact i.2, by rw [h4.ncols]; exact j.2⟩]
        rfl
  obtain ⟨M5, e5, B5, h5, o5, t5, z5⟩ := s4
  simp only [e5, C_ok_bind]
  -- the rows of the solution
  obtain ⟨M6, e6, h6, o6⟩ := C109_left_trans (P := Q) h5 (by
    rw [hQ.1, Nat.min_eq_left hnr]
    exact fun i hi => ⟨(hQ.2 i hi).1, by have := (hQ.2 i hi).2; omega⟩)
  rw [hQ.1, Nat.min_eq_left hnr] at h6
  simp only [e6, C_ok_bind]
  have hX : ((PMat Q.cell n r).transpose * B5).submatrix (Fin.castLE hnr) id = (PMat Q.cell n n).transpose * B5.submatrix (Fin.castLE hnr) id := by
    ext i j
    show ((PMat Q.cell n r).transpose * B5) ⟨i, by omega⟩ j = _
    rw [pmat_trans_mul hqr, pmat_trans_mul hq]
    rfl
  have core := solve_core (P := PMat P.cell m m) (Q := PMat Q.cell n n) (L := L) (U := U) (B := B.submatrix (Fin.castLE hmr) id) (Y := Y) (Z := Z) (C := B5.submatrix (Fin.castLE hnr) id)
    hm hn iP iQ.2 (by rw [uL]; exact fun h => (C114_unique _).1 h) hY hZ
  refine ⟨M6, ret, _, rfl, h6, ⟨?_, fun h => d3.resolve_left h, fun hex => ?_⟩, fun a b hb => by rw [o6 a b hb, o5 a b hb, o4 a b hb, o3 a b hb, o2 a b hb, o1 a b hb]⟩
  · refine q3.trans ⟨fun h hch => ?_, fun h hch => core.1 (h hch)⟩
    exact ⟨_, core.2 (h hch) (by ext i j; exact t5 i j) fun b j hb => z5 (q3.2 h) ⟨b, by omega⟩ j hb⟩
  · have hret : ret = 0 := q3.2 fun _ => core.1 hex
    refine ⟨?_, fun i j hi => ?_⟩
    · rw [hX]
      exact core.2 (core.1 hex) (by ext i j; exact t5 i j) fun b j hb => z5 hret ⟨b, by omega⟩ j hb
    · rw [pmat_trans_mul hqr]
      have g := walk_fix (v := Q.cell) (n := n) (List.range n).reverse (fun i hi => hq i (List.mem_range.1 (List.mem_reverse.1 hi))) i hi
      exact z5 hret _ j (by show k ≤ Walk Q.cell (List.range n).reverse i; rw [g]; omega)

/-- C120: sizes that do not match make the program abort. -/
theorem C120_dimension (tr : Bool → Mzd → C Mzd) (bs dflt cutoff : Nat) (e : SolveEnv) (check : Bool) (h : MB.nrows < MA.ncols ∨ P.size ≠ MA.nrows ∨ Q.size ≠ MA.ncols) :
    mzd_pluq_solve_left tr bs dflt cutoff e check MA k P Q MB = .error .abort := by
  unfold mzd_pluq_solve_left
  split
  · rfl
  · split
    · rfl
    · rw [if_pos (by omega)]

/-- C120, what goes wrong: a right-hand side without columns; the procedure accesses the word before the first one of a row, as soon as `L` has a one where the first two rows meet. -/
theorem C120_no_columns_violated (tr : Bool → Mzd → C Mzd) (bs dflt cutoff : Nat) (e : SolveEnv) (check : Bool) {B : Matrix (Fin r) (Fin 0) (ZMod 2)} (hA : Rep MA F) (hB : Rep MB B)
    (hk : 2 ≤ k) (hk' : k ≤ 64) (hm : k ≤ m) (hn : k ≤ n) (hmr : m ≤ r) (hnr : n ≤ r) (hP : P.size = m) (hQ : Q.size = n) (h : F ⟨1, by omega⟩ ⟨0, by omega⟩ = 1) :
    mzd_pluq_solve_left tr bs dflt cutoff e check MA k P Q MB = .error .oob := by
  unfold mzd_pluq_solve_left
  rw [hB.nrows, hA.ncols, hA.nrows, if_neg (by omega), if_neg (by rw [hP]; simp), if_neg (by rw [hQ]; simp)]
  unfold _mzd_pluq_solve_left
  have e1 : mzd_apply_p_left MB P = .ok MB := by
    unfold mzd_apply_p_left
    rw [if_pos hB.ncols]
    rfl
  have hx0 : 0 + k ≤ r := by omega
  have w1 := rows_rep hB hx0
  rw [Nat.zero_add] at w1
  simp only [e1, C_ok_bind]
  rw [onWindow_error (C114_no_columns_violated tr bs dflt cutoff e.lower (corner_rep hA hm hn) w1 hk hk' h)]
  rfl

/-- C120, what goes wrong: with rank 1000, 512 to 1023 columns and the cutoff 40, `mzd_trsm_upper_left` accesses memory outside of the matrices (C114). -/
theorem C120_cutoff_violated (junk : Nat → Word) (mb : Mzd → Mzd → C Mzd) (dflt : Nat) (e : SolveEnv) (hc : 512 ≤ c) (hc' : c < 1024) (hA : Rep MA F) (hB : Rep MB B) (cB : MB.Clean)
    (hm : 1000 ≤ m) (hn : 1000 ≤ n) (hmr : m ≤ r) (hnr : n ≤ r) (hP : P.size = m ∧ ∀ i < m, i ≤ P.cell i ∧ P.cell i < m) (hQ : Q.size = n) :
    mzd_pluq_solve_left (mzd_transpose_any junk mb) 512 dflt 40 e false MA 1000 P Q MB = .error .oob := by
  unfold mzd_pluq_solve_left
  rw [hB.nrows, hA.ncols, hA.nrows, if_neg (by omega), if_neg (by rw [hP.1]; simp), if_neg (by rw [hQ]; simp)]
  unfold _mzd_pluq_solve_left
  obtain ⟨M1, e1, h1, o1⟩ := C109_left (P := P) hB (by
    rw [hP.1, Nat.min_eq_left hmr]
    exact fun i hi => ⟨(hP.2 i hi).1, by have := (hP.2 i hi).2; omega⟩)
  have c1 : M1.Clean := fun i hi j g1 g2 => by
    rw [h1.ncols] at g1
    rw [o1 i j g1]
    refine cB i (by rw [hB.nrows]; rw [h1.nrows] at hi; exact hi) j (by rw [hB.ncols]; exact g1) ?_
    have : MB.width = M1.width := by unfold Mzd.width; rw [h1.ncols, hB.ncols]
    rw [this]; exact g2
  have hx0 : 0 + 1000 ≤ r := by omega
  have s1 := on_rows h1 c1 hx0 (f := fun W => mzd_trsm_lower_left (mzd_transpose_any junk mb) 512 dflt 40 e.lower (mzd_window MA 0 0 1000 1000) W) (p := fun Y => _)
    (lower_wr junk mb 512 dflt 40 e.lower (by omega) (by unfold asked; simp) (by omega) (by omega) (by omega) (corner_rep hA hm hn) (rows_rep h1 hx0) fun _ => rows_clean h1 c1 hx0)
  obtain ⟨M2, e2, B2, Y, h2, c2, o2, eY, a2, r2⟩ := s1
  simp only [Nat.zero_add] at e2
  have w2 := rows_rep h2 hx0
  simp only [Nat.zero_add] at w2
  simp only [e1, e2, C_ok_bind, Bool.false_eq_true, if_false]
  rw [C_pure_eq, C_ok_bind]
  simp only []
  rw [onWindow_error (C114_cutoff_violated junk mb e.upper hc hc' (corner_rep hA hm hn) w2)]
  rfl

/-- Two rows and columns. -/
def exLow : Mzd := ⟨2, 2, 0, ⟨2, 1, fun i _ => if i = 0 then 1#64 else 3#64⟩⟩

/-- C120: the full statement is false. -/
theorem C120_violated : ¬ C120_statement := by
  intro h
  let P : Mem Nat := ⟨2, fun i => i⟩
  have hA : Rep exLow (blk exLow 0 0 2 2) := rep_blk ⟨by decide, by decide⟩
  have hB : Rep (mzd_init 2 0) (0 : Matrix (Fin 2) (Fin 0) (ZMod 2)) := ⟨init_wf _ _, rfl, rfl, fun _ j => j.elim0⟩
  have d : ∀ i < 2, ∀ j < 64, 2 ≤ j → exLow.bit i j = false := by decide
  let e : SolveEnv := ⟨fun _ => ⟨true, 2, fun _ => ⟨fun _ _ => 0, true, 2⟩⟩, fun _ => ⟨fun _ _ => 0, true, 2⟩, fun _ => ⟨true, 2, fun _ => ⟨fun _ _ => 0, true, 2⟩⟩⟩
  have hp : ∀ i < 2, i ≤ P.cell i ∧ P.cell i < 2 := fun i hi => ⟨le_refl _, hi⟩
  obtain ⟨N, ret, X, h1, _⟩ := h (fun _ => 0) (fun D _ => .ok D) 2048 0 e true (by decide) (show 2 ≤ 2 ^ 24 by decide) (by decide) (by decide) hA (fun i hi j g1 g2 => d i hi j g2 g1) hB
    (init_clean _ _) (le_refl 2) (le_refl 2) (le_refl 2) (le_refl 2) (P := P) (Q := P) ⟨rfl, hp⟩ ⟨rfl, hp⟩ (fun _ _ => rfl) (fun _ _ => rfl) (fun a _ ha _ => absurd a.2 (by omega))
  rw [C120_no_columns_violated _ _ _ _ _ _ hA hB (le_refl 2) (by decide) (le_refl 2) (le_refl 2) (le_refl 2) (le_refl 2) rfl rfl (by decide)] at h1
  exact absurd h1 (by simp)

/-- C120: the factorisation of C118 and then this procedure solve `A * X = B`, for every `A` of rank at most `bs`. -/
theorem C120_naive_partial (junk : Nat → Word) (mb : Mzd → Mzd → C Mzd) (bs dflt cutoff : Nat) (e : SolveEnv) (check : Bool) {M : Mzd} {A : Matrix (Fin m) (Fin n) (ZMod 2)} (hbs : 256 ≤ bs)
    (hbs' : bs ≤ 2 ^ 24) (hcut : asked dflt cutoff < 2 ^ 29) (hm' : m < 2 ^ 29) (h0 : 0 < c) (hc : c < 2 ^ 29) (hM : Rep M A) (cM : M.Clean) (hB : Rep MB B) (cB : MB.Clean) (hmr : m ≤ r)
    (hnr : n ≤ r) (hP : P.size = m) (hQ : Q.size = n) (hr : A.rank ≤ bs) (hbad : check = true → asked dflt cutoff < 128 → ¬ Crashes (m - A.rank) A.rank c) :
    ∃ N ret X, (do
      let s ← _mzd_pluq_naive M P Q
      mzd_pluq_solve_left (mzd_transpose_any junk mb) bs dflt cutoff e check s.1.A s.2 s.1.P s.1.Q MB) = .ok (N, ret) ∧ Rep N X ∧
      Solves check A (B.submatrix (Fin.castLE hmr) id) hnr X ret ∧ ∀ a b, c ≤ b → N.bit a b = MB.bit a b := by
  obtain ⟨N, P', Q', k, e1, hk, hP', hQ', ⟨F, hF, L, U, hA, hL, hU, _, hz⟩, out⟩ := C118_pluq hM hP hQ
  have hkm : k ≤ m := by rw [hk]; exact (Matrix.rank_le_card_height A).trans (by simp)
  have hkn : k ≤ n := by rw [hk]; exact (Matrix.rank_le_card_width A).trans (by simp)
  have cN : N.Clean := fun i hi j g1 g2 => by
    rw [hF.ncols] at g1
    rw [out i j g1]
    refine cM i (by rw [hM.nrows]; rw [hF.nrows] at hi; exact hi) j (by rw [hM.ncols]; exact g1) ?_
    have : M.width = N.width := by unfold Mzd.width; rw [hF.ncols, hM.ncols]
    rw [this]; exact g2
  rw [e1, C_ok_bind]
  simp only []
  rw [hA]
  exact C120_solve_partial junk mb bs dflt cutoff e check hbs hcut (by omega) hm' h0 hc hF cN hB cB hkm hkn hmr hnr hP' hQ' hL hU hz (.inl (by omega)) (by rw [hk]; exact hbad)

/-- The system of the matrix of C118 with three rows and four columns. -/
def exSys (b : Nat → Word) : Mzd := ⟨4, 2, 0, ⟨4, 1, fun i _ => b i⟩⟩

/-- An environment. -/
def exEnv : SolveEnv := ⟨fun _ => ⟨true, 2, fun _ => ⟨fun _ _ => 0, true, 2⟩⟩, fun _ => ⟨fun _ _ => 0, true, 2⟩, fun _ => ⟨true, 2, fun _ => ⟨fun _ _ => 0, true, 2⟩⟩⟩

/-- The right-hand side with the words `b0`, `b1`, `b2` and `b3`. -/
def exRight (b0 b1 b2 b3 : Word) : Mzd := exSys fun i => if i = 0 then b0 else if i = 1 then b1 else if i = 2 then b2 else b3

/-- The factorisation and the solution with it. -/
def exSolve (check : Bool) (b0 b1 b2 b3 : Word) : C (Int × List Word) := do
  let s ← _mzd_pluq_naive exPluq ⟨3, fun _ => 7⟩ ⟨4, fun _ => 7⟩
  let t ← mzd_pluq_solve_left (mzd_transpose_any (fun _ => 0) fun D _ => .ok D) 512 2048 0 exEnv check s.1.A s.2 s.1.P s.1.Q (exRight b0 b1 b2 b3)
  pure (t.2, (List.range 4).map fun i => t.1.word i 0)

/-- The third row of the matrix is the sum of the others: with the rows 1, 3, 2 on the right there is a solution, with the rows 1, 3, 3 there is none, which is noticed only with the test. -/
example : exSolve true 1 3 2 3 = .ok (0, [0#64, 2#64, 0#64, 1#64]) ∧ exSolve false 1 3 2 3 = .ok (0, [0#64, 2#64, 0#64, 1#64]) ∧
    exSolve true 1 3 3 3 = .ok (-1, [0#64, 2#64, 1#64, 1#64]) ∧ exSolve false 1 3 3 3 = .ok (0, [0#64, 2#64, 0#64, 1#64]) := by
  refine ⟨?_, ?_, ?_, ?_⟩ <;> with_unfolding_all rfl

/-- The theorem applies to it. -/
example (junk : Nat → Word) (mb : Mzd → Mzd → C Mzd) (e : SolveEnv) (check : Bool) : ∃ N ret X, (do
      let s ← _mzd_pluq_naive exPluq (⟨3, fun _ => 7⟩ : Mem Nat) ⟨4, fun _ => 7⟩
      mzd_pluq_solve_left (mzd_transpose_any junk mb) 512 2048 0 e check s.1.A s.2 s.1.P s.1.Q (exRight 1 3 2 3)) = .ok (N, ret) ∧ Rep N X ∧
      Solves (n := 4) (r := 4) check (blk exPluq 0 0 3 4) ((blk (exRight 1 3 2 3) 0 0 4 2).submatrix (Fin.castLE (by decide : 3 ≤ 4)) id) (le_refl 4) X ret := by
  have hM : Rep exPluq (blk exPluq 0 0 3 4) := rep_blk ⟨by decide, by decide⟩
  have hB : Rep (exRight 1 3 2 3) (blk (exRight 1 3 2 3) 0 0 4 2) := rep_blk ⟨by decide, by decide⟩
  have d1 : ∀ i < 3, ∀ j < 64, 4 ≤ j → exPluq.bit i j = false := by decide
  have d2 : ∀ i < 4, ∀ j < 64, 2 ≤ j → (exRight 1 3 2 3).bit i j = false := by decide
  obtain ⟨N, ret, X, h1, h2, h3, _⟩ := C120_naive_partial junk mb 512 2048 0 e check (P := ⟨3, fun _ => 7⟩) (Q := ⟨4, fun _ => 7⟩) (by decide) (by decide) (by decide) (by decide) (by decide) (by decide)
    hM (fun i hi j g1 g2 => d1 i hi j g2 g1) hB (fun i hi j g1 g2 => d2 i hi j g2 g1) (by decide) (le_refl 4) rfl rfl
    ((Matrix.rank_le_card_height _).trans (by simp)) (fun _ h => absurd h (by decide))
  exact ⟨N, ret, X, h1, h2, h3⟩

end WB.m4w
