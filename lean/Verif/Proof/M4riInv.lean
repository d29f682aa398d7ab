import Verif.Proof.M4riEch
import Verif.Proof.Rref

/-!
# `mzd_echelonize_m4ri` and `mzd_inv_m4ri` (helper lemmas)
-/
namespace WB.m4w

open WB.cmp (Mem Mem2)

theorem ech_start (M : Mzd) : EI M 0 0 (fun _ => 0) M :=
  ⟨Sh.refl M, RowEq.refl _ _ _, fun _ _ _ => rfl, Nat.zero_le _, Nat.zero_le _, fun i hi => by omega, fun i j _ hj => by omega, fun i hi => by omega, fun i hi => by omega,
    fun a b _ _ hb => by omega⟩

theorem ech_tables (M : Mzd) (k z : Nat) : CanTab M k 0 (echTables k M.ncols z) := by
  refine ⟨⟨Nat.le_refl _, ?_⟩, ?_, Nat.le_refl _, Nat.le_refl _, fun j _ _ => ?_⟩
  · unfold echTables mzd_init_window mzd_init Mzd.width; simp only []; omega
  · unfold echTables mzd_init_window mzd_init Mzd.width; simp
  · unfold echTables mzd_init_window mzd_init Mzd.bit Mzd.word; simp

/-- The echelon form for a number of columns per table that is between 1 and 10. -/
theorem echelonize_spec {M : Mzd} (w : M.Wf) {k fuel : Nat} (h1 : 1 ≤ (if k = 0 then echK M.nrows M.ncols else k)) (h2 : (if k = 0 then echK M.nrows M.ncols else k) ≤ 10)
    (hf : 2 * M.ncols + 2 ≤ fuel) : Ok (mzd_echelonize_m4ri fuel M k) (EchRes M) := by
  unfold mzd_echelonize_m4ri
  dsimp only
  generalize (if k = 0 then echK M.nrows M.ncols else k) = K at h1 h2 ⊢
  exact echLoop_spec w h2 fuel _ _ (ech_start M) (fun z _ => ech_tables M K z) (show 1 ≤ 6 * K by omega) (Nat.le_refl _) (.inr (by simpa using hf))

/-- From the words to the matrices. -/
theorem EchRes.rref {M : Mzd} {x : Mzd × Nat} (h : EchRes M x) (w : M.Wf) {r c : Nat} {A : Matrix (Fin r) (Fin c) (ZMod 2)} (hA : Rep M A) :
    ∃ P : Matrix (Fin r) (Fin r) (ZMod 2), IsUnit P ∧ Rep x.1 (P * A) ∧ IsRref (P * A) x.2 ∧
      (∀ a b, r ≤ a ∨ c ≤ b → x.1.bit a b = M.bit a b) := by
  obtain ⟨p, h⟩ := h.ex
  obtain rfl := hA.nrows
  obtain rfl := hA.ncols
  have hM : A = bmat M.nrows M.ncols M.bit := by ext i j; exact (hA.bit i j).symm
  obtain ⟨P, hP, e⟩ := h.eq
  rw [← hM] at e
  have hbit : ∀ (i : Fin M.nrows) (j : Fin M.ncols), bitF (x.1.bit i j) = (P * A) i j := fun i j => by rw [← e]; rfl
  refine ⟨P, hP, ⟨h.sh.wf w, h.sh.nrows, h.sh.ncols, hbit⟩, ⟨h.hr, fun i => ⟨p i, h.pc i i.2⟩, fun i j hij => h.mono i j hij j.2, ?_, ?_, ?_⟩, fun a b hab => h.out a b hab⟩
  · intro i a
    rw [← hbit]
    show bitF (x.1.bit a (p i)) = _
    rw [h.piv i i.2 a a.2]
    by_cases ha : (a : Nat) = i
    · rw [decide_eq_true ha, if_pos (Fin.ext ha)]; rfl
    · rw [decide_eq_false ha, if_neg fun h => ha (congrArg Fin.val h)]; rfl
  · intro i j hj
    rw [← hbit]
    show bitF (x.1.bit i j) = 0
    rw [h.lead i i.2 j hj]; rfl
  · intro a ha j
    rw [← hbit, h.zero a j ha a.2 j.2]; rfl

/-! ## The number of columns per table -/

theorem log2_floor_small {v : Nat} (h : v ≤ 3) : log2_floor v ≤ 1 := by
  interval_cases v <;> decide

theorem and_ne_of_bit {v m i : Nat} (h1 : v.testBit i = true) (h2 : m.testBit i = true) : v &&& m ≠ 0 := by
  intro h
  have := congrArg (Nat.testBit · i) h
  simp only [Nat.testBit_and, h1, h2, Nat.zero_testBit] at this
  exact absurd this (by decide)

/-- One step of `log2_floor`. -/
def log2Step (s p : Nat × Nat) : Nat × Nat := if s.1 &&& p.1 ≠ 0 then (s.1 >>> p.2, s.2 ||| p.2) else s

theorem log2_floor_eq (v : Nat) : log2_floor v = (log2Step (log2Step (log2Step (log2Step (log2Step (v, 0) (0xFFFF0000, 16)) (0xFF00, 8)) (0xF0, 4)) (0xC, 2)) (0x2, 1)).2 := rfl

theorem log2Step_keep {n : Nat} {s p : Nat × Nat} (h : n ≤ s.2) : n ≤ (log2Step s p).2 := by
  unfold log2Step
  split
  · exact h.trans Nat.left_le_or
  · exact h

theorem log2Step_yes {n v m a : Nat} (h : v &&& m ≠ 0) (ha : n ≤ a) : n ≤ (log2Step (v, 0) (m, a)).2 := by
  unfold log2Step
  rw [if_pos h]
  exact ha.trans Nat.right_le_or

theorem log2Step_no {v m a : Nat} (h : ¬ v &&& m ≠ 0) : log2Step (v, 0) (m, a) = (v, 0) := if_neg h

theorem log2_floor_large {v : Nat} (h : 4 ≤ v) (h' : v < 2 ^ 32) : 2 ≤ log2_floor v := by
  rw [log2_floor_eq]
  refine log2Step_keep ?_
  by_cases c1 : v &&& 0xFFFF0000 ≠ 0
  · exact log2Step_keep (log2Step_keep (log2Step_keep (log2Step_yes c1 (by decide))))
  rw [log2Step_no c1]
  by_cases c2 : v &&& 0xFF00 ≠ 0
  · exact log2Step_keep (log2Step_keep (log2Step_yes c2 (by decide)))
  rw [log2Step_no c2]
  by_cases c3 : v &&& 0xF0 ≠ 0
  · exact log2Step_keep (log2Step_yes c3 (by decide))
  rw [log2Step_no c3]
  by_cases c4 : v &&& 0xC ≠ 0
  · exact log2Step_yes c4 (by decide)
  exfalso
  have hall : ∀ i, v.testBit i = true → i < 2 := by
    intro i hi
    by_contra hlt
    have hi32 : i < 32 := by
      by_contra h32
      rw [Nat.testBit_lt_two_pow (Nat.lt_of_lt_of_le h' (Nat.pow_le_pow_right (by decide) (by omega)))] at hi
      exact absurd hi (by decide)
    have : (0xFFFF0000 : Nat).testBit i = true ∨ (0xFF00 : Nat).testBit i = true ∨ (0xF0 : Nat).testBit i = true ∨ (0xC : Nat).testBit i = true := by
      interval_cases i <;> decide
    rcases this with h | h | h | h
    · exact c1 (and_ne_of_bit hi h)
    · exact c2 (and_ne_of_bit hi h)
    · exact c3 (and_ne_of_bit hi h)
    · exact c4 (and_ne_of_bit hi h)
  have : v < 2 ^ 2 := Nat.lt_pow_two_of_testBit v fun i hi => by
    by_contra hb
    have := hall i (by simpa using hb)
    omega
  omega

theorem echK_le (r c : Nat) : echK r c ≤ 7 := by
  unfold echK
  dsimp only
  split <;> split <;> omega

theorem echK_pos {r c : Nat} (hr : r < 2 ^ 32) (h : ¬ (r ≤ 3 ∧ 87382 ≤ c)) : 1 ≤ echK r c := by
  by_cases hm : min r c ≤ 3
  · have hk : m4ri_opt_k r c = 1 := by
      have := log2_floor_small hm
      unfold m4ri_opt_k
      omega
    unfold echK
    rw [hk]
    dsimp only
    rw [if_neg (show ¬ 7 ≤ 1 by decide), if_neg (by omega)]
  · have hk : 2 ≤ m4ri_opt_k r c := by
      have := log2_floor_large (v := min r c) (by omega) (by omega)
      unfold m4ri_opt_k
      omega
    unfold echK
    dsimp only
    split <;> split <;> omega

theorem echK_zero {r c : Nat} (hr : r ≤ 3) (hc : 87382 ≤ c) : echK r c = 0 := by
  have hk : m4ri_opt_k r c = 1 := by
    have := log2_floor_small (show min r c ≤ 3 by omega)
    unfold m4ri_opt_k
    omega
  unfold echK
  rw [hk]
  dsimp only
  rw [if_neg (show ¬ 7 ≤ 1 by decide), if_pos (by omega)]

theorem echLoop_zero (fuel : Nat) {s : Ech} (hc : s.c < s.A.ncols) (hk : s.kk = 0) : echLoop 0 fuel s = .error .diverge := by
  induction fuel generalizing s with
  | zero => rfl
  | succ fuel ih =>
    rw [echLoop, if_pos hc, hk, if_neg (by omega)]
    have : gauss_submatrix_full s.A s.r s.c s.A.nrows 0 = .ok (s.A, 0) := by
      unfold gauss_submatrix_full WB.forBrk WB.forRet
      rw [show s.c + 0 - s.c = 0 by omega]
      show (Except.ok (s.A, s.c - s.c) : C _) = _
      rw [Nat.sub_self]
    dsimp only
    rw [this, C_ok_bind]
    have hu : echUpdate 0 0 s.A s.r s.c 0 s.T = .ok (s.A, s.T) := by
      unfold echUpdate
      simp
      rfl
    dsimp only
    rw [hu, C_ok_bind, if_neg (by decide)]
    exact ih (show s.c + 0 < s.A.ncols by omega) rfl

/-! ## The inverse -/

theorem inv_spec {M : Mzd} {n fuel : Nat} {A : Matrix (Fin n) (Fin n) (ZMod 2)} (hn : 0 < n) (hn' : n < 2 ^ 32) (hA : Rep M A) (hf : 256 * ((n + 63) / 64) + 2 ≤ fuel) :
    Ok (mzd_inv_m4ri fuel M) fun N => N.Clean ∧ ∃ P : Matrix (Fin n) (Fin n) (ZMod 2), IsUnit P ∧ Rep N P ∧ (∃ k, IsRref (P * A) k) ∧ (IsUnit A → P * A = 1) := by
  obtain rfl := hA.nrows
  have hsq : M.ncols = M.nrows := hA.ncols
  have hwd : M.width = (M.nrows + 63) / 64 := by unfold Mzd.width; rw [hsq]
  generalize hW : M.width = W at *
  unfold mzd_inv_m4ri
  rw [if_neg (by rw [hsq]; exact fun h => h rfl)]
  dsimp only
  rw [hW]
  have wC : (mzd_init M.nrows (2 * (64 * W))).Wf := init_wf _ _
  -- the left half
  have wAW : (mzd_init_window (mzd_init M.nrows (2 * (64 * W))) 0 M.nrows).Wf := by
    refine ⟨Nat.le_refl _, ?_⟩
    unfold mzd_init_window mzd_init Mzd.width; simp only []; omega
  refine Ok.bind (copy wAW hA.wf (by rw [hsq]; exact hn) (Nat.le_refl _) (by rw [hsq]; exact Nat.le_refl _)) ?_
  intro AW ⟨shA, hAW⟩
  have hAW' : ∀ a b, AW.bit a b = (decide (a < M.nrows ∧ b < M.nrows) && M.bit a b) := by
    intro a b
    rw [hAW, hsq]
    split
    · rename_i h; rw [decide_eq_true h, Bool.true_and]
    · rename_i h; rw [decide_eq_false h, Bool.false_and]; unfold mzd_init_window mzd_init Mzd.bit Mzd.word; simp
  have offA : AW.off = 0 := by rw [shA.off]; unfold mzd_init_window mzd_init; simp
  have rowsA : AW.mem.rows = M.nrows := by rw [shA.rows]; rfl
  have colsA : AW.mem.cols = 2 * W := by rw [shA.cols]; unfold mzd_init_window mzd_init; simp only []; omega
  -- the right half
  generalize hC1 : ({ mzd_init M.nrows (2 * (64 * W)) with mem := AW.mem } : Mzd) = C1
  have c1n : C1.nrows = M.nrows := by rw [← hC1]; rfl
  have c1c : C1.ncols = 2 * (64 * W) := by rw [← hC1]; rfl
  have c1o : C1.off = 0 := by rw [← hC1]; rfl
  have c1m : C1.mem = AW.mem := by rw [← hC1]
  have wBW : (mzd_init_window C1 (64 * W) (64 * W + M.nrows)).Wf := by
    unfold mzd_init_window
    refine ⟨?_, ?_⟩
    · simp only []; rw [c1n, c1m, rowsA]
    · unfold Mzd.width; simp only []; rw [c1o, c1m, colsA]; omega
  have ncB : (mzd_init_window C1 (64 * W) (64 * W + M.nrows)).ncols = M.nrows := by unfold mzd_init_window; simp
  have nrB : (mzd_init_window C1 (64 * W) (64 * W + M.nrows)).nrows = M.nrows := by unfold mzd_init_window; exact c1n
  have offB : (mzd_init_window C1 (64 * W) (64 * W + M.nrows)).off = W := by unfold mzd_init_window; simp only []; rw [c1o]; omega
  refine Ok.bind (set_one wBW (by rw [ncB]; exact hn)) ?_
  intro BW ⟨shB, hBW⟩
  rw [ncB, nrB] at hBW
  generalize hC2 : ({ C1 with mem := BW.mem } : Mzd) = C2
  have c2n : C2.nrows = M.nrows := by rw [← hC2]; exact c1n
  have c2c : C2.ncols = 2 * (64 * W) := by rw [← hC2]; exact c1c
  have c2o : C2.off = 0 := by rw [← hC2]; exact c1o
  have c2m : C2.mem = BW.mem := by rw [← hC2]
  have wC2 : C2.Wf := by
    refine ⟨?_, ?_⟩
    · rw [c2n, c2m, shB.rows]; unfold mzd_init_window; simp only []; rw [c1m, rowsA]
    · unfold Mzd.width; rw [c2o, c2c, c2m, shB.cols]; unfold mzd_init_window; simp only []; rw [c1m, colsA]; omega
  -- the bits of the whole matrix
  have hC1bit : ∀ a b, C1.bit a b = AW.bit a b := fun a b => by unfold Mzd.bit Mzd.word; rw [c1o, c1m, offA]
  have hwin : ∀ (D : Mzd) a b, D.off = 0 → (mzd_init_window D (64 * W) (64 * W + M.nrows)).bit a b = D.bit a (64 * W + b) := by
    intro D a b hD
    unfold Mzd.bit Mzd.word mzd_init_window
    simp only []
    rw [hD, show 0 + 64 * W / 64 + b / 64 = 0 + (64 * W + b) / 64 by omega, show (64 * W + b) % 64 = b % 64 by omega]
  have hleft : ∀ a b, b < 64 * W → C2.bit a b = AW.bit a b := by
    intro a b hb
    rw [← hC1bit]
    unfold Mzd.bit Mzd.word
    rw [c2o, c1o, c2m, Nat.zero_add]
    have := shB.before a (b / 64) (by rw [offB]; omega)
    rw [this]
    rfl
  have hright : ∀ a b, C2.bit a (64 * W + b) = BW.bit a b := by
    intro a b
    unfold Mzd.bit Mzd.word
    rw [c2o, c2m, shB.off, offB, show 0 + (64 * W + b) / 64 = W + b / 64 by omega, show (64 * W + b) % 64 = b % 64 by omega]
  have hone : ∀ a < M.nrows, ∀ b < M.nrows, C2.bit a (64 * W + b) = decide (a = b) := fun a ha b hb => by rw [hright, hBW, if_pos ⟨ha, hb⟩]
  have hrep : Rep C2 (bmat M.nrows (2 * (64 * W)) C2.bit) := ⟨wC2, c2n, c2c, fun i j => rfl⟩
  have hK : 1 ≤ echK C2.nrows C2.ncols := by
    rw [c2n, c2c]
    exact echK_pos hn' (by omega)
  have hC2' : ({ mzd_init M.nrows (2 * (64 * W)) with mem := BW.mem } : Mzd) = C2 := by rw [← hC2, ← hC1]
  rw [hC2']
  refine Ok.bind (echelonize_spec wC2 (k := 0) (by rw [if_pos rfl]; exact hK) (by rw [if_pos rfl]; have := echK_le C2.nrows C2.ncols; omega) (by rw [c2c]; omega)) ?_
  intro x hx
  obtain ⟨P, hP, hxr, hrref, _⟩ := hx.rref wC2 hrep
  obtain ⟨p, hx⟩ := hx.ex
  have xoff : x.1.off = 0 := by rw [hx.sh.off, c2o]
  have wX : (mzd_init_window x.1 (64 * W) (64 * W + M.nrows)).Wf := by
    refine ⟨hxr.wf.rows, ?_⟩
    have := hxr.wf.cols
    unfold mzd_init_window Mzd.width
    simp only []
    rw [xoff] at this ⊢
    unfold Mzd.width at this
    rw [hxr.ncols] at this
    omega
  have ncX : (mzd_init_window x.1 (64 * W) (64 * W + M.nrows)).ncols = M.nrows := by unfold mzd_init_window; simp
  have nrX : (mzd_init_window x.1 (64 * W) (64 * W + M.nrows)).nrows = M.nrows := hxr.nrows
  have wB : (mzd_init M.nrows M.ncols).Wf := init_wf _ _
  refine (copy wB wX (by rw [ncX]; exact hn) (by rw [nrX]; exact Nat.le_refl _) (by rw [ncX]; exact Nat.le_of_eq hsq.symm)).mono ?_
  intro N ⟨shN, hN⟩
  rw [ncX, nrX] at hN
  have hNn : N.nrows = M.nrows := shN.nrows
  have hNc : N.ncols = M.nrows := by rw [shN.ncols]; exact hsq
  have hle : M.nrows ≤ 2 * (64 * W) := by omega
  have hA' : A = (bmat M.nrows (2 * (64 * W)) C2.bit).submatrix id (Fin.castLE hle) := by
    ext i j
    rw [← hA.bit i j]
    show _ = bitF (C2.bit i j)
    have hi := i.2
    have hj := j.2
    rw [hleft i j (by omega), hAW', decide_eq_true ⟨hi, hj⟩, Bool.true_and]
  have hPA : P * A = (P * bmat M.nrows (2 * (64 * W)) C2.bit).submatrix id (Fin.castLE hle) := by
    rw [hA']
    ext i j
    rfl
  refine ⟨fun i hi j hj hj' => ?_, P, hP, ⟨shN.wf wB, hNn, hNc, fun i j => ?_⟩, ?_, fun hu => ?_⟩
  · rw [hNc] at hj
    rw [hN, if_neg (by omega), init_bit]
  · rw [hN, if_pos ⟨i.2, j.2⟩, hwin _ _ _ xoff]
    have hj := j.2
    have := hxr.bit i ⟨64 * W + j, by omega⟩
    rw [this, Matrix.mul_apply, Finset.sum_eq_single j]
    · show P i j * bitF (C2.bit j (64 * W + j)) = _
      rw [hone j j.2 j j.2, decide_eq_true rfl]
      show P i j * 1 = _
      rw [mul_one]
    · intro b _ hb
      show P i b * bitF (C2.bit b (64 * W + j)) = 0
      rw [hone b b.2 j j.2, decide_eq_false fun h => hb (Fin.ext h)]
      show P i b * 0 = 0
      rw [mul_zero]
    · intro h; exact absurd (Finset.mem_univ _) h
  · obtain ⟨k, hk⟩ := hrref.cols hle
    exact ⟨k, by rw [hPA]; exact hk⟩
  · -- the echelon form of an invertible matrix is the identity matrix
    obtain ⟨k, hk⟩ := hrref.cols hle
    rw [← hPA] at hk
    have h1 : IsRref (1 : Matrix (Fin M.nrows) (Fin M.nrows) (ZMod 2)) M.nrows := by
      refine ⟨Nat.le_refl _, id, strictMono_id, fun i a => ?_, fun i j hj => ?_, fun a ha => ?_⟩
      · rw [Matrix.one_apply]; rfl
      · rw [Matrix.one_apply_ne]
        rintro rfl
        exact absurd hj (lt_irrefl _)
      · have := a.2; omega
    exact (IsRref.unique (hP.mul hu) (Matrix.mul_one (P * A)).symm h1 hk).2.symm

end WB.m4w
